/-
  C08: the `_equal` function of every type.
-/
import Verif.Proofs.FpLemmas
import Verif.Model.Box2d
import Verif.Model.Frustum
import Verif.Model.Euler
import Verif.Model.Triangle
import Verif.Model.GMatrix

namespace Graphene

/-- What a user expects of an `_equal` function on pointers: reflexive, `NULL` equals only
`NULL`, symmetric. -/
structure Spec.EqualityLaws (eq : Ptr → Ptr → Bool) : Prop where
  refl : ∀ p, eq p p = true
  null : ∀ p, eq p none = true ↔ p = none
  symm : ∀ p q, eq p q = eq q p

theorem pointerEqual_laws {T : Type} (m : Mem T) (func : T → T → Bool)
    (h : ∀ a b, func a b = func b a) : Spec.EqualityLaws fun p q => pointerEqual m p q func := by
  refine ⟨fun p => by simp [pointerEqual], fun p => ?_, fun p q => ?_⟩
  · cases p <;> simp [pointerEqual]
  · by_cases hpq : p = q
    · simp [pointerEqual, hpq]
    · have hqp : ¬ q = p := fun h => hpq h.symm
      cases p <;> cases q <;> simp [pointerEqual, hpq, hqp, h]

section
variable {f : Fmt} [Libm f]
open Simd4f

theorem sub_of_key_eq {a b : Fp f} (ha : a.isNaN = false) (hb : b.isNaN = false)
    (h : a.key = b.key) : (Fp.sub a b).isNaN = true ∧ (Fp.sub b a).isNaN = true ∨
      (Fp.sub a b).isNaN = false ∧ (Fp.sub b a).isNaN = false ∧
      (Fp.sub a b).key = 0 ∧ (Fp.sub b a).key = 0 := by
  have hlt : ∀ (s t : Bool) (n : Nat), n < 2 ^ f.top → Fp.sgn s (2 ^ f.top) ≠ Fp.sgn t n := by
    intro s t n hn
    have : (n : Int) < 2 ^ f.top := by exact_mod_cast hn
    cases s <;> cases t <;> simp [Fp.sgn] <;> omega
  cases a with
  | nan => simp at ha
  | inf s =>
    cases b with
    | nan => simp at hb
    | inf t =>
      have hst : s = t := by
        have h2 : (0 : Int) < 2 ^ f.top := by positivity
        simp only [Fp.key] at h
        cases s <;> cases t <;> simp [Fp.sgn] at h ⊢ <;> omega
      subst hst
      left; cases s <;> simp [Fp.sub, Fp.neg, Fp.add]
    | fin t n hn => exact absurd h (hlt s t n hn.1)
  | fin s m hm =>
    cases b with
    | nan => simp at hb
    | inf t => exact absurd h.symm (hlt t s m hm.1)
    | fin t n hn =>
      right
      simp only [Fp.key] at h
      have e1 : Fp.sgn s m + Fp.sgn (!t) n = 0 := by rw [Fp.sgn_not, h]; ring
      have e2 : Fp.sgn t n + Fp.sgn (!s) m = 0 := by rw [Fp.sgn_not, h]; ring
      simp only [Fp.sub, Fp.neg, Fp.add, e1, e2, Fp.ofInt, if_true, Fp.key_zero]
      simp [Fp.zero]

theorem sub_nan (a b : Fp f) (h : a.isNaN = true ∨ b.isNaN = true) : Fp.sub a b = .nan := by
  rcases h with h | h <;> rw [Fp.isNaN_iff] at h <;> subst h <;>
    first | rfl | (cases a <;> rfl)

/-- the comparison `|n1 - n2| < e` of `graphene_fuzzy_equals` is symmetric, for every way `g` of
testing the difference that only depends on its numeric value -/
theorem fuzzy_symm (g : Fp f → Bool) (hg : ∀ x y : Fp f, x.isNaN = y.isNaN → x.key = y.key → g x = g y)
    (a b : Fp f) :
    g (if b <. a then a -. b else b -. a) = g (if a <. b then b -. a else a -. b) := by
  simp only [Fp.sc_lt, Fp.sc_sub]
  by_cases hn : a.isNaN = true ∨ b.isNaN = true
  · rw [sub_nan a b hn, sub_nan b a hn.symm]; simp
  · simp only [not_or, Bool.not_eq_true] at hn
    obtain ⟨ha, hb⟩ := hn
    rcases lt_trichotomy a.key b.key with h | h | h
    · have h1 : a.lt b = true := Fp.lt_iff.2 ⟨ha, hb, h⟩
      have h2 : b.lt a = false := Fp.not_lt_of_le (Fp.le_of_lt h1)
      simp [h1, h2]
    · have h1 : a.lt b = false := Fp.not_lt_of_le (Fp.le_iff.2 ⟨hb, ha, h.ge⟩)
      have h2 : b.lt a = false := Fp.not_lt_of_le (Fp.le_iff.2 ⟨ha, hb, h.le⟩)
      simp only [h1, h2, Bool.false_eq_true, if_false]
      apply hg
      · rcases sub_of_key_eq ha hb h with ⟨p, q⟩ | ⟨p, q, -, -⟩ <;> rw [p, q]
      · rcases sub_of_key_eq ha hb h with ⟨p, q⟩ | ⟨p, q, r, s⟩
        · rw [Fp.isNaN_iff] at p q; rw [p, q]
        · rw [r, s]
    · have h1 : b.lt a = true := Fp.lt_iff.2 ⟨hb, ha, h⟩
      have h2 : a.lt b = false := Fp.not_lt_of_le (Fp.le_of_lt h1)
      simp [h1, h2]

theorem lt_congr_left {x y : Fp f} (e : Fp f) (h1 : x.isNaN = y.isNaN) (h2 : x.key = y.key) :
    x.lt e = y.lt e := by simp [Fp.lt, h1, h2]

theorem fuzzyEquals_symm (a b e : Fp f) : fuzzyEquals a b e = fuzzyEquals b a e :=
  fuzzy_symm (fun x => x <. e) (fun _ _ h1 h2 => lt_congr_left e h1 h2) a b

theorem approxVal_symm (a b : Fp f) : approxVal a b = approxVal b a := fuzzyEquals_symm a b _

theorem feq_symm (a b : Fp f) : Fp.feq a b = Fp.feq b a := by
  rw [Bool.eq_iff_iff, Fp.feq_iff, Fp.feq_iff]; constructor <;> rintro ⟨h1, h2, h3⟩ <;>
    exact ⟨h2, h1, h3.symm⟩

theorem abs_eq_of_key {a b : Fp f} (ha : a.isNaN = false) (hb : b.isNaN = false)
    (h : a.abs.key = b.abs.key) : a.abs = b.abs := by
  have h2 : (0 : Int) < 2 ^ f.top := by positivity
  cases a with
  | nan => simp at ha
  | inf s =>
    cases b with
    | nan => simp at hb
    | inf t => rfl
    | fin t n hn =>
      have : (n : Int) < 2 ^ f.top := by exact_mod_cast hn.1
      simp [Fp.abs, Fp.key, Fp.sgn] at h; omega
  | fin s m hm =>
    have : (m : Int) < 2 ^ f.top := by exact_mod_cast hm.1
    cases b with
    | nan => simp at hb
    | inf t => simp [Fp.abs, Fp.key, Fp.sgn] at h; omega
    | fin t n hn =>
      simp [Fp.abs, Fp.key, Fp.sgn] at h
      exact Fp.fin_congr _ h

theorem approxEqual_symm (a b e : Fp f) : approxEqual a b e = approxEqual b a e := by
  unfold approxEqual
  simp only [Fp.sc_isInf, Fp.sc_sub, Fp.sc_abs, Fp.sc_isNaN, Fp.sc_le, Fp.sc_lt, Fp.sc_mul]
  rw [Bool.and_comm, Fp.abs_sub_comm a b]
  by_cases hn : a.isNaN = true ∨ b.isNaN = true
  · rw [sub_nan b a hn.symm]; simp [Fp.abs]
  · simp only [not_or, Bool.not_eq_true] at hn
    obtain ⟨ha, hb⟩ := hn
    have : (if a.abs.lt b.abs = true then b.abs else a.abs) =
        (if b.abs.lt a.abs = true then a.abs else b.abs) := by
      have ha' : a.abs.isNaN = false := by simpa using ha
      have hb' : b.abs.isNaN = false := by simpa using hb
      rcases lt_trichotomy a.abs.key b.abs.key with h | h | h
      · have h1 : a.abs.lt b.abs = true := Fp.lt_iff.2 ⟨ha', hb', h⟩
        have h2 : b.abs.lt a.abs = false := Fp.not_lt_of_le (Fp.le_of_lt h1)
        simp [h1, h2]
      · rw [abs_eq_of_key ha hb h]
      · have h1 : b.abs.lt a.abs = true := Fp.lt_iff.2 ⟨hb', ha', h⟩
        have h2 : a.abs.lt b.abs = false := Fp.not_lt_of_le (Fp.le_of_lt h1)
        simp [h1, h2]
    rw [this]

theorem cmpEq_symm (bk : Backend) (a b : V4 (Fp f)) : cmpEq bk a b = cmpEq bk b a := by
  have h : ∀ x y : Fp f, eq1 bk x y = eq1 bk y x := by
    intro x y
    cases bk with
    | scalar => exact approxEqual_symm x y _
    | _ => exact feq_symm x y
  simp only [cmpEq, h a.x, h a.y, h a.z, h a.w]

theorem diff_sq_symm (a b : V4 (Fp f)) :
    Simd4f.mul (Simd4f.sub a b) (Simd4f.sub a b) = Simd4f.mul (Simd4f.sub b a) (Simd4f.sub b a) := by
  have hs := fun x y : Fp f => Fp.sub_mul_self_comm x y
  simp only [Simd4f.mul, Simd4f.sub, map2, Fp.sc_sub, Fp.sc_mul, hs a.x, hs a.y, hs a.z, hs a.w]
theorem vec2_equalV_symm (bk : Backend) (a b : Vec2 (Fp f)) : Vec2.equalV bk a b = Vec2.equalV bk b a := by
  unfold Vec2.equalV Vec2.near
  simp only [dot2, cmpEq_symm bk a.value b.value, diff_sq_symm a.value b.value]
theorem vec3_equalV_symm (bk : Backend) (a b : Vec3 (Fp f)) : Vec3.equalV bk a b = Vec3.equalV bk b a := by
  have hs := fun x y : Fp f => Fp.sub_mul_self_comm x y
  unfold Vec3.equalV Vec3.near
  simp only [dot3Scalar, Simd4f.sub, map2, Fp.sc_sub, Fp.sc_mul, cmpEq_symm bk a.value b.value,
    hs a.value.x, hs a.value.y, hs a.value.z]
theorem vec4_near_symm (a b : Vec4 (Fp f)) (e : Fp f) : Vec4.near a b e = Vec4.near b a e := by
  unfold Vec4.near
  simp only [dot4, diff_sq_symm a.value b.value]
theorem vec4_equalV_symm (bk : Backend) (a b : Vec4 (Fp f)) : Vec4.equalV bk a b = Vec4.equalV bk b a := by
  unfold Vec4.equalV
  rw [cmpEq_symm, vec4_near_symm]
theorem point_equalV_symm (a b : Point (Fp f)) : Point.equalV a b = Point.equalV b a := by
  have hs := fun x y : Fp f => Fp.abs_sub_comm x y
  simp only [Point.equalV, Point.near, Point.diff, Simd4f.sub, map2, Simd4f.init, Simd4f.get,
    Fp.sc_abs, Fp.sc_sub, hs a.x, hs a.y]
theorem point3d_equalV_symm (a b : Point3D (Fp f)) : Point3D.equalV a b = Point3D.equalV b a := by
  have hs := fun x y : Fp f => Fp.abs_sub_comm x y
  simp only [Point3D.equalV, Point3D.near, Point3D.vec, Simd4f.sub, map2, Simd4f.init, Simd4f.get,
    Fp.sc_abs, Fp.sc_sub, hs a.x, hs a.y, hs a.z]
theorem size_equalV_symm (a b : Size (Fp f)) : Size.equalV a b = Size.equalV b a := by
  simp only [Size.equalV, approxVal_symm a.width, approxVal_symm a.height]
theorem rect_equalV_symm (a b : Rect (Fp f)) : Rect.equalV a b = Rect.equalV b a := by
  simp only [Rect.equalV, point_equalV_symm a.normalize.origin, size_equalV_symm a.normalize.size]
theorem plane_equalV_symm (bk : Backend) (a b : Plane (Fp f)) : Plane.equalV bk a b = Plane.equalV bk b a := by
  simp only [Plane.equalV, vec3_equalV_symm bk a.normal, approxVal_symm a.constant]
theorem sphere_equalV_symm (bk : Backend) (a b : Sphere (Fp f)) : Sphere.equalV bk a b = Sphere.equalV bk b a := by
  simp only [Sphere.equalV, vec3_equalV_symm bk a.center, approxVal_symm a.radius]
theorem ray_equalV_symm (bk : Backend) (a b : Ray (Fp f)) : Ray.equalV bk a b = Ray.equalV bk b a := by
  simp only [Ray.equalV, vec3_equalV_symm bk a.origin, vec3_equalV_symm bk a.direction]
theorem triangle_equalV_symm (bk : Backend) (a b : Triangle (Fp f)) :
    Triangle.equalV bk a b = Triangle.equalV bk b a := by
  simp only [Triangle.equalV, vec3_equalV_symm bk a.a, vec3_equalV_symm bk a.b, vec3_equalV_symm bk a.c]
theorem euler_equalV_symm (bk : Backend) (a b : Euler (Fp f)) : Euler.equalV bk a b = Euler.equalV bk b a := by
  simp only [Euler.equalV, vec3_equalV_symm bk a.angles, eq_comm (a := a.order)]
theorem frustum_equalV_symm (bk : Backend) (a b : Frustum (Fp f)) :
    Frustum.equalV bk a b = Frustum.equalV bk b a := by
  simp only [Frustum.equalV, plane_equalV_symm bk a.p0, plane_equalV_symm bk a.p1,
    plane_equalV_symm bk a.p2, plane_equalV_symm bk a.p3, plane_equalV_symm bk a.p4,
    plane_equalV_symm bk a.p5]
theorem box_equalV_symm (bk : Backend) (a b : Box (Fp f)) : Box.equalV bk a b = Box.equalV bk b a := by
  simp only [Box.equalV, Bool.and_comm a.isEmpty, Bool.or_comm a.isEmpty, Bool.and_comm a.isInfinity,
    Bool.or_comm a.isInfinity, vec3_equalV_symm bk a.min, vec3_equalV_symm bk a.max]
theorem box2d_equalV_symm (bk : Backend) (a b : Box2d (Fp f)) : Box2d.equalV bk a b = Box2d.equalV bk b a := by
  simp only [Box2d.equalV, Bool.and_comm a.isEmpty, Bool.or_comm a.isEmpty, Bool.and_comm a.isInfinity,
    Bool.or_comm a.isInfinity, vec4_equalV_symm bk ⟨a.minmax⟩]
theorem matrix_nearV_symm (a b : M4 (Fp f)) (e : Fp f) : GMatrix.nearV a b e = GMatrix.nearV b a e := by
  simp only [GMatrix.nearV, vec4_near_symm (GMatrix.getRow a _)]
end

section
variable [Libm binary32] [Libm binary64]

theorem convert_congr {x y : F32} (h1 : x.isNaN = y.isNaN) (h2 : x.key = y.key) :
    (Fp.convert binary64 x).isNaN = (Fp.convert binary64 y).isNaN ∧
    (Fp.convert binary64 x).key = (Fp.convert binary64 y).key := by
  by_cases hx : x.isNaN = true
  · rw [hx] at h1
    rw [Fp.isNaN_iff] at hx; rw [eq_comm, Fp.isNaN_iff] at h1
    subst hx; subst h1; simp
  · simp only [Bool.not_eq_true] at hx
    rw [hx] at h1
    have hk : x = y ∨ (x.key = 0 ∧ y.key = 0) := by
      by_cases h0 : x.key = 0
      · right; exact ⟨h0, by rw [← h2, h0]⟩
      · left; exact Fp.eq_of_key hx h1.symm h2 h0
    rcases hk with rfl | ⟨k1, k2⟩
    · exact ⟨rfl, rfl⟩
    · have hz : ∀ z : F32, z.isNaN = false → z.key = 0 → ∃ s, z = Fp.zero s := by
        intro z hz hk
        cases z with
        | nan => simp at hz
        | inf s => cases s <;> simp [Fp.key, Fp.sgn] at hk
        | fin s m hm =>
          have : m = 0 := by cases s <;> simpa [Fp.key, Fp.sgn] using hk
          exact ⟨s, Fp.fin_congr hm this⟩
      obtain ⟨s, rfl⟩ := hz x hx k1
      obtain ⟨t, rfl⟩ := hz y h1.symm k2
      have hc : ∀ s, Fp.convert binary64 (Fp.zero s : F32) = Fp.zero s := by
        intro s
        simp only [Fp.zero, Fp.convert, Nat.zero_mul]
        exact Fp.ofMag_zero s (by positivity)
      rw [hc, hc, Fp.key_zero, Fp.key_zero]; exact ⟨rfl, rfl⟩

theorem fuzzyEq5_symm (a b : F32) : Quat.fuzzyEq5 a b = Quat.fuzzyEq5 b a :=
  fuzzy_symm (fun x : F32 => (FloatConv.widen x : F64) <. Scalar.lit 1 100000)
    (fun _ _ h1 h2 => lt_congr_left _ (convert_congr h1 h2).1 (convert_congr h1 h2).2) a b

theorem sub_neg_left (a b : F32) : Fp.sub (Fp.neg a) b = Fp.sub (Fp.neg b) a := by
  cases a <;> cases b <;> try rfl
  · rename_i s t; cases s <;> cases t <;> rfl
  · rename_i s m hm t n hn
    simp only [Fp.sub, Fp.neg, Fp.add]
    rw [add_comm, Bool.and_comm]

theorem lt_neg_swap (a b : F32) : Fp.lt (Fp.neg a) b = Fp.lt (Fp.neg b) a := by
  rw [Bool.eq_iff_iff, Fp.lt_iff, Fp.lt_iff]
  simp only [Fp.isNaN_neg, Fp.key_neg]
  constructor <;> rintro ⟨h1, h2, h3⟩ <;> exact ⟨h2, h1, by omega⟩
theorem lt_swap_neg (a b : F32) : Fp.lt b (Fp.neg a) = Fp.lt a (Fp.neg b) := by
  rw [Bool.eq_iff_iff, Fp.lt_iff, Fp.lt_iff]
  simp only [Fp.isNaN_neg, Fp.key_neg]
  constructor <;> rintro ⟨h1, h2, h3⟩ <;> exact ⟨h2, h1, by omega⟩
theorem sub_neg_right (a b : F32) : Fp.sub b (Fp.neg a) = Fp.sub a (Fp.neg b) := by
  cases a with
  | nan => cases b <;> rfl
  | inf s =>
    cases b with
    | nan => rfl
    | inf t => cases s <;> cases t <;> rfl
    | fin t n hn => simp only [Fp.sub, Fp.neg, Fp.add, Bool.not_not]
  | fin s m hm =>
    cases b with
    | nan => rfl
    | inf t => simp only [Fp.sub, Fp.neg, Fp.add, Bool.not_not]
    | fin t n hn =>
      simp only [Fp.sub, Fp.neg, Fp.add, Bool.not_not]
      rw [add_comm, Bool.and_comm]

theorem fuzzyEq5_neg (a b : F32) : Quat.fuzzyEq5 (Scalar.neg a) b = Quat.fuzzyEq5 (Scalar.neg b) a := by
  simp only [Quat.fuzzyEq5, Fp.sc_neg, Fp.sc_sub, lt_swap_neg a b, sub_neg_left a b, sub_neg_right a b, Fp.sc_lt]

theorem quat_equalV_symm (a b : Quat F32) : Quat.equalV a b = Quat.equalV b a := by
  simp only [Quat.equalV, Quat.invert, fuzzyEq5_symm a.x, fuzzyEq5_symm a.y, fuzzyEq5_symm a.z,
    fuzzyEq5_symm a.w, fuzzyEq5_neg a.x, fuzzyEq5_neg a.y, fuzzyEq5_neg a.z]

/-- C08: for every type with an `_equal` function, on every backend and for all bit patterns
(NaN, infinities, signed zeros included): an object equals itself, `NULL` equals only `NULL`, and
the relation is symmetric. -/
theorem C08_equal (bk : Backend) :
    (∀ m, Spec.EqualityLaws (Vec2.equal (α := F32) bk m)) ∧
    (∀ m, Spec.EqualityLaws (Vec3.equal (α := F32) bk m)) ∧
    (∀ m, Spec.EqualityLaws (Vec4.equal (α := F32) bk m)) ∧
    (∀ m, Spec.EqualityLaws (Point.equal (α := F32) m)) ∧
    (∀ m, Spec.EqualityLaws (Point3D.equal (α := F32) m)) ∧
    (∀ m, Spec.EqualityLaws (Size.equal (α := F32) m)) ∧
    (∀ m, Spec.EqualityLaws (Rect.equal (α := F32) m)) ∧
    (∀ m, Spec.EqualityLaws (Box.equal (α := F32) bk m)) ∧
    (∀ m, Spec.EqualityLaws (Box2d.equal (α := F32) bk m)) ∧
    (∀ m, Spec.EqualityLaws (Sphere.equal (α := F32) bk m)) ∧
    (∀ m, Spec.EqualityLaws (Plane.equal (α := F32) bk m)) ∧
    (∀ m, Spec.EqualityLaws (Frustum.equal (α := F32) bk m)) ∧
    (∀ m, Spec.EqualityLaws (Triangle.equal (α := F32) bk m)) ∧
    (∀ m, Spec.EqualityLaws (Ray.equal (α := F32) bk m)) ∧
    (∀ m, Spec.EqualityLaws (Euler.equal (α := F32) bk m)) ∧
    (∀ m, Spec.EqualityLaws (Quat.equal (α := F32) m)) ∧
    (∀ m, Spec.EqualityLaws (GMatrix.equal (α := F32) m)) := by
  refine ⟨?_, ?_, ?_, ?_, ?_, ?_, ?_, ?_, ?_, ?_, ?_, ?_, ?_, ?_, ?_, ?_, ?_⟩ <;> intro m
  · exact pointerEqual_laws m _ (vec2_equalV_symm bk)
  · exact pointerEqual_laws m _ (vec3_equalV_symm bk)
  · exact pointerEqual_laws m _ (vec4_equalV_symm bk)
  · exact pointerEqual_laws m _ point_equalV_symm
  · exact pointerEqual_laws m _ point3d_equalV_symm
  · exact pointerEqual_laws m _ size_equalV_symm
  · exact pointerEqual_laws m _ rect_equalV_symm
  · exact pointerEqual_laws m _ (box_equalV_symm bk)
  · exact pointerEqual_laws m _ (box2d_equalV_symm bk)
  · exact pointerEqual_laws m _ (sphere_equalV_symm bk)
  · exact pointerEqual_laws m _ (plane_equalV_symm bk)
  · exact pointerEqual_laws m _ (frustum_equalV_symm bk)
  · exact pointerEqual_laws m _ (triangle_equalV_symm bk)
  · exact pointerEqual_laws m _ (ray_equalV_symm bk)
  · exact pointerEqual_laws m _ (euler_equalV_symm bk)
  · exact pointerEqual_laws m _ quat_equalV_symm
  · have := pointerEqual_laws m (fun a b => GMatrix.nearV a b (fltEps : F32))
      (fun a b => matrix_nearV_symm a b _)
    exact this

/-- non-vacuity: two distinct objects can be equal or different; and a NaN member makes an object
differ from its own copy at another address (only identity makes it equal to itself). -/
example : Point.equal (fun i => if i = 0 then ⟨.nan, f0⟩ else ⟨.nan, f0⟩ : Mem (Point F32)) (some 0) (some 0) = true ∧
    Point.equal (fun i => if i = 0 then ⟨.nan, f0⟩ else ⟨.nan, f0⟩ : Mem (Point F32)) (some 0) (some 1) = false :=
  ⟨rfl, rfl⟩
end
end Graphene
