/-
  C145: frustum culling under every permitted compilation of the plane distances.
-/
import Verif.Props.Unsafe2
import Verif.Props.Float10

namespace Graphene
open Fp
open FExpr
open Spec

/-! ## The tests, with the distances computed by emitted code

The compiler may inline `graphene_plane_distance` in each test and unroll the loops, so the code of one distance may depend on where it is
evaluated: `code` is any function of the plane and the point. -/

/-- the distance, by the emitted code -/
def FExpr.distBy (code : Plane F32 → Point3D F32 → FExpr) (pl : Plane F32) (p : Point3D F32) : F32 :=
  eval (inputs (comps3 pl.normal ++ [pl.constant] ++ compsP3 p)) (code pl p)

/-- `graphene_frustum_contains_point` (frustum.c:224-240) with these distances -/
def FExpr.containsBy (D : Plane F32 → Point3D F32 → F32) [Libm binary32] (f : Frustum F32) (p : Point3D F32) : Bool :=
  f.getPlanes.all fun pl => !(D pl p <. f0)

/-- `graphene_frustum_intersects_sphere` (frustum.c:254-271) -/
def FExpr.sphereBy (D : Plane F32 → Point3D F32 → F32) [Libm binary32] (f : Frustum F32) (s : Sphere F32) : Bool :=
  f.getPlanes.all fun pl => !(D pl (Point3D.initFromVec3 s.center) <. Scalar.neg s.radius)

/-- `graphene_frustum_intersects_box` (frustum.c:285-320) -/
def FExpr.boxBy (D : Plane F32 → Point3D F32 → F32) [Libm binary32] (f : Frustum F32) (b : Box F32) : Bool :=
  f.getPlanes.all fun pl =>
    let n := pl.normal
    let lo := b.getMin
    let hi := b.getMax
    let p0 : Point3D F32 := ⟨if n.getX >. f0 then lo.x else hi.x, if n.getY >. f0 then lo.y else hi.y, if n.getZ >. f0 then lo.z else hi.z⟩
    let p1 : Point3D F32 := ⟨if n.getX >. f0 then hi.x else lo.x, if n.getY >. f0 then hi.y else lo.y, if n.getZ >. f0 then hi.z else lo.z⟩
    !((D pl p0 <. f0) && (D pl p1 <. f0))

variable [Libm binary32]

/-- the source of the distance -/
def FExpr.distSource (bk : Backend) : FExpr := Plane.distance bk ⟨arg3 0, var 3⟩ (argP3 4)

/-- With the distances evaluated as written, the tests are the functions. -/
theorem C145_source (bk : Backend) (f : Frustum F32) (p : Point3D F32) (s : Sphere F32) (b : Box F32) :
    let D := distBy fun _ _ => distSource bk
    containsBy D f p = f.containsPoint bk (some p) ∧ sphereBy D f s = f.intersectsSphere bk s ∧ boxBy D f b = f.intersectsBox bk b := by
  intro D
  have e : D = Plane.distance bk := by
    funext pl p
    exact (C143_source bk pl.normal pl.normal pl.normal pl.constant pl.constant p ⟨f0, f0, f0, f0⟩ ⟨f0, f0, f0, f0⟩ ⟨f0, f0, f0, f0⟩
      (GMatrix.initIdentity)).2.1
  rw [e]
  exact ⟨rfl, rfl, rfl⟩

/-! ## Decisions from distances that are off by at most `e` -/

/-- the computed distance is finite and within `e` of the exact one -/
def Spec.Near (D : Plane F32 → Point3D F32 → F32) (e : ℝ) (pl : Plane F32) (p : Point3D F32) : Prop :=
  (D pl p).isFin = true ∧ |(D pl p).val - planeEq pl p| ≤ e

/-- a corner of the box -/
def Spec.IsCorner (b : Box F32) (p : Point3D F32) : Prop :=
  (p.x = b.getMin.x ∨ p.x = b.getMax.x) ∧ (p.y = b.getMin.y ∨ p.y = b.getMax.y) ∧ (p.z = b.getMin.z ∨ p.z = b.getMax.z)

theorem FExpr.near_lt {D : Plane F32 → Point3D F32 → F32} {e : ℝ} {pl : Plane F32} {p : Point3D F32} {r : F32} (h : Near D e pl p) (hr : r.isFin = true) :
    (planeEq pl p < r.val - e → (D pl p <. r) = true) ∧ ((D pl p <. r) = true → planeEq pl p < r.val + e) := by
  have k := _root_.abs_le.1 h.2
  have i : (D pl p <. r) = true ↔ (D pl p).val < r.val := lt_iff_val (isNaN_of_isFin h.1) (isNaN_of_isFin hr)
  rw [i]
  exact ⟨fun q => by linarith [k.2], fun q => by linarith [k.1]⟩

theorem FExpr.contains_near {D : Plane F32 → Point3D F32 → F32} {e : Plane F32 → ℝ} {f : Frustum F32} {p : Point3D F32}
    (h : ∀ pl ∈ f.getPlanes, Near D (e pl) pl p) :
    ((∀ pl ∈ f.getPlanes, e pl ≤ planeEq pl p) → containsBy D f p = true) ∧
    (containsBy D f p = true → ∀ pl ∈ f.getPlanes, -e pl ≤ planeEq pl p) := by
  have z : (f0 : F32).val = 0 := by rw [f0_eq]; simp
  unfold containsBy
  rw [List.all_eq_true]
  constructor
  · intro q pl hpl
    have n := (near_lt (h pl hpl) zero_approx.fin).2
    rw [z] at n
    rw [Bool.not_eq_true', ← Bool.not_eq_true]
    intro c; linarith [n c, q pl hpl]
  · intro q pl hpl
    have n := (near_lt (h pl hpl) zero_approx.fin).1
    rw [z] at n
    have c := q pl hpl
    rw [Bool.not_eq_true', ← Bool.not_eq_true] at c
    by_contra k
    exact c (n (by linarith))

theorem FExpr.sphere_near {D : Plane F32 → Point3D F32 → F32} {e : Plane F32 → ℝ} {f : Frustum F32} {c : Point3D F32} {r : F32} (hr : r.isFin = true)
    (h : ∀ pl ∈ f.getPlanes, Near D (e pl) pl c) :
    ((∀ pl ∈ f.getPlanes, -r.val + e pl ≤ planeEq pl c) → sphereBy D f (Sphere.init (some c) r) = true) ∧
    (sphereBy D f (Sphere.init (some c) r) = true → ∀ pl ∈ f.getPlanes, -r.val - e pl ≤ planeEq pl c) := by
  have hn : (Fp.neg r).isFin = true := by simpa using hr
  unfold sphereBy
  rw [List.all_eq_true]
  constructor
  · intro q pl hpl
    have n := (near_lt (h pl hpl) hn).2
    rw [val_neg] at n
    rw [Bool.not_eq_true', ← Bool.not_eq_true]
    intro k; linarith [n k, q pl hpl]
  · intro q pl hpl
    have n := (near_lt (h pl hpl) hn).1
    rw [val_neg] at n
    have k := q pl hpl
    rw [Bool.not_eq_true', ← Bool.not_eq_true] at k
    by_contra l
    exact k (n (by linarith))

theorem FExpr.box_near {D : Plane F32 → Point3D F32 → F32} {e : Plane F32 → ℝ} {f : Frustum F32} {b : Box F32} (hf : FinFrustum f) (hb : FinBox b)
    (h : ∀ pl ∈ f.getPlanes, ∀ p, IsCorner b p → Near D (e pl) pl p) :
    (boxBy D f b = false → ∃ pl ∈ f.getPlanes, ∀ q, InBox b q → planeAt pl q < e pl) ∧
    ((∃ pl ∈ f.getPlanes, ∀ q, InBox b q → planeAt pl q < -e pl) → boxBy D f b = false) := by
  have z : (f0 : F32).val = 0 := by rw [f0_eq]; simp
  have pick : ∀ {c : Prop} [Decidable c] {x y : F32}, (if c then x else y) = x ∨ (if c then x else y) = y := by
    intro c _ x y; split <;> simp
  have pick' : ∀ {c : Prop} [Decidable c] {x y : F32}, (if c then x else y) = y ∨ (if c then x else y) = x := fun {c _ x y} => pick.symm
  unfold boxBy
  rw [List.all_eq_false]
  constructor
  · rintro ⟨pl, hpl, k⟩
    obtain ⟨h1, h2, h3, h4⟩ := hf pl hpl
    obtain ⟨x1, x2, x3, x4, x5⟩ := pick_axis h1 hb.lo.1 hb.hi.1 hb.x
    obtain ⟨y1, y2, y3, y4, y5⟩ := pick_axis h2 hb.lo.2.1 hb.hi.2.1 hb.y
    obtain ⟨z1, z2, z3, z4, z5⟩ := pick_axis h3 hb.lo.2.2 hb.hi.2.2 hb.z
    refine ⟨pl, hpl, ?_⟩
    rw [Bool.not_eq_true, Bool.not_eq_false', Bool.and_eq_true] at k
    have n := (near_lt (h pl hpl _ ⟨pick', pick', pick'⟩) zero_approx.fin).2 k.2
    rw [z, _root_.zero_add] at n
    rintro ⟨q1, q2, q3⟩ ⟨i1, i2, i3, i4, i5, i6⟩
    refine lt_of_le_of_lt ?_ n
    unfold planeAt planeEq
    exact add_le_add (add_le_add (add_le_add (x4 _ i1 i2) (y4 _ i3 i4)) (z4 _ i5 i6)) le_rfl
  · rintro ⟨pl, hpl, k⟩
    obtain ⟨h1, h2, h3, h4⟩ := hf pl hpl
    obtain ⟨x1, x2, x3, x4, x5⟩ := pick_axis h1 hb.lo.1 hb.hi.1 hb.x
    obtain ⟨y1, y2, y3, y4, y5⟩ := pick_axis h2 hb.lo.2.1 hb.hi.2.1 hb.y
    obtain ⟨z1, z2, z3, z4, z5⟩ := pick_axis h3 hb.lo.2.2 hb.hi.2.2 hb.z
    obtain ⟨u1, u2, u3, u5⟩ := pick_axis' (n := pl.normal.getX) hb.lo.1 hb.hi.1 hb.x
    obtain ⟨v1, v2, v3, v5⟩ := pick_axis' (n := pl.normal.getY) hb.lo.2.1 hb.hi.2.1 hb.y
    obtain ⟨w1, w2, w3, w5⟩ := pick_axis' (n := pl.normal.getZ) hb.lo.2.2 hb.hi.2.2 hb.z
    refine ⟨pl, hpl, ?_⟩
    rw [Bool.not_eq_true, Bool.not_eq_false', Bool.and_eq_true]
    have g1 := k (_, _, _) ⟨x2, x3, y2, y3, z2, z3⟩
    have g0 := k (_, _, _) ⟨u2, u3, v2, v3, w2, w3⟩
    refine ⟨(near_lt (h pl hpl _ ⟨pick, pick, pick⟩) zero_approx.fin).1 ?_, (near_lt (h pl hpl _ ⟨pick', pick', pick'⟩) zero_approx.fin).1 ?_⟩
    · rw [z, _root_.zero_sub]; exact g0
    · rw [z, _root_.zero_sub]; exact g1

/-! ## On a grid: the exact decisions -/

theorem FExpr.dist_exact {bk : Backend} {code : Plane F32 → Point3D F32 → FExpr} (hc : ∀ pl p, Emits (distSource bk) (code pl p)) {pl : Plane F32}
    {p : Point3D F32} {k : Nat} {B : ℝ} (hl : OnGrid (comps3 pl.normal ++ [pl.constant] ++ compsP3 p) k B)
    (hs : (3 * B ^ 2 + B) * 2 ^ (2 * k) + 1 ≤ 2 ^ 24) (hu : 2 * k ≤ 149) : Near (distBy code) 0 pl p := by
  have a := C143_distance_exact hl hs hu (hc pl p)
  refine ⟨a.fin, ?_⟩
  have := a.val
  unfold distBy
  rw [this]
  simp only [planeEq]
  change |_ - _| ≤ _
  rw [show pl.normal.getX = pl.normal.value.x from rfl, show pl.normal.getY = pl.normal.value.y from rfl, show pl.normal.getZ = pl.normal.value.z from rfl]
  rw [_root_.sub_self, abs_zero]

/-- C145: on a grid, `contains_point` is exact whatever the compiler emits. -/
theorem C145_contains_point_exact {bk : Backend} {code : Plane F32 → Point3D F32 → FExpr} (hc : ∀ pl p, Emits (distSource bk) (code pl p)) {f : Frustum F32}
    {p : Point3D F32} {k : Nat} {B : ℝ} (hl : ∀ pl ∈ f.getPlanes, OnGrid (comps3 pl.normal ++ [pl.constant] ++ compsP3 p) k B)
    (hs : (3 * B ^ 2 + B) * 2 ^ (2 * k) + 1 ≤ 2 ^ 24) (hu : 2 * k ≤ 149) :
    containsBy (distBy code) f p = true ↔ ∀ pl ∈ f.getPlanes, 0 ≤ planeEq pl p := by
  have n := contains_near (e := fun _ => 0) fun pl hpl => dist_exact hc (hl pl hpl) hs hu
  simp only [_root_.neg_zero] at n
  exact ⟨n.2, n.1⟩

/-- C145: on a grid, `intersects_sphere` is exact: no plane has the centre further behind it than the radius. -/
theorem C145_intersects_sphere_exact {bk : Backend} {code : Plane F32 → Point3D F32 → FExpr} (hc : ∀ pl p, Emits (distSource bk) (code pl p)) {f : Frustum F32}
    {c : Point3D F32} {r : F32} (hr : r.isFin = true) {k : Nat} {B : ℝ} (hl : ∀ pl ∈ f.getPlanes, OnGrid (comps3 pl.normal ++ [pl.constant] ++ compsP3 c) k B)
    (hs : (3 * B ^ 2 + B) * 2 ^ (2 * k) + 1 ≤ 2 ^ 24) (hu : 2 * k ≤ 149) :
    sphereBy (distBy code) f (Sphere.init (some c) r) = true ↔ ∀ pl ∈ f.getPlanes, -r.val ≤ planeEq pl c := by
  have n := sphere_near (e := fun _ => 0) hr fun pl hpl => dist_exact hc (hl pl hpl) hs hu
  simp only [_root_.add_zero, _root_.sub_zero] at n
  exact ⟨n.2, n.1⟩

/-- C145: on a grid, `intersects_box` is exact: no plane has the whole box strictly behind it. -/
theorem C145_intersects_box_exact {bk : Backend} {code : Plane F32 → Point3D F32 → FExpr} (hc : ∀ pl p, Emits (distSource bk) (code pl p)) {f : Frustum F32}
    {b : Box F32} (hb : FinBox b) {k : Nat} {B : ℝ}
    (hl : ∀ pl ∈ f.getPlanes, OnGrid (comps3 pl.normal ++ [pl.constant] ++ (compsP3 b.getMin ++ compsP3 b.getMax)) k B)
    (hs : (3 * B ^ 2 + B) * 2 ^ (2 * k) + 1 ≤ 2 ^ 24) (hu : 2 * k ≤ 149) :
    boxBy (distBy code) f b = true ↔ ∀ pl ∈ f.getPlanes, ∃ q, InBox b q ∧ 0 ≤ planeAt pl q := by
  have hf : FinFrustum f := fun pl hpl => by
    have := (hl pl hpl).fin
    refine ⟨this _ ?_, this _ ?_, this _ ?_, this _ ?_⟩ <;> simp [comps3, Vec3.getX, Vec3.getY, Vec3.getZ, Simd4f.get]
  have n := box_near (e := fun _ => 0) (D := distBy code) hf hb fun pl hpl p hp => by
    refine dist_exact hc ⟨?_, ?_, ?_, (hl pl hpl).unit⟩ hs hu
    all_goals
      intro x hx
      have m : x ∈ comps3 pl.normal ++ [pl.constant] ++ (compsP3 b.getMin ++ compsP3 b.getMax) := by
        obtain ⟨p1, p2, p3⟩ := hp
        rcases List.mem_append.1 hx with h | h
        · exact List.mem_append_left _ h
        · refine List.mem_append_right _ (List.mem_append.2 ?_)
          simp only [compsP3, List.mem_cons, List.not_mem_nil, or_false] at h ⊢
          rcases h with rfl | rfl | rfl
          · rcases p1 with h | h <;> rw [h] <;> simp
          · rcases p2 with h | h <;> rw [h] <;> simp
          · rcases p3 with h | h <;> rw [h] <;> simp
    · exact (hl pl hpl).fin x m
    · exact (hl pl hpl).int x m
    · exact (hl pl hpl).le x m
  simp only [_root_.neg_zero] at n
  have i : boxBy (distBy code) f b = false ↔ ∃ pl ∈ f.getPlanes, ∀ q, InBox b q → planeAt pl q < 0 := ⟨n.1, n.2⟩
  rw [← Bool.not_eq_false, i]
  push Not
  rfl

/-! ## All finite inputs: right except within rounding error of a plane -/

/-- magnitudes counted as at least one -/
noncomputable def Spec.planeBig (pl : Plane F32) (p : Point3D F32) : ℝ :=
  big pl.normal.getX * big p.x + big pl.normal.getY * big p.y + big pl.normal.getZ * big p.z + big pl.constant + 1

/-- the error allowed for `N` operations on terms of total magnitude `S`, or `T` with each magnitude counted as at least one -/
noncomputable def Spec.buildErr (N : Nat) (S T : ℝ) : ℝ := N / 2 ^ 23 * S + N / 2 ^ 147 * T

theorem FExpr.big_one (x : F32) : 1 ≤ big x := le_max_left _ _

local macro "dist_terms" : tactic => `(tactic|
  (try simp only [terms, terms1]
   simp only [distSource, Plane.distance, Vec3.dot, Point3D.initFromVec3, Point3D.initFromSimd4f, Point3D.toVec3, Point3D.init, Vec3.init,
     Simd4f.dot3Scalar, Simd4f.mul, Simd4f.map2, Simd4f.splat, Simd4f.get, Simd4f.init, arg3, argP3, FExpr.s_add, FExpr.s_mul, FExpr.s_f0,
     FExpr.Plain, FExpr.size, FExpr.real]
   simp [comps3, compsP3, oneLit, absLit, inputs, Spec.big, planeEq, planeMag, planeBig, Vec3.getX, Vec3.getY, Vec3.getZ, Simd4f.get, _root_.abs_mul]))

theorem FExpr.dist_accurate {bk : Backend} {code : Plane F32 → Point3D F32 → FExpr} (hc : ∀ pl p, Emits (distSource bk) (code pl p)) {N : Nat}
    (hN : N ≤ 1024) (hn : ∀ pl p, ops (code pl p) ≤ N) {pl : Plane F32} {p : Point3D F32} (h : FinPlane pl) (hp : FinPoint p)
    (hm : planeBig pl p ≤ 2 ^ 125) : Near (distBy code) (buildErr N (planeMag pl p) (planeBig pl p)) pl p := by
  have hf : ∀ x ∈ comps3 pl.normal ++ [pl.constant] ++ compsP3 p, x.isFin = true := by
    intro x hx
    simp only [comps3, compsP3, List.mem_append, List.mem_cons, List.not_mem_nil, or_false] at hx
    obtain ⟨h1, h2, h3, h4⟩ := h
    obtain ⟨p1, p2, p3⟩ := hp
    rcases hx with ((rfl | rfl | rfl) | rfl) | rfl | rfl | rfl
    exacts [h1, h2, h3, h4, p1, p2, p3]
  have key : ∀ bk, Emits (distSource bk) (code pl p) → (distBy code pl p).isFin = true ∧ |(distBy code pl p).val - planeEq pl p| ≤
      ops (code pl p) / 2 ^ 23 * planeMag pl p + ops (code pl p) / 2 ^ 147 * planeBig pl p := by
    intro bk h
    match bk with
    | .sse true _ | .sse false _ | .gcc | .neon | .scalar _ =>
      refine accurate_of hf h (by dist_terms) ((hn pl p).trans hN) ?_ ?_ ?_ hm
      all_goals dist_terms
      all_goals linarith
  obtain ⟨k1, k2⟩ := key bk (hc pl p)
  refine ⟨k1, k2.trans ?_⟩
  have c : ((ops (code pl p) : ℕ) : ℝ) ≤ N := by exact_mod_cast hn pl p
  have m := planeMag_nonneg pl p
  have b : 0 ≤ planeBig pl p := by
    have := big_one pl.normal.getX; have := big_one pl.normal.getY; have := big_one pl.normal.getZ; have := big_one pl.constant
    have := big_one p.x; have := big_one p.y; have := big_one p.z
    unfold planeBig; positivity
  unfold buildErr
  gcongr

/-- C145: `contains_point` is decided by the exact plane equations except within rounding error of a plane, whatever the compiler emits. -/
theorem C145_contains_point {bk : Backend} {code : Plane F32 → Point3D F32 → FExpr} (hc : ∀ pl p, Emits (distSource bk) (code pl p)) {N : Nat}
    (hN : N ≤ 1024) (hn : ∀ pl p, ops (code pl p) ≤ N) {f : Frustum F32} {p : Point3D F32} (hf : FinFrustum f) (hp : FinPoint p)
    (hm : ∀ pl ∈ f.getPlanes, planeBig pl p ≤ 2 ^ 125) :
    ((∀ pl ∈ f.getPlanes, buildErr N (planeMag pl p) (planeBig pl p) ≤ planeEq pl p) → containsBy (distBy code) f p = true) ∧
    (containsBy (distBy code) f p = true → ∀ pl ∈ f.getPlanes, -buildErr N (planeMag pl p) (planeBig pl p) ≤ planeEq pl p) :=
  contains_near (e := fun pl => buildErr N (planeMag pl p) (planeBig pl p)) fun pl h => dist_accurate hc hN hn (hf pl h) hp (hm pl h)

/-- C145: `intersects_sphere` likewise. -/
theorem C145_intersects_sphere {bk : Backend} {code : Plane F32 → Point3D F32 → FExpr} (hc : ∀ pl p, Emits (distSource bk) (code pl p)) {N : Nat}
    (hN : N ≤ 1024) (hn : ∀ pl p, ops (code pl p) ≤ N) {f : Frustum F32} {c : Point3D F32} {r : F32} (hf : FinFrustum f) (hp : FinPoint c)
    (hr : r.isFin = true) (hm : ∀ pl ∈ f.getPlanes, planeBig pl c ≤ 2 ^ 125) :
    ((∀ pl ∈ f.getPlanes, -r.val + buildErr N (planeMag pl c) (planeBig pl c) ≤ planeEq pl c) →
      sphereBy (distBy code) f (Sphere.init (some c) r) = true) ∧
    (sphereBy (distBy code) f (Sphere.init (some c) r) = true →
      ∀ pl ∈ f.getPlanes, -r.val - buildErr N (planeMag pl c) (planeBig pl c) ≤ planeEq pl c) :=
  sphere_near (e := fun pl => buildErr N (planeMag pl c) (planeBig pl c)) hr fun pl h => dist_accurate hc hN hn (hf pl h) hp (hm pl h)

/-- magnitudes over the box, counted as at least one -/
noncomputable def Spec.boxBig (pl : Plane F32) (b : Box F32) : ℝ :=
  big pl.normal.getX * Max.max (big b.getMin.x) (big b.getMax.x) + big pl.normal.getY * Max.max (big b.getMin.y) (big b.getMax.y) +
  big pl.normal.getZ * Max.max (big b.getMin.z) (big b.getMax.z) + big pl.constant + 1

/-- C145: `intersects_box` culls a box only if one plane has the whole box behind it or within rounding error of it, and does cull a box
that lies behind one plane by more than that, whatever the compiler emits. -/
theorem C145_intersects_box {bk : Backend} {code : Plane F32 → Point3D F32 → FExpr} (hc : ∀ pl p, Emits (distSource bk) (code pl p)) {N : Nat}
    (hN : N ≤ 1024) (hn : ∀ pl p, ops (code pl p) ≤ N) {f : Frustum F32} {b : Box F32} (hf : FinFrustum f) (hb : FinBox b)
    (hm : ∀ pl ∈ f.getPlanes, boxBig pl b ≤ 2 ^ 125) :
    (boxBy (distBy code) f b = false → ∃ pl ∈ f.getPlanes, ∀ q, InBox b q → planeAt pl q < buildErr N (boxMag pl b) (boxBig pl b)) ∧
    ((∃ pl ∈ f.getPlanes, ∀ q, InBox b q → planeAt pl q < -buildErr N (boxMag pl b) (boxBig pl b)) → boxBy (distBy code) f b = false) := by
  refine box_near (e := fun pl => buildErr N (boxMag pl b) (boxBig pl b)) hf hb fun pl hpl p hp => ?_
  have cb : ∀ {x l h : F32}, x = l ∨ x = h → |x.val| ≤ Max.max |l.val| |h.val| ∧ big x ≤ Max.max (big l) (big h) ∧
      (l.isFin = true → h.isFin = true → x.isFin = true) := by
    rintro x l h (rfl | rfl)
    · exact ⟨le_max_left _ _, le_max_left _ _, fun a _ => a⟩
    · exact ⟨le_max_right _ _, le_max_right _ _, fun _ a => a⟩
  obtain ⟨c1, c2, c3⟩ := hp
  have h1 := cb c1
  have h2 := cb c2
  have h3 := cb c3
  have b0 : ∀ x : F32, 0 ≤ big x := fun x => _root_.le_trans zero_le_one (big_one x)
  have m : planeMag pl p ≤ boxMag pl b := by
    unfold planeMag boxMag
    simp only [_root_.abs_mul]
    have i1 := mul_le_mul_of_nonneg_left h1.1 (abs_nonneg pl.normal.getX.val)
    have i2 := mul_le_mul_of_nonneg_left h2.1 (abs_nonneg pl.normal.getY.val)
    have i3 := mul_le_mul_of_nonneg_left h3.1 (abs_nonneg pl.normal.getZ.val)
    linarith
  have g : planeBig pl p ≤ boxBig pl b := by
    unfold planeBig boxBig
    have i1 := mul_le_mul_of_nonneg_left h1.2.1 (b0 pl.normal.getX)
    have i2 := mul_le_mul_of_nonneg_left h2.2.1 (b0 pl.normal.getY)
    have i3 := mul_le_mul_of_nonneg_left h3.2.1 (b0 pl.normal.getZ)
    linarith
  have d := dist_accurate hc hN hn (hf pl hpl) ⟨h1.2.2 hb.lo.1 hb.hi.1, h2.2.2 hb.lo.2.1 hb.hi.2.1, h3.2.2 hb.lo.2.2 hb.hi.2.2⟩
    (g.trans (hm pl hpl))
  refine ⟨d.1, d.2.trans ?_⟩
  unfold buildErr
  gcongr

/-! ## The hypotheses are met -/

/-- the cube `|x|, |y|, |z| ≤ 8` -/
def FExpr.cube : Frustum F32 :=
  let pl := fun a b c : Int => (⟨⟨⟨Fp.lit a 1, Fp.lit b 1, Fp.lit c 1, Fp.lit 0 1⟩⟩, Fp.lit 8 1⟩ : Plane F32)
  ⟨pl (-1) 0 0, pl 1 0 0, pl 0 (-1) 0, pl 0 1 0, pl 0 0 (-1), pl 0 0 1⟩

theorem FExpr.cube_grid (zs : List ℤ) (h : ∀ z ∈ zs, |(z : ℝ)| ≤ 100) : ∀ pl ∈ cube.getPlanes,
    OnGrid (comps3 pl.normal ++ [pl.constant] ++ zs.map fun z => (Fp.lit z 1 : F32)) 0 100 := by
  have g : ∀ a b c : ℤ, |(a : ℝ)| ≤ 100 → |(b : ℝ)| ≤ 100 → |(c : ℝ)| ≤ 100 →
      OnGrid (([a, b, c, 8] ++ zs).map fun z => (Fp.lit z (2 ^ 0) : F32)) 0 100 := by
    intro a b c h1 h2 h3
    refine onGrid_list _ 0 (by decide) 100 (by norm_num) (by norm_num) ?_
    intro z hz
    rcases List.mem_append.1 hz with hz | hz
    · simp only [List.mem_cons, List.not_mem_nil, or_false] at hz
      rcases hz with rfl | rfl | rfl | rfl
      · simpa using h1
      · simpa using h2
      · simpa using h3
      · norm_num
    · simpa using h z hz
  intro pl hpl
  simp only [cube, Frustum.getPlanes, List.mem_cons, List.not_mem_nil, or_false] at hpl
  rcases hpl with rfl | rfl | rfl | rfl | rfl | rfl
  · exact g (-1) 0 0 (by norm_num) (by norm_num) (by norm_num)
  · exact g 1 0 0 (by norm_num) (by norm_num) (by norm_num)
  · exact g 0 (-1) 0 (by norm_num) (by norm_num) (by norm_num)
  · exact g 0 1 0 (by norm_num) (by norm_num) (by norm_num)
  · exact g 0 0 (-1) (by norm_num) (by norm_num) (by norm_num)
  · exact g 0 0 1 (by norm_num) (by norm_num) (by norm_num)

theorem FExpr.cube_eq (p : Point3D F32) : (∀ pl ∈ cube.getPlanes, 0 ≤ planeEq pl p) ↔ |p.x.val| ≤ 8 ∧ |p.y.val| ≤ 8 ∧ |p.z.val| ≤ 8 := by
  have e8 : (Fp.lit 8 1 : F32).val = 8 := by simpa using (lit_int 8 (by decide)).2
  have e0 : (Fp.lit 0 1 : F32).val = 0 := by simpa using (lit_int 0 (by decide)).2
  have e1 : (Fp.lit 1 1 : F32).val = 1 := by simpa using (lit_int 1 (by decide)).2
  have en : (Fp.lit (-1) 1 : F32).val = -1 := by simpa using (lit_int (-1) (by decide)).2
  simp only [cube, Frustum.getPlanes, List.forall_mem_cons, List.not_mem_nil, false_imp_iff, implies_true, and_true, planeEq, Vec3.getX, Vec3.getY, Vec3.getZ,
    Simd4f.get, e8, e0, e1, en, _root_.abs_le]
  constructor
  · rintro ⟨h1, h2, h3, h4, h5, h6⟩; refine ⟨⟨?_, ?_⟩, ⟨?_, ?_⟩, ?_, ?_⟩ <;> linarith
  · rintro ⟨⟨h1, h2⟩, ⟨h3, h4⟩, h5, h6⟩; refine ⟨?_, ?_, ?_, ?_, ?_, ?_⟩ <;> linarith

/-- Whatever is emitted, (2, -3, 8) is in the cube and (2, -3, 9) is not. -/
example {bk : Backend} {code : Plane F32 → Point3D F32 → FExpr} (hc : ∀ pl p, Emits (distSource bk) (code pl p)) :
    containsBy (distBy code) cube ⟨Fp.lit 2 1, Fp.lit (-3) 1, Fp.lit 8 1⟩ = true ∧
    containsBy (distBy code) cube ⟨Fp.lit 2 1, Fp.lit (-3) 1, Fp.lit 9 1⟩ = false := by
  have l : ∀ n : Int, n.natAbs ≤ 2 ^ 24 → (Fp.lit n 1 : F32).val = n := fun n h => (lit_int n h).2
  have k : ∀ c : Int, |(c : ℝ)| ≤ 100 → (containsBy (distBy code) cube ⟨Fp.lit 2 1, Fp.lit (-3) 1, Fp.lit c 1⟩ = true ↔
      ∀ pl ∈ cube.getPlanes, 0 ≤ planeEq pl ⟨Fp.lit 2 1, Fp.lit (-3) 1, Fp.lit c 1⟩) := by
    intro c h
    have g := cube_grid [2, (-3 : ℤ), c] (by
      intro z hz
      simp only [List.mem_cons, List.not_mem_nil, or_false] at hz
      rcases hz with rfl | rfl | rfl
      · norm_num
      · norm_num
      · exact h)
    simp only [List.map] at g
    exact C145_contains_point_exact hc (k := 0) (B := 100) g (by norm_num) (by decide)
  refine ⟨(k 8 (by norm_num)).2 ((cube_eq _).2 ?_), ?_⟩
  · simp only [l 2 (by decide), l (-3) (by decide), l 8 (by decide)]; norm_num
  · rw [← Bool.not_eq_true, k 9 (by norm_num), cube_eq]
    simp only [l 2 (by decide), l (-3) (by decide), l 9 (by decide)]; norm_num

/-- A box across a face is not culled, whatever is emitted. -/
example {bk : Backend} {code : Plane F32 → Point3D F32 → FExpr} (hc : ∀ pl p, Emits (distSource bk) (code pl p)) :
    boxBy (distBy code) cube ⟨⟨⟨Fp.lit 7 1, Fp.lit 0 1, Fp.lit (-1) 1, Fp.lit 0 1⟩⟩, ⟨⟨Fp.lit 20 1, Fp.lit 1 1, Fp.lit 2 1, Fp.lit 0 1⟩⟩⟩ = true := by
  have l : ∀ n : Int, n.natAbs ≤ 2 ^ 24 → (Fp.lit n 1 : F32).isFin = true ∧ (Fp.lit n 1 : F32).val = n := fun n h => lit_int n h
  let b : Box F32 := ⟨⟨⟨Fp.lit 7 1, Fp.lit 0 1, Fp.lit (-1) 1, Fp.lit 0 1⟩⟩, ⟨⟨Fp.lit 20 1, Fp.lit 1 1, Fp.lit 2 1, Fp.lit 0 1⟩⟩⟩
  have b1 : b.getMin = ⟨Fp.lit 7 1, Fp.lit 0 1, Fp.lit (-1) 1⟩ := rfl
  have b2 : b.getMax = ⟨Fp.lit 20 1, Fp.lit 1 1, Fp.lit 2 1⟩ := rfl
  have ln := l (-1 : ℤ) (by decide)
  have g := cube_grid [7, 0, (-1 : ℤ), 20, 1, 2] (by
      intro z hz
      simp only [List.mem_cons, List.not_mem_nil, or_false] at hz
      rcases hz with rfl | rfl | rfl | rfl | rfl | rfl <;> norm_num)
  simp only [List.map] at g
  have r : boxBy (distBy code) cube b = true ↔ _ := C145_intersects_box_exact hc (f := cube) (b := b) (k := 0) (B := 100)
    ⟨⟨(l 7 (by decide)).1, (l 0 (by decide)).1, ln.1⟩, ⟨(l 20 (by decide)).1, (l 1 (by decide)).1, (l 2 (by decide)).1⟩,
      by rw [b1, b2]; simp only [l 7 (by decide), l 20 (by decide)]; norm_num, by rw [b1, b2]; simp only [l 0 (by decide), l 1 (by decide)]; norm_num,
      by rw [b1, b2]; simp only [l (-1) (by decide), l 2 (by decide)]; norm_num⟩
    g (by norm_num) (by decide)
  refine r.2 fun pl hpl => ⟨((Fp.lit 7 1 : F32).val, (Fp.lit 0 1 : F32).val, (Fp.lit (-1) 1 : F32).val), ?_, ?_⟩
  · unfold InBox
    rw [b1, b2]
    simp only [l 7 (by decide), l 20 (by decide), l 0 (by decide), l 1 (by decide), l (-1) (by decide), l 2 (by decide)]; norm_num
  · have t := (cube_eq ⟨Fp.lit 7 1, Fp.lit 0 1, Fp.lit (-1) 1⟩).2 ?_ pl hpl
    · unfold planeEq at t; unfold planeAt; exact t
    simp only [l 7 (by decide), l 0 (by decide), l (-1) (by decide)]; norm_num

/-- The general theorems' hypotheses: the source itself has few operations. -/
example (bk : Backend) : ops (distSource bk) ≤ 8 := by
  match bk with
  | .sse true _ | .sse false _ | .gcc | .neon | .scalar _ => exact Nat.le_of_ble_eq_true rfl

end Graphene
