/-
  C59: boxes and spheres returned by `graphene_matrix_transform_box` and
  `graphene_matrix_transform_sphere` as arguments of further queries, over IEEE binary32.
-/
import Verif.Props.Matrix3

namespace Graphene
open Spec Simd4f
variable [Libm binary32]

/-- finite, and at the same place of the number line: equal up to the sign of a zero -/
def Spec.Same (a b : F32) : Prop := a.isFin = true ∧ b.isFin = true ∧ a.key = b.key

theorem Fp.not_nan_of_fin {a : F32} (h : a.isFin = true) : a.isNaN = false := by
  cases a <;> simp_all [Fp.isFin, Fp.isNaN]

omit [Libm binary32] in
theorem same_refl {a : F32} (h : a.isFin = true) : Same a a := ⟨h, h, rfl⟩

omit [Libm binary32] in
theorem add_zero_same {a b c : F32} (ha : Same a c) (hb : Same b (Fp.zero false)) : Same (a.add b) c := by
  obtain ⟨a1, c1, k⟩ := ha
  obtain ⟨b1, -, kb⟩ := hb
  cases a with
  | nan => simp [Fp.isFin] at a1
  | inf => simp [Fp.isFin] at a1
  | fin s m h =>
  cases b with
  | nan => simp [Fp.isFin] at b1
  | inf => simp [Fp.isFin] at b1
  | fin t n h' =>
  have hn : n = 0 := by
    simp only [Fp.key, Fp.zero, Fp.sgn] at kb; cases t <;> simp_all
  subst hn
  have e : (Fp.fin s m h : F32).add (Fp.fin t 0 h') = if m = 0 then Fp.zero (s && t) else .fin s m h :=
    Fp.add_zero_fin h t
  rw [e]
  by_cases hm : m = 0
  · subst hm
    refine ⟨rfl, c1, ?_⟩
    rw [if_pos rfl, ← k]; simp [Fp.key, Fp.zero, Fp.sgn]
  · rw [if_neg hm]; exact ⟨rfl, c1, k⟩

omit [Libm binary32] in
theorem zero_add_same {a b c : F32} (ha : Same a (Fp.zero false)) (hb : Same b c) : Same (a.add b) c := by
  obtain ⟨b1, c1, k⟩ := hb
  obtain ⟨a1, -, ka⟩ := ha
  cases a with
  | nan => simp [Fp.isFin] at a1
  | inf => simp [Fp.isFin] at a1
  | fin t n h' =>
  cases b with
  | nan => simp [Fp.isFin] at b1
  | inf => simp [Fp.isFin] at b1
  | fin s m h =>
  have hn : n = 0 := by
    simp only [Fp.key, Fp.zero, Fp.sgn] at ka; cases t <;> simp_all
  subst hn
  have e : (Fp.fin t 0 h' : F32).add (Fp.fin s m h) = if m = 0 then Fp.zero (t && s) else .fin s m h :=
    Fp.zero_add_fin h t
  rw [e]
  by_cases hm : m = 0
  · subst hm
    refine ⟨rfl, c1, ?_⟩
    rw [if_pos rfl, ← k]; simp [Fp.key, Fp.zero, Fp.sgn]
  · rw [if_neg hm]; exact ⟨rfl, c1, k⟩

theorem zero_mul_same {a : F32} (h : a.isFin = true) : Same ((f0 : F32).mul a) (Fp.zero false) := by
  rw [Fp.f0_eq]
  cases a with
  | nan => simp [Fp.isFin] at h
  | inf => simp [Fp.isFin] at h
  | fin s m hm => rw [Fp.zero_mul_fin hm]; exact ⟨rfl, rfl, by simp⟩
theorem zero_same : Same (f0 : F32) (Fp.zero false) := by rw [Fp.f0_eq]; exact ⟨rfl, rfl, rfl⟩
theorem one_mul_same {a : F32} (h : a.isFin = true) : Same ((f1 : F32).mul a) a := by
  show Same ((Fp.lit 1 1 : F32).mul a) a
  rw [Fp.one_mul32]; exact ⟨h, h, rfl⟩

/-- the identity matrix maps finite coordinates to themselves, up to the sign of a zero -/
theorem identity_point3 (v : V4 F32) (hx : v.x.isFin = true) (hy : v.y.isFin = true) (hz : v.z.isFin = true) :
    let r := Simd4x4f.point3Mul GMatrix.initIdentity v
    Same r.x v.x ∧ Same r.y v.y ∧ Same r.z v.z ∧ Same r.w f1 := by
  have z1 : Same (f1 : F32) f1 := same_refl (by kdecide)
  refine ⟨add_zero_same (add_zero_same (one_mul_same hx) (zero_mul_same hy))
      (add_zero_same (zero_mul_same hz) zero_same),
    add_zero_same (zero_add_same (zero_mul_same hx) (one_mul_same hy))
      (add_zero_same (zero_mul_same hz) zero_same),
    zero_add_same (zero_add_same (zero_mul_same hx) (zero_mul_same hy))
      (add_zero_same (one_mul_same hz) zero_same),
    zero_add_same (zero_add_same (zero_mul_same hx) (zero_mul_same hy))
      (zero_add_same (zero_mul_same hz) z1)⟩

/-- every bound is finite -/
def Spec.FiniteBox (b : Box F32) : Prop :=
  (b.min.value.x.isFin = true ∧ b.min.value.y.isFin = true ∧ b.min.value.z.isFin = true) ∧
  (b.max.value.x.isFin = true ∧ b.max.value.y.isFin = true ∧ b.max.value.z.isFin = true)

omit [Libm binary32] in
/-- the least and greatest of values that are all `lo` or `hi`, both occurring -/
theorem extreme_same {lo hi r s : F32} {l : List F32} (hle : lo.le hi = true)
    (hall : ∀ x ∈ l, Same x lo ∨ Same x hi) (hlo : ∃ x ∈ l, Same x lo) (hhi : ∃ x ∈ l, Same x hi)
    (h1 : IsLeast r l) (h2 : IsGreatest s l) : Same r lo ∧ Same s hi := by
  obtain ⟨x, hx, sx⟩ := hlo
  obtain ⟨y, hy, sy⟩ := hhi
  have kle := (Fp.le_iff.1 hle).2.2
  have k1 := (Fp.le_iff.1 (h1.2 x hx)).2.2
  have k2 := (Fp.le_iff.1 (h2.2 y hy)).2.2
  have e1 := sx.2.2
  have e2 := sy.2.2
  constructor
  · rcases hall r h1.1 with h | h
    · exact h
    · have := h.2.2
      exact ⟨h.1, sx.2.1, by omega⟩
  · rcases hall s h2.1 with h | h
    · have := h.2.2
      exact ⟨h.1, sy.2.1, by omega⟩
    · exact h

/-- C59, proved part for boxes: transforming a finite, ordered box by the identity gives a box with the
same bounds (up to the sign of zero bounds) that contains exactly the same points.  Missing: queries that
look at the unused lanes (`C59_contains_box_false`) and infinite boxes (`C59_infinite_false`). -/
theorem C59_box_partial (bk : Backend) (b : Box F32) (hf : FiniteBox b) (ho : Ordered b) (hu : Usable b) :
    let b' := GMatrix.transformBox bk GMatrix.initIdentity b
    Same b'.min.value.x b.min.value.x ∧ Same b'.min.value.y b.min.value.y ∧
    Same b'.min.value.z b.min.value.z ∧ Same b'.max.value.x b.max.value.x ∧
    Same b'.max.value.y b.max.value.y ∧ Same b'.max.value.z b.max.value.z ∧
    ∀ q, NoNaN3 q → b'.containsPoint q = b.containsPoint q := by
  intro b'
  obtain ⟨⟨f1, f2, f3⟩, f4, f5, f6⟩ := hf
  set l := b.getVertices.map fun v => (⟨Simd4x4f.point3Mul GMatrix.initIdentity v.value⟩ : Vec3 F32) with hl
  have hmem : ∀ v ∈ l, ∃ x y z, (x = b.min.value.x ∨ x = b.max.value.x) ∧ (y = b.min.value.y ∨ y = b.max.value.y) ∧
      (z = b.min.value.z ∨ z = b.max.value.z) ∧
      v = ⟨Simd4x4f.point3Mul GMatrix.initIdentity (Vec3.init x y z).value⟩ := by
    intro v hv
    simp only [hl, Box.getVertices, List.map_cons, List.map_nil, List.mem_cons, List.not_mem_nil, or_false] at hv
    rcases hv with h | h | h | h | h | h | h | h
    all_goals
      refine ⟨_, _, _, ?_, ?_, ?_, h⟩ <;> first | exact Or.inl rfl | exact Or.inr rfl
  have himg : ∀ v ∈ l, (Same v.value.x b.min.value.x ∨ Same v.value.x b.max.value.x) ∧
      (Same v.value.y b.min.value.y ∨ Same v.value.y b.max.value.y) ∧
      (Same v.value.z b.min.value.z ∨ Same v.value.z b.max.value.z) ∧ Same v.value.w Graphene.f1 := by
    intro v hv
    obtain ⟨x, y, z, hx, hy, hz, rfl⟩ := hmem v hv
    have fx : x.isFin = true := by rcases hx with rfl | rfl <;> assumption
    have fy : y.isFin = true := by rcases hy with rfl | rfl <;> assumption
    have fz : z.isFin = true := by rcases hz with rfl | rfl <;> assumption
    obtain ⟨i1, i2, i3, i4⟩ := identity_point3 (Vec3.init x y z).value fx fy fz
    refine ⟨?_, ?_, ?_, i4⟩
    · rcases hx with rfl | rfl
      · exact .inl i1
      · exact .inr i1
    · rcases hy with rfl | rfl
      · exact .inl i2
      · exact .inr i2
    · rcases hz with rfl | rfl
      · exact .inl i3
      · exact .inr i3
  have nn : ∀ {x y : F32}, Same x y → x.isNaN = false := fun h => Fp.not_nan_of_fin h.1
  have hnan : ∀ v ∈ l, v.value.x.isNaN = false ∧ v.value.y.isNaN = false ∧ v.value.z.isNaN = false ∧
      v.value.w.isNaN = false := by
    intro v hv
    obtain ⟨h1, h2, h3, h4⟩ := himg v hv
    exact ⟨h1.elim nn nn, h2.elim nn nn, h3.elim nn nn, nn h4⟩
  obtain ⟨e1, e2, e3, e4, e5, e6, e7⟩ := C29_box_vectors bk l hnan (by simp [hl, Box.getVertices])
  have lmin : (⟨Simd4x4f.point3Mul GMatrix.initIdentity (Vec3.init b.min.value.x b.min.value.y b.min.value.z).value⟩ : Vec3 F32) ∈ l := by
    simp only [hl, Box.getVertices, List.map_cons]; exact List.mem_cons_self ..
  have lmax : (⟨Simd4x4f.point3Mul GMatrix.initIdentity (Vec3.init b.max.value.x b.max.value.y b.max.value.z).value⟩ : Vec3 F32) ∈ l := by
    simp only [hl, Box.getVertices, List.map_cons, List.map_nil]
    iterate 7 apply List.mem_cons_of_mem
    exact List.mem_cons_self ..
  obtain ⟨a1, a2, a3, -⟩ := identity_point3 (Vec3.init b.min.value.x b.min.value.y b.min.value.z).value f1 f2 f3
  obtain ⟨c1, c2, c3, -⟩ := identity_point3 (Vec3.init b.max.value.x b.max.value.y b.max.value.z).value f4 f5 f6
  obtain ⟨sx1, sx2⟩ := extreme_same (l := l.map (·.value.x)) ho.1
    (by intro x hx; obtain ⟨v, hv, rfl⟩ := List.mem_map.1 hx; exact (himg v hv).1)
    ⟨_, List.mem_map.2 ⟨_, lmin, rfl⟩, a1⟩ ⟨_, List.mem_map.2 ⟨_, lmax, rfl⟩, c1⟩ e1 e2
  obtain ⟨sy1, sy2⟩ := extreme_same (l := l.map (·.value.y)) ho.2.1
    (by intro x hx; obtain ⟨v, hv, rfl⟩ := List.mem_map.1 hx; exact (himg v hv).2.1)
    ⟨_, List.mem_map.2 ⟨_, lmin, rfl⟩, a2⟩ ⟨_, List.mem_map.2 ⟨_, lmax, rfl⟩, c2⟩ e3 e4
  obtain ⟨sz1, sz2⟩ := extreme_same (l := l.map (·.value.z)) ho.2.2
    (by intro x hx; obtain ⟨v, hv, rfl⟩ := List.mem_map.1 hx; exact (himg v hv).2.2.1)
    ⟨_, List.mem_map.2 ⟨_, lmin, rfl⟩, a3⟩ ⟨_, List.mem_map.2 ⟨_, lmax, rfl⟩, c3⟩ e5 e6
  refine ⟨sx1, sy1, sz1, sx2, sy2, sz2, fun q hq => ?_⟩
  rw [Bool.eq_iff_iff, show b' = Box.initFromVectors bk l from rfl, contains_iff e7 hq, contains_iff hu hq]
  have lel : ∀ {a a' : F32} (c : F32), Same a a' → a.le c = a'.le c := by
    intro a a' c h
    rw [Bool.eq_iff_iff, Fp.le_iff, Fp.le_iff, h.2.2, Fp.not_nan_of_fin h.1, Fp.not_nan_of_fin h.2.1]
  have ler : ∀ {a a' : F32} (c : F32), Same a a' → c.le a = c.le a' := by
    intro a a' c h
    rw [Bool.eq_iff_iff, Fp.le_iff, Fp.le_iff, h.2.2, Fp.not_nan_of_fin h.1, Fp.not_nan_of_fin h.2.1]
  simp only [boxPts, Set.mem_setOf_eq, lel _ sx1, lel _ sy1, lel _ sz1, ler _ sx2, ler _ sy2, ler _ sz2]

/-- the unit box -/
def unitBox : Box F32 := Box.init (some ⟨f0, f0, f0⟩) (some ⟨f1, f1, f1⟩)

/-- C59 is false for `contains_box`: a box contains itself, but not its transform by the identity,
because `transform_box` leaves 1 in the unused lane of the upper corner. -/
theorem C59_contains_box_false (bk : Backend) :
    ∃ b : Box F32, FiniteBox b ∧ Ordered b ∧ Plain b ∧ b.containsBox b = true ∧
      b.containsBox (GMatrix.transformBox bk GMatrix.initIdentity b) = false := by
  refine ⟨unitBox, ⟨⟨?_, ?_, ?_⟩, ?_, ?_, ?_⟩, ⟨?_, ?_, ?_⟩, ⟨?_, ?_⟩, ?_, ?_⟩
  all_goals rcases bk with ⟨_, _⟩ | _ | _ | _ <;> kdecide

/-- C59 is false for the infinite box: its transform by the identity contains no point, as `0 * ∞` is
not a number. -/
theorem C59_infinite_false (bk : Backend) :
    (Box.infinite : Box F32).containsPoint ⟨f0, f0, f0⟩ = true ∧
    (GMatrix.transformBox bk GMatrix.initIdentity (Box.infinite : Box F32)).containsPoint (⟨f0, f0, f0⟩ : Point3D F32) = false := by
  rcases bk with ⟨_, _⟩ | _ | _ | _ <;> constructor <;> kdecide

/-- C59 is false for spheres: the bounding box of a sphere contains its centre, but the bounding box of
its transform by the identity does not when the radius is below 1 (here ½), because `transform_sphere`
leaves 1 in the unused lane of the centre. -/
theorem C59_sphere_bounds_false (bk : Backend) :
    let s : Sphere F32 := Sphere.init (some ⟨f0, f0, f0⟩) (Scalar.lit 1 2)
    let t := GMatrix.transformSphere bk GMatrix.initIdentity s
    s.getBoundingBox.containsPoint s.getCenter = true ∧ t.getCenter = s.getCenter ∧
    t.radius = s.radius ∧ t.getBoundingBox.containsPoint t.getCenter = false := by
  rcases bk with ⟨_ | _, _ | _⟩ | _ | _ | ⟨_ | _⟩ <;> refine ⟨?_, ?_, ?_, ?_⟩ <;>
    first | kdecide | (apply Point3D.ext <;> kdecide)

omit [Libm binary32] in
/-- C59, proved part for spheres, in exact arithmetic: same centre, same radius, same answers to
`contains_point` and `distance`. -/
theorem C59_sphere_partial (bk : Backend) (s : Sphere ℝ) (p : Point3D ℝ) :
    let t := GMatrix.transformSphere bk GMatrix.initIdentity s
    t.getCenter = s.getCenter ∧ t.radius = s.radius ∧
    t.containsPoint bk p = s.containsPoint bk p ∧ t.distance bk p = s.distance bk p := by
  intro t
  have hc : t.getCenter = s.getCenter := by
    ext <;> simp [t, Sphere.getCenter, Point3D.initFromVec3, Point3D.initFromSimd4f, GMatrix.transformSphere,
      GMatrix.initIdentity, greal]
  have hr : t.radius = s.radius := by
    simp [t, GMatrix.transformSphere, GMatrix.initIdentity, dot3Scalar_real, fmaxf_real, greal]
  have hd : ∀ q : Point3D ℝ, Sphere.distanceSq bk t.center q.toVec3 = Sphere.distanceSq bk s.center q.toVec3 := by
    intro q; rw [distanceSq_eq, distanceSq_eq]
    have hc' : Point3D.initFromVec3 t.center = Point3D.initFromVec3 s.center := hc
    rw [hc']
  refine ⟨hc, hr, ?_, ?_⟩
  · simp only [Sphere.containsPoint, hd, hr]
  · simp only [Sphere.distance, hd, hr]

/-- non-vacuity: the unit box meets the hypotheses of `C59_box_partial` -/
example : FiniteBox unitBox ∧ Ordered unitBox ∧ Usable unitBox := by
  refine ⟨⟨⟨?_, ?_, ?_⟩, ?_, ?_, ?_⟩, ⟨?_, ?_, ?_⟩, ⟨?_, ?_⟩⟩ <;> kdecide

end Graphene
