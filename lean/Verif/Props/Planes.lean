/-
  C40, C41: planes.
-/
import Verif.Proofs.NormLemmas
import Verif.Spec.Plane
import Mathlib.Tactic.LinearCombination

namespace Graphene
open Spec Simd4f

theorem plane_distance_real (bk : Backend) (p : Plane ℝ) (q : Point3D ℝ) :
    p.distance bk q = side p q := by
  simp [Plane.distance, Vec3.dot, Point3D.toVec3, Simd4f.init, side, Vec3.getX, Vec3.getY, Vec3.getZ,
    Simd4f.get]

/-! ## C40 construction -/

/-- C40: `plane_init_from_point` has the given normal and the equation `normal · (q - point) = 0`. -/
theorem C40_from_point (bk : Backend) (n : Vec3 ℝ) (a : Point3D ℝ) :
    let p := Plane.initFromPoint bk n a
    p.normal = n ∧ p.distance bk a = 0 ∧
    ∀ q : Point3D ℝ, p.distance bk q = n.getX * (q.x - a.x) + n.getY * (q.y - a.y) + n.getZ * (q.z - a.z) := by
  have e : ∀ q : Point3D ℝ, (Plane.initFromPoint bk n a).distance bk q =
      n.getX * (q.x - a.x) + n.getY * (q.y - a.y) + n.getZ * (q.z - a.z) := by
    intro q
    rw [plane_distance_real]
    simp [Plane.initFromPoint, side, Vec3.dot, Point3D.toVec3, Simd4f.init, Vec3.getX, Vec3.getY,
      Vec3.getZ, Simd4f.get]
    ring
  refine ⟨rfl, ?_, e⟩
  rw [e]; ring

/-- C40: the other constructors store the given normal and constant; a `NULL` normal is the x axis. -/
theorem C40_init {α : Type} [Scalar α] (n : Vec3 α) (c : α) (v : Vec4 α) :
    Plane.init (some n) c = ⟨n, c⟩ ∧
    ((Plane.init none c : Plane α).normal.getX = f1 ∧ (Plane.init none c : Plane α).normal.getY = f0 ∧
      (Plane.init none c : Plane α).normal.getZ = f0 ∧ (Plane.init none c : Plane α).constant = c) ∧
    ((Plane.initFromVec4 v).normal.getX = v.getX ∧ (Plane.initFromVec4 v).normal.getY = v.getY ∧
      (Plane.initFromVec4 v).normal.getZ = v.getZ ∧ (Plane.initFromVec4 v).constant = v.getW) :=
  ⟨rfl, ⟨rfl, rfl, rfl, rfl⟩, rfl, rfl, rfl, rfl⟩

/-- the cross product (b-a) × (c-a): the direction from which a, b, c appear counter-clockwise -/
noncomputable def Spec.ccw (a b c : Point3D ℝ) : Vec3 ℝ :=
  ⟨⟨(b.y - a.y) * (c.z - a.z) - (b.z - a.z) * (c.y - a.y),
    (b.z - a.z) * (c.x - a.x) - (b.x - a.x) * (c.z - a.z),
    (b.x - a.x) * (c.y - a.y) - (b.y - a.y) * (c.x - a.x), 0⟩⟩

theorem ccw_of_cross (bk : Backend) (a b c : Point3D ℝ) :
    Vec3.cross bk (Vec3.subtract c.toVec3 b.toVec3) (Vec3.subtract a.toVec3 b.toVec3) = ccw a b c := by
  simp only [Vec3.cross, cross3_real, Vec3.subtract, Simd4f.sub, map2, Point3D.toVec3, Simd4f.init,
    RealScalar.sub_eq, ccw, Vec3.mk.injEq, V4.mk.injEq, and_true]
  refine ⟨?_, ?_, ?_⟩ <;> ring

/-- C40: three points whose cross product the backend can normalise (not collinear, up to
`FLT_EPSILON`) give a plane through the three points with the unit normal in the direction from
which the points appear counter-clockwise; hence orthogonal to the edges. -/
theorem C40_from_points (bk : Backend) (a b c : Point3D ℝ) (h : Normalisable bk (ccw a b c)) :
    let p := Plane.initFromPoints bk a b c
    Spec.UnitOf (Spec.v3 p.normal) (Spec.v3 (ccw a b c)) ∧
    UnitNormal p ∧
    p.distance bk a = 0 ∧ p.distance bk b = 0 ∧ p.distance bk c = 0 ∧
    (p.normal.getX * (b.x - a.x) + p.normal.getY * (b.y - a.y) + p.normal.getZ * (b.z - a.z) = 0) ∧
    (p.normal.getX * (c.x - a.x) + p.normal.getY * (c.y - a.y) + p.normal.getZ * (c.z - a.z) = 0) := by
  intro p
  have hn : p.normal = Vec3.normalize bk (ccw a b c) := by
    show Vec3.normalize bk _ = _
    rw [ccw_of_cross]
  have hp : p = Plane.initFromPoint bk p.normal a := rfl
  have hs := h.pos
  have hu : Spec.UnitOf (Spec.v3 p.normal) (Spec.v3 (ccw a b c)) := by
    rw [hn, ccw, vec3_normalize_eq h]
    refine ⟨?_, _, inv_pos.2 (Real.sqrt_pos.2 hs), ?_⟩
    · simp only [Spec.v3, Fin.sum_univ_three, Vec3.getX, Vec3.getY, Vec3.getZ, Simd4f.get,
        Matrix.cons_val_zero, Matrix.cons_val_one, Matrix.cons_val]
      exact unit_sum hs
    · intro i; fin_cases i <;> simp [Spec.v3, Vec3.getX, Vec3.getY, Vec3.getZ, Simd4f.get, mul_comm, ccw]
  obtain ⟨h1, k, hk, h2⟩ := hu
  have hx : p.normal.getX = k * (ccw a b c).getX := h2 0
  have hy : p.normal.getY = k * (ccw a b c).getY := h2 1
  have hz : p.normal.getZ = k * (ccw a b c).getZ := h2 2
  have ob : p.normal.getX * (b.x - a.x) + p.normal.getY * (b.y - a.y) + p.normal.getZ * (b.z - a.z) = 0 := by
    rw [hx, hy, hz]; simp only [ccw, Vec3.getX, Vec3.getY, Vec3.getZ, Simd4f.get]; ring
  have oc : p.normal.getX * (c.x - a.x) + p.normal.getY * (c.y - a.y) + p.normal.getZ * (c.z - a.z) = 0 := by
    rw [hx, hy, hz]; simp only [ccw, Vec3.getX, Vec3.getY, Vec3.getZ, Simd4f.get]; ring
  obtain ⟨-, da, dq⟩ := C40_from_point bk p.normal a
  rw [← hp] at da dq
  refine ⟨⟨h1, k, hk, h2⟩, ?_, da, ?_, ?_, ob, oc⟩
  · simpa [Spec.v3, Fin.sum_univ_three, UnitNormal] using h1
  · rw [dq, ob]
  · rw [dq, oc]

/-- non-vacuity: the unit points on the axes, on every backend -/
example (bk : Backend) : Normalisable bk (ccw ⟨0, 0, 0⟩ ⟨1, 0, 0⟩ ⟨0, 1, 0⟩) := by
  apply Spec.Normalisable.of_gt
  norm_num [ccw, Vec3.getX, Vec3.getY, Vec3.getZ, Simd4f.get, eps]

/-! ## C41 distance, normalize, negate -/

/-- C41: with a unit normal, `plane_distance` is the signed distance: moving from the point against
the normal by that amount lands on the plane, and no point of the plane is nearer. -/
theorem C41_distance (bk : Backend) (p : Plane ℝ) (hu : UnitNormal p) (q : Point3D ℝ) :
    let d := p.distance bk q
    let foot : Point3D ℝ := ⟨q.x - d * p.normal.getX, q.y - d * p.normal.getY, q.z - d * p.normal.getZ⟩
    foot ∈ planePts p ∧ eucl q foot = |d| ∧ ∀ r ∈ planePts p, |d| ≤ eucl q r := by
  intro d foot
  have hd : d = side p q := plane_distance_real bk p q
  have hu' : p.normal.getX ^ 2 + p.normal.getY ^ 2 + p.normal.getZ ^ 2 = 1 := hu
  refine ⟨?_, ?_, ?_⟩
  · show side p foot = 0
    simp only [foot, side] at hd ⊢
    linear_combination -hd + (-d) * hu'
  · rw [eucl, ← Real.sqrt_sq_eq_abs]
    congr 1
    simp only [distSq, foot]
    linear_combination d ^ 2 * hu'
  · intro r hr
    have hr' : side p r = 0 := hr
    rw [eucl, ← Real.sqrt_sq_eq_abs]
    apply Real.sqrt_le_sqrt
    have e : d = p.normal.getX * (q.x - r.x) + p.normal.getY * (q.y - r.y) +
        p.normal.getZ * (q.z - r.z) := by
      rw [hd]; simp only [side] at hr' ⊢; linear_combination hr'
    rw [e, distSq]
    generalize p.normal.getX = a at *
    generalize p.normal.getY = b at *
    generalize p.normal.getZ = c at *
    generalize q.x - r.x = x
    generalize q.y - r.y = y
    generalize q.z - r.z = z
    have : x ^ 2 + y ^ 2 + z ^ 2 - (a * x + b * y + c * z) ^ 2 =
        (a * y - b * x) ^ 2 + (a * z - c * x) ^ 2 + (b * z - c * y) ^ 2 := by
      linear_combination (-(x ^ 2 + y ^ 2 + z ^ 2)) * hu'
    nlinarith [sq_nonneg (a * y - b * x), sq_nonneg (a * z - c * x), sq_nonneg (b * z - c * y)]

/-- C41: `plane_normalize` makes the normal unit, keeps the set of points and the sign of every
distance (it divides every value of the equation by the length of the normal).  Excluded: normals of
length between `FLT_EPSILON` and `√FLT_EPSILON` on the scalar backend (`C41_scalar_false`). -/
theorem C41_normalize (bk : Backend) (p : Plane ℝ) (h : Normalisable bk p.normal) :
    UnitNormal (p.normalize bk) ∧ planePts (p.normalize bk) = planePts p ∧
    ∀ q, (p.normalize bk).distance bk q =
      p.distance bk q / √(p.normal.getX ^ 2 + p.normal.getY ^ 2 + p.normal.getZ ^ 2) := by
  obtain ⟨⟨⟨x, y, z, w⟩⟩, c⟩ := p
  have hs : 0 < x ^ 2 + y ^ 2 + z ^ 2 := h.pos
  have hl : Vec3.length bk ⟨⟨x, y, z, w⟩⟩ = √(x ^ 2 + y ^ 2 + z ^ 2) := by
    rw [vec3_length]; simp [Vec3.getX, Vec3.getY, Vec3.getZ, Simd4f.get, sq]
  have hd : ∀ q, ((⟨⟨⟨x, y, z, w⟩⟩, c⟩ : Plane ℝ).normalize bk).distance bk q =
      (⟨⟨⟨x, y, z, w⟩⟩, c⟩ : Plane ℝ).distance bk q / √(x ^ 2 + y ^ 2 + z ^ 2) := by
    intro q
    rw [plane_distance_real, plane_distance_real]
    simp only [Plane.normalize, vec3_normalize_eq h, hl, side, Vec3.getX, Vec3.getY, Vec3.getZ, Simd4f.get,
      RealScalar.div_eq]
    field_simp
  refine ⟨?_, ?_, hd⟩
  · simp only [UnitNormal, Plane.normalize, vec3_normalize_eq h, Vec3.getX, Vec3.getY, Vec3.getZ, Simd4f.get]
    exact unit_sum hs
  · ext q
    simp only [planePts, Set.mem_setOf_eq, ← plane_distance_real bk, hd, div_eq_zero_iff,
      (Real.sqrt_pos.2 hs).ne', or_false]

/-- C41 fails on the scalar backend for a normal of length 1/10000: the normalised normal is zero. -/
theorem C41_scalar_false (d : Bool) : ∃ p : Plane ℝ, eps < p.normal.length (.scalar d) ∧
    ¬ UnitNormal (p.normalize (.scalar d)) := by
  obtain ⟨v, h1, h2⟩ := C04_scalar_false d
  refine ⟨⟨v, 0⟩, h1, fun hu => ?_⟩
  obtain ⟨⟨x, y, z, w⟩⟩ := v
  have hu' : (Vec3.normalize (.scalar d) ⟨⟨x, y, z, w⟩⟩ : Vec3 ℝ).getX ^ 2 +
    (Vec3.normalize (.scalar d) ⟨⟨x, y, z, w⟩⟩ : Vec3 ℝ).getY ^ 2 +
    (Vec3.normalize (.scalar d) ⟨⟨x, y, z, w⟩⟩ : Vec3 ℝ).getZ ^ 2 = 1 := hu
  by_cases hr : eps < x * x + y * y + z * z
  · exact h2 ((C04_vec3 (.scalar d) ⟨⟨x, y, z, w⟩⟩).1 h1 (Or.inr (by simpa [greal] using hr)))
  · have h0 : rsqrt1 (.scalar d) (x * x + y * y + z * z) = 0 := by
      have hnn : 0 ≤ x * x + y * y + z * z := by
        nlinarith [mul_self_nonneg x, mul_self_nonneg y, mul_self_nonneg z]
      simp only [rsqrt1, RealScalar.abs_eq, RealScalar.lt_eq, fltEps_real, abs_of_nonneg hnn, hr, if_false,
        RealScalar.f0_eq]
    have h1' : eps < |(Vec3.length (.scalar d) ⟨⟨x, y, z, w⟩⟩ : ℝ)| :=
      lt_of_lt_of_le h1 (le_abs_self _)
    simp [Vec3.normalize, h1', normalize3, Simd4f.rsqrt, map1, splat, Simd4f.dot3, Simd4f.mul, map2, h0,
      Vec3.getX, Vec3.getY, Vec3.getZ, Simd4f.get] at hu'

/-- C41: `plane_negate` flips the sign of every distance, hence keeps the set of points; applying
it twice gives back the same plane. -/
theorem C41_negate (bk : Backend) (p : Plane ℝ) :
    (∀ q, (p.negate bk).distance bk q = - p.distance bk q) ∧
    planePts (p.negate bk) = planePts p ∧
    (p.negate bk).negate bk = p := by
  have hd : ∀ q, (p.negate bk).distance bk q = - p.distance bk q := by
    intro q
    rw [plane_distance_real, plane_distance_real]
    simp [side, Plane.negate, Vec3.negate, Simd4f.neg, map1, Vec3.getX, Vec3.getY, Vec3.getZ, Simd4f.get]
    ring
  refine ⟨hd, ?_, ?_⟩
  · ext q
    simp only [planePts, Set.mem_setOf_eq, ← plane_distance_real bk, hd, neg_eq_zero]
  · ext <;> simp [Plane.negate, Vec3.negate, Simd4f.neg, map1]

/-- non-vacuity: the plane z = 2 -/
example : UnitNormal ⟨Vec3.init 0 0 1, -2⟩ ∧ Normalisable .gcc (Vec3.init 0 0 (3 : ℝ)) := by
  constructor
  · norm_num [UnitNormal, Vec3.init, Simd4f.init, Vec3.getX, Vec3.getY, Vec3.getZ, Simd4f.get]
  · apply Spec.Normalisable.of_gt
    norm_num [Vec3.init, Simd4f.init, Vec3.getX, Vec3.getY, Vec3.getZ, Simd4f.get, eps]

end Graphene
