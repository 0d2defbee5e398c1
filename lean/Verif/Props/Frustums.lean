/-
  C80, C81: view frustums.
-/
import Verif.Model.Frustum
import Verif.Props.Planes
import Verif.Proofs.FpLemmas
import Verif.Props.Matrix1
import Verif.Proofs.KDecide

namespace Graphene
open Spec Simd4f Matrix

namespace Spec

/-- the clip coordinates of a point: `(x, y, z, 1)` times the matrix -/
def clip (m : M4 ℝ) (p : Point3D ℝ) : Fin 4 → ℝ := Matrix.vecMul (hom p) (mat m)

/-- the clip volume: `-w ≤ x, y, z ≤ w` -/
def InClip (c : Fin 4 → ℝ) : Prop :=
  (-c 3 ≤ c 0 ∧ c 0 ≤ c 3) ∧ (-c 3 ≤ c 1 ∧ c 1 ≤ c 3) ∧ (-c 3 ≤ c 2 ∧ c 2 ≤ c 3)

/-- the normal of a clip plane: `w ± x` (`± y`, `± z`) as linear functions of the point have the gradient
`column 4 ± column j`, `k = ±1` -/
noncomputable def clipNormal (m : M4 ℝ) (k : ℝ) (j : Fin 4) : Vec3 ℝ :=
  Vec3.init (mat m 0 3 + k * mat m 0 j) (mat m 1 3 + k * mat m 1 j) (mat m 2 3 + k * mat m 2 j)

/-- none of the six clip planes is degenerate -/
def Regular (bk : Backend) (m : M4 ℝ) : Prop :=
  ∀ k j, (k = 1 ∨ k = -1) → (j = 0 ∨ j = 1 ∨ j = 2) → Normalisable bk (clipNormal m k j)

/-- the points in front of all the planes of a frustum -/
def frustumPts (f : Frustum ℝ) : Set (Point3D ℝ) := {p | ∀ pl ∈ f.getPlanes, 0 ≤ side pl p}

/-- the ball around a centre -/
def ball (c : Point3D ℝ) (r : ℝ) : Set (Point3D ℝ) := {p | eucl p c ≤ r}

end Spec

theorem containsPoint_real (bk : Backend) (f : Frustum ℝ) (p : Point3D ℝ) :
    f.containsPoint bk (some p) = true ↔ p ∈ frustumPts f := by
  simp only [Frustum.containsPoint, List.all_eq_true, Bool.not_eq_true', plane_distance_real, RealScalar.lt_eq_false, RealScalar.f0_eq]
  rfl

/-- C80: `contains_point` is membership in front of all six planes; `NULL` is not contained. -/
theorem C80_contains (bk : Backend) (f : Frustum ℝ) (p : Point3D ℝ) :
    (f.containsPoint bk (some p) = true ↔ ∀ pl ∈ [f.p0, f.p1, f.p2, f.p3, f.p4, f.p5], 0 ≤ side pl p) ∧
    f.containsPoint bk none = false :=
  ⟨containsPoint_real bk f p, rfl⟩

theorem clipPlane_side (bk : Backend) (v : Vec4 ℝ) (h : Normalisable bk v.getXYZ) (p : Point3D ℝ) :
    UnitNormal (Frustum.clipPlane bk v) ∧
    (0 ≤ side (Frustum.clipPlane bk v) p ↔ 0 ≤ v.getX * p.x + v.getY * p.y + v.getZ * p.z + v.getW) := by
  obtain ⟨h1, -, h3⟩ := C41_normalize bk (Plane.initFromVec4 v) h
  refine ⟨h1, ?_⟩
  rw [← plane_distance_real bk, Frustum.clipPlane, h3 p, plane_distance_real]
  have hpos : 0 < √((Plane.initFromVec4 v).normal.getX ^ 2 + (Plane.initFromVec4 v).normal.getY ^ 2 + (Plane.initFromVec4 v).normal.getZ ^ 2) :=
    Real.sqrt_pos.mpr h.pos
  rw [div_nonneg_iff]
  have e : side (Plane.initFromVec4 v) p = v.getX * p.x + v.getY * p.y + v.getZ * p.z + v.getW := rfl
  rw [e]
  constructor
  · rintro (⟨h, -⟩ | ⟨-, h⟩)
    · exact h
    · linarith
  · intro h; exact Or.inl ⟨h, hpos.le⟩

/-- C80: a point is contained in the frustum of a matrix exactly when its clip coordinates satisfy `-w ≤ x, y, z ≤ w`; and the
six planes have unit normals. -/
theorem C80_clip (bk : Backend) (m : M4 ℝ) (hm : Regular bk m) :
    (∀ p, (Frustum.initFromMatrix bk m).containsPoint bk (some p) = true ↔ InClip (clip m p)) ∧
    ∀ pl ∈ (Frustum.initFromMatrix bk m).getPlanes, UnitNormal pl := by
  obtain ⟨⟨a0, a1, a2, a3⟩, ⟨b0, b1, b2, b3⟩, ⟨c0, c1, c2, c3⟩, ⟨d0, d1, d2, d3⟩⟩ := m
  have n0 := hm 1 0 (Or.inl rfl) (Or.inl rfl)
  have n0' := hm (-1) 0 (Or.inr rfl) (Or.inl rfl)
  have n1 := hm 1 1 (Or.inl rfl) (Or.inr (Or.inl rfl))
  have n1' := hm (-1) 1 (Or.inr rfl) (Or.inr (Or.inl rfl))
  have n2 := hm 1 2 (Or.inl rfl) (Or.inr (Or.inr rfl))
  have n2' := hm (-1) 2 (Or.inr rfl) (Or.inr (Or.inr rfl))
  simp only [clipNormal, mat, vec, Matrix.of_apply, Matrix.cons_val, one_mul, neg_mul, ← sub_eq_add_neg, Vec3.init, Simd4f.init,
    RealScalar.f0_eq] at n0 n0' n1 n1' n2 n2'
  have hn : ∀ (x y z w : ℝ), Normalisable bk (⟨⟨x, y, z, 0⟩⟩ : Vec3 ℝ) → Normalisable bk (Vec4.getXYZ (⟨⟨x, y, z, w⟩⟩ : Vec4 ℝ)) := by
    intro x y z w h; simpa [Vec4.getXYZ, zeroW] using h
  have k := fun x y z w h p => clipPlane_side bk (⟨⟨x, y, z, w⟩⟩ : Vec4 ℝ) (hn x y z w h) p
  have e : Frustum.initFromMatrix bk (⟨⟨a0, a1, a2, a3⟩, ⟨b0, b1, b2, b3⟩, ⟨c0, c1, c2, c3⟩, ⟨d0, d1, d2, d3⟩⟩ : M4 ℝ) =
      ⟨Frustum.clipPlane bk ⟨⟨a3 - a0, b3 - b0, c3 - c0, d3 - d0⟩⟩, Frustum.clipPlane bk ⟨⟨a3 + a0, b3 + b0, c3 + c0, d3 + d0⟩⟩,
       Frustum.clipPlane bk ⟨⟨a3 - a1, b3 - b1, c3 - c1, d3 - d1⟩⟩, Frustum.clipPlane bk ⟨⟨a3 + a1, b3 + b1, c3 + c1, d3 + d1⟩⟩,
       Frustum.clipPlane bk ⟨⟨a3 - a2, b3 - b2, c3 - c2, d3 - d2⟩⟩, Frustum.clipPlane bk ⟨⟨a3 + a2, b3 + b2, c3 + c2, d3 + d2⟩⟩⟩ := rfl
  constructor
  · intro p
    rw [containsPoint_real, e]
    simp only [frustumPts, Frustum.getPlanes, Set.mem_setOf_eq, List.mem_cons, List.not_mem_nil, or_false, forall_eq_or_imp, forall_eq]
    rw [(k _ _ _ _ n0 p).2, (k _ _ _ _ n0' p).2, (k _ _ _ _ n1 p).2, (k _ _ _ _ n1' p).2, (k _ _ _ _ n2 p).2, (k _ _ _ _ n2' p).2]
    simp only [InClip, clip, hom, mat, vec, Matrix.vecMul, dotProduct, Fin.sum_univ_succ, Vec4.getX, Vec4.getY, Vec4.getZ, Vec4.getW, Simd4f.get]
    simp
    constructor
    · rintro ⟨h1, h2, h3, h4, h5, h6⟩
      refine ⟨⟨?_, ?_⟩, ⟨?_, ?_⟩, ?_, ?_⟩ <;> linarith
    · rintro ⟨⟨h1, h2⟩, ⟨h3, h4⟩, h5, h6⟩
      refine ⟨?_, ?_, ?_, ?_, ?_, ?_⟩ <;> linarith
  · rw [e]
    intro pl hp
    simp only [Frustum.getPlanes, List.mem_cons, List.not_mem_nil, or_false] at hp
    rcases hp with rfl | rfl | rfl | rfl | rfl | rfl
    exacts [(k _ _ _ _ n0' ⟨0, 0, 0⟩).1, (k _ _ _ _ n0 ⟨0, 0, 0⟩).1, (k _ _ _ _ n1' ⟨0, 0, 0⟩).1, (k _ _ _ _ n1 ⟨0, 0, 0⟩).1,
      (k _ _ _ _ n2' ⟨0, 0, 0⟩).1, (k _ _ _ _ n2 ⟨0, 0, 0⟩).1]

/-- C80 in floating point: a point with a NaN coordinate is contained in every frustum. -/
theorem C80_nan [inst : Libm binary32] (bk : Backend) (f : Frustum F32) (y z : F32) :
    f.containsPoint bk (some ⟨.nan, y, z⟩) = true := by
  have a1 : ∀ a : F32, a *. .nan = .nan := by intro a; cases a <;> rfl
  have a2 : ∀ a : F32, a +. .nan = .nan := by intro a; cases a <;> rfl
  have a3 : ∀ a : F32, .nan +. a = .nan := by intro a; cases a <;> rfl
  have hd : ∀ pl : Plane F32, (Plane.distance bk pl ⟨.nan, y, z⟩ <. f0) = false := by
    intro pl
    have : Plane.distance bk pl ⟨.nan, y, z⟩ = .nan := by
      rcases bk with ⟨_ | _, _ | _⟩ | _ | _ | ⟨_ | _⟩ <;>
        simp only [Plane.distance, Vec3.dot, dot3, splat, dot3Scalar, Point3D.toVec3, Simd4f.init, a1, a3]
    rw [this]; rfl
  simp only [Frustum.containsPoint, Frustum.getPlanes, List.all_cons, List.all_nil, hd]; rfl

/-- non-vacuity of `C80_clip`: the identity matrix, whose frustum is the cube -/
example (bk : Backend) : Regular bk GMatrix.initIdentity ∧ InClip (clip GMatrix.initIdentity ⟨1, -1, 1 / 2⟩) ∧
    ¬ InClip (clip GMatrix.initIdentity ⟨1, -2, 1 / 2⟩) := by
  have e : mat (GMatrix.initIdentity : M4 ℝ) = 1 := initIdentity_real
  refine ⟨?_, ?_, ?_⟩
  · have h1 : ∀ k j, (k = 1 ∨ k = -1) → (j = 0 ∨ j = 1 ∨ j = 2) →
        Real.sqrt ((clipNormal GMatrix.initIdentity k j).getX ^ 2 + (clipNormal GMatrix.initIdentity k j).getY ^ 2 +
          (clipNormal GMatrix.initIdentity k j).getZ ^ 2) = 1 := by
      rintro k j (rfl | rfl) (rfl | rfl | rfl) <;>
        simp [clipNormal, e, Vec3.init, Simd4f.init, Vec3.getX, Vec3.getY, Vec3.getZ, Simd4f.get]
    intro k j hk hj
    have := h1 k j hk hj
    rw [Real.sqrt_eq_one] at this
    apply Normalisable.of_gt
    rw [this]; exact eps_lt_one
  · rw [clip, e, Matrix.vecMul_one]; simp [InClip, hom]; norm_num
  · rw [clip, e, Matrix.vecMul_one]; simp [InClip, hom]

/-! ## C81 -/

/-- Cauchy–Schwarz for a unit normal: moving a point by `d` changes the value of the plane equation by at most `d` -/
theorem side_lipschitz {pl : Plane ℝ} (hu : UnitNormal pl) (p q : Point3D ℝ) : side pl p - side pl q ≤ eucl p q := by
  apply Real.le_sqrt_of_sq_le
  have hu' : pl.normal.getX ^ 2 + pl.normal.getY ^ 2 + pl.normal.getZ ^ 2 = 1 := hu
  simp only [side, distSq]
  set a := pl.normal.getX
  set b := pl.normal.getY
  set c := pl.normal.getZ
  have : (a * p.x + b * p.y + c * p.z + pl.constant - (a * q.x + b * q.y + c * q.z + pl.constant)) ^ 2 =
      ((p.x - q.x) ^ 2 + (p.y - q.y) ^ 2 + (p.z - q.z) ^ 2) * (a ^ 2 + b ^ 2 + c ^ 2) -
      ((a * (p.y - q.y) - b * (p.x - q.x)) ^ 2 + (a * (p.z - q.z) - c * (p.x - q.x)) ^ 2 + (b * (p.z - q.z) - c * (p.y - q.y)) ^ 2) := by ring
  rw [this, hu', mul_one]
  nlinarith [sq_nonneg (a * (p.y - q.y) - b * (p.x - q.x)), sq_nonneg (a * (p.z - q.z) - c * (p.x - q.x)), sq_nonneg (b * (p.z - q.z) - c * (p.y - q.y))]

/-- C81, spheres: `intersects_sphere` answers no exactly when one of the planes has the whole sphere strictly behind it. -/
theorem C81_sphere_exact (bk : Backend) (f : Frustum ℝ) (hu : ∀ pl ∈ f.getPlanes, UnitNormal pl) (c : Point3D ℝ) (r : ℝ) (hr : 0 ≤ r) :
    f.intersectsSphere bk ⟨c.toVec3, r⟩ = false ↔ ∃ pl ∈ f.getPlanes, ∀ p ∈ ball c r, side pl p < 0 := by
  have hc : Point3D.initFromVec3 (c.toVec3) = c := by
    obtain ⟨x, y, z⟩ := c; rfl
  have e : f.intersectsSphere bk ⟨c.toVec3, r⟩ = false ↔ ∃ pl ∈ f.getPlanes, side pl c < -r := by
    simp only [Frustum.intersectsSphere, hc, List.all_eq_false, Bool.not_eq_true', Bool.not_eq_false, plane_distance_real,
      RealScalar.lt_eq, RealScalar.neg_eq]
  rw [e]
  constructor
  · rintro ⟨pl, h1, h2⟩
    refine ⟨pl, h1, fun p hp => ?_⟩
    have := side_lipschitz (hu pl h1) p c
    have hp' : eucl p c ≤ r := hp
    linarith
  · rintro ⟨pl, h1, h2⟩
    refine ⟨pl, h1, ?_⟩
    have hu' : pl.normal.getX ^ 2 + pl.normal.getY ^ 2 + pl.normal.getZ ^ 2 = 1 := hu pl h1
    have := h2 ⟨c.x + r * pl.normal.getX, c.y + r * pl.normal.getY, c.z + r * pl.normal.getZ⟩ (by
      show eucl _ _ ≤ r
      have : distSq ⟨c.x + r * pl.normal.getX, c.y + r * pl.normal.getY, c.z + r * pl.normal.getZ⟩ c = r ^ 2 := by
        simp only [distSq]; linear_combination r ^ 2 * hu'
      rw [eucl, this, Real.sqrt_sq hr])
    have e2 : side pl ⟨c.x + r * pl.normal.getX, c.y + r * pl.normal.getY, c.z + r * pl.normal.getZ⟩ = side pl c + r := by
      simp only [side]; linear_combination r * hu'
    linarith

/-- C81, spheres: no false negatives. -/
theorem C81_sphere (bk : Backend) (f : Frustum ℝ) (hu : ∀ pl ∈ f.getPlanes, UnitNormal pl) (c p : Point3D ℝ) (r : ℝ)
    (hp : p ∈ ball c r) (hin : p ∈ frustumPts f) : f.intersectsSphere bk ⟨c.toVec3, r⟩ = true := by
  have hr : 0 ≤ r := le_trans (Real.sqrt_nonneg _) hp
  rw [← Bool.not_eq_false, C81_sphere_exact bk f hu c r hr]
  rintro ⟨pl, h1, h2⟩
  have := hin pl h1
  linarith [h2 p hp]

theorem planeSeparates_real (bk : Backend) (pl : Plane ℝ) (lo hi : Point3D ℝ) (h : CornersLe lo hi) :
    Frustum.planeSeparates bk pl lo hi = true ↔ ∀ p ∈ between lo hi, side pl p < 0 := by
  obtain ⟨h1, h2, h3⟩ := h
  have e : Point3D.initFromVec3 pl.normal = ⟨pl.normal.getX, pl.normal.getY, pl.normal.getZ⟩ := rfl
  simp only [Frustum.planeSeparates, e, Bool.and_eq_true, plane_distance_real, RealScalar.lt_eq, RealScalar.f0_eq]
  set a := pl.normal.getX
  set b := pl.normal.getY
  set c := pl.normal.getZ
  constructor
  · rintro ⟨-, hf⟩ p ⟨q1, q2, q3, q4, q5, q6⟩
    refine lt_of_le_of_lt ?_ hf
    have m : ∀ n l u x : ℝ, l ≤ x → x ≤ u → n * x ≤ n * (if 0 < n then u else l) := by
      intro n l u x h1 h2
      split
      · nlinarith
      · nlinarith
    simp only [side]
    have m1 := m a _ _ _ q1 q2
    have m2 := m b _ _ _ q3 q4
    have m3 := m c _ _ _ q5 q6
    linarith
  · intro hall
    constructor <;> apply hall <;> refine ⟨?_, ?_, ?_, ?_, ?_, ?_⟩ <;> dsimp only <;> split <;> first | exact le_refl _ | assumption

/-- C81, boxes: `intersects_box` answers no exactly when one of the planes has the whole box strictly behind it. -/
theorem C81_box_exact (bk : Backend) (f : Frustum ℝ) (lo hi : Point3D ℝ) (h : CornersLe lo hi) :
    f.intersectsBox bk ⟨lo.toVec3, hi.toVec3⟩ = false ↔ ∃ pl ∈ f.getPlanes, ∀ p ∈ between lo hi, side pl p < 0 := by
  have e1 : (⟨lo.toVec3, hi.toVec3⟩ : Box ℝ).getMin = lo := rfl
  have e2 : (⟨lo.toVec3, hi.toVec3⟩ : Box ℝ).getMax = hi := rfl
  simp only [Frustum.intersectsBox, e1, e2, List.all_eq_false, Bool.not_eq_true', Bool.not_eq_false, planeSeparates_real bk _ lo hi h]

/-- C81, boxes: no false negatives. -/
theorem C81_box (bk : Backend) (f : Frustum ℝ) (lo hi p : Point3D ℝ) (hp : p ∈ between lo hi) (hin : p ∈ frustumPts f) :
    f.intersectsBox bk ⟨lo.toVec3, hi.toVec3⟩ = true := by
  obtain ⟨q1, q2, q3, q4, q5, q6⟩ := hp
  rw [← Bool.not_eq_false, C81_box_exact bk f lo hi ⟨by linarith, by linarith, by linarith⟩]
  rintro ⟨pl, h1, h2⟩
  have := hin pl h1
  linarith [h2 p ⟨q1, q2, q3, q4, q5, q6⟩]

/-- C81: "yes" is not exact: the sphere around a point beyond a corner of the unit cube touches every half-space but not the cube. -/
theorem C81_conservative (bk : Backend) : ∃ f : Frustum ℝ, (∀ pl ∈ f.getPlanes, UnitNormal pl) ∧
    f.intersectsSphere bk ⟨Point3D.toVec3 ⟨2, 2, 2⟩, 1⟩ = true ∧ ∀ p ∈ ball ⟨2, 2, 2⟩ 1, p ∉ frustumPts f := by
  refine ⟨⟨⟨Vec3.init (-1) 0 0, 1⟩, ⟨Vec3.init 1 0 0, 1⟩, ⟨Vec3.init 0 (-1) 0, 1⟩, ⟨Vec3.init 0 1 0, 1⟩, ⟨Vec3.init 0 0 (-1), 1⟩, ⟨Vec3.init 0 0 1, 1⟩⟩,
    ?_, ?_, ?_⟩
  · intro pl hp
    simp only [Frustum.getPlanes, List.mem_cons, List.not_mem_nil, or_false] at hp
    rcases hp with rfl | rfl | rfl | rfl | rfl | rfl <;>
      simp [UnitNormal, Vec3.init, Simd4f.init, Vec3.getX, Vec3.getY, Vec3.getZ, Simd4f.get]
  · have hc : Point3D.initFromVec3 (Point3D.toVec3 (⟨2, 2, 2⟩ : Point3D ℝ)) = ⟨2, 2, 2⟩ := rfl
    simp only [Frustum.intersectsSphere, hc, Frustum.getPlanes, plane_distance_real, List.all_cons, List.all_nil, Bool.and_true,
      Bool.and_eq_true, Bool.not_eq_true', RealScalar.lt_eq_false, RealScalar.neg_eq]
    simp only [side, Vec3.init, Simd4f.init, Vec3.getX, Vec3.getY, Vec3.getZ, Simd4f.get, RealScalar.f0_eq]
    norm_num
  · intro p hp hin
    have h0 := hin _ (List.mem_cons_self)
    have h2 := hin _ (List.mem_cons_of_mem _ (List.mem_cons_of_mem _ List.mem_cons_self))
    simp only [side, Vec3.init, Simd4f.init, Vec3.getX, Vec3.getY, Vec3.getZ, Simd4f.get, RealScalar.f0_eq] at h0 h2
    have hp' : eucl p ⟨2, 2, 2⟩ ≤ 1 := hp
    rw [eucl, Real.sqrt_le_left (by norm_num), distSq] at hp'
    nlinarith [sq_nonneg (p.z - 2)]

end Graphene
