/-
  C55, C56: element access; translations, scales, rotations and skews.
-/
import Verif.Props.Matrix1
import Verif.Proofs.NormLemmas
import Verif.Props.Triangles

namespace Graphene
open Spec Simd4f Matrix

/-! ## C55 -/

/-- C55: `get_value` and `get_row` read the entry in the given row and column, `0.f` out of range;
`init_from_vec4` stores the four rows; copying copies. For any number format, NaNs included. -/
theorem C55_access {α : Type} [Scalar α] (m : M4 α) (v : Fin 4 → Vec4 α) :
    (∀ r c : Fin 4, GMatrix.getValue m r c = mat m r c) ∧
    (∀ r c : Nat, 3 < r ∨ 3 < c → GMatrix.getValue m r c = f0) ∧
    (∀ r : Fin 4, vec (GMatrix.getRow m r).value = mat m r) ∧
    (∀ r : Nat, 3 < r → ∀ c, vec (GMatrix.getRow m r).value c = f0) ∧
    (∀ r : Fin 4, GMatrix.getRow (GMatrix.initFromVec4 (v 0) (v 1) (v 2) (v 3)) r = v r) ∧
    GMatrix.initFromMatrix m = m := by
  refine ⟨?_, ?_, ?_, ?_, ?_, rfl⟩
  · intro r c
    fin_cases r <;> fin_cases c <;> rfl
  · intro r c h
    simp only [GMatrix.getValue]
    rw [if_pos (by simpa using h)]
  · intro r
    fin_cases r <;> rfl
  · intro r h c
    obtain ⟨k, rfl⟩ : ∃ k, r = k + 4 := ⟨r - 4, by omega⟩
    fin_cases c <;> rfl
  · intro r
    fin_cases r <;> rfl

/-- C55: `transpose` swaps rows and columns (an involution) and the translation and scale getters read
the last row and the diagonal. -/
theorem C55_transpose {α : Type} [Scalar α] (m : M4 α) :
    (∀ r c : Fin 4, GMatrix.getValue (GMatrix.transpose m) r c = GMatrix.getValue m c r) ∧
    GMatrix.transpose (GMatrix.transpose m) = m ∧
    GMatrix.getXTranslation m = GMatrix.getValue m 3 0 ∧
    GMatrix.getYTranslation m = GMatrix.getValue m 3 1 ∧
    GMatrix.getZTranslation m = GMatrix.getValue m 3 2 ∧
    GMatrix.getXScale m = GMatrix.getValue m 0 0 ∧
    GMatrix.getYScale m = GMatrix.getValue m 1 1 ∧
    GMatrix.getZScale m = GMatrix.getValue m 2 2 := by
  refine ⟨?_, rfl, rfl, rfl, rfl, rfl, rfl, rfl⟩
  intro r c
  fin_cases r <;> fin_cases c <;> rfl

/-- non-vacuity -/
example [Libm binary32] : GMatrix.getValue (GMatrix.initTranslate (⟨.nan, f2, f1⟩ : Point3D F32)) 3 0 = .nan ∧
    GMatrix.getValue (GMatrix.initTranslate (⟨.nan, f2, f1⟩ : Point3D F32)) 4 0 = f0 := ⟨rfl, rfl⟩

/-! ## C56 -/

/-- C56: the elementary transformations move points as documented. -/
theorem C56_init (q p : Point3D ℝ) (sx sy sz a b : ℝ) :
    GMatrix.transformPoint3D (GMatrix.initTranslate q) p = ⟨p.x + q.x, p.y + q.y, p.z + q.z⟩ ∧
    GMatrix.transformPoint3D (GMatrix.initScale sx sy sz) p = ⟨p.x * sx, p.y * sy, p.z * sz⟩ ∧
    GMatrix.transformPoint3D (GMatrix.initSkew a b) p =
      ⟨p.x + p.y * Real.tan a, p.y + p.x * Real.tan b, p.z⟩ ∧
    Affine (GMatrix.initTranslate q) ∧ Affine (GMatrix.initScale sx sy sz) ∧ Affine (GMatrix.initSkew a b) := by
  refine ⟨?_, ?_, ?_, ?_, ?_, ?_⟩ <;>
    simp [GMatrix.transformPoint3D, GMatrix.initTranslate, GMatrix.initScale, GMatrix.initSkew, Affine, greal]
  · exact ⟨by ring, by ring, by ring⟩
  · exact ⟨by ring, by ring⟩

/-- C56: `translate`, `scale`, `rotate` append the transformation after the existing one; the three skew
functions insert a skew before it (`x += factor·y`, `x += factor·z`, `y += factor·z`). -/
theorem C56_append (bk : Backend) (m : M4 ℝ) (q : Point3D ℝ) (sx sy sz f θ : ℝ) (axis : Vec3 ℝ) :
    GMatrix.translate m q = GMatrix.multiply m (GMatrix.initTranslate q) ∧
    GMatrix.scale m sx sy sz = GMatrix.multiply m (GMatrix.initScale sx sy sz) ∧
    GMatrix.rotate bk m θ axis = GMatrix.multiply m (GMatrix.initRotate bk θ axis) ∧
    GMatrix.rotateX bk m θ = GMatrix.multiply m (GMatrix.initRotate bk θ (Vec3.init 1 0 0)) ∧
    GMatrix.rotateY bk m θ = GMatrix.multiply m (GMatrix.initRotate bk θ (Vec3.init 0 1 0)) ∧
    GMatrix.rotateZ bk m θ = GMatrix.multiply m (GMatrix.initRotate bk θ (Vec3.init 0 0 1)) ∧
    mat (GMatrix.skewXY bk m f) = !![1, 0, 0, 0; f, 1, 0, 0; 0, 0, 1, 0; 0, 0, 0, 1] * mat m ∧
    mat (GMatrix.skewXZ bk m f) = !![1, 0, 0, 0; 0, 1, 0, 0; f, 0, 1, 0; 0, 0, 0, 1] * mat m ∧
    mat (GMatrix.skewYZ bk m f) = !![1, 0, 0, 0; 0, 1, 0, 0; 0, f, 1, 0; 0, 0, 0, 1] * mat m := by
  refine ⟨rfl, rfl, rfl, ?_, ?_, ?_, ?_, ?_, ?_⟩
  · simp [GMatrix.rotateX, GMatrix.multiply, GMatrix.initRotate, GMatrix.rotateInternal, Vec3.init, Simd4f.init]
  · simp [GMatrix.rotateY, GMatrix.multiply, GMatrix.initRotate, GMatrix.rotateInternal, Vec3.init, Simd4f.init]
  · simp [GMatrix.rotateZ, GMatrix.multiply, GMatrix.initRotate, GMatrix.rotateInternal, Vec3.init, Simd4f.init]
  all_goals
    ext i j
    fin_cases i <;> fin_cases j <;>
      simp [GMatrix.skewXY, GMatrix.skewXZ, GMatrix.skewYZ, mat, vec, Matrix.mul_apply, Fin.sum_univ_succ, greal] <;>
      ring

/-- rotation of `v` by `θ` about the unit axis `u`, counter-clockwise when looking against `u`
(Rodrigues' formula): `v cos θ + (u × v) sin θ + u (u·v) (1 - cos θ)` -/
noncomputable def Spec.rodrigues (u : Point3D ℝ) (θ : ℝ) (v : Point3D ℝ) : Point3D ℝ :=
  let d := u.x * v.x + u.y * v.y + u.z * v.z
  ⟨v.x * Real.cos θ + (u.y * v.z - u.z * v.y) * Real.sin θ + u.x * d * (1 - Real.cos θ),
   v.y * Real.cos θ + (u.z * v.x - u.x * v.z) * Real.sin θ + u.y * d * (1 - Real.cos θ),
   v.z * Real.cos θ + (u.x * v.y - u.y * v.x) * Real.sin θ + u.z * d * (1 - Real.cos θ)⟩

/-- an axis whose squared length the backend can take the reciprocal square root of -/
def Spec.AxisOk (bk : Backend) (a : Vec3 ℝ) : Prop :=
  0 < a.getX ^ 2 + a.getY ^ 2 + a.getZ ^ 2 ∧ rsqrtOk bk (a.getX ^ 2 + a.getY ^ 2 + a.getZ ^ 2)

/-- the unit vector along a vector -/
noncomputable def Spec.unitOf (a : Vec3 ℝ) : Point3D ℝ :=
  let k := (√(a.getX ^ 2 + a.getY ^ 2 + a.getZ ^ 2))⁻¹
  ⟨a.getX * k, a.getY * k, a.getZ * k⟩

theorem unitOf_sq {a : Vec3 ℝ} (h : 0 < a.getX ^ 2 + a.getY ^ 2 + a.getZ ^ 2) :
    (unitOf a).x ^ 2 + (unitOf a).y ^ 2 + (unitOf a).z ^ 2 = 1 := unit_sum h

theorem normalize3_real {bk : Backend} {a : Vec3 ℝ} (h : AxisOk bk a) :
    (normalize3 bk a.value).x = (unitOf a).x ∧ (normalize3 bk a.value).y = (unitOf a).y ∧
    (normalize3 bk a.value).z = (unitOf a).z := by
  obtain ⟨h1, h2⟩ := h
  have hr := rsqrt1_ok h1 h2
  obtain ⟨⟨x, y, z, w⟩⟩ := a
  simp only [Vec3.getX, Vec3.getY, Vec3.getZ, Simd4f.get] at hr
  have hd : dot3Scalar bk ⟨x, y, z, w⟩ ⟨x, y, z, w⟩ = x ^ 2 + y ^ 2 + z ^ 2 := by
    rw [dot3Scalar_real]; ring
  simp [normalize3, Simd4f.rsqrt, map1, splat, Simd4f.mul, map2, Simd4f.dot3, hd, hr, unitOf, Vec3.getX,
    Vec3.getY, Vec3.getZ, Simd4f.get]

/-- the matrix of `graphene_simd4x4f_rotation` for a unit axis -/
theorem rotation_real {bk : Backend} {a : Vec3 ℝ} (h : AxisOk bk a) (θ : ℝ) :
    mat (Simd4x4f.rotation bk θ a.value) =
      let u := unitOf a
      let c := Real.cos θ
      let s := Real.sin θ
      !![u.x * u.x + c * (1 - u.x * u.x), u.x * u.y * (1 - c) + u.z * s, u.z * u.x * (1 - c) - u.y * s, 0;
         u.x * u.y * (1 - c) - u.z * s, u.y * u.y + c * (1 - u.y * u.y), u.y * u.z * (1 - c) + u.x * s, 0;
         u.z * u.x * (1 - c) + u.y * s, u.y * u.z * (1 - c) - u.x * s, u.z * u.z + c * (1 - u.z * u.z), 0;
         0, 0, 0, 1] := by
  obtain ⟨h1, h2, h3⟩ := normalize3_real h
  ext i j
  fin_cases i <;> fin_cases j <;>
    simp [Simd4x4f.rotation, mat, vec, Simd4x4f.init, Simd4f.init, h1, h2, h3, Real.sin_neg, Real.cos_neg] <;> ring

/-- C56: `init_rotate (angle, axis)` is the rotation by `angle` degrees about the axis. -/
theorem C56_rotation (bk : Backend) (θ : ℝ) (axis : Vec3 ℝ) (h : AxisOk bk axis) (v : Vec3 ℝ) (p : Point3D ℝ) :
    vtx (GMatrix.transformVec3 (GMatrix.initRotate bk θ axis) v) =
      rodrigues (unitOf axis) (θ * (Real.pi / 180)) (vtx v) ∧
    GMatrix.transformPoint3D (GMatrix.initRotate bk θ axis) p =
      rodrigues (unitOf axis) (θ * (Real.pi / 180)) p ∧
    Affine (GMatrix.initRotate bk θ axis) := by
  obtain ⟨h1, h2, h3⟩ := normalize3_real h
  have hu := unitOf_sq h.1
  set u := unitOf axis
  refine ⟨?_, ?_, ?_⟩
  · simp only [GMatrix.initRotate, Simd4x4f.rotation, h1, h2, h3]
    simp only [vtx, rodrigues, GMatrix.transformVec3, greal, Real.sin_neg, Real.cos_neg, Point3D.mk.injEq]
    refine ⟨by ring, by ring, by ring⟩
  · simp only [GMatrix.initRotate, Simd4x4f.rotation, h1, h2, h3]
    simp only [rodrigues, GMatrix.transformPoint3D, greal, Real.sin_neg, Real.cos_neg, Point3D.mk.injEq]
    refine ⟨by ring, by ring, by ring⟩
  · simp [Affine, GMatrix.initRotate, Simd4x4f.rotation, greal]

/-- C56: rotation matrices are orthogonal with determinant one, rotations about the same axis add up,
the zero rotation is the identity, and the axis is fixed. -/
theorem C56_rotation_group (bk : Backend) (θ φ : ℝ) (axis : Vec3 ℝ) (h : AxisOk bk axis) :
    mat (GMatrix.initRotate bk θ axis) * (mat (GMatrix.initRotate bk θ axis))ᵀ = 1 ∧
    (mat (GMatrix.initRotate bk θ axis)).det = 1 ∧
    GMatrix.multiply (GMatrix.initRotate bk θ axis) (GMatrix.initRotate bk φ axis) =
      GMatrix.initRotate bk (θ + φ) axis ∧
    GMatrix.initRotate bk 0 axis = GMatrix.initIdentity ∧
    vtx (GMatrix.transformVec3 (GMatrix.initRotate bk θ axis) axis) = vtx axis := by
  have hu := unitOf_sq h.1
  have hR : ∀ θ, mat (GMatrix.initRotate bk θ axis) = _ := fun θ => rotation_real h (degToRad θ)
  have hz : (unitOf axis).z ^ 2 = 1 - (unitOf axis).x ^ 2 - (unitOf axis).y ^ 2 := by linarith
  have hax : ∃ k, (vtx axis).x = k * (unitOf axis).x ∧ (vtx axis).y = k * (unitOf axis).y ∧
      (vtx axis).z = k * (unitOf axis).z := by
    refine ⟨√(axis.getX ^ 2 + axis.getY ^ 2 + axis.getZ ^ 2), ?_⟩
    have := (Real.sqrt_pos.2 h.1).ne'
    simp only [vtx, unitOf]
    refine ⟨?_, ?_, ?_⟩ <;> field_simp <;> rfl
  have hrot := (C56_rotation bk θ axis h axis ⟨0, 0, 0⟩).1
  simp only [degToRad_real] at hR
  have hcs := Real.sin_sq_add_cos_sq (θ * (Real.pi / 180))
  set u := unitOf axis
  obtain ⟨ux, uy, uz⟩ := u
  dsimp only at *
  refine ⟨?_, ?_, ?_, ?_, ?_⟩
  · rw [hR]
    generalize Real.cos (θ * (Real.pi / 180)) = c at *
    generalize Real.sin (θ * (Real.pi / 180)) = s at *
    have hs : s ^ 2 = 1 - c ^ 2 := by linarith
    ext i j
    fin_cases i <;> fin_cases j <;>
      simp [Matrix.mul_apply, Fin.sum_univ_succ] <;> ring_nf <;>
      simp only [hz, hs, show uz ^ 3 = uz * uz ^ 2 by ring, show uz ^ 4 = uz ^ 2 * uz ^ 2 by ring] <;> ring
  · rw [hR, Matrix.det_succ_row_zero]
    simp [Fin.sum_univ_succ, Matrix.det_fin_three, Matrix.submatrix, Fin.succAbove]
    generalize Real.cos (θ * (Real.pi / 180)) = c at *
    generalize Real.sin (θ * (Real.pi / 180)) = s at *
    have hs : s ^ 2 = 1 - c ^ 2 := by linarith
    ring_nf
    simp only [hz, hs, show uz ^ 3 = uz * uz ^ 2 by ring, show uz ^ 4 = uz ^ 2 * uz ^ 2 by ring]
    ring_nf
  · apply mat_injective
    rw [GMatrix.multiply, matrixMul_real, hR, hR, hR, add_mul, Real.cos_add, Real.sin_add]
    generalize Real.cos (θ * (Real.pi / 180)) = c
    generalize Real.sin (θ * (Real.pi / 180)) = s
    generalize Real.cos (φ * (Real.pi / 180)) = c'
    generalize Real.sin (φ * (Real.pi / 180)) = s'
    ext i j
    fin_cases i <;> fin_cases j <;>
      simp [Matrix.mul_apply, Fin.sum_univ_succ] <;> ring_nf <;>
      simp only [hz, show uz ^ 3 = uz * uz ^ 2 by ring, show uz ^ 4 = uz ^ 2 * uz ^ 2 by ring] <;> ring
  · apply mat_injective
    rw [hR, initIdentity_real]
    ext i j
    fin_cases i <;> fin_cases j <;> simp
  · rw [hrot]
    obtain ⟨k, k1, k2, k3⟩ := hax
    have he : vtx axis = ⟨k * ux, k * uy, k * uz⟩ := by
      rw [← k1, ← k2, ← k3]
    rw [he]
    simp only [rodrigues, Point3D.mk.injEq]
    refine ⟨?_, ?_, ?_⟩
    · linear_combination (k * ux) * (1 - Real.cos (θ * (Real.pi / 180))) * hu
    · linear_combination (k * uy) * (1 - Real.cos (θ * (Real.pi / 180))) * hu
    · linear_combination (k * uz) * (1 - Real.cos (θ * (Real.pi / 180))) * hu

/-- non-vacuity: the coordinate axes qualify on every backend; 90° about z takes x to y -/
example (bk : Backend) : AxisOk bk (Vec3.init 0 0 1) ∧
    vtx (GMatrix.transformVec3 (GMatrix.initRotate bk 90 (Vec3.init 0 0 1)) (Vec3.init (1 : ℝ) 0 0)) = (⟨0, 1, 0⟩ : Point3D ℝ) := by
  have h : AxisOk bk (Vec3.init 0 0 1) := by
    simp only [AxisOk, Vec3.init, Vec3.getX, Vec3.getY, Vec3.getZ, Simd4f.init, Simd4f.get]
    exact ⟨by norm_num, Or.inr (by norm_num; exact eps_lt_one)⟩
  refine ⟨h, ?_⟩
  rw [(C56_rotation bk 90 _ h _ ⟨0, 0, 0⟩).1]
  rw [show (90 : ℝ) * (Real.pi / 180) = Real.pi / 2 by ring]
  simp [rodrigues, unitOf, vtx, Vec3.init, Vec3.getX, Vec3.getY, Vec3.getZ, Simd4f.init, Simd4f.get]

end Graphene
