/-
  C52–C54: product, determinant, inverse.
-/
import Verif.Spec.Mat
import Verif.Proofs.RealLemmas
import Mathlib.LinearAlgebra.Matrix.NonsingularInverse

namespace Graphene
open Spec Simd4f Matrix

theorem vec_injective {α : Type} : Function.Injective (vec : V4 α → Fin 4 → α) := by
  rintro ⟨a, b, c, d⟩ ⟨a', b', c', d'⟩ h
  have h0 := congrFun h 0
  have h1 := congrFun h 1
  have h2 := congrFun h 2
  have h3 := congrFun h 3
  simp [vec] at h0 h1 h2 h3
  simp [*]

theorem mat_injective {α : Type} : Function.Injective (mat : M4 α → Matrix (Fin 4) (Fin 4) α) := by
  rintro ⟨a, b, c, d⟩ ⟨a', b', c', d'⟩ h
  have h0 : vec a = vec a' := congrFun h 0
  have h1 : vec b = vec b' := congrFun h 1
  have h2 : vec c = vec c' := congrFun h 2
  have h3 : vec d = vec d' := congrFun h 3
  simp [vec_injective h0, vec_injective h1, vec_injective h2, vec_injective h3]

theorem vec4Mul_real (m : M4 ℝ) (v : V4 ℝ) : vec (Simd4x4f.vec4Mul m v) = vec v ᵥ* mat m := by
  funext i
  fin_cases i <;> simp [vec, mat, Matrix.vecMul, dotProduct, Fin.sum_univ_succ, greal] <;> ring

theorem matrixMul_real (a b : M4 ℝ) : mat (Simd4x4f.matrixMul a b) = mat a * mat b := by
  ext i j
  have h := fun v => congrFun (vec4Mul_real b v) j
  fin_cases i <;> exact h _

theorem identity_real : mat (Simd4x4f.identity : M4 ℝ) = 1 := by
  ext i j
  fin_cases i <;> fin_cases j <;> simp [mat, vec, greal]

theorem initIdentity_real : mat (GMatrix.initIdentity : M4 ℝ) = 1 := by
  ext i j
  fin_cases i <;> fin_cases j <;> simp [mat, vec, GMatrix.initIdentity]

/-! ## C52 -/

/-- C52: `graphene_matrix_multiply` is the matrix product, and `init_identity` the identity; hence
multiplication is associative with neutral element `init_identity`. -/
theorem C52_product (a b c : M4 ℝ) :
    mat (GMatrix.multiply a b) = mat a * mat b ∧
    mat (GMatrix.initIdentity : M4 ℝ) = 1 ∧
    GMatrix.multiply (GMatrix.multiply a b) c = GMatrix.multiply a (GMatrix.multiply b c) ∧
    GMatrix.multiply GMatrix.initIdentity a = a ∧ GMatrix.multiply a GMatrix.initIdentity = a := by
  refine ⟨matrixMul_real a b, initIdentity_real, ?_, ?_, ?_⟩ <;> apply mat_injective <;>
    simp only [GMatrix.multiply, matrixMul_real, initIdentity_real, mul_assoc, one_mul, mul_one]

/-- C52: the product may be stored over either argument, and nothing else changes (any number format,
NaNs included). -/
theorem C52_aliasing {α : Type} [Scalar α] (m : Mem (M4 α)) (a b res : Nat) :
    (GMatrix.multiplyP m a b res) res = GMatrix.multiply (m a) (m b) ∧
    ∀ i, i ≠ res → (GMatrix.multiplyP m a b res) i = m i := by
  constructor
  · simp [GMatrix.multiplyP, GMatrix.multiply, Simd4x4f.matrixMul, Mem.upd]
  · intro i hi
    simp [GMatrix.multiplyP, Mem.upd, hi]

/-- C52: vectors are multiplied as rows from the left, so transforming by a product is transforming by
the first factor, then by the second. -/
theorem C52_vec4 (a b : M4 ℝ) (v : Vec4 ℝ) :
    vec (GMatrix.transformVec4 a v).value = vec v.value ᵥ* mat a ∧
    GMatrix.transformVec4 (GMatrix.multiply a b) v =
      GMatrix.transformVec4 b (GMatrix.transformVec4 a v) := by
  refine ⟨vec4Mul_real a v.value, ?_⟩
  have : Simd4x4f.vec4Mul (Simd4x4f.matrixMul a b) v.value =
      Simd4x4f.vec4Mul b (Simd4x4f.vec4Mul a v.value) := by
    apply vec_injective
    simp only [vec4Mul_real, matrixMul_real, Matrix.vecMul_vecMul]
  exact congrArg Vec4.mk this

/-- C52: the same for points and vectors of three components when the first factor is affine (the
functions for points never read or divide by `w`). -/
theorem C52_points (a b : M4 ℝ) (ha : Affine a) (p : Point ℝ) (q : Point3D ℝ) (v : Vec3 ℝ) :
    GMatrix.transformPoint3D (GMatrix.multiply a b) q =
      GMatrix.transformPoint3D b (GMatrix.transformPoint3D a q) ∧
    GMatrix.transformVec3 (GMatrix.multiply a b) v =
      GMatrix.transformVec3 b (GMatrix.transformVec3 a v) ∧
    (a.x.z = 0 → a.y.z = 0 → a.w.z = 0 → GMatrix.transformPoint (GMatrix.multiply a b) p =
      GMatrix.transformPoint b (GMatrix.transformPoint a p)) := by
  obtain ⟨h1, h2, h3, h4⟩ := ha
  refine ⟨?_, ?_, ?_⟩
  · simp only [GMatrix.transformPoint3D, GMatrix.multiply, greal, h1, h2, h3, h4, Point3D.mk.injEq]
    refine ⟨by ring, by ring, by ring⟩
  · simp only [GMatrix.transformVec3, GMatrix.multiply, greal, h1, h2, h3, h4, Vec3.mk.injEq,
      V4.mk.injEq]
    refine ⟨by ring, by ring, by ring, trivial⟩
  · intro z1 z2 z3
    simp only [GMatrix.transformPoint, GMatrix.multiply, greal, h1, h2, h3, h4, z1, z2, z3, Point.mk.injEq]
    refine ⟨by ring, by ring⟩

/-- non-vacuity: a translation is affine -/
example : Affine (GMatrix.initTranslate (⟨1, 2, 3⟩ : Point3D ℝ)) := by
  simp [Affine, GMatrix.initTranslate, greal]

/-! ## C53 -/

theorem detVec_real (bk : Backend) (m : M4 ℝ) : (Simd4x4f.detVec bk m).x = -(mat m).det := by
  rw [Matrix.det_succ_row_zero]
  simp [Fin.sum_univ_succ, Matrix.det_fin_three, Matrix.submatrix, mat, vec, Fin.succAbove,
    Simd4x4f.detVec, Simd4x4f.r1Sum, Simd4x4f.minor1, Simd4x4f.minor2, Simd4x4f.minor3, greal]
  ring

theorem transpose_real (m : M4 ℝ) : mat (GMatrix.transpose m) = (mat m)ᵀ := by
  ext i j
  fin_cases i <;> fin_cases j <;> simp [mat, vec, GMatrix.transpose, greal]

/-- C53 is false: on every backend `graphene_matrix_determinant` of the identity matrix is -1. -/
theorem C53_sign_false (bk : Backend) :
    GMatrix.determinant bk (GMatrix.initIdentity : M4 ℝ) = -1 := by
  have h := detVec_real bk (GMatrix.initIdentity : M4 ℝ)
  rw [initIdentity_real, det_one] at h
  exact h

/-- C53, what holds: `graphene_matrix_determinant` is the *negated* determinant on every backend — so it
is multiplicative up to sign and invariant under `graphene_matrix_transpose` — and `is_singular`
is right, since it compares the absolute value with `FLT_EPSILON`.  Missing: the sign. -/
theorem C53_determinant_partial (bk : Backend) (m n : M4 ℝ) :
    GMatrix.determinant bk m = -(mat m).det ∧
    GMatrix.determinant bk (GMatrix.multiply m n) =
      -(GMatrix.determinant bk m * GMatrix.determinant bk n) ∧
    GMatrix.determinant bk (GMatrix.transpose m) = GMatrix.determinant bk m := by
  have h : ∀ m : M4 ℝ, GMatrix.determinant bk m = -(mat m).det := detVec_real bk
  refine ⟨h m, ?_, ?_⟩
  · rw [h, h, h, GMatrix.multiply, matrixMul_real, det_mul]; ring
  · rw [h, h, transpose_real, det_transpose]

/-- C53: `is_singular` is true exactly when the determinant is at most `FLT_EPSILON` in absolute
value. -/
theorem C53_singular (bk : Backend) (m : M4 ℝ) :
    GMatrix.isSingular bk m = true ↔ |(mat m).det| ≤ eps := by
  rw [GMatrix.isSingular]
  simp only [RealScalar.le_eq, RealScalar.abs_eq, fltEps_real]
  rw [show (Simd4x4f.determinant bk m).1.x = -(mat m).det from detVec_real bk m, abs_neg]

/-- non-vacuity: a singular and a regular matrix -/
example (bk : Backend) : GMatrix.isSingular bk (GMatrix.initScale (0 : ℝ) 1 1) = true ∧
    GMatrix.isSingular bk (GMatrix.initScale (2 : ℝ) 1 1) = false := by
  have h : ∀ a : ℝ, (mat (GMatrix.initScale a 1 1)).det = a := by
    intro a
    rw [Matrix.det_succ_row_zero]
    simp [Fin.sum_univ_succ, Matrix.det_fin_three, Matrix.submatrix, mat, vec, Fin.succAbove,
      GMatrix.initScale, greal]
  rw [C53_singular, ← Bool.not_eq_true, C53_singular, h, h]
  refine ⟨by simpa using eps_pos.le, ?_⟩
  have := eps_lt_one
  rw [abs_of_pos (by norm_num)]; linarith

/-! ## C54 -/

theorem div1_eq {bk : Backend} {b : ℝ} (h : eps ≤ |b|) (hb : |b| = eps → ∀ d, bk ≠ .scalar d) (a : ℝ) :
    div1 bk a b = a / b := by
  rcases lt_or_eq_of_le h with h | h
  · exact div1_real bk h
  · have hb := hb h.symm
    have h0 : b ≠ 0 := by
      intro h0; rw [h0, abs_zero] at h; exact absurd h eps_pos.ne'
    cases bk with
    | neon => simp only [div1, recip1_real' .neon h0 (by simp)]; rfl
    | sse => simp [div1]
    | gcc => simp [div1]
    | scalar d => exact absurd rfl (hb d)

theorem inverse_real (bk : Backend) (m : M4 ℝ) (h : eps ≤ |(mat m).det|)
    (hb : |(mat m).det| = eps → ∀ d, bk ≠ .scalar d) :
    ∃ r, Simd4x4f.inverse bk m = some r ∧ mat m * mat r = 1 := by
  have h0 : (mat m).det ≠ 0 := by
    intro h0; rw [h0, abs_zero] at h; exact absurd h (not_le.2 eps_pos)
  have hd : (Simd4f.div bk (Simd4f.splat f1) (Simd4x4f.detVec bk m)).x = (-(mat m).det)⁻¹ := by
    show div1 bk f1 (Simd4x4f.detVec bk m).x = _
    rw [detVec_real, div1_eq (by rwa [abs_neg]) (by rwa [abs_neg])]; simp
  have hs : (Simd4x4f.inverse bk m).isSome := by
    rw [Simd4x4f.inverse]
    simp only [detVec_real, RealScalar.le_eq, RealScalar.abs_eq, fltEps_real, abs_neg, if_pos h,
      Option.isSome_some]
  obtain ⟨r, hr⟩ := Option.isSome_iff_exists.1 hs
  refine ⟨r, hr, ?_⟩
  have e : -(mat m).det * (-(mat m).det)⁻¹ = 1 := mul_inv_cancel₀ (neg_ne_zero.2 h0)
  rw [Simd4x4f.inverse] at hr
  simp only [detVec_real, RealScalar.le_eq, RealScalar.abs_eq, fltEps_real, abs_neg, if_pos h,
    splatX, hd, Option.some.injEq] at hr
  generalize (-(mat m).det)⁻¹ = k at *
  rw [← detVec_real bk] at e
  subst hr
  obtain ⟨⟨a0, a1, a2, a3⟩, ⟨b0, b1, b2, b3⟩, ⟨c0, c1, c2, c3⟩, ⟨d0, d1, d2, d3⟩⟩ := m
  clear hd hs h hb h0
  simp [Simd4x4f.detVec, Simd4x4f.r1Sum, Simd4x4f.minor1, Simd4x4f.minor2, Simd4x4f.minor3, greal] at e
  ext i j
  fin_cases i <;> fin_cases j <;>
    simp [mat, vec, Matrix.mul_apply, Fin.sum_univ_succ, Simd4x4f.r1Sum, Simd4x4f.rowSum,
      Simd4x4f.minor1, Simd4x4f.minor2, Simd4x4f.minor3, greal] <;>
    first | ring1 | linear_combination e

/-- C54: `graphene_matrix_inverse` succeeds exactly when `|det| ≥ FLT_EPSILON`; the result is then the
two-sided inverse (on the scalar backend: when `|det| > FLT_EPSILON`). -/
theorem C54_inverse (bk : Backend) (m : M4 ℝ) :
    ((GMatrix.inverse bk m).isSome ↔ eps ≤ |(mat m).det|) ∧
    ∀ r, GMatrix.inverse bk m = some r → (|(mat m).det| = eps → ∀ d, bk ≠ .scalar d) →
      GMatrix.multiply m r = GMatrix.initIdentity ∧ GMatrix.multiply r m = GMatrix.initIdentity := by
  have hsome : (GMatrix.inverse bk m).isSome ↔ eps ≤ |(mat m).det| := by
    rw [GMatrix.inverse, Simd4x4f.inverse]
    simp only [detVec_real, RealScalar.le_eq, RealScalar.abs_eq, fltEps_real, abs_neg]
    split_ifs with h <;> simp [h]
  refine ⟨hsome, ?_⟩
  intro r hr hb
  have h : eps ≤ |(mat m).det| := hsome.1 (by rw [hr]; rfl)
  obtain ⟨r', e, h1⟩ := inverse_real bk m h hb
  have : r' = r := by
    have : some r' = some r := by rw [← e, ← hr]; rfl
    exact Option.some.inj this
  subst this
  have h2 : mat r' * mat m = 1 := mul_eq_one_comm.1 h1
  constructor <;> apply mat_injective <;>
    simp only [GMatrix.multiply, matrixMul_real, initIdentity_real, h1, h2]

/-- C54: `is_backface_visible` is true exactly when the matrix is invertible (in the above sense) and
the `z` scale of its inverse — the cofactor of the `zz` entry over the determinant — is negative. -/
theorem C54_backface (bk : Backend) (m : M4 ℝ) (hb : |(mat m).det| = eps → ∀ d, bk ≠ .scalar d) :
    GMatrix.isBackfaceVisible bk m = true ↔
      eps ≤ |(mat m).det| ∧ (mat m)⁻¹ 2 2 < 0 := by
  by_cases h : eps ≤ |(mat m).det|
  · obtain ⟨r, e, h1⟩ := inverse_real bk m h hb
    rw [Matrix.inv_eq_right_inv h1, GMatrix.isBackfaceVisible, e]
    simp only [h, true_and, RealScalar.lt_eq, RealScalar.f0_eq]
    rfl
  · have : Simd4x4f.inverse bk m = none := by
      have := (C54_inverse bk m).1.not.2 h
      simpa [GMatrix.inverse] using this
    rw [GMatrix.isBackfaceVisible, this]
    simp [h]

/-- the matrix scaling `x` by `FLT_EPSILON` -/
noncomputable def tinyScale : M4 ℝ := GMatrix.initScale eps 1 1

/-- C54 is false on the scalar backend when `|det|` is exactly `FLT_EPSILON`: `inverse` reports
success and returns a matrix that is not an inverse (the guarded division yields the zero
matrix). -/
theorem C54_scalar_false (d : Bool) :
    ∃ (m r : M4 ℝ), GMatrix.inverse (.scalar d) m = some r ∧
      GMatrix.multiply m r ≠ GMatrix.initIdentity := by
  have hdet : (mat tinyScale).det = eps := by
    rw [Matrix.det_succ_row_zero]
    simp [Fin.sum_univ_succ, Matrix.det_fin_three, Matrix.submatrix, mat, vec, Fin.succAbove,
      tinyScale, GMatrix.initScale, greal]
  have h : eps ≤ |(mat tinyScale).det| := by rw [hdet]; exact le_abs_self _
  have hd : (Simd4f.div (.scalar d) (Simd4f.splat f1) (Simd4x4f.detVec (.scalar d) tinyScale)).x = 0 := by
    show div1 (.scalar d) f1 (Simd4x4f.detVec (.scalar d) tinyScale).x = _
    rw [detVec_real, hdet]
    simp [div1, abs_of_pos eps_pos]
  obtain ⟨r, hr⟩ := Option.isSome_iff_exists.1 ((C54_inverse (.scalar d) tinyScale).1.2 h)
  refine ⟨tinyScale, r, hr, ?_⟩
  rw [GMatrix.inverse, Simd4x4f.inverse] at hr
  simp only [detVec_real, RealScalar.le_eq, RealScalar.abs_eq, fltEps_real, abs_neg, if_pos h,
    splatX, hd, Option.some.injEq] at hr
  subst hr
  intro hh
  have hh := congrArg (fun m => m.x.x) hh
  simp [GMatrix.multiply, GMatrix.initIdentity, greal] at hh

/-- non-vacuity: an invertible non-diagonal matrix -/
example (bk : Backend) : ∃ r, GMatrix.inverse bk
    (⟨⟨1, 2, 0, 0⟩, ⟨3, 4, 0, 0⟩, ⟨0, 0, 1, 0⟩, ⟨5, 6, 7, 1⟩⟩ : M4 ℝ) = some r := by
  rw [← Option.isSome_iff_exists, (C54_inverse bk _).1]
  have : (mat (⟨⟨1, 2, 0, 0⟩, ⟨3, 4, 0, 0⟩, ⟨0, 0, 1, 0⟩, ⟨5, 6, 7, 1⟩⟩ : M4 ℝ)).det = -2 := by
    rw [Matrix.det_succ_row_zero]
    simp [Fin.sum_univ_succ, Matrix.det_fin_three, Matrix.submatrix, mat, vec, Fin.succAbove]
    norm_num
  rw [this, abs_of_neg (by norm_num)]
  have := eps_lt_one
  linarith

end Graphene
