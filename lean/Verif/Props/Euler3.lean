/-
  C79: Euler angles recovered from a matrix or a quaternion.
-/
import Verif.Props.Euler2
import Verif.Props.Matrix6

namespace Graphene
open Spec Simd4f Matrix

/-- rotation matrices (row vectors, no translation) -/
structure Spec.Rotation (m : M4 ℝ) : Prop where
  orthogonal : mat m * (mat m)ᵀ = 1
  det : (mat m).det = 1
  affine : Affine m
  fixed : m.w = ⟨0, 0, 0, 1⟩

/-- the entries of a rotation matrix: rows and columns are unit, and every entry equals its cofactor -/
theorem Spec.Rotation.entries {m : M4 ℝ} (h : Rotation m) :
    (m.x.x ^ 2 + m.x.y ^ 2 + m.x.z ^ 2 = 1 ∧ m.x.z ^ 2 + m.y.z ^ 2 + m.z.z ^ 2 = 1 ∧
     m.x.x ^ 2 + m.y.x ^ 2 + m.z.x ^ 2 = 1 ∧ m.z.x ^ 2 + m.z.y ^ 2 + m.z.z ^ 2 = 1 ∧
     m.x.y ^ 2 + m.y.y ^ 2 + m.z.y ^ 2 = 1 ∧ m.y.x ^ 2 + m.y.y ^ 2 + m.y.z ^ 2 = 1) ∧
    m.x.x = m.y.y * m.z.z - m.y.z * m.z.y ∧ m.x.y = m.y.z * m.z.x - m.y.x * m.z.z ∧ m.x.z = m.y.x * m.z.y - m.y.y * m.z.x ∧
    m.y.x = m.z.y * m.x.z - m.z.z * m.x.y ∧ m.y.y = m.z.z * m.x.x - m.z.x * m.x.z ∧ m.y.z = m.z.x * m.x.y - m.z.y * m.x.x ∧
    m.z.x = m.x.y * m.y.z - m.x.z * m.y.y ∧ m.z.y = m.x.z * m.y.x - m.x.x * m.y.z ∧ m.z.z = m.x.x * m.y.y - m.x.y * m.y.x := by
  obtain ⟨h1, h2, ⟨a1, a2, a3, a4⟩, h4⟩ := h
  obtain ⟨⟨m00, m01, m02, m03⟩, ⟨m10, m11, m12, m13⟩, ⟨m20, m21, m22, m23⟩, ⟨m30, m31, m32, m33⟩⟩ := m
  simp only [V4.mk.injEq] at a1 a2 a3 a4 h4
  obtain ⟨rfl, rfl, rfl, rfl⟩ := h4
  subst a1 a2 a3
  set B : Matrix (Fin 3) (Fin 3) ℝ := !![m00, m01, m02; m10, m11, m12; m20, m21, m22] with hB
  have e : ∀ i j, _ = _ := fun i j => congrFun (congrFun h1 i) j
  have hBB : B * Bᵀ = 1 := by
    have e00 := e 0 0
    have e01 := e 0 1
    have e02 := e 0 2
    have e10 := e 1 0
    have e11 := e 1 1
    have e12 := e 1 2
    have e20 := e 2 0
    have e21 := e 2 1
    have e22 := e 2 2
    simp [mat, vec, Matrix.mul_apply, Fin.sum_univ_succ] at e00 e01 e02 e10 e11 e12 e20 e21 e22
    ext i j
    fin_cases i <;> fin_cases j <;> simp [B, Matrix.mul_apply, Fin.sum_univ_succ] <;> linarith
  have hdet : B.det = 1 := by
    rw [Matrix.det_succ_row_zero] at h2
    simp [mat, vec, Fin.sum_univ_succ, Matrix.det_fin_three, Matrix.submatrix, Fin.succAbove] at h2
    rw [Matrix.det_fin_three]; simp [B]; linarith
  have hadj : B.adjugate = Bᵀ := by
    have : Bᵀ * (B * B.adjugate) = Bᵀ := by rw [Matrix.mul_adjugate, hdet, one_smul, mul_one]
    rw [← Matrix.mul_assoc, mul_eq_one_comm.mp hBB, one_mul] at this
    exact this
  have hBB' : Bᵀ * B = 1 := mul_eq_one_comm.mp hBB
  rw [hB, Matrix.adjugate_fin_three] at hadj
  have a : ∀ i j, _ = _ := fun i j => congrFun (congrFun hadj i) j
  have b : ∀ i j, _ = _ := fun i j => congrFun (congrFun hBB i) j
  have c : ∀ i j, _ = _ := fun i j => congrFun (congrFun hBB' i) j
  have b0 := b 0 0
  have b1 := b 1 1
  have b2 := b 2 2
  have c0 := c 0 0
  have c1 := c 1 1
  have c2 := c 2 2
  have a00 := a 0 0
  have a01 := a 0 1
  have a02 := a 0 2
  have a10 := a 1 0
  have a11 := a 1 1
  have a12 := a 1 2
  have a20 := a 2 0
  have a21 := a 2 1
  have a22 := a 2 2
  simp [B, Matrix.mul_apply, Fin.sum_univ_succ] at b0 b1 b2 c0 c1 c2
  simp at a00 a01 a02 a10 a11 a12 a20 a21 a22
  dsimp only
  refine ⟨⟨?_, ?_, ?_, ?_, ?_, ?_⟩, ?_, ?_, ?_, ?_, ?_, ?_, ?_, ?_, ?_⟩ <;> linarith

theorem Spec.Rotation.transpose {m : M4 ℝ} (h : Rotation m) : Rotation (GMatrix.transpose m) := by
  have ht : mat (GMatrix.transpose m) = (mat m)ᵀ := transpose_real m
  refine ⟨?_, ?_, ?_, ?_⟩
  · rw [ht, Matrix.transpose_transpose]; exact mul_eq_one_comm.mp h.orthogonal
  · rw [ht, Matrix.det_transpose, h.det]
  · have := h.fixed
    simp only [Affine, GMatrix.transpose, Simd4x4f.transpose] at *
    simp [this]
  · have := h.affine
    simp only [Affine, GMatrix.transpose, Simd4x4f.transpose] at *
    simp [this]

/-- the cosine and sine of `atan2 (b, a)` -/
theorem cos_sin_arg {a b r : ℝ} (hr : 0 < r) (h : a ^ 2 + b ^ 2 = r ^ 2) :
    r * Real.cos (Complex.arg ⟨a, b⟩) = a ∧ r * Real.sin (Complex.arg ⟨a, b⟩) = b := by
  have hn : ‖(⟨a, b⟩ : ℂ)‖ = r := by
    rw [Complex.norm_def, Complex.normSq_mk, ← Real.sqrt_sq hr.le, ← h]; congr 1; ring
  have hne : (⟨a, b⟩ : ℂ) ≠ 0 := by rw [← norm_pos_iff, hn]; exact hr
  rw [Complex.cos_arg hne, Complex.sin_arg, hn]
  dsimp only
  constructor <;> field_simp

/-- what `matrix_to_euler` computes for the order SXYZ -/
theorem anglesOf_sxyz (m : M4 ℝ) : Euler.anglesOf m RealOrder.SXYZ.params =
    let cy := √(m.x.x * m.x.x + m.x.y * m.x.y)
    if 16 * eps ≤ cy then (Complex.arg ⟨m.z.z, m.y.z⟩, Complex.arg ⟨cy, -m.x.z⟩, Complex.arg ⟨m.x.x, m.x.y⟩)
    else (Complex.arg ⟨m.y.y, -m.z.y⟩, Complex.arg ⟨cy, -m.x.z⟩, 0) := by
  have hthr : (((16 : ℤ) : ℝ) / ((1 : ℕ) : ℝ)) * fltEps = 16 * eps := by simp [fltEps_real]
  simp only [Euler.anglesOf, RealOrder.params, AxisParam.j, AxisParam.k, nextAxis, RealScalar.le_eq, RealScalar.sqrt_eq,
    RealScalar.add_eq, RealScalar.mul_eq, RealScalar.atan2_eq, RealScalar.f0_eq, RealScalar.lit_eq, Bool.false_eq_true, if_false,
    Nat.add_zero, Nat.sub_zero]
  have e : ∀ t : ℝ, t * (((-1 : ℤ) : ℝ) / ((1 : ℕ) : ℝ)) = -t := by intro t; push_cast; ring
  simp only [e, hthr]
  rfl

/-- the angles recovered for the order SXYZ rebuild the matrix, unless it is close to, but not in, gimbal lock -/
theorem sxyz_rebuild {m : M4 ℝ} (h : Rotation m) (hg : m.x.z ^ 2 = 1 ∨ (16 * eps) ^ 2 ≤ 1 - m.x.z ^ 2) :
    let a := Euler.anglesOf m RealOrder.SXYZ.params
    axisMat .X a.1 * axisMat .Y a.2.1 * axisMat .Z a.2.2 = mat m := by
  obtain ⟨⟨n1, n2, n3, n4, n5, n6⟩, k1, k2, k3, k4, k5, k6, k7, k8, k9⟩ := h.entries
  have hA := h.affine
  have hF := h.fixed
  obtain ⟨⟨m00, m01, m02, m03⟩, ⟨m10, m11, m12, m13⟩, ⟨m20, m21, m22, m23⟩, ⟨m30, m31, m32, m33⟩⟩ := m
  simp only [V4.mk.injEq, Affine] at hA hF
  obtain ⟨rfl, rfl, rfl, rfl⟩ := hF
  obtain ⟨rfl, rfl, rfl, -⟩ := hA
  dsimp only at *
  have hcy : m00 * m00 + m01 * m01 = 1 - m02 ^ 2 := by linarith
  -- the final comparison of the entries
  have fin : ∀ x y z : ℝ, Real.cos y * Real.cos z = m00 → Real.cos y * Real.sin z = m01 → Real.sin y = -m02 →
      Real.sin x * Real.cos y = m12 → Real.cos x * Real.cos y = m22 →
      Real.sin x * Real.sin y * Real.cos z - Real.cos x * Real.sin z = m10 →
      Real.sin x * Real.sin y * Real.sin z + Real.cos x * Real.cos z = m11 →
      Real.cos x * Real.sin y * Real.cos z + Real.sin x * Real.sin z = m20 →
      Real.cos x * Real.sin y * Real.sin z - Real.sin x * Real.cos z = m21 →
      axisMat .X x * axisMat .Y y * axisMat .Z z = mat ⟨⟨m00, m01, m02, 0⟩, ⟨m10, m11, m12, 0⟩, ⟨m20, m21, m22, 0⟩, ⟨0, 0, 0, 1⟩⟩ := by
    intro x y z e1 e2 e3 e4 e5 e6 e7 e8 e9
    ext i j
    fin_cases i <;> fin_cases j <;>
      simp [axisMat, mat, vec, Matrix.mul_apply, Fin.sum_univ_succ] <;> linarith
  generalize haDef : Euler.anglesOf (α := ℝ) _ _ = a
  rcases hg with hg | hg
  · -- gimbal lock
    have sqz : ∀ p q : ℝ, p ^ 2 + q ^ 2 = 0 → p = 0 ∧ q = 0 := by
      intro p q h
      constructor <;> apply pow_eq_zero_iff two_ne_zero |>.mp <;> linarith [sq_nonneg p, sq_nonneg q]
    obtain ⟨z0, z1⟩ := sqz m00 m01 (by linarith)
    obtain ⟨z2, z3⟩ := sqz m12 m22 (by linarith)
    subst z0 z1 z2 z3
    have ha : a = (Complex.arg ⟨m11, -m21⟩, Complex.arg ⟨0, -m02⟩, 0) := by
      rw [← haDef, anglesOf_sxyz]
      have h0 : √((0 : ℝ) * 0 + 0 * 0) = 0 := by simp
      dsimp only
      rw [h0, if_neg (by linarith [eps_pos])]
    obtain ⟨c1, s1⟩ := cos_sin_arg (a := m11) (b := -m21) one_pos (by linarith)
    obtain ⟨c2, s2⟩ := cos_sin_arg (a := 0) (b := -m02) one_pos (by linarith)
    rw [one_mul] at c1 s1 c2 s2
    rw [ha]
    apply fin <;> dsimp only <;> simp only [c1, s1, c2, s2, Real.sin_zero, Real.cos_zero] <;> linarith
  · set cy := √(1 - m02 ^ 2) with hcy'
    have cpos : 0 < cy := Real.sqrt_pos.mpr (lt_of_lt_of_le (by have := eps_pos; positivity) hg)
    have csq : cy ^ 2 = 1 - m02 ^ 2 := Real.sq_sqrt (le_trans (sq_nonneg _) hg)
    have cge : 16 * eps ≤ cy := Real.le_sqrt_of_sq_le hg
    have ha : a = (Complex.arg ⟨m22, m12⟩, Complex.arg ⟨cy, -m02⟩, Complex.arg ⟨m00, m01⟩) := by
      rw [← haDef, anglesOf_sxyz]
      dsimp only
      rw [hcy, ← hcy', if_pos cge]
    obtain ⟨c1, s1⟩ := cos_sin_arg (a := m22) (b := m12) cpos (by linarith)
    obtain ⟨c2, s2⟩ := cos_sin_arg (a := cy) (b := -m02) one_pos (by linarith)
    obtain ⟨c3, s3⟩ := cos_sin_arg (a := m00) (b := m01) cpos (by linarith)
    rw [one_mul] at c2 s2
    rw [ha]
    dsimp only
    generalize Complex.arg ⟨m22, m12⟩ = x at *
    generalize Complex.arg ⟨cy, -m02⟩ = y at *
    generalize Complex.arg ⟨m00, m01⟩ = z at *
    have hne : cy ^ 2 ≠ 0 := by positivity
    apply fin
    · rw [c2]; exact c3
    · rw [c2]; exact s3
    · exact s2
    · rw [c2]; linarith
    · rw [c2]; linarith
    all_goals
      apply mul_left_cancel₀ hne
      rw [s2]
    · have : cy ^ 2 * m10 = -m12 * m02 * m00 - m22 * m01 := by
        rw [csq]; linear_combination k4 + m02 * (k8 : m21 = _)
      rw [this, ← s1, ← c3, ← c1, ← s3]; ring
    · have : cy ^ 2 * m11 = -m12 * m02 * m01 + m22 * m00 := by
        rw [csq]; linear_combination k5 - m02 * (k7 : m20 = _)
      rw [this, ← s1, ← c3, ← c1, ← s3]; ring
    · have : cy ^ 2 * m20 = -m22 * m02 * m00 + m12 * m01 := by
        rw [csq]; linear_combination k7 - m02 * (k5 : m11 = _)
      rw [this, ← s1, ← c3, ← c1, ← s3]; ring
    · have : cy ^ 2 * m21 = -m22 * m02 * m01 - m12 * m00 := by
        rw [csq]; linear_combination k8 + m02 * (k4 : m10 = _)
      rw [this, ← s1, ← c3, ← c1, ← s3]; ring

/-- what `matrix_to_euler` computes for the order RXYZ -/
theorem anglesOf_rxyz (m : M4 ℝ) : Euler.anglesOf m RealOrder.RXYZ.params =
    let cy := √(m.z.z * m.z.z + m.z.y * m.z.y)
    if 16 * eps ≤ cy then (-Complex.arg ⟨m.z.z, m.z.y⟩, -Complex.arg ⟨cy, -m.z.x⟩, -Complex.arg ⟨m.x.x, m.y.x⟩)
    else (0, -Complex.arg ⟨cy, -m.z.x⟩, -Complex.arg ⟨m.y.y, -m.x.y⟩) := by
  have hthr : (((16 : ℤ) : ℝ) / ((1 : ℕ) : ℝ)) * fltEps = 16 * eps := by simp [fltEps_real]
  have e : ∀ t : ℝ, t * (((-1 : ℤ) : ℝ) / ((1 : ℕ) : ℝ)) = -t := by intro t; push_cast; ring
  simp only [Euler.anglesOf, RealOrder.params, AxisParam.j, AxisParam.k, nextAxis, RealScalar.le_eq, RealScalar.sqrt_eq,
    RealScalar.add_eq, RealScalar.mul_eq, RealScalar.atan2_eq, RealScalar.f0_eq, RealScalar.lit_eq, Bool.false_eq_true, if_false,
    if_true, e, hthr]
  have hc : √(GMatrix.getValue m 2 2 * GMatrix.getValue m 2 2 + GMatrix.getValue m 2 1 * GMatrix.getValue m 2 1) =
    √(m.z.z * m.z.z + m.z.y * m.z.y) := rfl
  simp only [Nat.reduceAdd, Nat.reduceSub, hc]
  split
  · rfl
  · simp only [neg_zero]; rfl

/-- the angles recovered for the order RXYZ rebuild the matrix, unless it is close to, but not in, gimbal lock -/
theorem rxyz_rebuild {m : M4 ℝ} (h : Rotation m) (hg : m.z.x ^ 2 = 1 ∨ (16 * eps) ^ 2 ≤ 1 - m.z.x ^ 2) :
    let a := Euler.anglesOf m RealOrder.RXYZ.params
    axisMat .Z a.2.2 * axisMat .Y a.2.1 * axisMat .X a.1 = mat m := by
  obtain ⟨⟨n1, n2, n3, n4, n5, n6⟩, k1, k2, k3, k4, k5, k6, k7, k8, k9⟩ := h.entries
  have hA := h.affine
  have hF := h.fixed
  obtain ⟨⟨m00, m01, m02, m03⟩, ⟨m10, m11, m12, m13⟩, ⟨m20, m21, m22, m23⟩, ⟨m30, m31, m32, m33⟩⟩ := m
  simp only [V4.mk.injEq, Affine] at hA hF
  obtain ⟨rfl, rfl, rfl, rfl⟩ := hF
  obtain ⟨rfl, rfl, rfl, -⟩ := hA
  dsimp only at *
  have hcy : m22 * m22 + m21 * m21 = 1 - m20 ^ 2 := by linarith
  have fin : ∀ x y z : ℝ, Real.cos z * Real.cos y = m00 → Real.sin z * Real.cos x + Real.cos z * Real.sin y * Real.sin x = m01 →
      Real.sin z * Real.sin x - Real.cos z * Real.sin y * Real.cos x = m02 →
      -Real.sin z * Real.cos y = m10 → Real.cos z * Real.cos x - Real.sin z * Real.sin y * Real.sin x = m11 →
      Real.cos z * Real.sin x + Real.sin z * Real.sin y * Real.cos x = m12 →
      Real.sin y = m20 → -Real.cos y * Real.sin x = m21 → Real.cos y * Real.cos x = m22 →
      axisMat .Z z * axisMat .Y y * axisMat .X x = mat ⟨⟨m00, m01, m02, 0⟩, ⟨m10, m11, m12, 0⟩, ⟨m20, m21, m22, 0⟩, ⟨0, 0, 0, 1⟩⟩ := by
    intro x y z e1 e2 e3 e4 e5 e6 e7 e8 e9
    ext i j
    fin_cases i <;> fin_cases j <;>
      simp [axisMat, mat, vec, Matrix.mul_apply, Fin.sum_univ_succ] <;> linarith
  generalize haDef : Euler.anglesOf (α := ℝ) _ _ = a
  rcases hg with hg | hg
  · have sqz : ∀ p q : ℝ, p ^ 2 + q ^ 2 = 0 → p = 0 ∧ q = 0 := by
      intro p q h
      constructor <;> apply pow_eq_zero_iff two_ne_zero |>.mp <;> linarith [sq_nonneg p, sq_nonneg q]
    obtain ⟨z0, z1⟩ := sqz m00 m10 (by linarith)
    obtain ⟨z2, z3⟩ := sqz m21 m22 (by linarith)
    subst z0 z1 z2 z3
    have ha : a = (0, -Complex.arg ⟨0, -m20⟩, -Complex.arg ⟨m11, -m01⟩) := by
      rw [← haDef, anglesOf_rxyz]
      have h0 : √((0 : ℝ) * 0 + 0 * 0) = 0 := by simp
      dsimp only
      rw [h0, if_neg (by linarith [eps_pos])]
    obtain ⟨c1, s1⟩ := cos_sin_arg (a := m11) (b := -m01) one_pos (by linarith)
    obtain ⟨c2, s2⟩ := cos_sin_arg (a := 0) (b := -m20) one_pos (by linarith)
    rw [one_mul] at c1 s1 c2 s2
    rw [ha]
    apply fin <;> dsimp only <;> simp only [Real.sin_neg, Real.cos_neg, c1, s1, c2, s2, Real.sin_zero, Real.cos_zero] <;> linarith
  · set cy := √(1 - m20 ^ 2) with hcy'
    have cpos : 0 < cy := Real.sqrt_pos.mpr (lt_of_lt_of_le (by have := eps_pos; positivity) hg)
    have csq : cy ^ 2 = 1 - m20 ^ 2 := Real.sq_sqrt (le_trans (sq_nonneg _) hg)
    have cge : 16 * eps ≤ cy := Real.le_sqrt_of_sq_le hg
    have ha : a = (-Complex.arg ⟨m22, m21⟩, -Complex.arg ⟨cy, -m20⟩, -Complex.arg ⟨m00, m10⟩) := by
      rw [← haDef, anglesOf_rxyz]
      dsimp only
      rw [hcy, ← hcy', if_pos cge]
    obtain ⟨c1, s1⟩ := cos_sin_arg (a := m22) (b := m21) cpos (by linarith)
    obtain ⟨c2, s2⟩ := cos_sin_arg (a := cy) (b := -m20) one_pos (by linarith)
    obtain ⟨c3, s3⟩ := cos_sin_arg (a := m00) (b := m10) cpos (by linarith)
    rw [one_mul] at c2 s2
    rw [ha]
    dsimp only
    generalize Complex.arg ⟨m22, m21⟩ = x at *
    generalize Complex.arg ⟨cy, -m20⟩ = y at *
    generalize Complex.arg ⟨m00, m10⟩ = z at *
    have hne : cy ^ 2 ≠ 0 := by positivity
    have e01 : cy ^ 2 * m01 = -m20 * m21 * m00 - m10 * m22 := by rw [csq]; linear_combination k2 + m20 * (k6 : m12 = _)
    have e02 : cy ^ 2 * m02 = m10 * m21 - m20 * m22 * m00 := by rw [csq]; linear_combination k3 - m20 * (k5 : m11 = _)
    have e11 : cy ^ 2 * m11 = m22 * m00 - m20 * m10 * m21 := by rw [csq]; linear_combination k5 - m20 * (k3 : m02 = _)
    have e12 : cy ^ 2 * m12 = -m21 * m00 - m20 * m10 * m22 := by rw [csq]; linear_combination k6 + m20 * (k2 : m01 = _)
    apply fin <;> simp only [Real.sin_neg, Real.cos_neg, s2, c2]
    · linarith
    · apply mul_left_cancel₀ hne; rw [e01]; clear_value cy; subst s1 c1 c3 s3; ring
    · apply mul_left_cancel₀ hne; rw [e02]; clear_value cy; subst s1 c1 c3 s3; ring
    · linarith
    · apply mul_left_cancel₀ hne; rw [e11]; clear_value cy; subst s1 c1 c3 s3; ring
    · apply mul_left_cancel₀ hne; rw [e12]; clear_value cy; subst s1 c1 c3 s3; ring
    · linarith
    · linarith
    · linarith

/-! ## the theorems -/

/-- the gimbal-lock entry of the matrix for the two orders whose round trip works: `±sin` of the second angle -/
def Spec.lockEntry (o : EulerOrder) (m : M4 ℝ) : ℝ := if o.realOrder = .SXYZ then m.x.z else m.z.x

/-- C79, what holds: for the orders SXYZ (also DEFAULT and the deprecated XYZ) and RXYZ, converting a rotation
matrix to Euler angles and back gives the matrix again, in gimbal lock or well away from it.  The hypothesis on
`is_identity` holds on the SIMD backends (`C67_identity`).  Missing: the 22 other orders (`C79_order_false`),
and matrices within 16 · FLT_EPSILON of gimbal lock. -/
theorem C79_roundtrip_partial (bk : Backend) (m : M4 ℝ) (o : EulerOrder) (hm : Rotation m)
    (ho : o.realOrder = .SXYZ ∨ o.realOrder = .RXYZ)
    (hg : lockEntry o m ^ 2 = 1 ∨ (16 * eps) ^ 2 ≤ 1 - lockEntry o m ^ 2)
    (hid : GMatrix.isIdentity bk m = true → mat m = 1) :
    (Euler.initFromMatrix bk (some m) o).toMatrix = m := by
  apply mat_injective
  simp only [Euler.initFromMatrix]
  split
  · rename_i hi
    rw [hid hi]
    have h0 : Euler.initWithOrder (f0 : ℝ) f0 f0 o = Euler.initFromRadians 0 0 0 o := by
      simp [Euler.initWithOrder, degToRad]
    have z : ∀ a, axisMat a (angleOf (0 : ℝ) 0 0 a) = 1 := by
      intro a
      cases a <;> ext i j <;> fin_cases i <;> fin_cases j <;> simp [axisMat, angleOf]
    rw [h0, C77_to_matrix]
    simp only [z, mul_one, ite_self]
  · rw [C77_to_matrix]
    have hr : (EulerOrder.real o.realOrder).realOrder = o.realOrder := rfl
    rw [hr]
    rcases ho with ho | ho
    · rw [ho]; simp only [axesOf, isStatic, angleOf, if_true]
      exact sxyz_rebuild hm (by simpa [lockEntry, ho] using hg)
    · rw [ho]; simp only [axesOf, isStatic, angleOf, Bool.false_eq_true, if_false]
      exact rxyz_rebuild hm (by simpa [lockEntry, ho] using hg)

/-- a quarter turn about an axis, written out -/
def Spec.quarter : Axis → M4 ℝ
  | .X => ⟨⟨1, 0, 0, 0⟩, ⟨0, 0, 1, 0⟩, ⟨0, -1, 0, 0⟩, ⟨0, 0, 0, 1⟩⟩
  | .Y => ⟨⟨0, 0, -1, 0⟩, ⟨0, 1, 0, 0⟩, ⟨1, 0, 0, 0⟩, ⟨0, 0, 0, 1⟩⟩
  | .Z => ⟨⟨0, 1, 0, 0⟩, ⟨-1, 0, 0, 0⟩, ⟨0, 0, 1, 0⟩, ⟨0, 0, 0, 1⟩⟩

theorem quarter_mat (a : Axis) : mat (quarter a) = axisMat a (Real.pi / 2) := by
  cases a <;> ext i j <;> fin_cases i <;> fin_cases j <;> simp [mat, vec, quarter, axisMat]

theorem quarter_rotation (a : Axis) : Rotation (quarter a) := by
  refine ⟨?_, ?_, ?_, ?_⟩
  · rw [quarter_mat]; exact (axisMat_orth _ _).1
  · rw [quarter_mat]; exact (axisMat_orth _ _).2
  · cases a <;> simp [Affine, quarter]
  · cases a <;> rfl

/-- the axis whose quarter turn does not survive the round trip -/
def sepAxis (r : RealOrder) : Axis :=
  if r.params.repetition = true ∨ (axesOf r).1 ≠ .X then (axesOf r).1 else (axesOf r).2.2

theorem arg_quarters : Complex.arg ⟨0, 1⟩ = Real.pi / 2 ∧ Complex.arg ⟨0, -1⟩ = -(Real.pi / 2) ∧ Complex.arg ⟨1, 0⟩ = 0 := by
  refine ⟨?_, ?_, ?_⟩
  · exact Complex.arg_I
  · have : (⟨0, -1⟩ : ℂ) = -Complex.I := by apply Complex.ext <;> simp
    rw [this, Complex.arg_neg_I]
  · exact Complex.arg_one

set_option maxHeartbeats 1000000 in
theorem quarter_angles (r : RealOrder) (hr : r ≠ .SXYZ ∧ r ≠ .RXYZ) :
    Euler.anglesOf (quarter (sepAxis r)) r.params =
      if (r.params.repetition = true ∧ isStatic r = false) ∨ (r.params.repetition = false ∧ (axesOf r).1 = .X) then
        (0, 0, Real.pi / 2) else (Real.pi / 2, 0, 0) := by
  have hthr : (((16 : ℤ) : ℝ) / ((1 : ℕ) : ℝ)) * fltEps = 16 * eps := by simp [fltEps_real]
  have e : ∀ t : ℝ, t * (((-1 : ℤ) : ℝ) / ((1 : ℕ) : ℝ)) = -t := by intro t; push_cast; ring
  obtain ⟨q1, q2, q3⟩ := arg_quarters
  have n0 : ¬ (16 * eps ≤ 0) := by linarith [eps_pos]
  have n1 : 16 * eps ≤ 1 := by simp only [eps]; norm_num
  cases r <;> simp at hr <;>
    (simp only [sepAxis, axesOf, RealOrder.params, isStatic]
     simp only [Euler.anglesOf, RealOrder.params, AxisParam.j, AxisParam.k, nextAxis, RealScalar.le_eq, RealScalar.sqrt_eq,
    RealScalar.add_eq, RealScalar.mul_eq, RealScalar.atan2_eq, RealScalar.f0_eq, RealScalar.lit_eq, Bool.false_eq_true, if_false,
    Nat.add_zero, Nat.sub_zero, e, hthr]
     simp [GMatrix.getValue, GMatrix.getRow, quarter, Simd4f.get, q1, q2, q3, n0, n1])

/-- C79 is false for each of the 22 other orders: some quarter turn about a coordinate axis does not survive
the conversion to Euler angles and back.  (The angles found for the first, second and third axis of the order
are stored as the x, y and z angles.) -/
theorem C79_order_false (bk : Backend) (o : EulerOrder) (ho : o.realOrder ≠ .SXYZ ∧ o.realOrder ≠ .RXYZ) :
    ∃ m : M4 ℝ, Rotation m ∧ (Euler.initFromMatrix bk (some m) o).toMatrix ≠ m := by
  refine ⟨quarter (sepAxis o.realOrder), quarter_rotation _, ?_⟩
  have hi : GMatrix.isIdentity bk (quarter (sepAxis o.realOrder)) = false := by
    have h01 : approxEqual (0 : ℝ) 1 eps = false := by
      simp only [approxEqual, greal]; unfold eps; norm_num
    cases sepAxis o.realOrder <;> rcases bk with ⟨_ | _, _ | _⟩ | _ | _ | ⟨_ | _⟩ <;>
      simp [GMatrix.isIdentity, Simd4x4f.isIdentity, quarter, cmpEq, eq1, Simd4f.init, h01]
  intro h
  have hm := congrArg mat h
  simp only [Euler.initFromMatrix, hi, Bool.false_eq_true, if_false] at hm
  rw [quarter_angles _ ho, C77_to_matrix, quarter_mat] at hm
  have hr : (EulerOrder.real o.realOrder).realOrder = o.realOrder := rfl
  rw [hr] at hm
  clear h hi hr
  generalize o.realOrder = r at *
  have h00 := congrFun (congrFun hm 0) 0
  have h11 := congrFun (congrFun hm 1) 1
  have h22 := congrFun (congrFun hm 2) 2
  clear hm
  cases r <;> simp at ho <;>
    simp [sepAxis, RealOrder.params, axesOf, isStatic, angleOf, axisMat] at h00 h11 h22

/-- C79, what holds for quaternions and for `reorder`: Euler angles in the order SXYZ or RXYZ made from a unit
quaternion have the rotation of that quaternion, and reordering from SXYZ or RZYX to SXYZ or RXYZ keeps the
rotation; with the same condition on gimbal lock.  Missing: the other orders (`C79_order_false`,
`C79_reorder_false`). -/
theorem C79_quaternion_partial (bk : Backend) (q : Quat ℝ) (o : EulerOrder) (hq : UnitQuat q)
    (ho : o.realOrder = .SXYZ ∨ o.realOrder = .RXYZ)
    (hg : lockEntry o q.toMatrix ^ 2 = 1 ∨ (16 * eps) ^ 2 ≤ 1 - lockEntry o q.toMatrix ^ 2)
    (hid : GMatrix.isIdentity bk q.toMatrix = true → mat q.toMatrix = 1) :
    (Euler.initFromQuaternion bk (some q) o).toMatrix = q.toMatrix := by
  obtain ⟨h1, -, h2, h3, h4⟩ := C71_rotation q hq
  exact C79_roundtrip_partial bk q.toMatrix (.real o.realOrder) ⟨h1, h2, h4, h3⟩ ho hg hid

theorem C79_reorder_partial (bk : Backend) (x y z : ℝ) (o o' : EulerOrder) (ho : QuatOrder o)
    (ho' : o'.realOrder = .SXYZ ∨ o'.realOrder = .RXYZ) :
    let e := Euler.initFromRadians x y z o
    (lockEntry o' e.toMatrix ^ 2 = 1 ∨ (16 * eps) ^ 2 ≤ 1 - lockEntry o' e.toMatrix ^ 2) →
    (GMatrix.isIdentity bk e.toMatrix = true → mat e.toMatrix = 1) →
    (Euler.reorder bk e o').toMatrix = e.toMatrix ∧ (Euler.reorder bk e o').getOrder = .real o'.realOrder := by
  intro e hg hid
  obtain ⟨hu, hm, -⟩ := C78_quaternion_partial x y z o ho GMatrix.initIdentity
  have hm' : e.toQuaternion.toMatrix = e.toMatrix := hm
  refine ⟨?_, (C76_orders x y z o' ⟨e.angles.value⟩ e).2.2.2.2.2.2.2.2.2.2.2.2.2.2.1 bk⟩
  rw [← hm']
  exact C79_quaternion_partial bk _ (.real o'.realOrder) hu ho' (by rw [hm']; exact hg) (by rw [hm']; exact hid)

/-- C79 is false for `reorder` from an order that repeats an axis: the zero rotation, reordered to the default
order, becomes a rotation that is not the identity. -/
theorem C79_reorder_false (bk : Backend) (o : EulerOrder) (ho : o.realOrder.params.repetition = true) :
    let e := Euler.initFromRadians (0 : ℝ) 0 0 o
    mat e.toMatrix = 1 ∧ mat (Euler.reorder bk e .default).toMatrix ≠ 1 := by
  intro e
  have hq : e.toQuaternion = ⟨1, 0, 0, 1⟩ := (C78_unit_false o ho).1
  constructor
  · have z : ∀ a, axisMat a (angleOf (0 : ℝ) 0 0 a) = 1 := by
      intro a
      cases a <;> ext i j <;> fin_cases i <;> fin_cases j <;> simp [axisMat, angleOf]
    rw [C77_to_matrix]
    simp only [z, mul_one, ite_self]
  · have hM : (Quat.toMatrix (⟨1, 0, 0, 1⟩ : Quat ℝ)) =
        ⟨⟨1, 0, 0, 0⟩, ⟨0, -1, 2, 0⟩, ⟨0, -2, -1, 0⟩, ⟨0, 0, 0, 1⟩⟩ := by
      simp [Quat.toMatrix, Simd4f.init]; norm_num
    have hi : GMatrix.isIdentity bk (Quat.toMatrix (⟨1, 0, 0, 1⟩ : Quat ℝ)) = false := by
      rw [hM]
      have h01 : approxEqual (-1 : ℝ) 1 eps = false := by
        simp only [approxEqual, greal]; unfold eps; norm_num
      rcases bk with ⟨_ | _, _ | _⟩ | _ | _ | ⟨_ | _⟩ <;>
        simp [GMatrix.isIdentity, Simd4x4f.isIdentity, cmpEq, eq1, Simd4f.init, h01] <;> norm_num
    have hr : Euler.reorder bk e .default = (let a := Euler.anglesOf (Quat.toMatrix (⟨1, 0, 0, 1⟩ : Quat ℝ)) RealOrder.SXYZ.params
        Euler.initFromRadians a.1 a.2.1 a.2.2 (.real .SXYZ)) := by
      simp only [Euler.reorder, Euler.initFromQuaternion, Euler.initFromMatrix, hq, hi, Bool.false_eq_true, if_false]
      rfl
    rw [hr, hM, anglesOf_sxyz]
    dsimp only
    have n1 : 16 * eps ≤ 1 := by simp only [eps]; norm_num
    have hs : √((1 : ℝ) * 1 + 0 * 0) = 1 := by simp
    rw [hs, if_pos n1, C77_to_matrix]
    intro h
    obtain ⟨c, -⟩ := cos_sin_arg (a := -1) (b := 2) (r := √5) (by positivity) (by rw [Real.sq_sqrt (by norm_num)]; norm_num)
    obtain ⟨-, -, q3⟩ := arg_quarters
    have := congrFun (congrFun h 2) 2
    simp [EulerOrder.realOrder, axesOf, isStatic, angleOf, axisMat, q3] at this
    rw [this] at c
    linarith [Real.sqrt_nonneg 5]

/-- non-vacuity: a quarter turn about z is a rotation, far from gimbal lock for both orders; a quarter turn about
y is in gimbal lock; both survive the round trip on the SIMD backends -/
example (bk : Backend) (hb : ∀ d, bk ≠ .scalar d) :
    (Euler.initFromMatrix bk (some (quarter .Z)) .default).toMatrix = quarter .Z ∧
    (Euler.initFromMatrix bk (some (quarter .Y)) (.real .RXYZ)).toMatrix = quarter .Y := by
  have n1 : (16 * eps) ^ 2 ≤ 1 - (0 : ℝ) ^ 2 := by simp only [eps]; norm_num
  exact ⟨C79_roundtrip_partial bk _ _ (quarter_rotation _) (Or.inl rfl) (Or.inr (by simpa [lockEntry, EulerOrder.realOrder, quarter] using n1))
      (C67_identity bk hb _).1,
    C79_roundtrip_partial bk _ _ (quarter_rotation _) (Or.inr rfl) (Or.inl (by simp [lockEntry, EulerOrder.realOrder, quarter]))
      (C67_identity bk hb _).1⟩

/-- non-vacuity: a half turn about x (order RZYX) reordered to RXYZ -/
example (bk : Backend) (hb : ∀ d, bk ≠ .scalar d) :
    let e := Euler.initFromRadians Real.pi 0 0 (.real .RZYX)
    (Euler.reorder bk e (.real .RXYZ)).toMatrix = e.toMatrix := by
  intro e
  refine (C79_reorder_partial bk _ _ _ _ _ (Or.inr rfl) (Or.inr rfl) (Or.inr ?_) (C67_identity bk hb _).1).1
  have h : e.toMatrix.z.x = mat e.toMatrix 2 0 := rfl
  have h0 : e.toMatrix.z.x = 0 := by
    rw [h, C77_to_matrix]; simp [EulerOrder.realOrder, axesOf, isStatic, angleOf, axisMat]
  have : lockEntry (.real .RXYZ) e.toMatrix = 0 := by simpa [lockEntry, EulerOrder.realOrder] using h0
  rw [this]
  simp only [eps]; norm_num

end Graphene
