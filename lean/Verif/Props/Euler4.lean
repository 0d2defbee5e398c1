/-
  C79, all orders: the angles found in a rotation matrix, read by position, rebuild it.
-/
import Verif.Props.Euler3

namespace Graphene
open Spec Simd4f Matrix

/-! ### Renaming the axes -/

/-- the rotation matrix `m` with its axes renamed -/
noncomputable def renamed (i j k : Fin 4) (m : M4 ℝ) : M4 ℝ :=
  ⟨⟨mat m i i, mat m i j, mat m i k, 0⟩, ⟨mat m j i, mat m j j, mat m j k, 0⟩, ⟨mat m k i, mat m k j, mat m k k, 0⟩, ⟨0, 0, 0, 1⟩⟩

/-- renaming the axes permutes the rows and the columns -/
theorem renamed_submatrix {m : M4 ℝ} (h : Rotation m) (e : Fin 4 ≃ Fin 4) (e3 : e 3 = 3) :
    mat (renamed (e 0) (e 1) (e 2) m) = (mat m).submatrix e e := by
  have he : ∀ i, i ≠ 3 → e i ≠ 3 := fun i hi h => hi (e.injective (h.trans e3.symm))
  have c3 : ∀ i : Fin 4, i ≠ 3 → mat m i 3 = 0 := by
    obtain ⟨a1, a2, a3, a4⟩ := h.affine
    intro i hi
    fin_cases i
    · exact a1
    · exact a2
    · exact a3
    · exact absurd rfl hi
  have r3 : ∀ i : Fin 4, i ≠ 3 → mat m 3 i = 0 := by
    have := h.fixed
    intro i hi
    change vec m.w i = 0
    rw [this]
    fin_cases i
    · rfl
    · rfl
    · rfl
    · exact absurd rfl hi
  have d3 : mat m 3 3 = 1 := by
    have := h.fixed
    change vec m.w 3 = 1
    rw [this]; rfl
  ext i j
  rw [Matrix.submatrix_apply]
  fin_cases i <;> fin_cases j
  all_goals first
    | rfl
    | (change 0 = mat m (e _) (e 3); rw [e3, c3 _ (he _ (by decide))])
    | (change 0 = mat m (e 3) (e _); rw [e3, r3 _ (he _ (by decide))])
    | (change 1 = mat m (e 3) (e 3); rw [e3, d3])

theorem renamed_rotation {m : M4 ℝ} (h : Rotation m) (e : Fin 4 ≃ Fin 4) (e3 : e 3 = 3) : Rotation (renamed (e 0) (e 1) (e 2) m) := by
  have hs := renamed_submatrix h e e3
  refine ⟨?_, ?_, ⟨rfl, rfl, rfl, rfl⟩, rfl⟩
  · rw [hs, Matrix.transpose_submatrix, Matrix.submatrix_mul_equiv, h.orthogonal, Matrix.submatrix_one_equiv]
  · rw [hs, Matrix.det_submatrix_equiv_self, h.det]

/-- the six renamings of the three axes -/
theorem renamed_cases {m : M4 ℝ} (h : Rotation m) : Rotation (renamed 0 1 2 m) ∧ Rotation (renamed 0 2 1 m) ∧ Rotation (renamed 1 2 0 m) ∧
    Rotation (renamed 1 0 2 m) ∧ Rotation (renamed 2 0 1 m) ∧ Rotation (renamed 2 1 0 m) := by
  refine ⟨?_, ?_, ?_, ?_, ?_, ?_⟩
  · exact renamed_rotation h (Equiv.refl _) rfl
  · exact renamed_rotation h (Equiv.swap 1 2) (by decide)
  · exact renamed_rotation h ((Equiv.swap 0 1).trans (Equiv.swap 0 2)) (by decide)
  · exact renamed_rotation h (Equiv.swap 0 1) (by decide)
  · exact renamed_rotation h ((Equiv.swap 0 2).trans (Equiv.swap 0 1)) (by decide)
  · exact renamed_rotation h (Equiv.swap 0 2) (by decide)

/-! ### The canonical order with a repeated axis -/

/-- what `matrix_to_euler` computes for the order SXYX -/
theorem anglesOf_sxyx (m : M4 ℝ) : Euler.anglesOf m RealOrder.SXYX.params =
    let sy := √(m.y.x * m.y.x + m.z.x * m.y.x)
    if 16 * eps ≤ sy then (Complex.arg ⟨m.z.x, m.y.x⟩, Complex.arg ⟨m.x.x, sy⟩, Complex.arg ⟨-m.x.z, m.x.y⟩)
    else (Complex.arg ⟨m.y.y, -m.z.y⟩, Complex.arg ⟨m.x.x, sy⟩, 0) := by
  have hthr : (((16 : ℤ) : ℝ) / ((1 : ℕ) : ℝ)) * fltEps = 16 * eps := by simp [fltEps_real]
  simp only [Euler.anglesOf, RealOrder.params, AxisParam.j, AxisParam.k, nextAxis, RealScalar.le_eq, RealScalar.sqrt_eq,
    RealScalar.add_eq, RealScalar.mul_eq, RealScalar.atan2_eq, RealScalar.f0_eq, RealScalar.lit_eq, Bool.false_eq_true, if_false, if_true,
    Nat.add_zero, Nat.sub_zero]
  have e : ∀ t : ℝ, t * (((-1 : ℤ) : ℝ) / ((1 : ℕ) : ℝ)) = -t := by intro t; push_cast; ring
  simp only [e, hthr]
  rfl

/-- the angles recovered for the order SXYX rebuild the matrix, when the product of `m[z][x]` by `m[y][x]` in the code happens to be the square of `m[z][x]` -/
theorem sxyx_rebuild {m : M4 ℝ} (h : Rotation m) (hg : m.x.x ^ 2 = 1 ∨ (16 * eps) ^ 2 ≤ 1 - m.x.x ^ 2) (hq : m.z.x = 0 ∨ m.z.x = m.y.x) :
    let a := Euler.anglesOf m RealOrder.SXYX.params
    axisMat .X a.1 * axisMat .Y a.2.1 * axisMat .X a.2.2 = mat m := by
  obtain ⟨⟨n1, n2, n3, n4, n5, n6⟩, k1, k2, k3, k4, k5, k6, k7, k8, k9⟩ := h.entries
  have hA := h.affine
  have hF := h.fixed
  obtain ⟨⟨m00, m01, m02, m03⟩, ⟨m10, m11, m12, m13⟩, ⟨m20, m21, m22, m23⟩, ⟨m30, m31, m32, m33⟩⟩ := m
  simp only [V4.mk.injEq, Affine] at hA hF
  obtain ⟨rfl, rfl, rfl, rfl⟩ := hF
  obtain ⟨rfl, rfl, rfl, -⟩ := hA
  dsimp only at *
  have hsy : m10 * m10 + m20 * m10 = 1 - m00 ^ 2 := by
    rcases hq with hq | hq
    · rw [hq] at n3 ⊢; linarith
    · rw [hq] at n3 ⊢; linarith
  -- the final comparison of the entries
  have fin : ∀ x y z : ℝ, Real.cos y = m00 → Real.sin y * Real.sin z = m01 → Real.sin y * Real.cos z = -m02 →
      Real.sin x * Real.sin y = m10 → Real.cos x * Real.sin y = m20 →
      Real.cos x * Real.cos z - Real.sin x * Real.cos y * Real.sin z = m11 →
      Real.cos x * Real.sin z + Real.sin x * Real.cos y * Real.cos z = m12 →
      -(Real.sin x * Real.cos z) - Real.cos x * Real.cos y * Real.sin z = m21 →
      -(Real.sin x * Real.sin z) + Real.cos x * Real.cos y * Real.cos z = m22 →
      axisMat .X x * axisMat .Y y * axisMat .X z = mat ⟨⟨m00, m01, m02, 0⟩, ⟨m10, m11, m12, 0⟩, ⟨m20, m21, m22, 0⟩, ⟨0, 0, 0, 1⟩⟩ := by
    intro x y z e1 e2 e3 e4 e5 e6 e7 e8 e9
    ext i j
    fin_cases i <;> fin_cases j <;>
      simp [axisMat, mat, vec, Matrix.mul_apply, Fin.sum_univ_succ] <;> linarith
  generalize haDef : Euler.anglesOf (α := ℝ) _ _ = a
  rcases hg with hg | hg
  · have sqz : ∀ p q : ℝ, p ^ 2 + q ^ 2 = 0 → p = 0 ∧ q = 0 := by
      intro p q h
      constructor <;> apply pow_eq_zero_iff two_ne_zero |>.mp <;> linarith [sq_nonneg p, sq_nonneg q]
    obtain ⟨z0, z1⟩ := sqz m01 m02 (by linarith)
    obtain ⟨z2, z3⟩ := sqz m10 m20 (by linarith)
    subst z0 z1 z2 z3
    have ha : a = (Complex.arg ⟨m11, -m21⟩, Complex.arg ⟨m00, 0⟩, 0) := by
      rw [← haDef, anglesOf_sxyx]
      have h0 : √((0 : ℝ) * 0 + 0 * 0) = 0 := by simp
      dsimp only
      rw [h0, if_neg (by linarith [eps_pos])]
    obtain ⟨c1, s1⟩ := cos_sin_arg (a := m11) (b := -m21) one_pos (by linarith)
    obtain ⟨c2, s2⟩ := cos_sin_arg (a := m00) (b := 0) one_pos (by linarith)
    rw [one_mul] at c1 s1 c2 s2
    rw [ha]
    apply fin <;> dsimp only <;> simp only [c1, s1, c2, s2, Real.sin_zero, Real.cos_zero] <;> try linarith
  · set sy := √(1 - m00 ^ 2) with hsy'
    have cpos : 0 < sy := Real.sqrt_pos.mpr (lt_of_lt_of_le (by have := eps_pos; positivity) hg)
    have csq : sy ^ 2 = 1 - m00 ^ 2 := Real.sq_sqrt (le_trans (sq_nonneg _) hg)
    have cge : 16 * eps ≤ sy := Real.le_sqrt_of_sq_le hg
    have ha : a = (Complex.arg ⟨m20, m10⟩, Complex.arg ⟨m00, sy⟩, Complex.arg ⟨-m02, m01⟩) := by
      rw [← haDef, anglesOf_sxyx]
      dsimp only
      rw [hsy, ← hsy', if_pos cge]
    obtain ⟨c1, s1⟩ := cos_sin_arg (a := m20) (b := m10) cpos (by linarith)
    obtain ⟨c2, s2⟩ := cos_sin_arg (a := m00) (b := sy) one_pos (by linarith)
    obtain ⟨c3, s3⟩ := cos_sin_arg (a := -m02) (b := m01) cpos (by linarith)
    rw [one_mul] at c2 s2
    rw [ha]
    dsimp only
    generalize Complex.arg ⟨m20, m10⟩ = x at *
    generalize Complex.arg ⟨m00, sy⟩ = y at *
    generalize Complex.arg ⟨-m02, m01⟩ = z at *
    have hne : sy ^ 2 ≠ 0 := by positivity
    have e2 : m02 = -(sy * Real.cos z) := by linarith
    apply fin
    · exact c2
    · rw [s2]; exact s3
    · rw [s2]; exact c3
    · rw [s2]; linarith
    · rw [s2]; linarith
    all_goals
      apply mul_left_cancel₀ hne
      rw [c2]
    · have : sy ^ 2 * m11 = -m20 * m02 - m10 * m00 * m01 := by
        rw [csq]; linear_combination k5 + m00 * (k9 : m22 = _)
      rw [this, ← c1, ← s1, ← s3, e2]; ring
    · have : sy ^ 2 * m12 = m20 * m01 - m10 * m00 * m02 := by
        rw [csq]; linear_combination k6 - m00 * (k8 : m21 = _)
      rw [this, ← c1, ← s1, ← s3, e2]; ring
    · have : sy ^ 2 * m21 = m10 * m02 - m20 * m00 * m01 := by
        rw [csq]; linear_combination k8 - m00 * (k6 : m12 = _)
      rw [this, ← c1, ← s1, ← s3, e2]; ring
    · have : sy ^ 2 * m22 = -m10 * m01 - m20 * m00 * m02 := by
        rw [csq]; linear_combination k9 + m00 * (k5 : m11 = _)
      rw [this, ← c1, ← s1, ← s3, e2]; ring

/-! ### All orders -/

/-- the row or column of an axis -/
def Spec.axisIdx : Axis → Fin 4
  | .X => 0
  | .Y => 1
  | .Z => 2

/-- the axis that is neither of two axes -/
def Spec.otherAxis : Axis → Axis → Axis
  | .X, .Y | .Y, .X => .Z
  | .X, .Z | .Z, .X => .Y
  | _, _ => .X

/-- the rotations whose angles can be recovered for an order.  For an order of three different axes: in gimbal lock or away from it by the
threshold of the code.  For an order whose first axis is repeated: the same, and one of two entries of the column of that axis is zero or they
are equal (the code multiplies one entry by the other where it should square it). -/
def Spec.Recoverable (r : RealOrder) (m : M4 ℝ) : Prop :=
  let a := axesOf r
  let i := axisIdx a.1
  if a.1 = a.2.2 then
    (mat m i i ^ 2 = 1 ∨ (16 * eps) ^ 2 ≤ 1 - mat m i i ^ 2) ∧
    (mat m (axisIdx (otherAxis a.1 a.2.1)) i = 0 ∨ mat m (axisIdx (otherAxis a.1 a.2.1)) i = mat m (axisIdx a.2.1) i)
  else
    let k := axisIdx a.2.2
    let c := if isStatic r then mat m i k else mat m k i
    c ^ 2 = 1 ∨ (16 * eps) ^ 2 ≤ 1 - c ^ 2

/-- the product of the three rotations about the axes named by the order, with the angles in the order of the name -/
noncomputable def Spec.byName (r : RealOrder) (α β γ : ℝ) : Matrix (Fin 4) (Fin 4) ℝ :=
  let a := axesOf r
  if isStatic r then axisMat a.1 α * axisMat a.2.1 β * axisMat a.2.2 γ else axisMat a.2.2 γ * axisMat a.2.1 β * axisMat a.1 α

/-- the angles in the orientation and order of a rotation order -/
noncomputable def adjust (p : AxisParam) (a : ℝ × ℝ × ℝ) : ℝ × ℝ × ℝ :=
  let b : ℝ × ℝ × ℝ := if p.parity then (-a.1, -a.2.1, -a.2.2) else a
  if p.frame then (b.2.2, b.2.1, b.1) else b

def axisFin : Nat → Fin 4
  | 0 => 0
  | 1 => 1
  | _ => 2

def axisOrd (p : AxisParam) : Fin 4 × Fin 4 × Fin 4 := (axisFin p.firstAxis, axisFin p.j, axisFin p.k)

theorem anglesOf_renamed (r : RealOrder) (m : M4 ℝ) :
    Euler.anglesOf m r.params = adjust r.params (Euler.anglesOf (renamed (axisOrd r.params).1 (axisOrd r.params).2.1 (axisOrd r.params).2.2 m)
      (if r.params.repetition then RealOrder.SXYX.params else RealOrder.SXYZ.params)) := by
  have e : ∀ t : ℝ, t * (((-1 : ℤ) : ℝ) / ((1 : ℕ) : ℝ)) = -t := by intro t; push_cast; ring
  cases r <;>
   (simp only [RealOrder.params, Bool.false_eq_true, if_false, if_true]
    simp only [Euler.anglesOf, adjust, AxisParam.j, AxisParam.k, nextAxis, RealScalar.le_eq, RealScalar.sqrt_eq,
      RealScalar.add_eq, RealScalar.mul_eq, RealScalar.atan2_eq, RealScalar.f0_eq, RealScalar.lit_eq, Bool.false_eq_true, if_false, if_true,
      Nat.add_zero, Nat.sub_zero, e]
    rfl)

set_option maxHeartbeats 4000000 in
theorem byName_renamed (r : RealOrder) {m : M4 ℝ} (h : Rotation m) (a : ℝ × ℝ × ℝ)
    (hr : axisMat .X a.1 * axisMat .Y a.2.1 * axisMat (if r.params.repetition then .X else .Z) a.2.2 =
      mat (renamed (axisOrd r.params).1 (axisOrd r.params).2.1 (axisOrd r.params).2.2 m)) :
    byName r (adjust r.params a).1 (adjust r.params a).2.1 (adjust r.params a).2.2 = mat m := by
  have hA := h.affine
  have hF := h.fixed
  clear h
  obtain ⟨⟨m00, m01, m02, m03⟩, ⟨m10, m11, m12, m13⟩, ⟨m20, m21, m22, m23⟩, ⟨m30, m31, m32, m33⟩⟩ := m
  simp only [V4.mk.injEq, Affine] at hA hF
  obtain ⟨rfl, rfl, rfl, rfl⟩ := hF
  obtain ⟨rfl, rfl, rfl, -⟩ := hA
  obtain ⟨x, y, z⟩ := a
  have e : ∀ i j, _ = _ := fun i j => congrFun (congrFun hr i) j
  have e00 := e 0 0
  have e01 := e 0 1
  have e02 := e 0 2
  have e10 := e 1 0
  have e11 := e 1 1
  have e12 := e 1 2
  have e20 := e 2 0
  have e21 := e 2 1
  have e22 := e 2 2
  clear e hr
  cases r <;>
    (simp [RealOrder.params, axisOrd, axisFin, AxisParam.j, AxisParam.k, nextAxis, renamed, mat, vec, axisMat, Matrix.mul_apply, Fin.sum_univ_succ] at e00 e01 e02 e10 e11 e12 e20 e21 e22
     ext i j
     fin_cases i <;> fin_cases j <;>
      simp [byName, axesOf, isStatic, adjust, RealOrder.params, mat, vec, axisMat, Matrix.mul_apply, Fin.sum_univ_succ] <;> linarith)

end Graphene
