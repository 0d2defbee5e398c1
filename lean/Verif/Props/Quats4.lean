/-
  C72: every rotation matrix is the matrix of a unit quaternion, and `init_from_matrix` finds it.
-/
import Verif.Props.Euler3

namespace Graphene
open Spec Simd4f Matrix

/-- the half turn about an axis -/
def Spec.halfTurn : Axis → M4 ℝ
  | .X => ⟨⟨1, 0, 0, 0⟩, ⟨0, -1, 0, 0⟩, ⟨0, 0, -1, 0⟩, ⟨0, 0, 0, 1⟩⟩
  | .Y => ⟨⟨-1, 0, 0, 0⟩, ⟨0, 1, 0, 0⟩, ⟨0, 0, -1, 0⟩, ⟨0, 0, 0, 1⟩⟩
  | .Z => ⟨⟨-1, 0, 0, 0⟩, ⟨0, -1, 0, 0⟩, ⟨0, 0, 1, 0⟩, ⟨0, 0, 0, 1⟩⟩

/-- its quaternion -/
def Spec.halfQuat : Axis → Quat ℝ
  | .X => ⟨1, 0, 0, 0⟩
  | .Y => ⟨0, 1, 0, 0⟩
  | .Z => ⟨0, 0, 1, 0⟩

theorem halfQuat_spec (a : Axis) : UnitQuat (halfQuat a) ∧ (halfQuat a).toMatrix = halfTurn a ∧
    mat (halfTurn a) * mat (halfTurn a) = 1 := by
  refine ⟨?_, ?_, ?_⟩
  · cases a <;> simp [UnitQuat, halfQuat]
  · apply mat_injective
    rw [toMatrix_real]
    cases a <;> ext i j <;> fin_cases i <;> fin_cases j <;> simp [halfQuat, halfTurn, mat, vec] <;> norm_num
  · cases a <;> ext i j <;> fin_cases i <;> fin_cases j <;>
      simp [halfTurn, mat, vec, Matrix.mul_apply, Fin.sum_univ_succ]

theorem Spec.Rotation.mul {a b : M4 ℝ} (ha : Rotation a) (hb : Rotation b) : Rotation (GMatrix.multiply a b) := by
  have h : mat (GMatrix.multiply a b) = mat a * mat b := matrixMul_real a b
  refine ⟨?_, ?_, ?_, ?_⟩
  · rw [h, Matrix.transpose_mul]
    calc mat a * mat b * ((mat b)ᵀ * (mat a)ᵀ) = mat a * (mat b * (mat b)ᵀ) * (mat a)ᵀ := by simp only [Matrix.mul_assoc]
      _ = 1 := by rw [hb.orthogonal, mul_one, ha.orthogonal]
  · rw [h, Matrix.det_mul, ha.det, hb.det, one_mul]
  · obtain ⟨a1, a2, a3, a4⟩ := ha.affine
    obtain ⟨b1, b2, b3, b4⟩ := hb.affine
    have e : ∀ i j, mat (GMatrix.multiply a b) i j = _ := fun i j => congrFun (congrFun h i) j
    have e0 := e 0 3
    have e1 := e 1 3
    have e2 := e 2 3
    have e3 := e 3 3
    simp [mat, vec, Matrix.mul_apply, Fin.sum_univ_succ, a1, a2, a3, a4, b1, b2, b3, b4] at e0 e1 e2 e3
    exact ⟨e0, e1, e2, e3⟩
  · have ha' := ha.fixed
    have hb' := hb.fixed
    have e : ∀ i j, mat (GMatrix.multiply a b) i j = _ := fun i j => congrFun (congrFun h i) j
    have e0 := e 3 0
    have e1 := e 3 1
    have e2 := e 3 2
    have e3 := e 3 3
    simp [mat, vec, Matrix.mul_apply, Fin.sum_univ_succ, ha', hb'] at e0 e1 e2 e3
    apply vec_injective
    ext i
    fin_cases i <;> simp [vec, e0, e1, e2, e3]

theorem halfTurn_rotation (a : Axis) : Rotation (halfTurn a) := by
  obtain ⟨h1, h2, h3⟩ := halfQuat_spec a
  obtain ⟨h4, -, h5, h6, h7⟩ := C71_rotation _ h1
  rw [h2] at h4 h5 h6 h7
  exact ⟨h4, h5, h7, h6⟩

/-- the sum of the four diagonal entries -/
def Spec.trace4 (m : M4 ℝ) : ℝ := 1 + m.x.x + m.y.y + m.z.z

/-- a rotation matrix other than a half turn is the matrix of an explicit unit quaternion -/
theorem quat_of_trace {m : M4 ℝ} (h : Rotation m) (ht : 0 < trace4 m) :
    ∃ q : Quat ℝ, UnitQuat q ∧ 0 < q.w ∧ q.toMatrix = m := by
  obtain ⟨⟨n1, n2, n3, n4, n5, n6⟩, k1, k2, k3, k4, k5, k6, k7, k8, k9⟩ := h.entries
  have hA := h.affine
  have hF := h.fixed
  have hO := h.orthogonal
  have hO' := mul_eq_one_comm.mp h.orthogonal
  obtain ⟨⟨a, b, c, m03⟩, ⟨d, e, f, m13⟩, ⟨g, i, j, m23⟩, ⟨m30, m31, m32, m33⟩⟩ := m
  simp only [V4.mk.injEq, Affine] at hA hF
  obtain ⟨rfl, rfl, rfl, rfl⟩ := hF
  obtain ⟨rfl, rfl, rfl, -⟩ := hA
  dsimp only [trace4] at *
  have o1 := congrFun (congrFun hO 0) 1
  have o2 := congrFun (congrFun hO 0) 2
  have o3 := congrFun (congrFun hO 1) 2
  have p1 := congrFun (congrFun hO' 0) 1
  have p2 := congrFun (congrFun hO' 0) 2
  have p3 := congrFun (congrFun hO' 1) 2
  simp [mat, vec, Matrix.mul_apply, Fin.sum_univ_succ] at o1 o2 o3 p1 p2 p3
  clear hO hO'
  set T := 1 + a + e + j with hT
  set s := √T with hs
  have s2 : s ^ 2 = T := Real.sq_sqrt ht.le
  have sp : 0 < s := Real.sqrt_pos.mpr ht
  have hT0 : T ≠ 0 := ht.ne'
  have hs0 : s ≠ 0 := sp.ne'
  -- the products of the components
  have pr : ∀ u v : ℝ, u / (2 * s) * (v / (2 * s)) = u * v / (4 * T) := by
    intro u v; rw [div_mul_div_comm]; congr 1; rw [← s2]; ring
  have pw : ∀ u : ℝ, s / 2 * (u / (2 * s)) = u / 4 := by
    intro u; rw [div_mul_div_comm, div_eq_div_iff (by positivity) (by norm_num)]; ring
  -- what they are in terms of the matrix
  have Pxy : (f - i) * (g - c) = T * (b + d) := by rw [hT]; linear_combination -k2 - k4 - o1 - p1
  have Pxz : (f - i) * (b - d) = T * (c + g) := by rw [hT]; linear_combination -k3 - k7 - o2 - p2
  have Pyz : (g - c) * (b - d) = T * (f + i) := by rw [hT]; linear_combination -k6 - k8 - o3 - p3
  have Pyy : (g - c) ^ 2 + (b - d) ^ 2 = 2 * T * (1 - a) := by rw [hT]; linear_combination n1 + n3 - 2 * k5 - 2 * k9
  have Pxx : (f - i) ^ 2 + (b - d) ^ 2 = 2 * T * (1 - e) := by rw [hT]; linear_combination n5 + n6 - 2 * k1 - 2 * k9
  have Pzz : (f - i) ^ 2 + (g - c) ^ 2 = 2 * T * (1 - j) := by rw [hT]; linear_combination n2 + n4 - 2 * k1 - 2 * k5
  clear_value s T
  refine ⟨⟨(f - i) / (2 * s), (g - c) / (2 * s), (b - d) / (2 * s), s / 2⟩, ?_, by positivity, ?_⟩
  · simp only [UnitQuat]
    have : s / 2 * (s / 2) = T / 4 := by rw [← s2]; ring
    simp only [sq]
    rw [pr, pr, pr, this]
    field_simp
    linear_combination Pyy / 2 + Pxx / 2 + Pzz / 2 + T * hT
  · apply mat_injective
    rw [toMatrix_real]
    simp only [pr, pw]
    ext p q
    fin_cases p <;> fin_cases q <;> simp [mat, vec] <;> field_simp
    all_goals first
      | linear_combination 2 * Pxy
      | linear_combination 2 * Pxz
      | linear_combination 2 * Pyz
      | linear_combination -2 * Pyy
      | linear_combination -2 * Pxx
      | linear_combination -2 * Pzz

/-- C72: every rotation matrix is the matrix of a unit quaternion. -/
theorem C72_rotation_quaternion (m : M4 ℝ) (h : Rotation m) : ∃ q : Quat ℝ, UnitQuat q ∧ q.toMatrix = m := by
  have tr : ∀ a, 0 < trace4 (GMatrix.multiply m (halfTurn a)) → ∃ q : Quat ℝ, UnitQuat q ∧ q.toMatrix = m := by
    intro a ha
    obtain ⟨q, h1, -, h3⟩ := quat_of_trace (h.mul (halfTurn_rotation a)) ha
    obtain ⟨g1, g2, g3⟩ := halfQuat_spec a
    refine ⟨Quat.multiply (halfQuat a) q, (C70_group _ _ Quat.identity).2.2.2.2.1 g1 h1, ?_⟩
    rw [(C71_product _ _ g1 h1 m).1, h3, g2]
    apply mat_injective
    simp only [GMatrix.multiply, matrixMul_real]
    rw [Matrix.mul_assoc, g3, mul_one]
  have ex : ∀ a, trace4 (GMatrix.multiply m (halfTurn a)) =
      1 + mat m 0 0 * mat (halfTurn a) 0 0 + mat m 1 1 * mat (halfTurn a) 1 1 + mat m 2 2 * mat (halfTurn a) 2 2 := by
    intro a
    have e : ∀ i j, mat (GMatrix.multiply m (halfTurn a)) i j = _ := fun i j => congrFun (congrFun (matrixMul_real m (halfTurn a)) i) j
    have e0 := e 0 0
    have e1 := e 1 1
    have e2 := e 2 2
    have t : trace4 (GMatrix.multiply m (halfTurn a)) = 1 + mat (GMatrix.multiply m (halfTurn a)) 0 0 +
      mat (GMatrix.multiply m (halfTurn a)) 1 1 + mat (GMatrix.multiply m (halfTurn a)) 2 2 := rfl
    rw [t, e0, e1, e2]
    cases a <;> simp [Matrix.mul_apply, Fin.sum_univ_succ, mat, vec, halfTurn]
  by_cases h0 : 0 < trace4 m
  · obtain ⟨q, h1, -, h3⟩ := quat_of_trace h h0
    exact ⟨q, h1, h3⟩
  by_cases hx : 0 < trace4 (GMatrix.multiply m (halfTurn .X))
  · exact tr _ hx
  by_cases hy : 0 < trace4 (GMatrix.multiply m (halfTurn .Y))
  · exact tr _ hy
  by_cases hz : 0 < trace4 (GMatrix.multiply m (halfTurn .Z))
  · exact tr _ hz
  exfalso
  rw [ex] at hx hy hz
  simp [mat, vec, halfTurn] at hx hy hz
  simp only [trace4] at h0
  linarith

/-- C72: for a rotation matrix that is not a half turn, `init_from_matrix` gives a unit quaternion with `w > 0`
whose matrix is the given one. -/
theorem C72_from_matrix_partial (m : M4 ℝ) (h : Rotation m) (ht : 0 < trace4 m) :
    UnitQuat (Quat.initFromMatrix m) ∧ 0 < (Quat.initFromMatrix m).w ∧ (Quat.initFromMatrix m).toMatrix = m := by
  obtain ⟨q, h1, h2, h3⟩ := quat_of_trace h ht
  have hr := (C72_roundtrip_partial q h1).2 (Or.inl h2.ne')
  rw [h3] at hr
  have hne : Quat.initFromMatrix m = q := by
    rcases hr with hr | hr
    · exact hr
    · exfalso
      have hf := fromMatrix_toMatrix q h1
      rw [h3] at hf
      have h1 : (Quat.initFromMatrix m).w = |q.w| := by rw [hf]
      have h2' : (Quat.initFromMatrix m).w = -q.w := by rw [hr]; rfl
      linarith [abs_nonneg q.w]
  rw [hne]
  exact ⟨h1, h2, h3⟩

/-- non-vacuity: a quarter turn about y -/
example : (Quat.initFromMatrix (quarter .Y)).toMatrix = quarter .Y :=
  (C72_from_matrix_partial _ (quarter_rotation .Y) (by simp [trace4, quarter])).2.2

end Graphene
