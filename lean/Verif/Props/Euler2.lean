/-
  C78: the quaternion of an Euler object.
-/
import Verif.Props.Euler1

namespace Graphene
open Spec Simd4f Matrix

/-- the order in which the quaternion conversion is right -/
def Spec.QuatOrder (o : EulerOrder) : Prop := o.realOrder = .SXYZ ∨ o.realOrder = .RZYX

/-- the matrices of the quaternions of the axis rotations -/
theorem axisQuat (a : Axis) (r : ℝ) :
    let q : Quat ℝ := match a with
      | .X => ⟨Real.sin (r / 2), 0, 0, Real.cos (r / 2)⟩
      | .Y => ⟨0, Real.sin (r / 2), 0, Real.cos (r / 2)⟩
      | .Z => ⟨0, 0, Real.sin (r / 2), Real.cos (r / 2)⟩
    UnitQuat q ∧ mat q.toMatrix = axisMat a r := by
  have hr : r = 2 * (r / 2) := by ring
  have h := Real.sin_sq_add_cos_sq (r / 2)
  have hs : Real.sin r = 2 * Real.sin (r / 2) * Real.cos (r / 2) := by rw [← Real.sin_two_mul, ← hr]
  have hc : Real.cos r = 2 * Real.cos (r / 2) ^ 2 - 1 := by rw [← Real.cos_two_mul, ← hr]
  cases a
  all_goals
    refine ⟨?_, ?_⟩
    · simp only [UnitQuat]; linarith
    · rw [toMatrix_real]
      ext i j
      fin_cases i <;> fin_cases j <;> simp [axisMat, hs, hc] <;> nlinarith

/-- C78, what holds: for the orders SXYZ (also DEFAULT and the deprecated XYZ) and RZYX the quaternion is unit and
its matrix is `euler_to_matrix`; `matrix_rotate_euler` then appends that rotation.  Missing: the 22 other
orders (`C78_order_false`, `C78_unit_false`). -/
theorem C78_quaternion_partial (x y z : ℝ) (o : EulerOrder) (ho : QuatOrder o) (m : M4 ℝ) :
    let e := Euler.initFromRadians x y z o
    UnitQuat e.toQuaternion ∧ e.toQuaternion.toMatrix = e.toMatrix ∧
    GMatrix.rotateEuler m e = GMatrix.multiply m e.toMatrix := by
  have hq : (Euler.initFromRadians x y z o).toQuaternion = Quat.multiply (Quat.multiply
      ⟨0, 0, Real.sin (z / 2), Real.cos (z / 2)⟩ ⟨0, Real.sin (y / 2), 0, Real.cos (y / 2)⟩) ⟨Real.sin (x / 2), 0, 0, Real.cos (x / 2)⟩ := by
    have he : Euler.initFromRadians x y z o = ⟨Vec3.init x y z, .real o.realOrder⟩ := rfl
    rw [he]
    rcases ho with h | h <;> rw [h] <;>
      simp [Euler.toQuaternion, EulerOrder.realOrder, RealOrder.params, Quat.multiply, Vec3.init, Vec3.getX,
        Vec3.getY, Vec3.getZ, Simd4f.init, Simd4f.get, div_eq_mul_inv] <;> refine ⟨?_, ?_, ?_, ?_⟩ <;> ring
  obtain ⟨ux, mx⟩ := axisQuat .X x
  obtain ⟨uy, my⟩ := axisQuat .Y y
  obtain ⟨uz, mz⟩ := axisQuat .Z z
  dsimp only at ux mx uy my uz mz
  have uzy := (C70_group _ _ Quat.identity).2.2.2.2.1 uz uy
  have hm : (Euler.initFromRadians x y z o).toQuaternion.toMatrix = (Euler.initFromRadians x y z o).toMatrix := by
    apply mat_injective
    rw [hq, (C71_product _ _ uzy ux m).1, (C71_product _ _ uz uy m).1, C77_to_matrix]
    simp only [GMatrix.multiply, matrixMul_real, mx, my, mz]
    rcases ho with h | h <;> simp [h, axesOf, isStatic, angleOf, Matrix.mul_assoc]
  refine ⟨?_, hm, ?_⟩
  · rw [hq]; exact (C70_group _ _ Quat.identity).2.2.2.2.1 uzy ux
  · show GMatrix.multiply m _ = _
    rw [← hm]; rfl

/-- three angles that separate the quaternion from the matrix, for each order -/
noncomputable def sepAngles : RealOrder → ℝ × ℝ × ℝ
  | .SXZY | .SYXZ | .SZYX | .RYZX | .RZXY | .RXYZ => (0, Real.pi / 2, 0)
  | .SYZX | .RXZY => (Real.pi / 2, Real.pi / 2, 0)
  | .SZXY | .RYXZ => (Real.pi / 2, 0, Real.pi / 2)
  | _ => (0, 0, 0)

set_option maxHeartbeats 1000000 in
/-- C78 is false for every order other than SXYZ and RZYX: some angles give a quaternion whose matrix is not
the matrix of the Euler object. -/
theorem C78_order_false (o : EulerOrder) (ho : ¬ QuatOrder o) :
    ∃ x y z : ℝ, (Euler.initFromRadians x y z o).toQuaternion.toMatrix ≠ (Euler.initFromRadians x y z o).toMatrix := by
  refine ⟨(sepAngles o.realOrder).1, (sepAngles o.realOrder).2.1, (sepAngles o.realOrder).2.2, ?_⟩
  intro h
  have hm := C77_to_matrix (sepAngles o.realOrder).1 (sepAngles o.realOrder).2.1 (sepAngles o.realOrder).2.2 o
  dsimp only at hm
  rw [← h, toMatrix_real] at hm
  have hq : (Euler.initFromRadians (sepAngles o.realOrder).1 (sepAngles o.realOrder).2.1 (sepAngles o.realOrder).2.2 o).toQuaternion =
    (⟨Vec3.init (sepAngles o.realOrder).1 (sepAngles o.realOrder).2.1 (sepAngles o.realOrder).2.2, .real o.realOrder⟩ : Euler ℝ).toQuaternion := rfl
  rw [hq] at hm
  unfold QuatOrder at ho
  clear h hq
  generalize o.realOrder = r at *
  have hp : Real.pi / 2 * 2⁻¹ = Real.pi / 4 := by ring
  have h12 := congrFun (congrFun hm 1) 2
  have h01 := congrFun (congrFun hm 0) 1
  have h02 := congrFun (congrFun hm 0) 2
  clear hm
  cases r <;> simp at ho <;>
    simp [Euler.toQuaternion, EulerOrder.realOrder, RealOrder.params, Vec3.init, Vec3.getX, Vec3.getY, Vec3.getZ,
      Simd4f.init, Simd4f.get, sepAngles, axesOf, isStatic, angleOf, axisMat] at h12 h01 h02
  all_goals
    rw [hp, Real.sin_pi_div_four, Real.cos_pi_div_four] at h02
    have hS : √2 / 2 * (√2 / 2) = (1 / 2 : ℝ) := by
      have := Real.mul_self_sqrt (show (0 : ℝ) ≤ 2 by norm_num)
      linarith
    first
      | (rw [hS] at h02; norm_num at h02; done)
      | (rw [hp, Real.sin_pi_div_four, Real.cos_pi_div_four] at h01
         first
           | (ring_nf at h02; norm_num at h02; done)
           | (ring_nf at h01; norm_num at h01; done))

/-- C78 is false for the 12 orders that repeat an axis: with all angles zero (no rotation) the quaternion is
(1, 0, 0, 1), which is not unit. -/
theorem C78_unit_false (o : EulerOrder) (ho : o.realOrder.params.repetition = true) :
    (Euler.initFromRadians (0 : ℝ) 0 0 o).toQuaternion = ⟨1, 0, 0, 1⟩ ∧
    ¬ UnitQuat (Euler.initFromRadians (0 : ℝ) 0 0 o).toQuaternion := by
  have he : Euler.initFromRadians (0 : ℝ) 0 0 o = ⟨Vec3.init 0 0 0, .real o.realOrder⟩ := rfl
  have hq : (Euler.initFromRadians (0 : ℝ) 0 0 o).toQuaternion = ⟨1, 0, 0, 1⟩ := by
    rw [he]
    generalize o.realOrder = r at *
    simp [Euler.toQuaternion, EulerOrder.realOrder, ho, Vec3.init, Vec3.getX, Vec3.getY, Vec3.getZ, Simd4f.init, Simd4f.get]
  refine ⟨hq, ?_⟩
  rw [hq]
  simp only [UnitQuat]; norm_num

/-- non-vacuity: SXYZ, RZYX and DEFAULT are covered by the partial theorem, SXYX is a repeating order -/
example : QuatOrder .default ∧ QuatOrder (.real .RZYX) ∧ ¬ QuatOrder (.real .SZYX) ∧
    (EulerOrder.real .SXYX).realOrder.params.repetition = true := by
  simp [QuatOrder, EulerOrder.realOrder, RealOrder.params]

end Graphene
