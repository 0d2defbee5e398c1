/-
  C76, C77: Euler angles: accessors, orders, and the matrix.
-/
import Verif.Model.Euler
import Verif.Props.Quats2

namespace Graphene
open Spec Simd4f Matrix

namespace Spec

/-- the three coordinate axes -/
inductive Axis where
  | X | Y | Z
deriving DecidableEq

/-- the axes in the name of a rotation order, first to last -/
def axesOf : RealOrder → Axis × Axis × Axis
  | .SXYZ => (.X, .Y, .Z) | .SXYX => (.X, .Y, .X) | .SXZY => (.X, .Z, .Y) | .SXZX => (.X, .Z, .X)
  | .SYZX => (.Y, .Z, .X) | .SYZY => (.Y, .Z, .Y) | .SYXZ => (.Y, .X, .Z) | .SYXY => (.Y, .X, .Y)
  | .SZXY => (.Z, .X, .Y) | .SZXZ => (.Z, .X, .Z) | .SZYX => (.Z, .Y, .X) | .SZYZ => (.Z, .Y, .Z)
  | .RZYX => (.Z, .Y, .X) | .RXYX => (.X, .Y, .X) | .RYZX => (.Y, .Z, .X) | .RXZX => (.X, .Z, .X)
  | .RXZY => (.X, .Z, .Y) | .RYZY => (.Y, .Z, .Y) | .RZXY => (.Z, .X, .Y) | .RYXY => (.Y, .X, .Y)
  | .RYXZ => (.Y, .X, .Z) | .RZXZ => (.Z, .X, .Z) | .RXYZ => (.X, .Y, .Z) | .RZYZ => (.Z, .Y, .Z)

/-- the orders whose name begins with S: static (external) axes; the others rotate about the moved axes -/
def isStatic : RealOrder → Bool
  | .SXYZ | .SXYX | .SXZY | .SXZX | .SYZX | .SYZY | .SYXZ | .SYXY | .SZXY | .SZXZ | .SZYX | .SZYZ => true
  | _ => false

/-- the angle about an axis -/
def angleOf {α : Type} (x y z : α) : Axis → α
  | .X => x
  | .Y => y
  | .Z => z

/-- the rotation by `r` radians about a coordinate axis (row vectors) -/
noncomputable def axisMat : Axis → ℝ → Matrix (Fin 4) (Fin 4) ℝ
  | .X, r => !![1, 0, 0, 0; 0, Real.cos r, Real.sin r, 0; 0, -Real.sin r, Real.cos r, 0; 0, 0, 0, 1]
  | .Y, r => !![Real.cos r, 0, -Real.sin r, 0; 0, 1, 0, 0; Real.sin r, 0, Real.cos r, 0; 0, 0, 0, 1]
  | .Z, r => !![Real.cos r, Real.sin r, 0, 0; -Real.sin r, Real.cos r, 0, 0; 0, 0, 1, 0; 0, 0, 0, 1]

/-- the unit vector of an axis -/
noncomputable def axisVec : Axis → Vec3 ℝ
  | .X => Vec3.init 1 0 0
  | .Y => Vec3.init 0 1 0
  | .Z => Vec3.init 0 0 1

end Spec

/-- `axisMat` is what `matrix_init_rotate` produces for the axis -/
theorem axisMat_eq (bk : Backend) (a : Axis) (θ : ℝ) :
    mat (GMatrix.initRotate bk θ (axisVec a)) = axisMat a (θ * (Real.pi / 180)) := by
  have hok : AxisOk bk (axisVec a) := by
    cases a <;> simp only [AxisOk, axisVec, Vec3.init, Vec3.getX, Vec3.getY, Vec3.getZ, Simd4f.init, Simd4f.get] <;>
      exact ⟨by norm_num, Or.inr (by norm_num; exact eps_lt_one)⟩
  rw [GMatrix.initRotate, rotation_real hok]
  cases a <;> ext i j <;> fin_cases i <;> fin_cases j <;>
    simp [axisMat, axisVec, unitOf, Vec3.init, Vec3.getX, Vec3.getY, Vec3.getZ, Simd4f.init, Simd4f.get, degToRad]

/-! ## C76 -/

/-- C76: `get_alpha`, `get_beta`, `get_gamma` return the angles of the first, second and third axis in the name
of the order, for all 24 orders.  For any number format. -/
theorem C76_alpha_beta_gamma {α : Type} [Scalar α] (x y z : α) (o : EulerOrder) :
    let e := Euler.initFromRadians x y z o
    let axes := axesOf o.realOrder
    e.getAlpha = angleOf x y z axes.1 ∧ e.getBeta = angleOf x y z axes.2.1 ∧ e.getGamma = angleOf x y z axes.2.2 := by
  generalize ho : o.realOrder = r
  have h : (Euler.initFromRadians x y z o) = ⟨Vec3.init x y z, .real r⟩ := by rw [← ho]; rfl
  rw [h]
  cases r <;> exact ⟨rfl, rfl, rfl⟩

/-- C76: the default order is SXYZ and the six deprecated orders are the static orders of the same axes; an
object remembers the order it was made with, and copying keeps everything. -/
theorem C76_orders {α : Type} [Scalar α] (x y z : α) (o : EulerOrder) (v : Vec3 α) (e : Euler α) :
    EulerOrder.default.realOrder = .SXYZ ∧ EulerOrder.XYZ.realOrder = .SXYZ ∧ EulerOrder.YZX.realOrder = .SYZX ∧
    EulerOrder.ZXY.realOrder = .SZXY ∧ EulerOrder.XZY.realOrder = .SXZY ∧ EulerOrder.YXZ.realOrder = .SYXZ ∧
    EulerOrder.ZYX.realOrder = .SZYX ∧ (∀ r, (EulerOrder.real r).realOrder = r) ∧
    (Euler.initFromRadians x y z o).getOrder = .real o.realOrder ∧
    (Euler.initWithOrder x y z o).getOrder = .real o.realOrder ∧
    (Euler.init x y z).getOrder = .real .SXYZ ∧
    (Euler.initFromVec3 (some v) o).getOrder = .real o.realOrder ∧
    (∀ bk (m : Option (M4 α)), (Euler.initFromMatrix bk m o).getOrder = .real o.realOrder) ∧
    (∀ bk (q : Option (Quat α)), (Euler.initFromQuaternion bk q o).getOrder = .real o.realOrder) ∧
    (∀ bk, (Euler.reorder bk e o).getOrder = .real o.realOrder) ∧
    Euler.initFromEuler (some e) = e := by
  have hm : ∀ bk (m : Option (M4 α)) (o : EulerOrder), (Euler.initFromMatrix bk m o).getOrder = .real o.realOrder := by
    intro bk m o
    cases m with
    | none => rfl
    | some m =>
      simp only [Euler.initFromMatrix]
      split <;> rfl
  have hq : ∀ bk (q : Option (Quat α)) (o : EulerOrder), (Euler.initFromQuaternion bk q o).getOrder = .real o.realOrder := by
    intro bk q o
    cases q with
    | none => rfl
    | some q => exact hm bk _ _
  exact ⟨rfl, rfl, rfl, rfl, rfl, rfl, rfl, fun _ => rfl, rfl, rfl, rfl, rfl, fun bk m => hm bk m o, fun bk q => hq bk q o,
    fun bk => hq bk _ _, rfl⟩

/-- C76: angles given in degrees are read back in degrees, by component and as a vector, and `get_alpha`,
`get_beta`, `get_gamma` are in radians. -/
theorem C76_degrees (x y z : ℝ) (o : EulerOrder) :
    let e := Euler.initWithOrder x y z o
    e.getX = x ∧ e.getY = y ∧ e.getZ = z ∧ vtx e.toVec3 = ⟨x, y, z⟩ ∧
    e.getAlpha = angleOf x y z (axesOf o.realOrder).1 * (Real.pi / 180) ∧
    e.getBeta = angleOf x y z (axesOf o.realOrder).2.1 * (Real.pi / 180) ∧
    e.getGamma = angleOf x y z (axesOf o.realOrder).2.2 * (Real.pi / 180) ∧
    e = Euler.initFromVec3 (some (Vec3.init x y z)) o := by
  intro e
  have hp := Real.pi_ne_zero
  have hr : ∀ t : ℝ, t * (Real.pi / 180) * (180 / Real.pi) = t := by intro t; field_simp
  have he : e = Euler.initFromRadians (x * (Real.pi / 180)) (y * (Real.pi / 180)) (z * (Real.pi / 180)) o := by
    simp [e, Euler.initWithOrder, degToRad]
  obtain ⟨h1, h2, h3⟩ := C76_alpha_beta_gamma (x * (Real.pi / 180)) (y * (Real.pi / 180)) (z * (Real.pi / 180)) o
  have ha : ∀ a, angleOf (x * (Real.pi / 180)) (y * (Real.pi / 180)) (z * (Real.pi / 180)) a = angleOf x y z a * (Real.pi / 180) := by
    intro a; cases a <;> rfl
  rw [he, h1, h2, h3, ha, ha, ha]
  refine ⟨?_, ?_, ?_, ?_, rfl, rfl, rfl, ?_⟩
  · simpa [Euler.getX, Euler.initFromRadians, Vec3.init, Vec3.getX, Simd4f.init, Simd4f.get, radToDeg] using hr x
  · simpa [Euler.getY, Euler.initFromRadians, Vec3.init, Vec3.getY, Simd4f.init, Simd4f.get, radToDeg] using hr y
  · simpa [Euler.getZ, Euler.initFromRadians, Vec3.init, Vec3.getZ, Simd4f.init, Simd4f.get, radToDeg] using hr z
  · simp [Euler.toVec3, Euler.initFromRadians, vtx, Vec3.scale, Vec3.init, Simd4f.init,
      Simd4f.mul, map2, splat, hr]
  · simp [Euler.initFromRadians, Euler.initFromVec3, Vec3.scale, Vec3.init, Simd4f.init, Simd4f.mul, map2, splat]

/-- non-vacuity: alpha of RZXY is the z angle, in the `float` interpretation as well -/
example [Libm binary32] : (Euler.initFromRadians (f0 : F32) f1 f2 (.real .RZXY)).getAlpha = f2 := rfl

/-! ## C77 -/

set_option maxHeartbeats 4000000 in
/-- C77: `euler_to_matrix` is the product of the three axis rotations: for a static order the first named axis
first, for a relative order the last named axis first (rotations about the moved axes). -/
theorem C77_to_matrix (x y z : ℝ) (o : EulerOrder) :
    let e := Euler.initFromRadians x y z o
    let a := axesOf o.realOrder
    let r1 := axisMat a.1 (angleOf x y z a.1)
    let r2 := axisMat a.2.1 (angleOf x y z a.2.1)
    let r3 := axisMat a.2.2 (angleOf x y z a.2.2)
    mat e.toMatrix = if isStatic o.realOrder then r1 * r2 * r3 else r3 * r2 * r1 := by
  generalize ho : o.realOrder = r
  have h : (Euler.initFromRadians x y z o) = ⟨Vec3.init x y z, .real r⟩ := by rw [← ho]; rfl
  rw [h]
  cases r <;>
    (simp only [Euler.toMatrix, Euler.getAlpha, Euler.getBeta, Euler.getGamma, EulerOrder.realOrder, RealOrder.params, Euler.angleMatrix,
      AxisParam.j, AxisParam.k, nextAxis, Vec3.init, Vec3.getX, Vec3.getY, Vec3.getZ, Simd4f.init, Simd4f.get, axesOf, angleOf, isStatic, axisMat]
     ext i j
     fin_cases i <;> fin_cases j <;>
      simp [mat, vec, Euler.ofM, Euler.setM, Matrix.mul_apply, Fin.sum_univ_succ, Real.sin_neg, Real.cos_neg] <;> ring)

theorem axisMat_orth (a : Axis) (r : ℝ) : axisMat a r * (axisMat a r)ᵀ = 1 ∧ (axisMat a r).det = 1 := by
  have h := Real.sin_sq_add_cos_sq r
  have h' := Real.cos_sq_add_sin_sq r
  constructor
  · cases a <;> ext i j <;> fin_cases i <;> fin_cases j <;>
      simp [axisMat, Matrix.mul_apply, Fin.sum_univ_succ] <;> linarith
  · cases a <;> simp [axisMat, Matrix.det_succ_row_zero, Fin.sum_univ_succ, Fin.succAbove] <;> linarith

/-- C77: the matrix is therefore a rotation: orthogonal with determinant one. -/
theorem C77_rotation (x y z : ℝ) (o : EulerOrder) :
    let m := mat (Euler.initFromRadians x y z o).toMatrix
    m * mᵀ = 1 ∧ m.det = 1 := by
  intro m
  have hm : m = _ := C77_to_matrix x y z o
  rw [hm]
  have mul3 : ∀ A B C : Matrix (Fin 4) (Fin 4) ℝ, A * Aᵀ = 1 ∧ A.det = 1 → B * Bᵀ = 1 ∧ B.det = 1 → C * Cᵀ = 1 ∧ C.det = 1 →
      (A * B * C) * (A * B * C)ᵀ = 1 ∧ (A * B * C).det = 1 := by
    intro A B C hA hB hC
    constructor
    · rw [Matrix.transpose_mul, Matrix.transpose_mul]
      calc A * B * C * (Cᵀ * (Bᵀ * Aᵀ)) = A * (B * (C * Cᵀ) * Bᵀ) * Aᵀ := by simp only [Matrix.mul_assoc]
        _ = 1 := by rw [hC.1, mul_one, hB.1, mul_one, hA.1]
    · rw [Matrix.det_mul, Matrix.det_mul, hA.2, hB.2, hC.2]; norm_num
  split
  · exact mul3 _ _ _ (axisMat_orth _ _) (axisMat_orth _ _) (axisMat_orth _ _)
  · exact mul3 _ _ _ (axisMat_orth _ _) (axisMat_orth _ _) (axisMat_orth _ _)

/-- non-vacuity: a relative order, 90° about y only; x goes to -z -/
example : mat (Euler.initFromRadians (0 : ℝ) (Real.pi / 2) 0 (.real .RXYZ)).toMatrix 0 2 = -1 := by
  rw [C77_to_matrix]
  simp [EulerOrder.realOrder, axesOf, isStatic, angleOf, axisMat]

end Graphene
