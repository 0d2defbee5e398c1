/-
  C79, all orders: the angles found in a rotation matrix, read by position, rebuild it.
-/
import Verif.Props.Euler4

namespace Graphene
open Spec Simd4f Matrix

/-- C79, what holds for all 24 orders: the three angles stored by `init_from_matrix` as x, y and z are the angles of the rotations about the
first, second and third axis named by the order, whose product is the matrix.  Missing: near gimbal lock; for the repeated orders, most
matrices (`C79_repeated_false`); and the accessors and `to_matrix` read the angles as those about the x, y and z axes, so that only SXYZ and
RXYZ round trip (`C79_order_false`). -/
theorem C79_angles_partial (bk : Backend) (m : M4 ℝ) (o : EulerOrder) (hm : Rotation m) (hg : Recoverable o.realOrder m)
    (hid : GMatrix.isIdentity bk m = true → mat m = 1) :
    let e := Euler.initFromMatrix bk (some m) o
    byName o.realOrder e.angles.getX e.angles.getY e.angles.getZ = mat m := by
  simp only [Euler.initFromMatrix]
  split
  · rename_i hi
    rw [hid hi]
    have h0 : Euler.initWithOrder (f0 : ℝ) f0 f0 o = Euler.initFromRadians 0 0 0 o := by
      simp [Euler.initWithOrder, degToRad]
    have z : ∀ a, axisMat a 0 = 1 := by
      intro a
      cases a <;> ext i j <;> fin_cases i <;> fin_cases j <;> simp [axisMat]
    rw [h0]
    change byName o.realOrder 0 0 0 = 1
    simp only [byName, z, mul_one, ite_self]
  · generalize o.realOrder = r at *
    change byName r (Euler.anglesOf m r.params).1 (Euler.anglesOf m r.params).2.1 (Euler.anglesOf m r.params).2.2 = mat m
    rw [anglesOf_renamed]
    apply byName_renamed r hm
    obtain ⟨r1, r2, r3, r4, r5, r6⟩ := renamed_cases hm
    cases r
    case SXYZ => exact sxyz_rebuild r1 hg
    case SXYX => exact sxyx_rebuild r1 hg.1 hg.2
    case SXZY => exact sxyz_rebuild r2 hg
    case SXZX => exact sxyx_rebuild r2 hg.1 hg.2
    case SYZX => exact sxyz_rebuild r3 hg
    case SYZY => exact sxyx_rebuild r3 hg.1 hg.2
    case SYXZ => exact sxyz_rebuild r4 hg
    case SYXY => exact sxyx_rebuild r4 hg.1 hg.2
    case SZXY => exact sxyz_rebuild r5 hg
    case SZXZ => exact sxyx_rebuild r5 hg.1 hg.2
    case SZYX => exact sxyz_rebuild r6 hg
    case SZYZ => exact sxyx_rebuild r6 hg.1 hg.2
    case RZYX => exact sxyz_rebuild r1 hg
    case RXYX => exact sxyx_rebuild r1 hg.1 hg.2
    case RYZX => exact sxyz_rebuild r2 hg
    case RXZX => exact sxyx_rebuild r2 hg.1 hg.2
    case RXZY => exact sxyz_rebuild r3 hg
    case RYZY => exact sxyx_rebuild r3 hg.1 hg.2
    case RZXY => exact sxyz_rebuild r4 hg
    case RYXY => exact sxyx_rebuild r4 hg.1 hg.2
    case RYXZ => exact sxyz_rebuild r5 hg
    case RZXZ => exact sxyx_rebuild r5 hg.1 hg.2
    case RXYZ => exact sxyz_rebuild r6 hg
    case RZYZ => exact sxyx_rebuild r6 hg.1 hg.2

theorem repeated_quarter (r : RealOrder) (hr : (axesOf r).1 = (axesOf r).2.2) : Euler.anglesOf (quarter (axesOf r).2.1) r.params = (0, 0, 0) := by
  have z0 : Complex.arg ⟨0, 0⟩ = 0 := Complex.arg_zero
  have z1 : Complex.arg ⟨1, 0⟩ = 0 := Complex.arg_one
  have n0 : ¬ (16 * eps ≤ 0) := by linarith [eps_pos]
  rw [anglesOf_renamed]
  have key : ∀ N : M4 ℝ, N.y.x = 0 → N.x.x = 0 → N.y.y = 1 → N.z.y = 0 → Euler.anglesOf N RealOrder.SXYX.params = (0, 0, 0) := by
    intro N h1 h2 h3 h4
    rw [anglesOf_sxyx, h1, h2, h3, h4]
    simp [z0, z1, n0]
  cases r <;> first | exact absurd hr (by decide) | (rw [if_pos (by rfl), key _ (by rfl) (by rfl) (by rfl) (by rfl)]; simp [adjust, RealOrder.params])

/-- C79 fails for each of the 12 orders with a repeated axis, even when the angles are read by position: a quarter turn about the second axis of
the order is recovered as three zero angles. -/
theorem C79_repeated_false (bk : Backend) (o : EulerOrder) (ho : (axesOf o.realOrder).1 = (axesOf o.realOrder).2.2) :
    let m := quarter (axesOf o.realOrder).2.1
    let e := Euler.initFromMatrix bk (some m) o
    Rotation m ∧ e.angles.getX = 0 ∧ e.angles.getY = 0 ∧ e.angles.getZ = 0 ∧
    byName o.realOrder e.angles.getX e.angles.getY e.angles.getZ ≠ mat m := by
  intro m e
  have he : e = Euler.initFromRadians 0 0 0 o := by
    simp only [e, Euler.initFromMatrix]
    split
    · simp [Euler.initWithOrder, degToRad]
    · rw [repeated_quarter _ ho]; rfl
  rw [he]
  refine ⟨quarter_rotation _, rfl, rfl, rfl, ?_⟩
  change byName o.realOrder 0 0 0 ≠ mat m
  have z : ∀ a, axisMat a 0 = 1 := by
    intro a
    cases a <;> ext i j <;> fin_cases i <;> fin_cases j <;> simp [axisMat]
  simp only [byName, z, mul_one, ite_self, m]
  intro h
  generalize (axesOf o.realOrder).2.1 = a at h
  cases a
  · have := congrFun (congrFun h 1) 1; simp [mat, vec, quarter] at this
  · have := congrFun (congrFun h 0) 0; simp [mat, vec, quarter] at this
  · have := congrFun (congrFun h 0) 0; simp [mat, vec, quarter] at this

/-- non-vacuity: a turn away from gimbal lock for the relative order RYZX ... -/
example : ∃ m : M4 ℝ, Rotation m ∧ Recoverable .RYZX m ∧ mat m 0 1 = 4 / 5 ∧ mat m 0 0 = 3 / 5 :=
  ⟨⟨⟨3 / 5, 4 / 5, 0, 0⟩, ⟨0, 0, 1, 0⟩, ⟨4 / 5, -(3 / 5), 0, 0⟩, ⟨0, 0, 0, 1⟩⟩, by
    refine ⟨⟨?_, ?_, ⟨rfl, rfl, rfl, rfl⟩, rfl⟩, ?_, rfl, rfl⟩
    · ext i j; fin_cases i <;> fin_cases j <;> simp [mat, vec, Matrix.mul_apply, Fin.sum_univ_succ] <;> norm_num
    · rw [Matrix.det_succ_row_zero]; simp [mat, vec, Fin.sum_univ_succ, Matrix.det_fin_three, Matrix.submatrix, Fin.succAbove]; norm_num
    · right
      change (16 * eps) ^ 2 ≤ 1 - (4 / 5 : ℝ) ^ 2
      unfold eps; norm_num⟩
/-- ... and a turn of the repeated order SXYX in which the two entries are equal and not zero. -/
example : ∃ m : M4 ℝ, Rotation m ∧ Recoverable .SXYX m ∧ mat m 2 0 = mat m 1 0 ∧ mat m 1 0 = 2 / 3 :=
  ⟨⟨⟨1 / 3, 2 / 3, -(2 / 3), 0⟩, ⟨2 / 3, 1 / 3, 2 / 3, 0⟩, ⟨2 / 3, -(2 / 3), -(1 / 3), 0⟩, ⟨0, 0, 0, 1⟩⟩, by
    refine ⟨⟨?_, ?_, ⟨rfl, rfl, rfl, rfl⟩, rfl⟩, ?_, rfl, rfl⟩
    · ext i j; fin_cases i <;> fin_cases j <;> simp [mat, vec, Matrix.mul_apply, Fin.sum_univ_succ] <;> norm_num
    · rw [Matrix.det_succ_row_zero]; simp [mat, vec, Fin.sum_univ_succ, Matrix.det_fin_three, Matrix.submatrix, Fin.succAbove]; norm_num
    · refine ⟨Or.inr ?_, Or.inr rfl⟩
      change (16 * eps) ^ 2 ≤ 1 - (1 / 3 : ℝ) ^ 2
      unfold eps; norm_num⟩

end Graphene
