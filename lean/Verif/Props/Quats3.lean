/-
  C74, C75: spherical interpolation and equality of quaternions.
-/
import Verif.Props.Quats2
import Verif.Props.Equality

namespace Graphene
open Spec Simd4f Matrix

/-! ## C74 -/

/-- the inner product of two quaternions; for unit quaternions, the cosine of half the angle between the
two rotations -/
def Spec.inner4 (a b : Quat ℝ) : ℝ := a.x * b.x + a.y * b.y + a.z * b.z + a.w * b.w

theorem inner4_le {a b : Quat ℝ} (ha : UnitQuat a) (hb : UnitQuat b) : inner4 a b ≤ 1 ∧ -1 ≤ inner4 a b := by
  obtain ⟨ax, ay, az, aw⟩ := a
  obtain ⟨bx, by', bz, bw⟩ := b
  simp only [UnitQuat, inner4] at *
  constructor
  · nlinarith [sq_nonneg (ax - bx), sq_nonneg (ay - by'), sq_nonneg (az - bz), sq_nonneg (aw - bw)]
  · nlinarith [sq_nonneg (ax + bx), sq_nonneg (ay + by'), sq_nonneg (az + bz), sq_nonneg (aw + bw)]

/-- the representative of the rotation `a` on the same side as `b` -/
noncomputable def Spec.towards (a b : Quat ℝ) : Quat ℝ := if inner4 a b < 0 then opp a else a

/-- half the angle between the two rotations, in [0, π/2] -/
noncomputable def Spec.halfAngle (a b : Quat ℝ) : ℝ := Real.arccos |inner4 a b|

/-- the two rotations are further apart than the library's tolerance -/
def Spec.Apart (a b : Quat ℝ) : Prop := |inner4 a b| ≤ 1 - eps

theorem towards_unit {a b : Quat ℝ} (ha : UnitQuat a) : UnitQuat (towards a b) := by
  unfold towards; split
  · simp only [UnitQuat, opp] at *; linarith
  · exact ha

theorem towards_inner (a b : Quat ℝ) : inner4 (towards a b) b = |inner4 a b| := by
  unfold towards; split
  · rename_i h; rw [abs_of_neg h]; simp only [inner4, opp]; ring
  · rename_i h; rw [abs_of_nonneg (not_lt.mp h)]

/-- `slerp` in closed form -/
theorem slerp_real {a b : Quat ℝ} (ha : UnitQuat a) (hb : UnitQuat b) (t : ℝ) :
    Quat.slerp a b t =
      if 1 - |inner4 a b| < eps then a
      else
        let c := towards a b
        let θ := halfAngle a b
        let r := Real.sin (t * θ) / Real.sin θ
        let l := Real.cos (t * θ) - |inner4 a b| * r
        ⟨l * c.x + r * b.x, l * c.y + r * b.y, l * c.z + r * b.z, l * c.w + r * b.w⟩ := by
  obtain ⟨h1, h2⟩ := inner4_le ha hb
  have hdot : (Simd4f.dot4 a.vec b.vec).x = inner4 a b := (C70_algebra a b 0 Vec4.zero).2.2.2.2.2.1
  have hcl : cClamp (inner4 a b) (((-1 : ℤ) : ℝ) / ((1 : ℕ) : ℝ)) 1 = inner4 a b := by
    simp only [cClamp, RealScalar.lt_eq]
    rw [if_neg (by push_cast; norm_num; exact h2), if_neg (not_lt.mpr h1)]
  have hneg : (if inner4 a b < 0 then -(inner4 a b) else inner4 a b) = |inner4 a b| := by
    split
    · rename_i h; rw [abs_of_neg h]
    · rename_i h; rw [abs_of_nonneg (not_lt.mp h)]
  have habs : |inner4 a b| ≤ 1 := abs_le.mpr ⟨h2, h1⟩
  have happ : (approxVal |inner4 a b| (1 : ℝ)) = decide (1 - |inner4 a b| < eps) := by
    rw [Bool.eq_iff_iff, decide_eq_true_iff]
    simp only [approxVal, fuzzyEquals, RealScalar.lt_eq, fltEps_real]
    rw [if_neg (not_lt.mpr habs)]; rfl
  simp only [Quat.slerp, hdot, RealScalar.lit_eq, RealScalar.f1_eq, RealScalar.f0_eq, RealScalar.lt_eq, RealScalar.neg_eq, hcl, hneg,
    happ, decide_eq_true_eq]
  split
  · rfl
  · have hs : √(1 - |inner4 a b| * |inner4 a b|) = Real.sin (halfAngle a b) := by
      rw [halfAngle, Real.sin_arccos]; congr 1; ring
    simp only [RealScalar.acos_eq, RealScalar.sin_eq, RealScalar.cos_eq, RealScalar.mul_eq, RealScalar.sub_eq, RealScalar.sqrt_eq,
      RealScalar.div_eq, hs]
    rw [← halfAngle]
    unfold towards
    split <;> simp [Quat.initFromSimd4f, Simd4f.add, Simd4f.mul, map2, splat, Quat.vec, Simd4f.init, opp] <;> ring_nf <;> trivial

/-- C74: between two rotations that are further apart than the tolerance, `slerp` moves along the great circle
at constant speed: it is always a unit quaternion, the results at factors `s` and `t` are `|s - t|` times the
half angle apart, factor 0 gives the rotation `a`, factor 1 exactly `b`. -/
theorem C74_slerp (a b : Quat ℝ) (ha : UnitQuat a) (hb : UnitQuat b) (hd : Apart a b) (s t : ℝ) :
    UnitQuat (Quat.slerp a b t) ∧
    inner4 (Quat.slerp a b s) (Quat.slerp a b t) = Real.cos ((s - t) * halfAngle a b) ∧
    (Quat.slerp a b 0 = a ∨ Quat.slerp a b 0 = opp a) ∧
    Quat.slerp a b 1 = b := by
  have hno : ¬ 1 - |inner4 a b| < eps := by unfold Apart at hd; linarith
  have hd0 : 0 ≤ |inner4 a b| := abs_nonneg _
  have hd1 : |inner4 a b| < 1 := by unfold Apart at hd; linarith [eps_pos]
  have hS : ∀ t, Quat.slerp a b t = _ := fun t => slerp_real ha hb t
  simp only [if_neg hno] at hS
  have hc : Real.cos (halfAngle a b) = |inner4 a b| := Real.cos_arccos (by linarith) hd1.le
  have hsin : 0 < Real.sin (halfAngle a b) := by
    rw [halfAngle, Real.sin_arccos]; exact Real.sqrt_pos.mpr (by nlinarith)
  have hcu := towards_unit (b := b) ha
  have hci := towards_inner a b
  have hto : towards a b = a ∨ towards a b = opp a := by unfold towards; split <;> simp
  have hin : ∀ s t, inner4 (Quat.slerp a b s) (Quat.slerp a b t) = Real.cos ((s - t) * halfAngle a b) := by
    intro s t
    rw [sub_mul s t (halfAngle a b), Real.cos_sub, hS s, hS t]
    have hsc := Real.sin_sq_add_cos_sq (halfAngle a b)
    rw [← hc]
    rw [← hc] at hci
    set θ := halfAngle a b
    clear_value θ
    set c := towards a b
    clear_value c
    obtain ⟨cx, cy, cz, cw⟩ := c
    obtain ⟨bx, by', bz, bw⟩ := b
    simp only [UnitQuat, inner4] at *
    have key : ∀ A A' R R' : ℝ, (A * cx + R * bx) * (A' * cx + R' * bx) + (A * cy + R * by') * (A' * cy + R' * by') +
        (A * cz + R * bz) * (A' * cz + R' * bz) + (A * cw + R * bw) * (A' * cw + R' * bw) =
        A * A' + R * R' + (A * R' + A' * R) * Real.cos θ := by
      intro A A' R R'
      linear_combination A * A' * hcu + R * R' * hb + (A * R' + A' * R) * hci
    rw [key]
    have hR : Real.sin (s * θ) / Real.sin θ * Real.sin θ = Real.sin (s * θ) := div_mul_cancel₀ _ hsin.ne'
    have hR' : Real.sin (t * θ) / Real.sin θ * Real.sin θ = Real.sin (t * θ) := div_mul_cancel₀ _ hsin.ne'
    generalize Real.sin (s * θ) / Real.sin θ = R at *
    generalize Real.sin (t * θ) / Real.sin θ = R' at *
    rw [← hR, ← hR']
    linear_combination -(R * R') * hsc
  refine ⟨?_, hin s t, ?_, ?_⟩
  · have := hin t t
    rw [sub_self, zero_mul, Real.cos_zero] at this
    simp only [UnitQuat, inner4] at *
    linarith
  · rw [hS 0]
    have : (⟨(towards a b).x, (towards a b).y, (towards a b).z, (towards a b).w⟩ : Quat ℝ) = towards a b := rfl
    simpa [this] using hto
  · rw [hS 1]
    simp only [one_mul, div_self hsin.ne', hc]
    simp

/-- C74: when the two rotations are closer than the tolerance, `slerp` is `a` for every factor; it is then
also within √(2·FLT_EPSILON) of `b` or `-b`. -/
theorem C74_slerp_near (a b : Quat ℝ) (ha : UnitQuat a) (hb : UnitQuat b) (hd : ¬ Apart a b) (t : ℝ) :
    Quat.slerp a b t = a ∧
    ((a.x - b.x) ^ 2 + (a.y - b.y) ^ 2 + (a.z - b.z) ^ 2 + (a.w - b.w) ^ 2 < 2 * eps ∨
     (a.x + b.x) ^ 2 + (a.y + b.y) ^ 2 + (a.z + b.z) ^ 2 + (a.w + b.w) ^ 2 < 2 * eps) := by
  have hy : 1 - |inner4 a b| < eps := by unfold Apart at hd; linarith
  refine ⟨by rw [slerp_real ha hb, if_pos hy], ?_⟩
  rcases abs_cases (inner4 a b) with ⟨h, -⟩ | ⟨h, -⟩
  · left
    rw [h] at hy; simp only [inner4, UnitQuat] at *; nlinarith
  · right
    rw [h] at hy; simp only [inner4, UnitQuat] at *; nlinarith

/-- C74, factor 1 is not exactly `b` for nearly parallel rotations (float equality of the endpoints cannot
be relied on). -/
theorem C74_near_endpoint : ∃ a b : Quat ℝ, UnitQuat a ∧ UnitQuat b ∧ Quat.slerp a b 1 ≠ b ∧ Quat.slerp a b 1 ≠ opp b := by
  refine ⟨⟨0, 0, 0, 1⟩, ⟨20000 / 100000001, 0, 0, 99999999 / 100000001⟩, ?_, ?_, ?_⟩
  · simp only [UnitQuat]; norm_num
  · simp only [UnitQuat]; norm_num
  · have ha : UnitQuat ⟨0, 0, 0, 1⟩ := by simp only [UnitQuat]; norm_num
    have hb : UnitQuat ⟨20000 / 100000001, 0, 0, 99999999 / 100000001⟩ := by simp only [UnitQuat]; norm_num
    have hd : ¬ Apart ⟨0, 0, 0, 1⟩ ⟨20000 / 100000001, 0, 0, 99999999 / 100000001⟩ := by
      simp only [Apart, inner4, not_le]
      rw [abs_of_pos (by norm_num)]
      unfold eps; norm_num
    rw [(C74_slerp_near _ _ ha hb hd 1).1]
    simp only [opp, ne_eq, Quat.mk.injEq]
    norm_num

/-- non-vacuity of `C74_slerp`: the identity and a half turn -/
example : UnitQuat ⟨0, 0, 0, 1⟩ ∧ UnitQuat ⟨1, 0, 0, 0⟩ ∧ Apart ⟨0, 0, 0, 1⟩ ⟨1, 0, 0, 0⟩ := by
  refine ⟨?_, ?_, ?_⟩
  · simp only [UnitQuat]; norm_num
  · simp only [UnitQuat]; norm_num
  · simp only [Apart, inner4]; norm_num; exact eps_lt_one.le

/-! ## C75 -/

/-- component-wise closer than 0.00001 -/
def Spec.Close (a b : Quat ℝ) : Prop :=
  |a.x - b.x| < 1 / 100000 ∧ |a.y - b.y| < 1 / 100000 ∧ |a.z - b.z| < 1 / 100000 ∧ |a.w - b.w| < 1 / 100000

theorem fuzzyEq5_real (a b : ℝ) : Quat.fuzzyEq5 a b = decide (|a - b| < 1 / 100000) := by
  rw [Bool.eq_iff_iff, decide_eq_true_iff]
  simp only [Quat.fuzzyEq5, RealScalar.lt_eq, RealScalar.widen_eq, RealScalar.sub_eq, RealScalar.lit_eq]
  norm_num
  split
  · rename_i h; rw [abs_of_pos (by linarith)]
  · rename_i h; rw [abs_sub_comm, abs_of_nonneg (by linarith)]

/-- C75, what holds: `quaternion_equal` is true exactly when `b` is component-wise within 0.00001 of `a` or of
the CONJUGATE of `a`.  Missing: the second alternative should be the negation (`C75_conjugate_false`,
`C75_negation_false`). -/
theorem C75_equal_partial (a b : Quat ℝ) :
    Quat.equalV a b = true ↔ Close a b ∨ Close (Quat.invert a) b := by
  simp only [Quat.equalV, fuzzyEq5_real, Close]
  split
  · rename_i h; simp at h; simp [h]
  · rename_i h
    simp only [Bool.and_eq_true, decide_eq_true_eq] at h ⊢
    tauto

/-- C75 is false: a rotation and its inverse are reported equal, for every quaternion. -/
theorem C75_conjugate_false (q : Quat ℝ) : Quat.equalV q (Quat.invert q) = true := by
  rw [C75_equal_partial]; right; simp [Close]

/-- C75 is false: a quaternion and its negation, the same rotation, are reported different, unless the
scalar part is within 0.000005 of zero (a half turn). -/
theorem C75_negation_false (q : Quat ℝ) (hw : 1 / 200000 ≤ |q.w|) :
    Quat.equalV q (opp q) = false := by
  have e : ∀ t : ℝ, |t - -t| = 2 * |t| := by intro t; rw [sub_neg_eq_add, ← two_mul, abs_mul]; norm_num
  rw [← Bool.not_eq_true, C75_equal_partial]
  simp only [Close, opp, Quat.invert, RealScalar.neg_eq, e]
  rintro (h | h)
  · linarith [h.2.2.2]
  · linarith [h.2.2.2]

/-- C75 also fails for the `float` values: 0.6i + 0.8 and its conjugate are `equal`, it and its negation are not. -/
theorem C75_float_false [Libm binary32] [Libm binary64] :
    let a : Quat F32 := ⟨Scalar.lit 3 5, f0, f0, Scalar.lit 4 5⟩
    Quat.equalV a (Quat.invert a) = true ∧
    Quat.equalV a ⟨Scalar.lit (-3) 5, Scalar.neg f0, Scalar.neg f0, Scalar.lit (-4) 5⟩ = false ∧
    Scalar.feq (Quat.invert a).x a.x = false := by
  refine ⟨?_, ?_, ?_⟩ <;> kdecide

/-- non-vacuity -/
example : Close ⟨0, 0, 0, 1⟩ ⟨0, 0, 1 / 1000000, 1⟩ ∧ ¬ Close ⟨0, 0, 0, 1⟩ ⟨0, 0, 1, 0⟩ := by
  simp only [Close]; constructor
  · norm_num [abs_lt]
  · norm_num

end Graphene
