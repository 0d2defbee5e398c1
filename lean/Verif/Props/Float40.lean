/-
  C133: the angle and the axis of a quaternion in floating point (IEEE binary32), for a C library whose acosf is accurate.
-/
import Verif.Props.Float37
import Verif.Props.Float39
import Verif.Props.Float7

set_option exponentiation.threshold 3000

namespace Graphene
open Fp Spec
variable [Libm binary32]

/-- twice the computed arc cosine, in degrees -/
theorem angle_degrees (hac : AcosAccurate) {c : F32} (hc : c.isFin = true) (h1 : |c.val| ≤ 1) {φ g : ℝ} (φ0 : 0 ≤ φ)
    (φ1 : φ ≤ Real.pi) (hg : |Real.arccos c.val - φ| ≤ g) :
    let d := radToDeg (Fp.mul (Libm.acos c) f2)
    d.isFin = true ∧ |d.val - φ * 2 * (180 / Real.pi)| ≤ 115 * g + 1 / 2 ^ 13 := by
  intro d
  obtain ⟨fA, eA⟩ := hac c hc h1
  have pi0 := Real.pi_pos
  have pi1 := Real.pi_gt_d2
  have pi2 := Real.pi_lt_d2
  have a0 := Real.arccos_nonneg c.val
  have a1 := Real.arccos_le_pi c.val
  obtain ⟨b0, b1⟩ := _root_.abs_le.1 eA
  have bA : |(Libm.acos c).val| ≤ 316 / 100 := _root_.abs_le.2 ⟨by norm_num at *; linarith, by norm_num at *; linarith⟩
  have r2 := rnd_mul fA two_is.fin
  rw [two_is.val] at r2
  have n2 : |(Libm.acos c).val * 2| ≤ 632 / 100 := by rw [_root_.abs_mul, abs_of_pos (by norm_num : (0 : ℝ) < 2)]; linarith
  have f2' := r2.isFin hp32 (n2.trans (le_trans (by norm_num) le_max32))
  have e2 := r2.err_add f2'
  rw [u32, eta32] at e2
  set B := Fp.mul (Libm.acos c) (f2 : F32)
  have bB : |B.val| ≤ 633 / 100 := by
    have t := abs_sub_abs_le_abs_sub B.val ((Libm.acos c).val * 2)
    norm_num at *; linarith
  obtain ⟨fd, ed⟩ := C130_to_degrees B f2' (bB.trans (by norm_num))
  refine ⟨fd, ?_⟩
  set k := 180 / Real.pi with hk
  have k0 : 0 < k := by positivity
  have k1 : k ≤ 575 / 10 := by rw [hk, div_le_iff₀ pi0]; norm_num at *; linarith
  have m : |B.val - φ * 2| ≤ 2 * g + 1 / 2 ^ 21 + 633 / 100 / 2 ^ 24 := by
    have t1 := abs_sub_le B.val ((Libm.acos c).val * 2) (φ * 2)
    have t2 := abs_sub_le (Libm.acos c).val (Real.arccos c.val) φ
    rw [← sub_mul, _root_.abs_mul _ (2 : ℝ), abs_of_pos (by norm_num : (0 : ℝ) < 2)] at t1
    norm_num at *; linarith
  have t := abs_sub_le (radToDeg B).val (B.val * k) (φ * 2 * k)
  rw [← sub_mul B.val, _root_.abs_mul _ k, abs_of_pos k0] at t
  have g0 : 0 ≤ g := (abs_nonneg _).trans hg
  have m' := mul_le_mul m k1 k0.le (by positivity)
  refine t.trans ?_
  have n := abs_nonneg B.val
  norm_num at *; linarith


/-- the computed sine: `√(1 - c²)` -/
theorem sine_near {c : F32} (hc : c.isFin = true) {C s e : ℝ} (hC : |c.val - C| ≤ e) (s0 : 0 < s) (hs : s ^ 2 + C ^ 2 = 1)
    (e0 : 1 / 2 ^ 19 ≤ e) (e1 : e ≤ s ^ 2 / 64) :
    let S := Fp.sqrt (Fp.sub (f1 : F32) (Fp.mul c c))
    S.isFin = true ∧ |S.val - s| * s ≤ 23 / 20 * e := by
  intro S
  have s1 : s ≤ 1 := by nlinarith [sq_nonneg C]
  have s2 : s ^ 2 ≤ 1 := by nlinarith
  have C1 : |C| ≤ 1 := abs_le_one_iff_mul_self_le_one.2 (by nlinarith [sq_nonneg s])
  have e64 : e ≤ 1 / 64 := by linarith
  have ep : 0 ≤ e := le_trans (by positivity) e0
  obtain ⟨C2, C3⟩ := _root_.abs_le.1 C1
  obtain ⟨d1, d2⟩ := _root_.abs_le.1 hC
  have o := is_f1
  have es : e * s ^ 2 ≤ e := by nlinarith
  -- the square
  have sq : |c.val * c.val - C ^ 2| ≤ 2 * e + e ^ 2 := by
    have : c.val * c.val - C ^ 2 = (c.val - C) * (2 * C) + (c.val - C) * (c.val - C) := by ring
    rw [this]
    refine (abs_add_le _ _).trans ?_
    rw [_root_.abs_mul, _root_.abs_mul, _root_.abs_mul (c.val - C) (c.val - C), abs_of_pos (by norm_num : (0 : ℝ) < 2)]
    have q0 := abs_nonneg (c.val - C)
    have q1 := abs_nonneg C
    nlinarith
  -- sharper: when `s` is small `e` is small too
  have e2 : e ^ 2 ≤ e / 64 := by nlinarith
  have cc : |c.val * c.val| ≤ 104 / 100 := by
    have := abs_sub_abs_le_abs_sub (c.val * c.val) (C ^ 2)
    rw [abs_of_nonneg (sq_nonneg C)] at this
    nlinarith
  have rp := rnd_mul hc hc
  have fp := rp.isFin hp32 (cc.trans (le_trans (by norm_num) le_max32))
  have ep' := rp.err_add fp
  rw [u32, eta32] at ep'
  set P := Fp.mul c c
  have rq := rnd_sub o.fin fp
  rw [o.val] at rq
  have pq : |1 - P.val - s ^ 2| ≤ 2 * e + e ^ 2 + 105 / 100 / 2 ^ 24 := by
    have t := abs_sub_le P.val (c.val * c.val) (C ^ 2)
    have u : |1 - P.val - s ^ 2| = |P.val - C ^ 2| := by
      rw [_root_.abs_sub_comm]; congr 1; linarith
    rw [u]
    norm_num at *; linarith
  have pe := (_root_.abs_le.1 pq)
  have aq : |1 - P.val| ≤ 105 / 100 := _root_.abs_le.2 ⟨by norm_num at *; nlinarith, by norm_num at *; nlinarith⟩
  have fq := rq.isFin hp32 (aq.trans (le_trans (by norm_num) le_max32))
  have eq := rq.err_add fq
  rw [u32, eta32] at eq
  set Q := Fp.sub (f1 : F32) P
  have hq : |Q.val - s ^ 2| ≤ 21 / 10 * e := by
    have t := abs_sub_le Q.val (1 - P.val) (s ^ 2)
    norm_num at *; linarith
  have q12 := _root_.abs_le.1 hq
  have q0 : 9 / 10 * s ^ 2 ≤ Q.val := by nlinarith [q12.1]
  have sp : 0 < s ^ 2 := by positivity
  obtain ⟨fS, eS⟩ := sqrt_err hs32 ht32 fq (by linarith)
  rw [u32] at eS
  refine ⟨fS, ?_⟩
  change |S.val - √Q.val| ≤ _ at eS
  set R := √Q.val with hR
  have R2 : R ^ 2 = Q.val := Real.sq_sqrt (by linarith)
  have R0 : 0 ≤ R := Real.sqrt_nonneg _
  have Rlo : 94 / 100 * s ≤ R := by
    apply Real.le_sqrt_of_sq_le; nlinarith
  have Rs : |R - s| * (R + s) ≤ 21 / 10 * e := by
    have : R ^ 2 - s ^ 2 = (R - s) * (R + s) := by ring
    rw [← R2, this, _root_.abs_mul, abs_of_nonneg (by linarith : 0 ≤ R + s)] at hq
    exact hq
  have R1 : |R - s| * s ≤ 109 / 100 * e := by
    have q := mul_le_mul_of_nonneg_left (by linarith : 194 / 100 * s ≤ R + s) (abs_nonneg (R - s))
    have q' := q.trans Rs
    linarith
  have rs : R * s ≤ 109 / 100 := by
    have : (R - s) * s ≤ 109 / 100 * e := le_trans (mul_le_mul_of_nonneg_right (le_abs_self _) s0.le) R1
    have : R * s = (R - s) * s + s ^ 2 := by ring
    linarith
  have t := abs_sub_le S.val R s
  have t' := mul_le_mul_of_nonneg_right (t.trans (add_le_add_left eS _)) s0.le
  rw [add_mul] at t'
  have u'' : 1 / 16777216 * R * s = 1 / 16777216 * (R * s) := by ring
  rw [u''] at t'
  generalize |S.val - s| * s = z1 at *
  generalize |R - s| * s = z2 at *
  generalize R * s = z3 at *
  clear eS t
  norm_num at e0 t' ⊢; linarith

omit [Libm binary32] in
/-- one component of the axis -/
theorem axis_near {x S : F32} (hx : x.isFin = true) (hS : S.isFin = true) {u s e : ℝ} (hu : |u| ≤ 1) (s0 : 0 < s) (s1 : s ≤ 1)
    (ex : |x.val - u * s| ≤ e) (eS : |S.val - s| * s ≤ 23 / 20 * e) (e0 : 1 / 2 ^ 19 ≤ e) (e1 : e ≤ s ^ 2 / 64) :
    (Fp.div x S).isFin = true ∧ |(Fp.div x S).val - u| ≤ 9 / 4 * e / s ^ 2 := by
  have ep : 0 < e := lt_of_lt_of_le (by positivity) e0
  have sp : 0 < s ^ 2 := by positivity
  have Sd : |S.val - s| ≤ 23 / 20 / 64 * s := by
    have : |S.val - s| * s ≤ 23 / 20 / 64 * s * s := by nlinarith
    exact le_of_mul_le_mul_right this s0
  have Slo : 98 / 100 * s ≤ S.val := by have := (_root_.abs_le.1 Sd).1; linarith
  have S0 : 0 < S.val := by nlinarith
  -- the exact quotient
  have q : |x.val / S.val - u| ≤ 22 / 10 * e / s ^ 2 := by
    have : x.val / S.val - u = (x.val - u * s + u * (s - S.val)) / S.val := by field_simp; ring
    rw [this, abs_div, abs_of_pos S0, div_le_div_iff₀ S0 sp]
    have n : |x.val - u * s + u * (s - S.val)| ≤ e + |S.val - s| := by
      refine (abs_add_le _ _).trans ?_
      rw [_root_.abs_mul, _root_.abs_sub_comm s]
      nlinarith [abs_nonneg (S.val - s)]
    have m := mul_le_mul_of_nonneg_right n sp.le
    have m2 : e * (98 / 100 * s) ≤ e * S.val := mul_le_mul_of_nonneg_left Slo ep.le
    have m3 : |S.val - s| * s ^ 2 ≤ 23 / 20 * e * s := by nlinarith
    have m4 : e * s ^ 2 ≤ e * s := mul_le_mul_of_nonneg_left (by nlinarith) ep.le
    rw [add_mul] at m
    nlinarith
  have rr := rnd_div hx hS S0.ne'
  have qs : 22 / 10 * e / s ^ 2 ≤ 22 / 10 / 64 := by rw [div_le_iff₀ sp]; linarith
  have b : |x.val / S.val| ≤ 104 / 100 := by
    have := abs_sub_abs_le_abs_sub (x.val / S.val) u
    norm_num at *; linarith
  have f := rr.isFin hp32 (b.trans (le_trans (by norm_num) le_max32))
  have er := rr.err_add f
  rw [u32, eta32] at er
  refine ⟨f, ?_⟩
  have t := abs_sub_le (Fp.div x S).val (x.val / S.val) u
  have es : e ≤ e / s ^ 2 := by rw [le_div_iff₀ sp]; exact mul_le_of_le_one_right ep.le (by nlinarith)
  rw [mul_div_assoc] at q ⊢
  norm_num at *; linarith

omit [Libm binary32] in
/-- the direction of a quaternion close to a multiple of a unit quaternion -/
theorem unit_of_near {p t : Quaternion ℝ} {k ε : ℝ} (hp : p ≠ 0) (ht : ‖t‖ = 1) (hk : 0 < k) (h : ‖p - k • t‖ ≤ ε * k) :
    ‖‖p‖⁻¹ • p - t‖ ≤ 2 * ε := by
  have p0 : 0 < ‖p‖ := norm_pos_iff.2 hp
  have e : ‖p‖⁻¹ • p - t = (‖p‖⁻¹ - k⁻¹) • p + k⁻¹ • (p - k • t) := by
    rw [smul_sub, smul_smul, inv_mul_cancel₀ hk.ne', one_smul, sub_smul]; abel
  have e2 : ‖(‖p‖⁻¹ - k⁻¹) • p‖ ≤ ε := by
    have : (‖p‖⁻¹ - k⁻¹) * ‖p‖ = (k - ‖p‖) / k := by field_simp
    rw [norm_smul, Real.norm_eq_abs, ← abs_of_pos p0, ← _root_.abs_mul, abs_of_pos p0, this, abs_div, abs_of_pos hk, div_le_iff₀ hk]
    have := abs_norm_sub_norm_le p (k • t)
    rw [norm_smul, Real.norm_eq_abs, abs_of_pos hk, ht, _root_.mul_one, _root_.abs_sub_comm] at this
    exact this.trans h
  have e3 : ‖k⁻¹ • (p - k • t)‖ ≤ ε := by
    rw [norm_smul, norm_inv, Real.norm_eq_abs, abs_of_pos hk, inv_mul_le_iff₀ hk, _root_.mul_comm]; exact h
  rw [e]
  exact (norm_add_le _ _).trans (by linarith)

omit [Libm binary32] in
theorem axisQuat_unit {u : Point3D ℝ} (hu : u.x ^ 2 + u.y ^ 2 + u.z ^ 2 = 1) (ψ : ℝ) : ‖Spec.axisQuat u ψ‖ = 1 := by
  have := quat_norm_sq ⟨u.x * Real.sin (ψ / 2), u.y * Real.sin (ψ / 2), u.z * Real.sin (ψ / 2), Real.cos (ψ / 2)⟩
  refine (sq_eq_sq₀ (norm_nonneg _) (by norm_num)).1 ?_
  rw [Spec.axisQuat, this]
  have := Real.sin_sq_add_cos_sq (ψ / 2)
  simp only [mul_pow]
  nlinarith

omit [Libm binary32] in
theorem comp_le_norm (p : Quaternion ℝ) : |p.re| ≤ ‖p‖ ∧ |p.imI| ≤ ‖p‖ ∧ |p.imJ| ≤ ‖p‖ ∧ |p.imK| ≤ ‖p‖ := by
  have h : ‖p‖ ^ 2 = p.re ^ 2 + p.imI ^ 2 + p.imJ ^ 2 + p.imK ^ 2 := by
    rw [pow_two, ← Quaternion.normSq_eq_norm_mul_self, Quaternion.normSq_def']
  refine ⟨?_, ?_, ?_, ?_⟩ <;>
  · apply abs_le_of_sq_le_sq _ (norm_nonneg _)
    rw [h]; nlinarith [sq_nonneg p.re, sq_nonneg p.imI, sq_nonneg p.imJ, sq_nonneg p.imK]

/-- the computed unit quaternion, component by component -/
theorem normalized_near (bk : Backend) (he : EstAccurate bk) (q : Quat F32) (hq : FiniteQ q) (hn : NormLen bk ‖ham q‖)
    {u : Point3D ℝ} (hu : u.x ^ 2 + u.y ^ 2 + u.z ^ 2 = 1) {ψ k ε : ℝ} (hk : 0 < k) (h : ‖ham q - k • Spec.axisQuat u ψ‖ ≤ ε * k) :
    let n := Quat.normalize bk q
    let e := 2 * ε + 1001 / 1000 / 2 ^ 19
    FiniteQ n ∧ |n.x.val - u.x * Real.sin (ψ / 2)| ≤ e ∧ |n.y.val - u.y * Real.sin (ψ / 2)| ≤ e ∧
      |n.z.val - u.z * Real.sin (ψ / 2)| ≤ e ∧ |n.w.val - Real.cos (ψ / 2)| ≤ e := by
  intro n e
  have L0 : 0 < ‖ham q‖ := lt_of_lt_of_le (by positivity) hn.1
  have eL : ‖ham q‖ = √(q.x.val ^ 2 + q.y.val ^ 2 + q.z.val ^ 2 + q.w.val ^ 2) := by
    rw [← ham_norm_sq, Real.sqrt_sq (norm_nonneg _)]
  obtain ⟨hx, hy, hz, hw⟩ := C99_quaternion bk he q hq eL hn
  obtain ⟨bx, by', bz, bw⟩ := comp_le_ham q
  have d := unit_of_near (norm_pos_iff.1 L0) (axisQuat_unit hu ψ) hk h
  obtain ⟨cw, cx, cy, cz⟩ := comp_le_norm (‖ham q‖⁻¹ • ham q - Spec.axisQuat u ψ)
  simp only [Quaternion.re_sub, Quaternion.imI_sub, Quaternion.imJ_sub, Quaternion.imK_sub, Quaternion.re_smul, Quaternion.imI_smul,
    Quaternion.imJ_smul, Quaternion.imK_smul, Spec.axisQuat, ham, quat_re, quat_i, quat_j, quat_k, exactQ, smul_eq_mul] at cw cx cy cz
  have key : ∀ {c : F32} {v T : ℝ}, UnitComp c v ‖ham q‖ → |v| ≤ ‖ham q‖ → |‖ham q‖⁻¹ * v - T| ≤ 2 * ε → |c.val - T| ≤ e := by
    intro c v T h1 h2 h3
    have t := abs_sub_le c.val (v / ‖ham q‖) T
    have g := h1.2
    have g2 : |v| / ‖ham q‖ ≤ 1 := (div_le_one L0).2 h2
    rw [← div_eq_inv_mul] at h3
    generalize |v| / ‖ham q‖ = a at *
    show _ ≤ 2 * ε + 1001 / 1000 / 2 ^ 19
    norm_num at *; linarith
  exact ⟨⟨hx.1, hy.1, hz.1, hw.1⟩, key hx bx (cx.trans d), key hy by' (cy.trans d), key hz bz (cz.trans d), key hw bw (cw.trans d)⟩

variable [Libm binary64]

/-- the threshold `0.00005` -/
theorem threshold_small {S : F32} (hS : S.isFin = true) (h : 1 / 2 ^ 14 ≤ |S.val|) :
    Fp.lt (Fp.convert binary64 (Fp.abs S)) (Fp.lit 5 100000) = false := by
  have w := widen_is (a := Fp.abs S) (by simpa using hS)
  have l := rnd_lit (f := binary64) 5 (d := 100000) (by norm_num)
  have v := lit_dyadic 1 14 (by decide) (by decide)
  have vw := widen_is v.1
  have le := l.le_of vw.fin (by rw [vw.val, v.2]; norm_num)
  have le' := (le_iff_val l.not_nan (isNaN_of_isFin vw.fin)).1 le
  rw [vw.val, v.2] at le'
  rw [Bool.eq_false_iff]; intro hc
  have := (lt_iff_val (isNaN_of_isFin w.fin) l.not_nan).1 hc
  rw [w.val, val_abs] at this
  norm_num at *; linarith

/-- `graphene_quaternion_to_angle_vec3` after normalising -/
def angleTail (n : Quat F32) : F32 × Vec3 F32 :=
  let S := Fp.sqrt (Fp.sub (f1 : F32) (Fp.mul n.w n.w))
  let D := if Fp.lt (Fp.convert binary64 (Fp.abs S)) (Fp.lit 5 100000) = true then (f1 : F32) else S
  (radToDeg (Fp.mul (Libm.acos n.w) f2), Vec3.init (Fp.div n.x D) (Fp.div n.y D) (Fp.div n.z D))

theorem toAngle_eq (bk : Backend) (q : Quat F32) : Quat.toAngleVec3 (δ := F64) bk q = angleTail (Quat.normalize bk q) := rfl

set_option maxHeartbeats 1600000 in
/-- C133: the angle (in degrees) and the axis reported for a quaternion that is within a relative error `ε` of a multiple of the
unit quaternion of the rotation by `ψ` about `u`.  With `s = sin (ψ/2)` not too small, all four numbers are finite, the angle is
within `(724 ε + 2^-10) / s` degrees of the exact one and every component of the axis within `(5 ε + 2^-17) / s²`. -/
theorem C133_angle_axis (bk : Backend) (he : EstAccurate bk) (hac : AcosAccurate) (q : Quat F32) (hq : FiniteQ q)
    (hn : NormLen bk ‖ham q‖) (u : Point3D ℝ) (hu : u.x ^ 2 + u.y ^ 2 + u.z ^ 2 = 1) (ψ : ℝ) (ψ0 : 0 ≤ ψ)
    (ψ1 : ψ ≤ 2 * Real.pi) (k ε : ℝ) (hk : 0 < k) (h : ‖ham q - k • Spec.axisQuat u ψ‖ ≤ ε * k)
    (hs : 128 * ε + 1 / 2 ^ 12 ≤ Real.sin (ψ / 2) ^ 2) :
    let r := Quat.toAngleVec3 (δ := F64) bk q
    let s := Real.sin (ψ / 2)
    (r.1.isFin = true ∧ |r.1.val - ψ * (180 / Real.pi)| ≤ (724 * ε + 1 / 2 ^ 10) / s) ∧
    (r.2.getX.isFin = true ∧ |r.2.getX.val - u.x| ≤ (5 * ε + 1 / 2 ^ 17) / s ^ 2) ∧
    (r.2.getY.isFin = true ∧ |r.2.getY.val - u.y| ≤ (5 * ε + 1 / 2 ^ 17) / s ^ 2) ∧
    (r.2.getZ.isFin = true ∧ |r.2.getZ.val - u.z| ≤ (5 * ε + 1 / 2 ^ 17) / s ^ 2) := by
  intro r s
  have ε0 : 0 ≤ ε := by
    have := (norm_nonneg _).trans h
    exact nonneg_of_mul_nonneg_left this hk
  obtain ⟨⟨fx, fy, fz, fw⟩, ex, ey, ez, ew⟩ := normalized_near bk he q hq hn hu hk h
  set n := Quat.normalize bk q with hnn
  set e := 2 * ε + 1001 / 1000 / 2 ^ 19 with hE
  have pi0 := Real.pi_pos
  have s2 : s ^ 2 + Real.cos (ψ / 2) ^ 2 = 1 := Real.sin_sq_add_cos_sq _
  have sn : 0 ≤ s := Real.sin_nonneg_of_nonneg_of_le_pi (by linarith) (by linarith)
  have sp : 0 < s := by
    rcases sn.lt_or_eq with a | a
    · exact a
    · exfalso
      change 128 * ε + 1 / 2 ^ 12 ≤ s ^ 2 at hs
      rw [← a] at hs; norm_num at hs; linarith
  change 128 * ε + 1 / 2 ^ 12 ≤ s ^ 2 at hs
  have s1 : s ≤ 1 := Real.sin_le_one _
  have e0 : 1 / 2 ^ 19 ≤ e := by rw [hE]; norm_num; linarith
  have e1 : e ≤ s ^ 2 / 64 := by rw [hE]; norm_num at *; linarith
  have ep : 0 < e := lt_of_lt_of_le (by positivity) e0
  have ssq : s ^ 2 ≤ 1 := by nlinarith
  obtain ⟨fS, eS⟩ := sine_near fw ew sp s2 e0 e1
  set S := Fp.sqrt (Fp.sub (f1 : F32) (Fp.mul n.w n.w)) with hS
  have Sd : |S.val - s| ≤ 23 / 20 / 64 * s := by
    have : |S.val - s| * s ≤ 23 / 20 / 64 * s * s := by nlinarith
    exact le_of_mul_le_mul_right this sp
  have Slo : 98 / 100 * s ≤ S.val := by have := (_root_.abs_le.1 Sd).1; linarith
  have sl : 1 / 64 ≤ s := by
    apply le_of_sq_le_sq _ sn
    norm_num at *; linarith
  have T := threshold_small fS (by rw [abs_of_nonneg (by linarith)]; norm_num at *; linarith)
  have hr : r = (radToDeg (Fp.mul (Libm.acos n.w) f2), Vec3.init (Fp.div n.x S) (Fp.div n.y S) (Fp.div n.z S)) := by
    show Quat.toAngleVec3 (δ := F64) bk q = _
    rw [toAngle_eq, ← hnn, angleTail, ← hS, T]; rfl
  -- the real part
  have w1 : |n.w.val| ≤ 1 := by
    have c1 : |Real.cos (ψ / 2)| ≤ 1 - s ^ 2 / 2 := by
      apply abs_le_of_sq_le_sq _ (by linarith)
      nlinarith
    have := abs_sub_abs_le_abs_sub n.w.val (Real.cos (ψ / 2))
    linarith
  obtain ⟨w2, w3⟩ := _root_.abs_le.1 w1
  have gap := (angle_gap (θ := ψ / 2) (φ := Real.arccos n.w.val) (δ := e) (by linarith) (by linarith) (Real.arccos_nonneg _) (Real.arccos_le_pi _)
    (by rw [Real.cos_arccos w2 w3, _root_.abs_sub_comm]; exact ew)).2
  have hg : |Real.arccos n.w.val - ψ / 2| ≤ 22 / 7 * e / s := by
    rw [_root_.abs_sub_comm, le_div_iff₀ sp]; exact gap
  obtain ⟨fd, ed⟩ := angle_degrees hac fw w1 (by linarith : 0 ≤ ψ / 2) (by linarith) hg
  have ux : |u.x| ≤ 1 := abs_le_one_iff_mul_self_le_one.2 (by nlinarith [sq_nonneg u.y, sq_nonneg u.z])
  have uy : |u.y| ≤ 1 := abs_le_one_iff_mul_self_le_one.2 (by nlinarith [sq_nonneg u.x, sq_nonneg u.z])
  have uz : |u.z| ≤ 1 := abs_le_one_iff_mul_self_le_one.2 (by nlinarith [sq_nonneg u.y, sq_nonneg u.x])
  have le2 : 9 / 4 * e / s ^ 2 ≤ (5 * ε + 1 / 2 ^ 17) / s ^ 2 := by
    apply div_le_div_of_nonneg_right _ (by positivity)
    rw [hE]; norm_num; linarith
  obtain ⟨f1, g1⟩ := axis_near fx fS ux sp s1 ex eS e0 e1
  obtain ⟨f2', g2⟩ := axis_near fy fS uy sp s1 ey eS e0 e1
  obtain ⟨f3, g3⟩ := axis_near fz fS uz sp s1 ez eS e0 e1
  rw [hr]
  refine ⟨⟨fd, ?_⟩, ⟨f1, g1.trans le2⟩, ⟨f2', g2.trans le2⟩, ⟨f3, g3.trans le2⟩⟩
  rw [show ψ / 2 * 2 = ψ by ring] at ed
  refine ed.trans ?_
  have : (1 : ℝ) / 2 ^ 13 ≤ 1 / 2 ^ 13 / s := by rw [le_div_iff₀ sp]; exact mul_le_of_le_one_right (by positivity) s1
  have e3 : 115 * (22 / 7 * e / s) + 1 / 2 ^ 13 / s = (115 * (22 / 7) * e + 1 / 2 ^ 13) / s := by ring
  have e4 : (115 * (22 / 7) * e + 1 / 2 ^ 13) / s ≤ (724 * ε + 1 / 2 ^ 10) / s := by
    apply div_le_div_of_nonneg_right _ sn
    rw [hE]; norm_num; linarith
  linarith

/-- C133: from an angle and an axis to a quaternion and back.  With `s` the sine of the half angle, at least 1/32 (angles from
about 3.6 to 356.4 degrees), the angle comes back to within `3·2^-9 / s` degrees and the axis, made a unit vector, to within
`5·2^-17 / s²`. -/
theorem C133_round_trip (bk : Backend) (he : EstAccurate bk) (hac : AcosAccurate) (ht : TrigAccurate) (angle : F32) (axis : Vec3 F32)
    (h : angle.isFin = true) (a0 : 0 ≤ angle.val) (a1 : angle.val ≤ 360) (ha : GoodAxis bk axis)
    (hs : 1 / 32 ≤ Real.sin (angle.val * (Real.pi / 180) / 2)) :
    let r := Quat.toAngleVec3 (δ := F64) bk (Quat.initFromAngleVec3 bk angle axis)
    let s := Real.sin (angle.val * (Real.pi / 180) / 2)
    let u := unitOf (exactV axis)
    (r.1.isFin = true ∧ |r.1.val - angle.val| ≤ 3 / 2 ^ 9 / s) ∧
    (r.2.getX.isFin = true ∧ |r.2.getX.val - u.x| ≤ 5 / 2 ^ 17 / s ^ 2) ∧
    (r.2.getY.isFin = true ∧ |r.2.getY.val - u.y| ≤ 5 / 2 ^ 17 / s ^ 2) ∧
    (r.2.getZ.isFin = true ∧ |r.2.getZ.val - u.z| ≤ 5 / 2 ^ 17 / s ^ 2) := by
  intro r s u
  have aa : |angle.val| = angle.val := abs_of_nonneg a0
  obtain ⟨fq, eq, -, nq⟩ := C108_angle_axis bk he ht angle axis h (by rw [aa]; exact a1.trans (by norm_num)) ha
  rw [aa] at eq nq
  have b : 5 / 2 ^ 20 + angle.val / 2 ^ 29 + 1 / 2 ^ 148 ≤ (6 : ℝ) / 2 ^ 20 := by norm_num at *; linarith
  obtain ⟨n1, n2⟩ := _root_.abs_le.1 (nq.trans b)
  have pi0 := Real.pi_pos
  have sp : 0 < s := lt_of_lt_of_le (by norm_num) hs
  have key := C133_angle_axis bk he hac (Quat.initFromAngleVec3 bk angle axis) fq
    ⟨by norm_num at *; linarith, by norm_num at *; linarith, fun _ _ => by norm_num at *; linarith⟩
    u (exactV_unit ha) (angle.val * (Real.pi / 180)) (by positivity)
    (by have : angle.val * (Real.pi / 180) ≤ 360 * (Real.pi / 180) := mul_le_mul_of_nonneg_right a1 (by positivity)
        linarith) 1 (6 / 2 ^ 20) one_pos (by rw [one_smul, _root_.mul_one]; exact eq.trans b)
    (by have := mul_le_mul hs hs (by norm_num) sp.le
        rw [pow_two]; norm_num at *; linarith)
  have ang : angle.val * (Real.pi / 180) * (180 / Real.pi) = angle.val := by field_simp
  dsimp only at key
  rw [ang] at key
  have k1 : (724 * (6 / 2 ^ 20) + 1 / 2 ^ 10) / s ≤ 3 / 2 ^ 9 / s := div_le_div_of_nonneg_right (by norm_num) sp.le
  have k2 : (5 * (6 / 2 ^ 20) + 1 / 2 ^ 17) / s ^ 2 ≤ 5 / 2 ^ 17 / s ^ 2 := div_le_div_of_nonneg_right (by norm_num) (by positivity)
  obtain ⟨⟨f0, g0⟩, ⟨f1, g1⟩, ⟨f2', g2⟩, ⟨f3, g3⟩⟩ := key
  exact ⟨⟨f0, g0.trans k1⟩, ⟨f1, g1.trans k2⟩, ⟨f2', g2.trans k2⟩, ⟨f3, g3.trans k2⟩⟩

/-- the threshold is more than `2^-15` -/
theorem threshold_large {S : F32} (hS : S.isFin = true)
    (h : Fp.lt (Fp.convert binary64 (Fp.abs S)) (Fp.lit 5 100000) = false) : 1 / 2 ^ 15 ≤ |S.val| := by
  have w := widen_is (a := Fp.abs S) (by simpa using hS)
  have l := rnd_lit (f := binary64) 5 (d := 100000) (by norm_num)
  have v := lit_dyadic 1 15 (by decide) (by decide)
  have vw := widen_is v.1
  have le := l.ge_of vw.fin (by rw [vw.val, v.2]; norm_num)
  have le' := (le_iff_val (isNaN_of_isFin vw.fin) l.not_nan).1 le
  rw [vw.val, v.2] at le'
  by_contra hc
  have : Fp.lt (Fp.convert binary64 (Fp.abs S)) (Fp.lit 5 100000) = true := by
    refine (lt_iff_val (isNaN_of_isFin w.fin) l.not_nan).2 ?_
    rw [w.val, val_abs]
    norm_num at *; linarith
  rw [h] at this; cases this

/-- C133: whatever the angle, as long as the real part of the normalised quaternion has not been rounded above 1, all four numbers
are finite and the angle is within 0.4 degrees of the exact one. -/
theorem C133_finite (bk : Backend) (he : EstAccurate bk) (hac : AcosAccurate) (q : Quat F32) (hq : FiniteQ q)
    (hn : NormLen bk ‖ham q‖) (u : Point3D ℝ) (hu : u.x ^ 2 + u.y ^ 2 + u.z ^ 2 = 1) (ψ : ℝ) (ψ0 : 0 ≤ ψ)
    (ψ1 : ψ ≤ 2 * Real.pi) (k : ℝ) (hk : 0 < k) (h : ham q = k • Spec.axisQuat u ψ)
    (hw : |(Quat.normalize bk q).w.val| ≤ 1) :
    let r := Quat.toAngleVec3 (δ := F64) bk q
    (r.1.isFin = true ∧ r.2.getX.isFin = true ∧ r.2.getY.isFin = true ∧ r.2.getZ.isFin = true) ∧
    |r.1.val - ψ * (180 / Real.pi)| ≤ 2 / 5 := by
  intro r
  obtain ⟨⟨fx, fy, fz, fw⟩, ex, ey, ez, ew⟩ := normalized_near (ε := 0) bk he q hq hn hu hk (by rw [h, sub_self, norm_zero]; simp)
  have hr : r = angleTail (Quat.normalize bk q) := toAngle_eq bk q
  set n := Quat.normalize bk q with hnn
  obtain ⟨w2, w3⟩ := _root_.abs_le.1 hw
  have o := is_f1
  have pi0 := Real.pi_pos
  have rp := rnd_mul fw fw
  have ww : n.w.val * n.w.val ≤ 1 := by nlinarith
  have w0 : 0 ≤ n.w.val * n.w.val := mul_self_nonneg _
  have fp := rp.isFin hp32 (by rw [abs_of_nonneg w0]; exact ww.trans (le_trans (by norm_num) le_max32))
  have p1 := (le_iff_val rp.not_nan (isNaN_of_isFin o.fin)).1 (rp.le_of o.fin (by rw [o.val]; exact ww))
  have p0 := (le_iff_val rfl rp.not_nan).1 (rp.ge_of (a := Fp.zero false) rfl (by rw [val_zero]; exact w0))
  rw [o.val] at p1
  rw [val_zero] at p0
  have rq := rnd_sub o.fin fp
  rw [o.val] at rq
  have fq := rq.isFin hp32 (by rw [abs_of_nonneg (by linarith)]; exact le_trans (by linarith : _ ≤ (1 : ℝ)) (le_trans (by norm_num) le_max32))
  have q0 := (le_iff_val rfl rq.not_nan).1 (rq.ge_of (a := Fp.zero false) rfl (by rw [val_zero]; linarith))
  rw [val_zero] at q0
  obtain ⟨fS, -⟩ := sqrt_err hs32 ht32 fq q0
  set S := Fp.sqrt (Fp.sub (f1 : F32) (Fp.mul n.w n.w)) with hS
  set D := if Fp.lt (Fp.convert binary64 (Fp.abs S)) (Fp.lit 5 100000) = true then (f1 : F32) else S with hD
  have hDf : D.isFin = true ∧ 1 / 2 ^ 15 ≤ |D.val| := by
    rw [hD]; split
    · exact ⟨o.fin, by rw [o.val]; norm_num⟩
    · rename_i hc
      exact ⟨fS, threshold_large fS (by simpa using hc)⟩
  have hq' : r = (radToDeg (Fp.mul (Libm.acos n.w) f2), Vec3.init (Fp.div n.x D) (Fp.div n.y D) (Fp.div n.z D)) := by
    rw [hr, angleTail]
  have D0 : D.val ≠ 0 := by intro hc; rw [hc, abs_zero] at hDf; norm_num at hDf
  have u1 : ∀ {a b c : ℝ}, a ^ 2 + b ^ 2 + c ^ 2 = 1 → |a| ≤ 1 := fun {a b c} hh =>
    abs_le_one_iff_mul_self_le_one.2 (by nlinarith [sq_nonneg b, sq_nonneg c])
  have dv : ∀ {x : F32} {v : ℝ}, x.isFin = true → |v| ≤ 1 → |x.val - v * Real.sin (ψ / 2)| ≤ 2 * 0 + 1001 / 1000 / 2 ^ 19 →
      (Fp.div x D).isFin = true := by
    intro x v hx hv hxv
    refine (rnd_div hx hDf.1 D0).isFin hp32 (le_trans ?_ le_max32)
    have sv : |v * Real.sin (ψ / 2)| ≤ 1 := by
      rw [_root_.abs_mul]; exact mul_le_one₀ hv (abs_nonneg _) (Real.abs_sin_le_one _)
    have t := abs_sub_abs_le_abs_sub x.val (v * Real.sin (ψ / 2))
    have xb : |x.val| ≤ 2 := by norm_num at *; linarith
    rw [abs_div, div_le_iff₀ (abs_pos.2 D0)]
    have := hDf.2
    norm_num at *; linarith
  have gap := (angle_gap (θ := ψ / 2) (φ := Real.arccos n.w.val) (δ := 2 * 0 + 1001 / 1000 / 2 ^ 19) (by linarith) (by linarith) (Real.arccos_nonneg _) (Real.arccos_le_pi _)
    (by rw [Real.cos_arccos w2 w3, _root_.abs_sub_comm]; exact ew)).1
  have hg : |Real.arccos n.w.val - ψ / 2| ≤ 31 / 10000 := by
    rw [_root_.abs_sub_comm]
    apply abs_le_of_sq_le_sq' _ (by norm_num) |> fun h => _root_.abs_le.2 h
    rw [sq_abs] at gap
    exact gap.trans (by norm_num)
  obtain ⟨fd, ed⟩ := angle_degrees hac fw hw (by linarith : 0 ≤ ψ / 2) (by linarith) hg
  rw [show ψ / 2 * 2 = ψ by ring] at ed
  rw [hq']
  refine ⟨⟨fd, dv fx (u1 hu) ex, dv fy (u1 (by linarith : u.y ^ 2 + u.x ^ 2 + u.z ^ 2 = 1)) ey,
    dv fz (u1 (by linarith : u.z ^ 2 + u.x ^ 2 + u.y ^ 2 = 1)) ez⟩, ed.trans (by norm_num)⟩

/-! ### Above one -/

omit [Libm binary32] [Libm binary64] in
/-- a reciprocal square root estimate within the manuals' bound, chosen at one argument -/
theorem est_at (L : Libm binary32) (v s : F32) (hs : s.isFin = true) (h0 : 1 / 2 ^ 120 ≤ v.val) (h : |s.val ^ 2 * v.val - 1| ≤ 1 / 2 ^ 12)
    (s0 : 0 ≤ s.val) (a b : Bool) :
    @Spec.EstAccurate { L with
      rcpEst := fun a => Fp.div (Fp.lit 1 1) a
      rsqrtEst := fun a => if a.feq v then s else Fp.div (Fp.lit 1 1) (Fp.sqrt a) } (.sse a b) := by
  obtain ⟨h1, h2⟩ := est_exists L (.sse a b)
  refine ⟨h1, fun x fx lo hi => ?_⟩
  show (if x.feq v then s else Fp.div (Fp.lit 1 1) (Fp.sqrt x)).isFin = true ∧
    |(if x.feq v then s else Fp.div (Fp.lit 1 1) (Fp.sqrt x)).val * √x.val - 1| ≤ 3 / 2 ^ 13
  by_cases hx : x.feq v = true
  · rw [if_pos hx]
    refine ⟨hs, ?_⟩
    have nv : v.isNaN = false := by
      cases v with
      | nan => simp [Fp.feq] at hx
      | inf s => rfl
      | fin s m hm => rfl
    rw [(feq_iff_val (isNaN_of_isFin fx) nv).1 hx]
    have v0 : 0 < v.val := lt_of_lt_of_le (by positivity) h0
    have e := Real.sq_sqrt v0.le
    have p := Real.sqrt_pos.2 v0
    have z : 0 ≤ s.val * √v.val := by positivity
    have hz : (s.val * √v.val) ^ 2 = s.val ^ 2 * v.val := by rw [mul_pow, e]
    rw [← hz] at h
    generalize s.val * √v.val = y at *
    rw [show y ^ 2 - 1 = (y - 1) * (y + 1) by ring, _root_.abs_mul, abs_of_nonneg (by linarith : 0 ≤ y + 1)] at h
    have := abs_nonneg (y - 1)
    nlinarith
  · rw [if_neg hx]; exact h2 x fx lo hi

omit [Libm binary32] in
/-- C133, the limit of the guarantee: nothing clamps the real part.  An SSE machine whose reciprocal square root estimate of
2.7123… is 2487/4096, well within the accuracy the manuals promise, normalises the quaternion `(0, 0, 0, 1.6469…)`, which does not
rotate at all, to one with real part `1 + 2^-23`, and the axis it reports is NaN. -/
theorem C133_no_clamp (L : Libm binary32) : ∃ L' : Libm binary32, L'.acos = L.acos ∧
    (∀ a b, @Spec.EstAccurate L' (.sse a b)) ∧
    ∃ q : Quat F32, FiniteQ q ∧ (∀ a b, NormLen (.sse a b) ‖ham q‖) ∧ q.x.val = 0 ∧ q.y.val = 0 ∧ q.z.val = 0 ∧ 0 < q.w.val ∧
      ∀ a b, (letI := L'; (Quat.toAngleVec3 (δ := F64) (.sse a b) q).2.getX.isNaN = true) := by
  obtain ⟨fw, vw⟩ := lit_dyadic 13815349 23 (by decide) (by decide)
  obtain ⟨fs, vs⟩ := lit_dyadic 2487 12 (by decide) (by decide)
  obtain ⟨fv, vv⟩ := lit_dyadic 11376373 22 (by decide) (by decide)
  refine ⟨{ L with
      rcpEst := fun a => Fp.div (Fp.lit 1 1) a
      rsqrtEst := fun a => if a.feq (Fp.lit 11376373 (2 ^ 22)) then (Fp.lit 2487 (2 ^ 12)) else Fp.div (Fp.lit 1 1) (Fp.sqrt a) }, rfl,
    fun a b => est_at L _ _ fs (by rw [vv]; norm_num) (by rw [vv, vs, _root_.abs_le]; norm_num) (by rw [vs]; norm_num) a b,
    ⟨Fp.lit 0 1, Fp.lit 0 1, Fp.lit 0 1, Fp.lit 13815349 (2 ^ 23)⟩, ⟨is_f0.fin, is_f0.fin, is_f0.fin, fw⟩, fun a b => ?_,
    is_f0.val, is_f0.val, is_f0.val, by show 0 < (Fp.lit 13815349 (2 ^ 23) : F32).val; rw [vw]; norm_num, fun a b => ?_⟩
  · have n := ham_norm_sq (⟨Fp.lit 0 1, Fp.lit 0 1, Fp.lit 0 1, Fp.lit 13815349 (2 ^ 23)⟩ : Quat F32)
    have z : (Fp.lit 0 1 : F32).val = 0 := is_f0.val
    rw [z, vw] at n
    have n0 := norm_nonneg (ham (⟨Fp.lit 0 1, Fp.lit 0 1, Fp.lit 0 1, Fp.lit 13815349 (2 ^ 23)⟩ : Quat F32))
    generalize ‖ham (⟨Fp.lit 0 1, Fp.lit 0 1, Fp.lit 0 1, Fp.lit 13815349 (2 ^ 23)⟩ : Quat F32)‖ = y at *
    have : y = 13815349 / 2 ^ 23 := by
      refine (sq_eq_sq₀ n0 (by norm_num)).1 ?_
      rw [n]; norm_num
    rw [this]
    exact ⟨by norm_num, by norm_num, fun b hb => by cases hb⟩
  · cases a <;> cases b <;> kdecide

/-! ### The hypotheses are met -/

/-- the turn by a third about the diagonal, `(1/2, 1/2, 1/2, 1/2)`: 120 degrees, to within a five hundredth of a degree -/
example (bk : Backend) (he : EstAccurate bk) (hac : AcosAccurate) :
    |(Quat.toAngleVec3 (δ := F64) bk (⟨Fp.lit 1 2, Fp.lit 1 2, Fp.lit 1 2, Fp.lit 1 2⟩ : Quat F32)).1.val - 120| ≤ 1 / 500 := by
  have hh := lit_dyadic 1 1 (by decide) (by decide)
  have hv : (Fp.lit 1 2 : F32).val = 1 / 2 := by simpa using hh.2
  have hf : (Fp.lit 1 2 : F32).isFin = true := hh.1
  have s3 := Real.sq_sqrt (show (0 : ℝ) ≤ 3 by norm_num)
  have p3 := Real.sqrt_pos.2 (show (0 : ℝ) < 3 by norm_num)
  have pi0 := Real.pi_pos
  have eu : ((1 / √3 : ℝ)) ^ 2 + (1 / √3) ^ 2 + (1 / √3) ^ 2 = 1 := by rw [div_pow, s3]; norm_num
  have half : 2 * Real.pi / 3 / 2 = Real.pi / 3 := by ring
  have hq : ham (⟨Fp.lit 1 2, Fp.lit 1 2, Fp.lit 1 2, Fp.lit 1 2⟩ : Quat F32) = (1 : ℝ) • Spec.axisQuat ⟨1 / √3, 1 / √3, 1 / √3⟩ (2 * Real.pi / 3) := by
    rw [ham, exactQ, hv, one_smul, Spec.axisQuat, half, Real.sin_pi_div_three, Real.cos_pi_div_three]
    have : (1 / √3 * (√3 / 2) : ℝ) = 1 / 2 := by field_simp
    rw [this]
  have n1 : ‖ham (⟨Fp.lit 1 2, Fp.lit 1 2, Fp.lit 1 2, Fp.lit 1 2⟩ : Quat F32)‖ = 1 := by
    rw [hq, one_smul]; exact axisQuat_unit eu _
  have h := (C133_angle_axis bk he hac _ ⟨hf, hf, hf, hf⟩ (by rw [n1]; exact ⟨by norm_num, by norm_num, fun _ _ => by norm_num⟩)
    ⟨1 / √3, 1 / √3, 1 / √3⟩ eu (2 * Real.pi / 3) (by positivity) (by linarith) 1 0 one_pos (by rw [hq, sub_self, norm_zero]; simp)
    (by rw [half, Real.sin_pi_div_three, div_pow, s3]; norm_num)).1.2
  rw [half, Real.sin_pi_div_three, show 2 * Real.pi / 3 * (180 / Real.pi) = 120 by field_simp; norm_num] at h
  refine h.trans ?_
  have q3 : (17 / 10 : ℝ) ≤ √3 := Real.le_sqrt_of_sq_le (by norm_num)
  rw [div_le_iff₀ (by positivity)]
  norm_num; linarith

/-- a quarter turn about the z axis comes back as 90 degrees, to within a hundredth of a degree -/
example (bk : Backend) (he : EstAccurate bk) (hac : AcosAccurate) (ht : TrigAccurate) :
    |(Quat.toAngleVec3 (δ := F64) bk (Quat.initFromAngleVec3 bk (Fp.lit 90 1 : F32) (Vec3.init f0 f0 f1))).1.val - 90| ≤ 1 / 100 := by
  have z := is_f0
  have o := is_f1
  obtain ⟨fa, va⟩ := lit_int 90 (by decide)
  have va' : (Fp.lit 90 1 : F32).val = 90 := by rw [va]; norm_num
  have s2 := Real.sq_sqrt (show (0 : ℝ) ≤ 2 by norm_num)
  have q2 : (7 / 5 : ℝ) ≤ √2 := Real.le_sqrt_of_sq_le (by norm_num)
  have half : (Fp.lit 90 1 : F32).val * (Real.pi / 180) / 2 = Real.pi / 4 := by rw [va']; ring
  have ha : GoodAxis bk (Vec3.init f0 f0 f1 : Vec3 F32) := by
    refine ⟨⟨z.fin, z.fin, o.fin⟩, ?_⟩
    have : √((Vec3.init f0 f0 f1 : Vec3 F32).getX.val ^ 2 + (Vec3.init f0 f0 f1 : Vec3 F32).getY.val ^ 2 + (Vec3.init f0 f0 f1 : Vec3 F32).getZ.val ^ 2) = 1 := by
      show √((f0 : F32).val ^ 2 + (f0 : F32).val ^ 2 + (f1 : F32).val ^ 2) = 1
      rw [z.val, o.val]; norm_num
    rw [this]; exact ⟨by norm_num, by norm_num, fun _ _ => by norm_num⟩
  have h := (C133_round_trip bk he hac ht (Fp.lit 90 1) (Vec3.init f0 f0 f1) fa (by rw [va']; norm_num) (by rw [va']; norm_num) ha
    (by rw [half, Real.sin_pi_div_four]; linarith)).1.2
  rw [half, Real.sin_pi_div_four, va'] at h
  refine h.trans ?_
  rw [div_le_iff₀ (by positivity)]
  norm_num; linarith

end Graphene
