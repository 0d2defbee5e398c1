/-
  C129: the quaternion of a rotation matrix in floating point (IEEE binary32).
-/
import Verif.Props.Float18

set_option exponentiation.threshold 3000

namespace Graphene
open Fp Spec
variable [Libm binary32]

/-- `m` holds, up to `ε` per entry, the rotation by the unit quaternion `p` in its upper-left 3×3
block. -/
structure Spec.NearRotation (m : M4 F32) (p : Quat ℝ) (ε : ℝ) : Prop where
  unit : UnitQuat p
  entry : ∀ i j : Fin 4, i ≠ 3 → j ≠ 3 → (mat m i j).isFin = true ∧ |(mat m i j).val - mat p.toMatrix i j| ≤ ε

/-- the error of a component recovered with a square root from entries that are off by `ε` -/
noncomputable def Spec.rootError (ε : ℝ) : ℝ := √(3 * ε + 1 / 2 ^ 20) / 2 + 1 / 2 ^ 22

theorem half_lit : (Scalar.lit 1 2 : F32).isFin = true ∧ (Scalar.lit 1 2 : F32).val = 1 / 2 := by
  have h := lit_dyadic 1 1 (by norm_num) (by norm_num)
  simpa using h

theorem cMax_zero {t : F32} (h : t.isFin = true) : (cMax t f0).isFin = true ∧ (cMax t f0).val = max t.val 0 := by
  have hz := is_f0
  unfold cMax
  have e : (t >. (f0 : F32)) = Fp.lt f0 t := rfl
  rw [e]
  by_cases k : Fp.lt f0 t = true
  · rw [if_pos k]
    have := (lt_iff_val (isNaN_of_isFin hz.fin) (isNaN_of_isFin h)).1 k
    rw [hz.val] at this
    exact ⟨h, (max_eq_left this.le).symm⟩
  · rw [if_neg k]
    have : ¬ (0 : ℝ) < t.val := by
      intro hh; apply k; rw [lt_iff_val (isNaN_of_isFin hz.fin) (isNaN_of_isFin h), hz.val]; exact hh
    exact ⟨hz.fin, by rw [hz.val, max_eq_right (not_lt.1 this)]⟩

theorem comp_sqrt {t : F32} (h : t.isFin = true) {c d : ℝ} (c0 : 0 ≤ c) (c1 : c ≤ 1) (d1 : d ≤ 1)
    (he : |t.val - 4 * c ^ 2| ≤ d) :
    let r : F32 := Scalar.lit 1 2 *. Scalar.sqrt (cMax t f0)
    r.isFin = true ∧ 0 ≤ r.val ∧ |r.val - c| ≤ √d / 2 + 1 / 2 ^ 22 ∧
      (0 < c → |r.val - c| ≤ d / (4 * c) + 1 / 2 ^ 22) := by
  intro r
  obtain ⟨sf, sv⟩ := cMax_zero h
  set s := cMax t f0
  have d0 : 0 ≤ d := (abs_nonneg _).trans he
  have c2 : 0 ≤ 4 * c ^ 2 := by positivity
  have s0 : 0 ≤ s.val := by rw [sv]; exact le_max_right _ _
  have sd : |s.val - 4 * c ^ 2| ≤ d := by
    rw [sv]
    have := abs_max_sub_max_le_abs t.val (4 * c ^ 2) 0
    rw [max_eq_left c2] at this
    exact this.trans he
  have s5 : s.val ≤ 5 := by
    have := (_root_.abs_le.1 sd).2
    nlinarith
  obtain ⟨rf, re⟩ := sqrt_err hs32 ht32 sf s0
  have q0 := Real.sqrt_nonneg s.val
  have qq := Real.mul_self_sqrt s0
  have q9 : √s.val ≤ 9 / 4 := by nlinarith
  have fact : (√s.val - 2 * c) * (√s.val + 2 * c) = s.val - 4 * c ^ 2 := by ring_nf; rw [pow_two, qq]; ring
  have prod : |√s.val - 2 * c| * (√s.val + 2 * c) ≤ d := by
    rw [← abs_of_nonneg (show 0 ≤ √s.val + 2 * c by linarith), ← _root_.abs_mul, fact]; exact sd
  have g1 : |√s.val - 2 * c| ≤ √d := by
    apply Real.le_sqrt_of_sq_le
    have : |√s.val - 2 * c| ≤ √s.val + 2 * c := by
      rw [_root_.abs_le]; constructor <;> linarith
    rw [pow_two]
    exact (mul_le_mul_of_nonneg_left this (abs_nonneg _)).trans prod
  have g2 : 0 < c → |√s.val - 2 * c| ≤ d / (2 * c) := by
    intro cp
    rw [le_div_iff₀ (by linarith)]
    refine (mul_le_mul_of_nonneg_left ?_ (abs_nonneg _)).trans prod
    linarith
  rw [u32] at re
  have hr : r = Fp.mul (Scalar.lit 1 2) (Fp.sqrt s) := rfl
  obtain ⟨hf, hv⟩ := half_lit
  have rb : |(Fp.sqrt s).val| ≤ 5 / 2 := by
    have := abs_add_le ((Fp.sqrt s).val - √s.val) (√s.val)
    rw [sub_add_cancel, abs_of_nonneg q0] at this
    linarith
  have big : (4 : ℝ) ≤ binary32.maxVal := le_trans (by norm_num) le_max32
  have m := Approx.mul hp32 (Approx.exact hf) (Approx.exact rf) (by rw [hv]; norm_num; linarith)
  have me := m.err
  rw [u32, eta32, hv, ← hr] at me
  have mf := m.fin
  have he2 : |(1 / 2 : ℝ)| = 1 / 2 := abs_of_nonneg (by norm_num)
  rw [he2] at me
  have r0 : 0 ≤ (Fp.sqrt s).val := by
    have := (_root_.abs_le.1 re).1
    nlinarith
  have nn : 0 ≤ r.val := by
    rw [hr]
    have := Rnd.ge_of (rnd_mul hf rf) is_f0.fin (by rw [is_f0.val, hv]; positivity)
    rw [le_iff_val (isNaN_of_isFin is_f0.fin) (isNaN_of_isFin mf), is_f0.val] at this
    exact this
  have tot : |r.val - c| ≤ |√s.val - 2 * c| / 2 + 1 / 2 ^ 22 := by
    have t1 := abs_add_le (r.val - 1 / 2 * (Fp.sqrt s).val) (1 / 2 * (Fp.sqrt s).val - c)
    have t2 : |1 / 2 * (Fp.sqrt s).val - c| ≤ 1 / 2 * |(Fp.sqrt s).val - √s.val| + 1 / 2 * |√s.val - 2 * c| := by
      have e : 1 / 2 * (Fp.sqrt s).val - c = 1 / 2 * ((Fp.sqrt s).val - √s.val) + 1 / 2 * (√s.val - 2 * c) := by ring
      rw [e]
      refine (abs_add_le _ _).trans ?_
      rw [_root_.abs_mul, _root_.abs_mul, he2]
    rw [sub_add_sub_cancel] at t1
    norm_num at me t2 ⊢
    linarith
  refine ⟨mf, nn, tot.trans (by linarith), fun cp => tot.trans ?_⟩
  have := g2 cp
  have e : d / (4 * c) = d / (2 * c) / 2 := by field_simp; norm_num
  rw [e]; linarith

/-- the three roundings of `1 ± a ± b ± c` -/
theorem diag_sums {a b c : F32} (ha : a.isFin = true) (hb : b.isFin = true) (hc : c.isFin = true)
    (a1 : |a.val| ≤ 9 / 8) (b1 : |b.val| ≤ 9 / 8) (c1 : |c.val| ≤ 9 / 8) :
    ((f1 +. a +. b +. c : F32).isFin = true ∧ |(f1 +. a +. b +. c : F32).val - (1 + a.val + b.val + c.val)| ≤ 1 / 2 ^ 20) ∧
    ((f1 +. a -. b -. c : F32).isFin = true ∧ |(f1 +. a -. b -. c : F32).val - (1 + a.val - b.val - c.val)| ≤ 1 / 2 ^ 20) ∧
    ((f1 -. a +. b -. c : F32).isFin = true ∧ |(f1 -. a +. b -. c : F32).val - (1 - a.val + b.val - c.val)| ≤ 1 / 2 ^ 20) ∧
    ((f1 -. a -. b +. c : F32).isFin = true ∧ |(f1 -. a -. b +. c : F32).val - (1 - a.val - b.val + c.val)| ≤ 1 / 2 ^ 20) := by
  have o := Approx.of_eq (is_f1 : Is (f1 : F32) 1).fin is_f1.val
  rw [abs_of_nonneg (by norm_num : (0 : ℝ) ≤ 1)] at o
  have A := Approx.exact ha
  have B := Approx.exact hb
  have C := Approx.exact hc
  have k : (8 : ℝ) ≤ 2 ^ 127 := by norm_num
  have a0 := abs_nonneg a.val
  have b0 := abs_nonneg b.val
  have c0 := abs_nonneg c.val
  have p1 := sum2_approx o A (by linarith)
  have m1 := sub2_approx o A (by linarith)
  have p2 := sum2_approx p1 B (by norm_num at k ⊢; linarith)
  have q2 := sub2_approx p1 B (by norm_num at k ⊢; linarith)
  have r2 := sum2_approx m1 B (by norm_num at k ⊢; linarith)
  have s2 := sub2_approx m1 B (by norm_num at k ⊢; linarith)
  have p3 := sum2_approx p2 C (by norm_num at k ⊢; linarith)
  have q3 := sub2_approx q2 C (by norm_num at k ⊢; linarith)
  have r3 := sub2_approx r2 C (by norm_num at k ⊢; linarith)
  have s3 := sum2_approx s2 C (by norm_num at k ⊢; linarith)
  refine ⟨⟨p3.fin, p3.err.trans ?_⟩, ⟨q3.fin, q3.err.trans ?_⟩, ⟨r3.fin, r3.err.trans ?_⟩, ⟨s3.fin, s3.err.trans ?_⟩⟩ <;>
    norm_num <;> linarith

/-- the sign the code gives to a component -/
theorem signed_comp {r a b : F32} (hr : r.isFin = true) (r0 : 0 ≤ r.val) (ha : a.isFin = true) (hb : b.isFin = true)
    {c w ε δ : ℝ} (hw : 0 ≤ w) (hd : |b.val - a.val - 4 * w * c| ≤ 2 * ε) (he : |r.val - (|c|)| ≤ δ) :
    let q : F32 := if a >. b then Scalar.neg r else r
    q.isFin = true ∧ |q.val| = r.val ∧
    (ε < 2 * w * |c| → 0 ≤ q.val * c) ∧ (0 < w → |q.val - c| ≤ δ + ε / w) := by
  intro q
  have e : (a >. b) = Fp.lt b a := rfl
  have na := isNaN_of_isFin ha
  have nb := isNaN_of_isFin hb
  have d0 : 0 ≤ δ := (abs_nonneg _).trans he
  have ep : 0 ≤ ε := by linarith [abs_nonneg (b.val - a.val - 4 * w * c)]
  have key : q.isFin = true ∧ ((q.val = r.val ∧ a.val ≤ b.val) ∨ (q.val = -r.val ∧ b.val < a.val)) := by
    simp only [q, e]
    by_cases k : Fp.lt b a = true
    · rw [if_pos k]
      refine ⟨by simpa [Scalar.neg] using hr, .inr ⟨val_neg r, (lt_iff_val nb na).1 k⟩⟩
    · rw [if_neg k]
      exact ⟨hr, .inl ⟨rfl, not_lt.1 (fun h => k ((lt_iff_val nb na).2 h))⟩⟩
  obtain ⟨qf, hq⟩ := key
  have hd' := _root_.abs_le.1 hd
  have aq : |q.val| = r.val := by
    rcases hq with ⟨h, -⟩ | ⟨h, -⟩ <;> rw [h]
    · exact abs_of_nonneg r0
    · rw [_root_.abs_neg]; exact abs_of_nonneg r0
  have sgn : ε < 2 * w * |c| → 0 ≤ q.val * c := by
    intro h
    rcases le_total 0 c with hc | hc
    · rw [abs_of_nonneg hc] at h
      rcases hq with ⟨h1, h2⟩ | ⟨h1, h2⟩
      · rw [h1]; positivity
      · exfalso; nlinarith
    · rw [abs_of_nonpos hc] at h
      rcases hq with ⟨h1, h2⟩ | ⟨h1, h2⟩
      · exfalso; nlinarith
      · rw [h1]; nlinarith
  refine ⟨qf, aq, sgn, fun hw0 => ?_⟩
  have hdiv : 0 ≤ ε / w := div_nonneg ep hw
  by_cases h : ε < 2 * w * |c|
  · have := sgn h
    have e2 : |q.val - c| = |r.val - (|c|)| := by
      rcases le_total 0 c with hc | hc
      · rw [abs_of_nonneg hc]
        rcases hq with ⟨h1, -⟩ | ⟨h1, -⟩
        · rw [h1]
        · rw [h1] at this ⊢
          have : r.val * c = 0 := by nlinarith [mul_nonneg r0 hc]
          rcases mul_eq_zero.1 this with hz | hz
          · rw [hz]; norm_num
          · exfalso; rw [hz] at h; simp at h; linarith
      · rw [abs_of_nonpos hc]
        rcases hq with ⟨h1, -⟩ | ⟨h1, -⟩
        · rw [h1] at this ⊢
          have : r.val * c = 0 := by nlinarith [mul_nonneg r0 (neg_nonneg.2 hc)]
          rcases mul_eq_zero.1 this with hz | hz
          · rw [hz, zero_sub, zero_sub, _root_.neg_neg, _root_.abs_neg]
          · exfalso; rw [hz] at h; simp at h; linarith
        · rw [h1]
          rw [← _root_.abs_neg]; congr 1; ring
    rw [e2]; linarith
  · have h3 : |c| ≤ ε / w / 2 := by
      rw [div_div, le_div_iff₀ (by positivity)]; linarith [not_lt.1 h]
    have h4 : |q.val - c| ≤ |q.val| + |c| := abs_sub _ _
    have h5 := (_root_.abs_le.1 he).2
    rw [aq] at h4
    linarith

set_option maxHeartbeats 1000000 in
/-- C129: the quaternion computed from a matrix whose entries are within `ε ≤ 1/8` of the rotation
by a unit quaternion `p` with non-negative real part: all components are finite, the real part is
not negative, each magnitude is within `√(3ε + 2^-20)/2 + 2^-22` of the true one (and within
`(3ε + 2^-20) / 4c + 2^-22` of a true magnitude `c ≠ 0`); the imaginary components have the right
signs where `p.w·|component|` exceeds `ε/2`; and each is within the first bound plus `ε / p.w` of
the true component. -/
theorem C129_accuracy (m : M4 F32) (p : Quat ℝ) (ε : ℝ) (h : NearRotation m p ε) (hε : ε ≤ 1 / 8) (hw : 0 ≤ p.w) :
    let q := Quat.initFromMatrix m
    FiniteQ q ∧ 0 ≤ q.w.val ∧
    (|q.w.val - p.w| ≤ rootError ε ∧ |(|q.x.val|) - (|p.x|)| ≤ rootError ε ∧
      |(|q.y.val|) - (|p.y|)| ≤ rootError ε ∧ |(|q.z.val|) - (|p.z|)| ≤ rootError ε) ∧
    (0 < p.w → |q.w.val - p.w| ≤ (3 * ε + 1 / 2 ^ 20) / (4 * p.w) + 1 / 2 ^ 22) ∧
    (p.x ≠ 0 → |(|q.x.val|) - (|p.x|)| ≤ (3 * ε + 1 / 2 ^ 20) / (4 * |p.x|) + 1 / 2 ^ 22) ∧
    (p.y ≠ 0 → |(|q.y.val|) - (|p.y|)| ≤ (3 * ε + 1 / 2 ^ 20) / (4 * |p.y|) + 1 / 2 ^ 22) ∧
    (p.z ≠ 0 → |(|q.z.val|) - (|p.z|)| ≤ (3 * ε + 1 / 2 ^ 20) / (4 * |p.z|) + 1 / 2 ^ 22) ∧
    ((ε < 2 * p.w * |p.x| → 0 ≤ q.x.val * p.x) ∧ (ε < 2 * p.w * |p.y| → 0 ≤ q.y.val * p.y) ∧
      (ε < 2 * p.w * |p.z| → 0 ≤ q.z.val * p.z)) ∧
    (0 < p.w → |q.x.val - p.x| ≤ rootError ε + ε / p.w ∧ |q.y.val - p.y| ≤ rootError ε + ε / p.w ∧
      |q.z.val - p.z| ≤ rootError ε + ε / p.w) := by
  obtain ⟨hu, hent⟩ := h
  have hu' : p.x ^ 2 + p.y ^ 2 + p.z ^ 2 + p.w ^ 2 = 1 := hu
  simp only [toMatrix_real] at hent
  have e00 : m.x.x.isFin = true ∧ |m.x.x.val - (1 - 2 * (p.y * p.y + p.z * p.z))| ≤ ε := hent 0 0 (by decide) (by decide)
  have e01 : m.x.y.isFin = true ∧ |m.x.y.val - (2 * (p.x * p.y + p.w * p.z))| ≤ ε := hent 0 1 (by decide) (by decide)
  have e02 : m.x.z.isFin = true ∧ |m.x.z.val - (2 * (p.x * p.z - p.w * p.y))| ≤ ε := hent 0 2 (by decide) (by decide)
  have e10 : m.y.x.isFin = true ∧ |m.y.x.val - (2 * (p.x * p.y - p.w * p.z))| ≤ ε := hent 1 0 (by decide) (by decide)
  have e11 : m.y.y.isFin = true ∧ |m.y.y.val - (1 - 2 * (p.x * p.x + p.z * p.z))| ≤ ε := hent 1 1 (by decide) (by decide)
  have e12 : m.y.z.isFin = true ∧ |m.y.z.val - (2 * (p.y * p.z + p.w * p.x))| ≤ ε := hent 1 2 (by decide) (by decide)
  have e20 : m.z.x.isFin = true ∧ |m.z.x.val - (2 * (p.x * p.z + p.w * p.y))| ≤ ε := hent 2 0 (by decide) (by decide)
  have e21 : m.z.y.isFin = true ∧ |m.z.y.val - (2 * (p.y * p.z - p.w * p.x))| ≤ ε := hent 2 1 (by decide) (by decide)
  have e22 : m.z.z.isFin = true ∧ |m.z.z.val - (1 - 2 * (p.x * p.x + p.y * p.y))| ≤ ε := hent 2 2 (by decide) (by decide)
  clear hent
  have sx := sq_nonneg p.x
  have sy := sq_nonneg p.y
  have sz := sq_nonneg p.z
  have sw := sq_nonneg p.w
  have d00 := _root_.abs_le.1 e00.2
  have d11 := _root_.abs_le.1 e11.2
  have d22 := _root_.abs_le.1 e22.2
  have b00 : |m.x.x.val| ≤ 9 / 8 := by rw [_root_.abs_le]; constructor <;> linarith
  have b11 : |m.y.y.val| ≤ 9 / 8 := by rw [_root_.abs_le]; constructor <;> linarith
  have b22 : |m.z.z.val| ≤ 9 / 8 := by rw [_root_.abs_le]; constructor <;> linarith
  obtain ⟨tw, tx, ty, tz⟩ := diag_sums e00.1 e11.1 e22.1 b00 b11 b22
  have ab : ∀ c : ℝ, c ^ 2 ≤ 1 → |c| ≤ 1 := fun c hc => by
    rw [← sq_abs] at hc
    nlinarith [abs_nonneg c]
  have dd : 3 * ε + 1 / 2 ^ 20 ≤ 1 := by norm_num; linarith
  have dist : ∀ {t v T : ℝ}, |t - v| ≤ 1 / 2 ^ 20 → |v - T| ≤ 3 * ε → |t - T| ≤ 3 * ε + 1 / 2 ^ 20 := by
    intro t v T h1 h2
    have := abs_add_le (t - v) (v - T)
    rw [sub_add_sub_cancel] at this
    linarith
  have hwq := comp_sqrt (c := p.w) tw.1 hw (by have := ab p.w (by linarith); rwa [abs_of_nonneg hw] at this) dd
    (dist tw.2 (by rw [_root_.abs_le]; constructor <;> linarith))
  have hxq := comp_sqrt (c := |p.x|) tx.1 (abs_nonneg _) (ab p.x (by linarith)) dd
    (dist tx.2 (by rw [_root_.abs_le, sq_abs]; constructor <;> linarith))
  have hyq := comp_sqrt (c := |p.y|) ty.1 (abs_nonneg _) (ab p.y (by linarith)) dd
    (dist ty.2 (by rw [_root_.abs_le, sq_abs]; constructor <;> linarith))
  have hzq := comp_sqrt (c := |p.z|) tz.1 (abs_nonneg _) (ab p.z (by linarith)) dd
    (dist tz.2 (by rw [_root_.abs_le, sq_abs]; constructor <;> linarith))
  have d01 := _root_.abs_le.1 e01.2
  have d02 := _root_.abs_le.1 e02.2
  have d10 := _root_.abs_le.1 e10.2
  have d12 := _root_.abs_le.1 e12.2
  have d20 := _root_.abs_le.1 e20.2
  have d21 := _root_.abs_le.1 e21.2
  obtain ⟨w1, w2, w3, w4⟩ := hwq
  obtain ⟨x1, x2, x3, x4⟩ := hxq
  obtain ⟨y1, y2, y3, y4⟩ := hyq
  obtain ⟨z1, z2, z3, z4⟩ := hzq
  have qx := signed_comp (c := p.x) (w := p.w) (ε := ε) x1 x2 e21.1 e12.1 hw
    (by rw [_root_.abs_le]; constructor <;> linarith) x3
  have qy := signed_comp (c := p.y) (w := p.w) (ε := ε) y1 y2 e02.1 e20.1 hw
    (by rw [_root_.abs_le]; constructor <;> linarith) y3
  have qz := signed_comp (c := p.z) (w := p.w) (ε := ε) z1 z2 e10.1 e01.1 hw
    (by rw [_root_.abs_le]; constructor <;> linarith) z3
  obtain ⟨fx, ax, gx, ix⟩ := qx
  obtain ⟨fy, ay, gy, iy⟩ := qy
  obtain ⟨fz, az, gz, iz⟩ := qz
  intro q
  have hqx : |q.x.val| = _ := ax
  have hqy : |q.y.val| = _ := ay
  have hqz : |q.z.val| = _ := az
  refine ⟨⟨fx, fy, fz, w1⟩, w2, ⟨w3, ?_, ?_, ?_⟩, w4, fun h => ?_, fun h => ?_, fun h => ?_, ⟨gx, gy, gz⟩,
    fun h => ⟨ix h, iy h, iz h⟩⟩
  · rw [hqx]; exact x3
  · rw [hqy]; exact y3
  · rw [hqz]; exact z3
  · rw [hqx]; exact x4 (abs_pos.2 h)
  · rw [hqy]; exact y4 (abs_pos.2 h)
  · rw [hqz]; exact z4 (abs_pos.2 h)

theorem comp_total (t : F32) :
    (Scalar.lit 1 2 *. Scalar.sqrt (cMax t f0) : F32).isNaN = false ∧
      Fp.le f0 (Scalar.lit 1 2 *. Scalar.sqrt (cMax t f0)) = true := by
  have z : (Scalar.lit 1 2 *. Scalar.sqrt (f0 : F32) : F32).isNaN = false ∧
      Fp.le f0 (Scalar.lit 1 2 *. Scalar.sqrt (f0 : F32)) = true := by kdecide
  have i : (Scalar.lit 1 2 *. Scalar.sqrt (Fp.inf false : F32) : F32).isNaN = false ∧
      Fp.le f0 (Scalar.lit 1 2 *. Scalar.sqrt (Fp.inf false : F32)) = true := by kdecide
  unfold cMax
  have e : (t >. (f0 : F32)) = Fp.lt f0 t := rfl
  rw [e]
  by_cases k : Fp.lt f0 t = true
  · rw [if_pos k]
    cases t with
    | nan => exact absurd k (by rw [Fp.lt]; simp)
    | inf s =>
      cases s
      · exact i
      · exact absurd k (by kdecide)
    | fin s n h =>
      have tf : (Fp.fin s n h : F32).isFin = true := rfl
      have t0 := (lt_iff_val (isNaN_of_isFin is_f0.fin) (isNaN_of_isFin tf)).1 k
      rw [is_f0.val] at t0
      obtain ⟨sf, se⟩ := sqrt_err hs32 ht32 tf t0.le
      obtain ⟨hf, hv⟩ := half_lit
      rw [u32] at se
      have q0 := Real.sqrt_nonneg (Fp.fin s n h : F32).val
      have s0 : 0 ≤ (Fp.sqrt (Fp.fin s n h : F32)).val := by
        have := (_root_.abs_le.1 se).1
        nlinarith
      have r := rnd_mul hf sf
      exact ⟨Rnd.not_nan r, Rnd.ge_of r is_f0.fin (by rw [is_f0.val, hv]; positivity)⟩
  · rw [if_neg k]; exact z

/-- C129: for every matrix whatever, NaNs and infinities included, no component of the quaternion is a
NaN and the real part is not negative. -/
theorem C129_total (m : M4 F32) :
    let q := Quat.initFromMatrix m
    q.x.isNaN = false ∧ q.y.isNaN = false ∧ q.z.isNaN = false ∧ q.w.isNaN = false ∧ Fp.le f0 q.w = true := by
  have neg : ∀ (c : Bool) (r : F32), r.isNaN = false → (if c then Scalar.neg r else r).isNaN = false := by
    intro c r hr
    cases c
    · exact hr
    · cases r <;> first | rfl | exact hr
  intro q
  exact ⟨neg _ _ (comp_total _).1, neg _ _ (comp_total _).1, neg _ _ (comp_total _).1, (comp_total _).1, (comp_total _).2⟩

/-- the matrix of a nearly unit quaternion is near the rotation it stands for -/
theorem near_of_quat (q : Quat F32) (h : FiniteQ q) (η : ℝ) (hn : |‖ham q‖ - 1| ≤ η) (hη : η ≤ 1 / 2 ^ 6) :
    NearRotation q.toMatrix (direction (ham q)) (5 * η + 1 / 2 ^ 20) := by
  have hn' := _root_.abs_le.1 hn
  norm_num at hη
  have pos : 0 < ‖ham q‖ := by linarith
  have ne : ham q ≠ 0 := norm_pos_iff.1 pos
  refine ⟨direction_unit ne, fun i j _ _ => ?_⟩
  obtain ⟨hf, he⟩ := (C107_to_matrix q h (by nlinarith)).1 i j
  refine ⟨hf, ?_⟩
  have l := matrix_lip (exactQ q) (direction (ham q)) i j
  have n1 : ‖quat (direction (ham q))‖ = 1 := by
    rw [direction_eq, norm_smul, norm_inv, norm_norm, inv_mul_cancel₀ pos.ne']
  have n2 : ‖quat (exactQ q) - quat (direction (ham q))‖ ≤ η := by
    have e : quat (exactQ q) - quat (direction (ham q)) = (1 - ‖ham q‖⁻¹) • ham q := by
      rw [direction_eq, sub_smul, one_smul]; rfl
    rw [e, norm_smul, Real.norm_eq_abs]
    have e2 : |1 - ‖ham q‖⁻¹| * ‖ham q‖ = |‖ham q‖ - 1| := by
      rw [← abs_of_pos pos, ← _root_.abs_mul, abs_of_pos pos, sub_mul, inv_mul_cancel₀ pos.ne', one_mul]
    rw [e2]; exact hn
  have n3 : ‖quat (exactQ q)‖ ≤ 1 + η := by
    have : ‖quat (exactQ q)‖ = ‖ham q‖ := rfl
    rw [this]; linarith
  have hη0 : 0 ≤ η := (abs_nonneg _).trans hn
  rw [n1] at l
  have l2 : |mat (exactQ q).toMatrix i j - mat (direction (ham q)).toMatrix i j| ≤ 2 * ((1 + η + 1) * η) :=
    l.trans (by
      have := mul_le_mul (by linarith : ‖quat (exactQ q)‖ + 1 ≤ 1 + η + 1) n2 (norm_nonneg _) (by linarith)
      linarith)
  have t := abs_add_le ((mat q.toMatrix i j).val - mat (exactQ q).toMatrix i j)
    (mat (exactQ q).toMatrix i j - mat (direction (ham q)).toMatrix i j)
  rw [sub_add_sub_cancel] at t
  nlinarith

/-- C129: quaternion to matrix and back.  A quaternion of length within `2^-17` of one (as
normalisation leaves it, C107) with real part at least 1/8 comes back with every component within
`2^-7` and the real part within `2^-11`. -/
theorem C129_round_trip (q : Quat F32) (h : FiniteQ q) (hn : |‖ham q‖ - 1| ≤ 1 / 2 ^ 17) (hw : 1 / 8 ≤ q.w.val) :
    let r := Quat.initFromMatrix q.toMatrix
    FiniteQ r ∧ |r.w.val - q.w.val| ≤ 1 / 2 ^ 11 ∧ |r.x.val - q.x.val| ≤ 1 / 2 ^ 7 ∧
      |r.y.val - q.y.val| ≤ 1 / 2 ^ 7 ∧ |r.z.val - q.z.val| ≤ 1 / 2 ^ 7 := by
  have near := near_of_quat q h _ hn (by norm_num)
  have hn' := _root_.abs_le.1 hn
  norm_num at hn'
  have pos : 0 < ‖ham q‖ := by linarith
  set p := direction (ham q) with hp
  have pw : p.w = q.w.val / ‖ham q‖ := rfl
  have px : p.x = q.x.val / ‖ham q‖ := rfl
  have py : p.y = q.y.val / ‖ham q‖ := rfl
  have pz : p.z = q.z.val / ‖ham q‖ := rfl
  have hq2 := ham_norm_sq q
  have close : ∀ c : ℝ, c ^ 2 ≤ ‖ham q‖ ^ 2 → |c / ‖ham q‖ - c| ≤ 1 / 2 ^ 17 := by
    intro c hc
    have e : c / ‖ham q‖ - c = (c / ‖ham q‖) * (1 - ‖ham q‖) := by field_simp
    have c1 : |c / ‖ham q‖| ≤ 1 := by
      rw [abs_div, abs_of_pos pos, div_le_one pos]
      exact abs_le_of_sq_le_sq hc pos.le
    rw [e, _root_.abs_mul, _root_.abs_sub_comm 1]
    calc |c / ‖ham q‖| * |‖ham q‖ - 1| ≤ 1 * (1 / 2 ^ 17) := mul_le_mul c1 hn (abs_nonneg _) (by norm_num)
      _ = 1 / 2 ^ 17 := one_mul _
  have sx := sq_nonneg q.x.val
  have sy := sq_nonneg q.y.val
  have sz := sq_nonneg q.z.val
  have sw := sq_nonneg q.w.val
  have cw := close q.w.val (by linarith)
  have cx := close q.x.val (by linarith)
  have cy := close q.y.val (by linarith)
  have cz := close q.z.val (by linarith)
  rw [← pw] at cw
  rw [← px] at cx
  rw [← py] at cy
  rw [← pz] at cz
  have w8 : 1 / 9 ≤ p.w := by
    have := _root_.abs_le.1 cw
    norm_num at this; linarith
  have w0 : 0 < p.w := by linarith
  obtain ⟨hf, -, ⟨-, -⟩, gw, -, -, -, -, gi⟩ := C129_accuracy q.toMatrix p _ near (by norm_num) w0.le
  have root : rootError (5 * (1 / 2 ^ 17) + 1 / 2 ^ 20) ≤ 1 / 2 ^ 7 - 1 / 2 ^ 9 := by
    have : √(3 * (5 * (1 / 2 ^ 17) + 1 / 2 ^ 20) + 1 / 2 ^ 20 : ℝ) ≤ 45 / 4096 := by
      rw [Real.sqrt_le_left (by norm_num)]; norm_num
    unfold rootError
    norm_num at this ⊢
    linarith
  have dv : (5 * (1 / 2 ^ 17) + 1 / 2 ^ 20) / p.w ≤ (1 / 2 ^ 10 : ℝ) := by
    rw [div_le_iff₀ w0]; norm_num; linarith
  have dw : (3 * (5 * (1 / 2 ^ 17) + 1 / 2 ^ 20) + 1 / 2 ^ 20) / (4 * p.w) ≤ (1 / 2 ^ 11 - 1 / 2 ^ 13 : ℝ) := by
    rw [div_le_iff₀ (by linarith)]; norm_num; linarith
  obtain ⟨gx, gy, gz⟩ := gi w0
  have gw := gw w0
  refine ⟨hf, (abs_sub_le _ p.w _).trans ((add_le_add gw cw).trans ?_),
    (abs_sub_le _ p.x _).trans ((add_le_add gx cx).trans ?_), (abs_sub_le _ p.y _).trans ((add_le_add gy cy).trans ?_),
    (abs_sub_le _ p.z _).trans ((add_le_add gz cz).trans ?_)⟩
  · norm_num at dw ⊢; linarith
  · norm_num at dv root ⊢; linarith
  · norm_num at dv root ⊢; linarith
  · norm_num at dv root ⊢; linarith

/-- C129: the identity matrix gives the identity quaternion exactly, and the identity quaternion
survives the round trip. -/
theorem C129_identity : Quat.initFromMatrix (GMatrix.initIdentity : M4 F32) = Quat.identity ∧
    Quat.initFromMatrix ((Quat.identity : Quat F32).toMatrix) = Quat.identity := by
  constructor <;> kdecide

/-! ### examples -/

/-- the turn by a third about the diagonal, `(1/2, 1/2, 1/2, 1/2)`, is exactly representable, finite
and unit, as `C129_round_trip` asks -/
def exampleThird : Quat F32 := ⟨Fp.lit 1 2, Fp.lit 1 2, Fp.lit 1 2, Fp.lit 1 2⟩
example : FiniteQ exampleThird ∧ ‖ham exampleThird‖ = 1 ∧ 1 / 8 ≤ exampleThird.w.val := by
  obtain ⟨hf, hv⟩ := half_lit
  have hf : (Fp.lit 1 2 : F32).isFin = true := hf
  have hv : (Fp.lit 1 2 : F32).val = 1 / 2 := hv
  refine ⟨⟨hf, hf, hf, hf⟩, ?_, by show (1 / 8 : ℝ) ≤ (Fp.lit 1 2 : F32).val; rw [hv]; norm_num⟩
  have e : ‖ham exampleThird‖ ^ 2 = 1 := by
    rw [ham_norm_sq]
    show (Fp.lit 1 2 : F32).val ^ 2 + (Fp.lit 1 2 : F32).val ^ 2 + (Fp.lit 1 2 : F32).val ^ 2 + (Fp.lit 1 2 : F32).val ^ 2 = 1
    rw [hv]; norm_num
  exact (sq_eq_sq₀ (norm_nonneg _) (by norm_num)).1 (by rw [e]; norm_num)
/-- its matrix, a cyclic permutation of the axes, meets the hypotheses of `C129_accuracy` -/
example (h : FiniteQ exampleThird) (h1 : ‖ham exampleThird‖ = 1) :
    NearRotation exampleThird.toMatrix (direction (ham exampleThird)) (1 / 2 ^ 20) := by
  have := near_of_quat exampleThird h 0 (by rw [h1]; norm_num) (by norm_num)
  simpa using this
/-- and it comes back exactly -/
example : Quat.initFromMatrix exampleThird.toMatrix = exampleThird := by kdecide
/-- a matrix of NaNs gives the zero quaternion -/
example : let r : V4 F32 := ⟨.nan, .nan, .nan, .nan⟩
    Quat.initFromMatrix ⟨r, r, r, r⟩ = ⟨f0, f0, f0, f0⟩ := by kdecide

end Graphene
