/-
  Relative error of the reciprocal and reciprocal square root of each backend: Newton steps on the
  hardware estimates (SSE, NEON), division and square root elsewhere.
-/
import Verif.Proofs.Approx
import Verif.Proofs.FpLemmas
import Verif.Proofs.KDecide
import Verif.Model.Simd4f

set_option exponentiation.threshold 3000

namespace Graphene
open Fp

namespace Newton

theorem abs_mul_le {a b A B : ℝ} (ha : |a| ≤ A) (hb : |b| ≤ B) : |a * b| ≤ A * B := by
  rw [abs_mul]; exact mul_le_mul ha hb (abs_nonneg _) ((abs_nonneg _).trans ha)

/-- one rounding in the normal range -/
theorem rel {x : ℝ} {r : F32} (h : Rnd x r) (h1 : 1 / 2 ^ 126 ≤ |x|) (h2 : |x| ≤ 2 ^ 127) :
    r.isFin = true ∧ |r.val - x| ≤ 1 / 2 ^ 24 * |x| := by
  have hf := h.isFin hp32 (h2.trans le_max32)
  refine ⟨hf, ?_⟩
  rcases h.err hf with g | g
  · rw [u32] at g; norm_num at g ⊢; exact g
  · rw [eta32] at g; norm_num at g h1 ⊢; linarith

/-- real part of a rounded Newton step for `1/√v` (`ρ = s·√v`, all quantities scaled) -/
theorem rsqrt_real {ρ P q r H T e : ℝ} (h : |ρ - 1| ≤ e) (he : e ≤ 1 / 64)
    (hP : |P - ρ| ≤ 1 / 2 ^ 24 * |ρ|) (hq : |q - ρ * P| ≤ 1 / 2 ^ 24 * |ρ * P|) (hr : |r - (3 - q)| ≤ 1 / 2 ^ 24 * |3 - q|)
    (hH : |H - ρ / 2| ≤ 1 / 2 ^ 24 * |ρ / 2|) (hT : |T - H * r| ≤ 1 / 2 ^ 24 * |H * r|) :
    |T - 1| ≤ 2 * e ^ 2 + 1 / 2 ^ 21 := by
  have e0 : 0 ≤ e := (abs_nonneg _).trans h
  have aρ : |ρ| ≤ 65 / 64 := by rw [abs_le] at h ⊢; constructor <;> linarith [h.1, h.2]
  have aρ2 : |ρ / 2| ≤ 65 / 128 := by rw [abs_div, abs_two]; linarith
  have b1 : |P - ρ| ≤ 1 / 2 ^ 24 * (65 / 64) := hP.trans (by gcongr)
  have aP : |P| ≤ 66 / 64 := by
    have := abs_add_le (P - ρ) ρ; rw [sub_add_cancel] at this; norm_num at b1 ⊢; linarith
  have b2 : |q - ρ * P| ≤ 1 / 2 ^ 24 * ((65 / 64) * (66 / 64)) := hq.trans (by gcongr; exact abs_mul_le aρ aP)
  have b3 : |q - ρ ^ 2| ≤ 1 / 2 ^ 24 * (22 / 10) := by
    have h1 := abs_mul_le aρ b1
    have h2 := abs_add_le (q - ρ * P) (ρ * (P - ρ))
    rw [show q - ρ * P + ρ * (P - ρ) = q - ρ ^ 2 by ring] at h2
    norm_num [-abs_mul] at h1 b2 ⊢; linarith
  have hsq : |ρ ^ 2 - 1| ≤ 1 / 16 := by
    rw [show ρ ^ 2 - 1 = (ρ - 1) * (ρ + 1) by ring]
    have h2 : |ρ + 1| ≤ 3 := (abs_add_le _ _).trans (by rw [abs_one]; linarith)
    have := abs_mul_le (h.trans he) h2
    linarith
  have a3 : |3 - q| ≤ 21 / 10 := by
    rw [abs_le] at b3 hsq ⊢; norm_num at b3; constructor <;> linarith [b3.1, b3.2, hsq.1, hsq.2]
  have b4 : |r - (3 - ρ ^ 2)| ≤ 1 / 2 ^ 24 * (44 / 10) := by
    have h2 := abs_add_le (r - (3 - q)) (-(q - ρ ^ 2))
    rw [show r - (3 - q) + -(q - ρ ^ 2) = r - (3 - ρ ^ 2) by ring, _root_.abs_neg] at h2
    norm_num at hr b3 ⊢; linarith
  have ar : |r| ≤ 22 / 10 := by
    rw [abs_le] at b4 hsq ⊢; norm_num at b4; constructor <;> linarith [b4.1, b4.2, hsq.1, hsq.2]
  have b5 : |H - ρ / 2| ≤ 1 / 2 ^ 24 * (65 / 128) := hH.trans (by gcongr)
  have aH : |H| ≤ 66 / 128 := by
    have := abs_add_le (H - ρ / 2) (ρ / 2); rw [sub_add_cancel] at this; norm_num at b5 ⊢; linarith
  have b6 : |T - H * r| ≤ 1 / 2 ^ 24 * ((66 / 128) * (22 / 10)) := hT.trans (by gcongr; exact abs_mul_le aH ar)
  have b7 : |T - ρ / 2 * (3 - ρ ^ 2)| ≤ 1 / 2 ^ 21 := by
    have h1 := abs_mul_le b5 ar
    have h2 := abs_mul_le aρ2 b4
    have h3 := abs_add_le (T - H * r) ((H - ρ / 2) * r + ρ / 2 * (r - (3 - ρ ^ 2)))
    have h4 := abs_add_le ((H - ρ / 2) * r) (ρ / 2 * (r - (3 - ρ ^ 2)))
    rw [show T - H * r + ((H - ρ / 2) * r + ρ / 2 * (r - (3 - ρ ^ 2))) = T - ρ / 2 * (3 - ρ ^ 2) by ring] at h3
    norm_num [-abs_mul] at h1 h2 b6 ⊢; linarith
  have hN : |ρ / 2 * (3 - ρ ^ 2) - 1| ≤ 2 * e ^ 2 := by
    rw [show ρ / 2 * (3 - ρ ^ 2) - 1 = (ρ - 1) ^ 2 * (-(ρ - 1) / 2 - 3 / 2) by ring, abs_mul, abs_of_nonneg (sq_nonneg _)]
    have h1 : (ρ - 1) ^ 2 ≤ e ^ 2 := by rw [← sq_abs]; exact pow_le_pow_left₀ (abs_nonneg _) h 2
    have h2 : |-(ρ - 1) / 2 - 3 / 2| ≤ 2 := by
      rw [abs_le] at h ⊢; constructor <;> linarith [h.1, h.2]
    have := mul_le_mul h1 h2 (abs_nonneg _) (by positivity)
    linarith
  have h3 := abs_add_le (T - ρ / 2 * (3 - ρ ^ 2)) (ρ / 2 * (3 - ρ ^ 2) - 1)
  rw [show T - ρ / 2 * (3 - ρ ^ 2) + (ρ / 2 * (3 - ρ ^ 2) - 1) = T - 1 by ring] at h3
  linarith

theorem rho_bounds {ρ e : ℝ} (h : |ρ - 1| ≤ e) (he : e ≤ 1 / 64) : 63 / 64 ≤ ρ ∧ ρ ≤ 65 / 64 := by
  rw [abs_le] at h; constructor <;> linarith [h.1, h.2]

/-- scaling a relative error -/
theorem scale {a b σ k : ℝ} (hσ : 0 < σ) (h : |a - b| ≤ k * |b|) : |a * σ - b * σ| ≤ k * |b * σ| := by
  rw [← sub_mul, abs_mul, abs_mul, abs_of_pos hσ, ← mul_assoc]; exact mul_le_mul_of_nonneg_right h hσ.le

theorem three : (Fp.lit 3 1 : F32).isFin = true ∧ (Fp.lit 3 1 : F32).val = 3 := by simpa using lit_int 3 (by decide)
theorem two : (Fp.lit 2 1 : F32).isFin = true ∧ (Fp.lit 2 1 : F32).val = 2 := by simpa using lit_int 2 (by decide)
theorem half : (Fp.lit 1 2 : F32).isFin = true ∧ (Fp.lit 1 2 : F32).val = 1 / 2 := by simpa using lit_dyadic 1 1 (by decide) (by decide)
theorem one : (Fp.lit 1 1 : F32).isFin = true ∧ (Fp.lit 1 1 : F32).val = 1 := by simpa using lit_int 1 (by decide)

/-- the common part of a Newton step for the reciprocal square root -/
structure Step (v s : F32) (σ e : ℝ) : Prop where
  vfin : v.isFin = true
  sfin : s.isFin = true
  pos : 0 < σ
  sq : v.val = σ ^ 2
  lo : 1 / 2 ^ 60 ≤ σ
  hi : σ ≤ 2 ^ 63
  err : |s.val * σ - 1| ≤ e
  small : e ≤ 1 / 64

variable {v s : F32} {σ e : ℝ}

theorem Step.prod (h : Step v s σ e) {p : F32} (hp : Rnd (v.val * s.val) p) :
    p.isFin = true ∧ |p.val / σ - s.val * σ| ≤ 1 / 2 ^ 24 * |s.val * σ| ∧ 31 / 32 * σ ≤ p.val ∧ p.val ≤ 33 / 32 * σ := by
  obtain ⟨r1, r2⟩ := rho_bounds h.err h.small
  have hσ := h.pos
  have e1 : v.val * s.val = (s.val * σ) * σ := by rw [h.sq]; ring
  rw [e1] at hp
  have hρ : 0 < s.val * σ := by linarith
  have a1 : |s.val * σ * σ| = s.val * σ * σ := abs_of_pos (mul_pos hρ hσ)
  have lo1 : 63 / 64 * σ ≤ s.val * σ * σ := mul_le_mul_of_nonneg_right r1 hσ.le
  have hi1 : s.val * σ * σ ≤ 65 / 64 * σ := mul_le_mul_of_nonneg_right r2 hσ.le
  obtain ⟨f, g⟩ := rel hp (by rw [a1]; have := h.lo; norm_num at this ⊢; linarith) (by rw [a1]; have := h.hi; norm_num at this ⊢; linarith)
  refine ⟨f, ?_, ?_, ?_⟩
  · have e2 : p.val / σ - s.val * σ = (p.val - s.val * σ * σ) / σ := by field_simp
    rw [e2, abs_div, abs_of_pos hσ, div_le_iff₀ hσ]
    rw [abs_mul (s.val * σ), abs_of_pos hσ] at g
    linarith
  · rw [a1, abs_le] at g; norm_num at g; linarith [g.1, g.2]
  · rw [a1, abs_le] at g; norm_num at g; linarith [g.1, g.2]

theorem Step.prod2 (h : Step v s σ e) {p q : F32} (hp : Rnd (v.val * s.val) p) (hq : Rnd (s.val * p.val) q) :
    q.isFin = true ∧ |q.val - (s.val * σ) * (p.val / σ)| ≤ 1 / 2 ^ 24 * |(s.val * σ) * (p.val / σ)| ∧ 29 / 32 ≤ q.val ∧ q.val ≤ 35 / 32 := by
  obtain ⟨r1, r2⟩ := rho_bounds h.err h.small
  have hσ := h.pos
  obtain ⟨f, g, p1, p2⟩ := h.prod hp
  have P1 : 31 / 32 ≤ p.val / σ := by rw [le_div_iff₀ hσ]; exact p1
  have P2 : p.val / σ ≤ 33 / 32 := by rw [div_le_iff₀ hσ]; exact p2
  have e1 : s.val * p.val = (s.val * σ) * (p.val / σ) := by field_simp
  rw [e1] at hq
  generalize s.val * σ = ρ at *
  generalize p.val / σ = P at *
  have l1 : 63 / 64 * (31 / 32) ≤ ρ * P := mul_le_mul r1 P1 (by norm_num) (by linarith)
  have l2 : ρ * P ≤ 65 / 64 * (33 / 32) := mul_le_mul r2 P2 (by linarith) (by norm_num)
  have a1 : |ρ * P| = ρ * P := abs_of_pos (by linarith)
  obtain ⟨f2, g2⟩ := rel hq (by rw [a1]; norm_num at l1 ⊢; linarith) (by rw [a1]; norm_num at l2 ⊢; linarith)
  refine ⟨f2, g2, ?_, ?_⟩ <;> (rw [a1, abs_le] at g2; norm_num at g2 l1 l2; linarith [g2.1, g2.2])

theorem three_sub {q : F32} (hq : q.isFin = true) (h1 : 29 / 32 ≤ q.val) (h2 : q.val ≤ 35 / 32) :
    (Fp.sub (Fp.lit 3 1) q).isFin = true ∧ |(Fp.sub (Fp.lit 3 1) q).val - (3 - q.val)| ≤ 1 / 2 ^ 24 * |3 - q.val| ∧
    15 / 8 ≤ (Fp.sub (Fp.lit 3 1) q).val ∧ (Fp.sub (Fp.lit 3 1) q).val ≤ 17 / 8 := by
  have hr := rnd_sub three.1 hq
  rw [three.2] at hr
  have a1 : |3 - q.val| = 3 - q.val := abs_of_pos (by linarith)
  obtain ⟨f, g⟩ := rel hr (by rw [a1]; norm_num; linarith) (by rw [a1]; norm_num; linarith)
  refine ⟨f, g, ?_, ?_⟩ <;> (rw [a1, abs_le] at g; norm_num at g; linarith [g.1, g.2])

theorem Step.s_bounds (h : Step v s σ e) : 0 < s.val ∧ 1 / 2 ^ 64 ≤ s.val ∧ s.val ≤ 2 ^ 61 := by
  obtain ⟨r1, r2⟩ := rho_bounds h.err h.small
  have hσ := h.pos
  have h1 : 63 / 64 / σ ≤ s.val := by rw [div_le_iff₀ hσ]; exact r1
  have h2 : s.val ≤ 65 / 64 / σ := by rw [le_div_iff₀ hσ]; exact r2
  have h3 : 63 / 64 / 2 ^ 63 ≤ 63 / 64 / σ := by gcongr; exact h.hi
  have h4 : 65 / 64 / σ ≤ 65 / 64 / (1 / 2 ^ 60) := by gcongr; exact h.lo
  refine ⟨lt_of_lt_of_le (by positivity) (h3.trans h1), ?_, ?_⟩
  · refine le_trans ?_ (h3.trans h1); norm_num
  · refine (h2.trans h4).trans ?_; norm_num

/-- the SSE step -/
theorem Step.sse (h : Step v s σ e) :
    let t := Fp.mul (Fp.mul s (Fp.lit 1 2)) (Fp.sub (Fp.lit 3 1) (Fp.mul s (Fp.mul v s)))
    t.isFin = true ∧ |t.val * σ - 1| ≤ 2 * e ^ 2 + 1 / 2 ^ 21 := by
  intro t
  have hσ := h.pos
  obtain ⟨s0, s1, s2⟩ := h.s_bounds
  obtain ⟨r1, r2⟩ := rho_bounds h.err h.small
  obtain ⟨pf, pe, p1, p2⟩ := h.prod (rnd_mul h.vfin h.sfin)
  obtain ⟨qf, qe, q1, q2⟩ := h.prod2 (rnd_mul h.vfin h.sfin) (rnd_mul h.sfin pf)
  obtain ⟨rf, re, r3, r4⟩ := three_sub qf q1 q2
  have hh := rnd_mul h.sfin half.1
  rw [half.2] at hh
  have ah : |s.val * (1 / 2)| = s.val / 2 := by rw [abs_of_pos (by linarith)]; ring
  obtain ⟨hf, he⟩ := rel hh (by rw [ah]; norm_num at s1 ⊢; linarith) (by rw [ah]; norm_num at s2 ⊢; linarith)
  set H := Fp.mul s (Fp.lit 1 2) with hH
  set r := Fp.sub (Fp.lit 3 1) (Fp.mul s (Fp.mul v s)) with hr
  have hb : s.val / 4 ≤ H.val ∧ H.val ≤ s.val := by
    rw [ah, abs_le] at he; norm_num at he; constructor <;> linarith [he.1, he.2]
  have ht := rnd_mul hf rf
  have aHr : |H.val * r.val| = H.val * r.val := abs_of_pos (mul_pos (by linarith) (by linarith))
  have l1 : s.val / 4 * (15 / 8) ≤ H.val * r.val := mul_le_mul hb.1 r3 (by norm_num) (by linarith)
  have l2 : H.val * r.val ≤ s.val * (17 / 8) := mul_le_mul hb.2 r4 (by linarith) s0.le
  obtain ⟨tf, te⟩ := rel ht (by rw [aHr]; norm_num at s1 l1 ⊢; linarith) (by rw [aHr]; norm_num at s2 l2 ⊢; linarith)
  refine ⟨tf, rsqrt_real (ρ := s.val * σ) h.err h.small pe qe re (H := H.val * σ) ?_ (T := t.val * σ) ?_⟩
  · have := scale hσ he
    rw [show s.val * (1 / 2) * σ = s.val * σ / 2 by ring] at this; exact this
  · have := scale hσ te
    rw [show H.val * r.val * σ = H.val * σ * r.val by ring] at this; exact this

/-- the NEON step -/
theorem Step.neon [Libm binary32] (h : Step v s σ e) :
    (Simd4f.neonRsqrtIter v s).isFin = true ∧ |(Simd4f.neonRsqrtIter v s).val * σ - 1| ≤ 2 * e ^ 2 + 1 / 2 ^ 21 := by
  have hσ := h.pos
  obtain ⟨s0, s1, s2⟩ := h.s_bounds
  obtain ⟨r1, r2⟩ := rho_bounds h.err h.small
  have hp : Rnd (v.val * s.val) (Fp.mul s v) := by rw [mul_comm]; exact rnd_mul h.sfin h.vfin
  obtain ⟨pf, pe, p1, p2⟩ := h.prod hp
  have hq : Rnd (s.val * (Fp.mul s v).val) (Fp.mul (Fp.mul s v) s) := by rw [mul_comm]; exact rnd_mul pf h.sfin
  obtain ⟨qf, qe, q1, q2⟩ := h.prod2 hp hq
  obtain ⟨rf, re, r3, r4⟩ := three_sub qf q1 q2
  have hcond : ((Scalar.feq (Fp.mul s v) (f0 : F32) && Scalar.isInf s) || (Scalar.isInf (Fp.mul s v) && Scalar.feq s (f0 : F32))) = false := by
    have i1 : Scalar.isInf s = false := by
      show Fp.isInf s = false
      have := h.sfin
      rcases s with _ | _ | _ <;> first | rfl | simp [Fp.isFin] at this
    have i2 : Scalar.isInf (Fp.mul s v) = false := by
      show Fp.isInf (Fp.mul s v) = false
      generalize Fp.mul s v = w at *
      rcases w with _ | _ | _ <;> first | rfl | simp [Fp.isFin] at pf
    rw [i1, i2]; simp
  have e0 : Simd4f.neonRsqrtIter v s = Fp.mul s (Fp.div (Fp.sub (Fp.lit 3 1) (Fp.mul (Fp.mul s v) s)) (Fp.lit 2 1)) := by
    unfold Simd4f.neonRsqrtIter Simd4f.vrsqrts
    rw [show (s *. v : F32) = Fp.mul s v from rfl, hcond]; rfl
  rw [e0]
  set r := Fp.sub (Fp.lit 3 1) (Fp.mul (Fp.mul s v) s) with hr
  have hd := rnd_div rf two.1 (by rw [two.2]; norm_num)
  rw [two.2] at hd
  have ad : |r.val / 2| = r.val / 2 := abs_of_pos (by linarith)
  obtain ⟨df, de⟩ := rel hd (by rw [ad]; norm_num; linarith) (by rw [ad]; norm_num; linarith)
  set w := Fp.div r (Fp.lit 2 1) with hw
  have hb : 1 / 2 ≤ w.val ∧ w.val ≤ 2 := by
    rw [ad, abs_le] at de; norm_num at de; constructor <;> linarith [de.1, de.2]
  have ht := rnd_mul h.sfin df
  have aHr : |s.val * w.val| = s.val * w.val := abs_of_pos (mul_pos s0 (by linarith))
  have l1 : s.val * (1 / 2) ≤ s.val * w.val := mul_le_mul_of_nonneg_left hb.1 s0.le
  have l2 : s.val * w.val ≤ s.val * 2 := mul_le_mul_of_nonneg_left hb.2 s0.le
  obtain ⟨tf, te⟩ := rel ht (by rw [aHr]; norm_num at s1 l1 ⊢; linarith) (by rw [aHr]; norm_num at s2 l2 ⊢; linarith)
  refine ⟨tf, ?_⟩
  -- the halving is moved from the difference to the factor
  have hr0 : r.val ≠ 0 := by linarith
  refine rsqrt_real (ρ := s.val * σ) h.err h.small pe qe re (H := s.val * σ * (w.val / r.val)) ?_ ?_
  · rw [show s.val * σ * (w.val / r.val) - s.val * σ / 2 = s.val * σ / r.val * (w.val - r.val / 2) by field_simp, abs_mul]
    have hk : 0 < s.val * σ := by linarith
    rw [show s.val * σ / 2 = s.val * σ / r.val * (r.val / 2) by field_simp, abs_mul (s.val * σ / r.val)]
    have := mul_le_mul_of_nonneg_left de (abs_nonneg (s.val * σ / r.val))
    linarith
  · have := scale hσ te
    rw [show s.val * σ * (w.val / r.val) * r.val = s.val * w.val * σ by field_simp]; exact this

/-! ### Reciprocal -/

theorem recip_real {ρ m d T e : ℝ} (h : |ρ - 1| ≤ e) (he : e ≤ 1 / 64)
    (hm : |m - ρ| ≤ 1 / 2 ^ 24 * |ρ|) (hd : |d - (2 - m)| ≤ 1 / 2 ^ 24 * |2 - m|) (hT : |T - ρ * d| ≤ 1 / 2 ^ 24 * |ρ * d|) :
    |T - 1| ≤ e ^ 2 + 1 / 2 ^ 22 := by
  obtain ⟨r1, r2⟩ := rho_bounds h he
  have aρ : |ρ| ≤ 65 / 64 := by rw [abs_le]; constructor <;> linarith
  have b1 : |m - ρ| ≤ 1 / 2 ^ 24 * (65 / 64) := hm.trans (by gcongr)
  have a2 : |2 - m| ≤ 66 / 64 := by rw [abs_le] at b1 ⊢; norm_num at b1; constructor <;> linarith [b1.1, b1.2]
  have b2 : |d - (2 - m)| ≤ 1 / 2 ^ 24 * (66 / 64) := hd.trans (by gcongr)
  have b3 : |d - (2 - ρ)| ≤ 1 / 2 ^ 24 * (21 / 10) := by
    have h2 := abs_add_le (d - (2 - m)) (-(m - ρ))
    rw [show d - (2 - m) + -(m - ρ) = d - (2 - ρ) by ring, _root_.abs_neg] at h2
    norm_num at b1 b2 ⊢; linarith
  have ad : |d| ≤ 67 / 64 := by rw [abs_le] at b3 ⊢; norm_num at b3; constructor <;> linarith [b3.1, b3.2]
  have b4 : |T - ρ * d| ≤ 1 / 2 ^ 24 * ((65 / 64) * (67 / 64)) := hT.trans (by gcongr; exact abs_mul_le aρ ad)
  have h1 := abs_mul_le aρ b3
  have h3 := abs_add_le (T - ρ * d) (ρ * (d - (2 - ρ)) + -((ρ - 1) ^ 2))
  have h4 := abs_add_le (ρ * (d - (2 - ρ))) (-((ρ - 1) ^ 2))
  rw [show T - ρ * d + (ρ * (d - (2 - ρ)) + -((ρ - 1) ^ 2)) = T - 1 by ring] at h3
  rw [_root_.abs_neg, abs_of_nonneg (sq_nonneg (ρ - 1))] at h4
  have h5 : (ρ - 1) ^ 2 ≤ e ^ 2 := by rw [← sq_abs]; exact pow_le_pow_left₀ (abs_nonneg _) h 2
  norm_num [-abs_mul] at h1 b4 ⊢; linarith

structure RStep (v s : F32) (e : ℝ) : Prop where
  vfin : v.isFin = true
  sfin : s.isFin = true
  lo : 1 / 2 ^ 100 ≤ |v.val|
  hi : |v.val| ≤ 2 ^ 100
  err : |s.val * v.val - 1| ≤ e
  small : e ≤ 1 / 64

theorem RStep.s_bounds (h : RStep v s e) : 1 / 2 ^ 102 ≤ |s.val| ∧ |s.val| ≤ 2 ^ 102 := by
  obtain ⟨r1, r2⟩ := rho_bounds h.err h.small
  have hv : 0 < |v.val| := lt_of_lt_of_le (by positivity) h.lo
  have ea : |s.val| * |v.val| = s.val * v.val := by rw [← abs_mul]; exact abs_of_pos (by linarith)
  have h1 : 63 / 64 / |v.val| ≤ |s.val| := by rw [div_le_iff₀ hv, ea]; exact r1
  have h2 : |s.val| ≤ 65 / 64 / |v.val| := by rw [le_div_iff₀ hv, ea]; exact r2
  have h3 : 63 / 64 / 2 ^ 100 ≤ 63 / 64 / |v.val| := by gcongr; exact h.hi
  have h4 : 65 / 64 / |v.val| ≤ 65 / 64 / (1 / 2 ^ 100) := by gcongr; exact h.lo
  refine ⟨?_, ?_⟩
  · refine le_trans ?_ (h3.trans h1); norm_num
  · refine (h2.trans h4).trans ?_; norm_num

/-- one Newton step of the reciprocal, whatever the order of the factors -/
theorem RStep.step (h : RStep v s e) {m t : F32} (hm : Rnd (s.val * v.val) m)
    (ht : Rnd (s.val * (Fp.sub (Fp.lit 2 1) m).val) t) :
    m.isFin = true ∧ (Fp.sub (Fp.lit 2 1) m).isFin = true ∧ t.isFin = true ∧ |t.val * v.val - 1| ≤ e ^ 2 + 1 / 2 ^ 22 := by
  obtain ⟨r1, r2⟩ := rho_bounds h.err h.small
  obtain ⟨s1, s2⟩ := h.s_bounds
  have a1 : |s.val * v.val| = s.val * v.val := abs_of_pos (by linarith)
  obtain ⟨mf, me⟩ := rel hm (by rw [a1]; norm_num at r1 ⊢; linarith) (by rw [a1]; norm_num; linarith)
  have mb : 15 / 16 ≤ m.val ∧ m.val ≤ 17 / 16 := by
    rw [a1, abs_le] at me; norm_num at me; constructor <;> linarith [me.1, me.2]
  have hd := rnd_sub two.1 mf
  rw [two.2] at hd
  have a2 : |2 - m.val| = 2 - m.val := abs_of_pos (by linarith [mb.2])
  obtain ⟨df, de⟩ := rel hd (by rw [a2]; norm_num; linarith [mb.2]) (by rw [a2]; norm_num; linarith [mb.1])
  set d := Fp.sub (Fp.lit 2 1) m with hdd
  have db : 7 / 8 ≤ d.val ∧ d.val ≤ 9 / 8 := by
    rw [a2, abs_le] at de; norm_num at de; constructor <;> linarith [de.1, de.2]
  have a3 : |s.val * d.val| = |s.val| * d.val := by rw [abs_mul, abs_of_pos (a := d.val) (by linarith [db.1])]
  have l1 : |s.val| * (7 / 8) ≤ |s.val| * d.val := mul_le_mul_of_nonneg_left db.1 (abs_nonneg _)
  have l2 : |s.val| * d.val ≤ |s.val| * (9 / 8) := mul_le_mul_of_nonneg_left db.2 (abs_nonneg _)
  obtain ⟨tf, te⟩ := rel ht (by rw [a3]; norm_num at s1 l1 ⊢; linarith) (by rw [a3]; norm_num at s2 l2 ⊢; linarith)
  refine ⟨mf, df, tf, recip_real h.err h.small me de ?_⟩
  rw [show s.val * v.val * d.val = s.val * d.val * v.val by ring, ← sub_mul, abs_mul, abs_mul (s.val * d.val), ← mul_assoc]
  exact mul_le_mul_of_nonneg_right te (abs_nonneg _)

end Newton

/-- Accuracy of the hardware estimates: `RCPPS` and `RSQRTPS` have a relative error of at most 1.5·2^-12 (Intel SDM);
`FRECPE` and `FRSQRTE` give eight significant bits, here taken as a relative error of at most 2^-7. -/
def Spec.EstAccurate [Libm binary32] (bk : Backend) : Prop :=
  let ok := fun e : ℝ =>
    (∀ v : F32, v.isFin = true → 1 / 2 ^ 100 ≤ |v.val| → |v.val| ≤ 2 ^ 100 →
      (Libm.rcpEst v).isFin = true ∧ |(Libm.rcpEst v).val * v.val - 1| ≤ e) ∧
    (∀ v : F32, v.isFin = true → 1 / 2 ^ 120 ≤ v.val → v.val ≤ 2 ^ 126 →
      (Libm.rsqrtEst v).isFin = true ∧ |(Libm.rsqrtEst v).val * √v.val - 1| ≤ e)
  match bk with
  | .sse _ _ => ok (3 / 2 ^ 13)
  | .neon => ok (1 / 2 ^ 7)
  | _ => True

namespace Newton
variable [Libm binary32] {v : F32}

theorem vrecps_eq {a b : F32} (ha : a.isFin = true) (hb : b.isFin = true) :
    Simd4f.vrecps a b = Fp.sub (Fp.lit 2 1) (Fp.mul a b) := by
  have i1 : Scalar.isInf a = false := by
    show Fp.isInf a = false
    rcases a with _ | _ | _ <;> first | rfl | simp [Fp.isFin] at ha
  have i2 : Scalar.isInf b = false := by
    show Fp.isInf b = false
    rcases b with _ | _ | _ <;> first | rfl | simp [Fp.isFin] at hb
  unfold Simd4f.vrecps
  rw [i1, i2]; simp only [Bool.and_false, Bool.false_and, Bool.or_self, Bool.false_eq_true, if_false]
  rfl

/-- The reciprocal square root of every backend has a relative error of at most 2^-20. -/
theorem rsqrt1_near (bk : Backend) (he : Spec.EstAccurate bk) (hv : v.isFin = true) (h1 : 1 / 2 ^ 120 ≤ v.val) (h2 : v.val ≤ 2 ^ 126)
    (hs : ∀ b, bk = .scalar b → 1 / 2 ^ 23 < v.val) :
    (Simd4f.rsqrt1 bk v).isFin = true ∧ |(Simd4f.rsqrt1 bk v).val * √v.val - 1| ≤ 1 / 2 ^ 20 := by
  have v0 : 0 < v.val := lt_of_lt_of_le (by positivity) h1
  have σ0 : 0 < √v.val := Real.sqrt_pos.2 v0
  have σsq : v.val = √v.val ^ 2 := (Real.sq_sqrt v0.le).symm
  have σlo : 1 / 2 ^ 60 ≤ √v.val := Real.le_sqrt_of_sq_le (by norm_num at h1 ⊢; linarith)
  have σhi : √v.val ≤ 2 ^ 63 := by rw [Real.sqrt_le_left (by positivity)]; norm_num at h2 ⊢; linarith
  have div : (Fp.div (Fp.lit 1 1) (Fp.sqrt v)).isFin = true ∧ |(Fp.div (Fp.lit 1 1) (Fp.sqrt v)).val * √v.val - 1| ≤ 1 / 2 ^ 20 := by
    obtain ⟨qf, qe⟩ := sqrt_err hs32 ht32 hv v0.le
    rw [u32] at qe
    set w := Fp.sqrt v with hw
    set σ := √v.val with hσ
    have qb : 63 / 64 * σ ≤ w.val ∧ w.val ≤ 65 / 64 * σ := by
      rw [abs_le] at qe; norm_num at qe; constructor <;> linarith [qe.1, qe.2]
    have w0 : 0 < w.val := by linarith [qb.1]
    have hd := rnd_div one.1 qf w0.ne'
    rw [one.2] at hd
    have a1 : |1 / w.val| = 1 / w.val := abs_of_pos (by positivity)
    have k1 : 1 / (65 / 64 * 2 ^ 63) ≤ 1 / w.val := by
      apply one_div_le_one_div_of_le w0; linarith [qb.2]
    have k2 : 1 / w.val ≤ 1 / (63 / 64 * (1 / 2 ^ 60)) := by
      apply one_div_le_one_div_of_le (by positivity); linarith [qb.1]
    obtain ⟨tf, te⟩ := rel hd (by rw [a1]; norm_num at k1 ⊢; linarith) (by rw [a1]; norm_num at k2 ⊢; linarith)
    refine ⟨tf, ?_⟩
    have ts := scale σ0 te
    have e1 : 1 / w.val * σ - 1 = (σ - w.val) / w.val := by field_simp
    have e2 : |1 / w.val * σ - 1| ≤ 1 / 2 ^ 23 := by
      rw [e1, abs_div, abs_of_pos w0, div_le_iff₀ w0, _root_.abs_sub_comm]
      refine qe.trans ?_
      norm_num; linarith [qb.1]
    generalize 1 / w.val * σ = k at *
    have e3 : |k| ≤ 2 := by
      rw [abs_le] at e2 ⊢; norm_num at e2; constructor <;> linarith [e2.1, e2.2]
    have e4 := abs_add_le ((Fp.div (Fp.lit 1 1) w).val * σ - k) (k - 1)
    rw [sub_add_sub_cancel] at e4
    norm_num [-abs_mul, -one_div] at ts e2 e3 e4 ⊢
    linarith
  rcases bk with ⟨a, b⟩ | _ | _ | b
  · obtain ⟨f, g⟩ := he.2 v hv h1 h2
    have st : Step v (Libm.rsqrtEst v) √v.val (3 / 2 ^ 13) := ⟨hv, f, σ0, σsq, σlo, σhi, g, by norm_num⟩
    obtain ⟨t1, t2⟩ := st.sse
    exact ⟨t1, t2.trans (by norm_num)⟩
  · have : Simd4f.rsqrt1 .gcc v = Fp.div (Fp.lit 1 1) (Fp.sqrt v) := by
      unfold Simd4f.rsqrt1
      have : Scalar.feq v (f0 : F32) = false := by
        rw [Bool.eq_false_iff]; intro hc
        have hc' : v.feq (zero false) = true := by rw [f0_eq] at hc; exact hc
        have := (feq_iff_val (isNaN_of_isFin hv) rfl).1 hc'
        rw [val_zero] at this; exact v0.ne' this
      simp only [this]; rfl
    rw [this]; exact div
  · obtain ⟨f, g⟩ := he.2 v hv h1 h2
    have st : Step v (Libm.rsqrtEst v) √v.val (1 / 2 ^ 7) := ⟨hv, f, σ0, σsq, σlo, σhi, g, by norm_num⟩
    obtain ⟨t1, t2⟩ := st.neon
    have st2 : Step v _ √v.val (1 / 2 ^ 12) := ⟨hv, t1, σ0, σsq, σlo, σhi, t2.trans (by norm_num), by norm_num⟩
    obtain ⟨u1, u2⟩ := st2.neon
    have st3 : Step v _ √v.val (1 / 2 ^ 12) := ⟨hv, u1, σ0, σsq, σlo, σhi, u2.trans (by norm_num), by norm_num⟩
    obtain ⟨w1, w2⟩ := st3.neon
    exact ⟨w1, w2.trans (by norm_num)⟩
  · have : Simd4f.rsqrt1 (.scalar b) v = Fp.div (Fp.lit 1 1) (Fp.sqrt v) := by
      unfold Simd4f.rsqrt1
      have : (Scalar.abs v >. (fltEps : F32)) = true := by
        show (fltEps : F32).lt (Fp.abs v) = true
        rw [lt_iff_val (by kdecide) (isNaN_of_isFin (by simpa using hv)), val_abs, abs_of_pos v0]
        have := hs b rfl
        have e : (fltEps : F32).val = 1 / 2 ^ 23 := by
          have := (lit_dyadic 1 23 (by decide) (by decide)).2
          rw [show (fltEps : F32) = Fp.lit 1 (2 ^ 23) from rfl, this]; norm_num
        rw [e]; exact this
      simp only [this]; rfl
    rw [this]; exact div

theorem abs_gt_eps (hv : v.isFin = true) (h : 1 / 2 ^ 23 < |v.val|) : (Scalar.abs v >. (fltEps : F32)) = true := by
  show (fltEps : F32).lt (Fp.abs v) = true
  rw [lt_iff_val (by kdecide) (isNaN_of_isFin (by simpa using hv)), val_abs]
  have e : (fltEps : F32).val = 1 / 2 ^ 23 := by
    have := (lit_dyadic 1 23 (by decide) (by decide)).2
    rw [show (fltEps : F32) = Fp.lit 1 (2 ^ 23) from rfl, this]; norm_num
  rw [e]; exact h

/-- The reciprocal of every backend has a relative error of at most 2^-20. -/
theorem recip1_near (bk : Backend) (he : Spec.EstAccurate bk) (hv : v.isFin = true) (h1 : 1 / 2 ^ 100 ≤ |v.val|) (h2 : |v.val| ≤ 2 ^ 100)
    (hs : bk = .gcc ∨ bk = .scalar false → 1 / 2 ^ 23 < |v.val|) :
    (Simd4f.recip1 bk v).isFin = true ∧ |(Simd4f.recip1 bk v).val * v.val - 1| ≤ 1 / 2 ^ 20 := by
  have v0 : 0 < |v.val| := lt_of_lt_of_le (by positivity) h1
  have vne : v.val ≠ 0 := abs_pos.1 v0
  have div : (Fp.div (Fp.lit 1 1) v).isFin = true ∧ |(Fp.div (Fp.lit 1 1) v).val * v.val - 1| ≤ 1 / 2 ^ 20 := by
    have hd := rnd_div one.1 hv vne
    rw [one.2] at hd
    have a1 : |1 / v.val| = 1 / |v.val| := by rw [abs_div, abs_one]
    have k1 : 1 / (2 ^ 100) ≤ 1 / |v.val| := one_div_le_one_div_of_le v0 h2
    have k2 : 1 / |v.val| ≤ 1 / (1 / 2 ^ 100) := one_div_le_one_div_of_le (by positivity) h1
    obtain ⟨tf, te⟩ := rel hd (by rw [a1]; norm_num at k1 ⊢; linarith) (by rw [a1]; norm_num at k2 ⊢; linarith)
    refine ⟨tf, ?_⟩
    have e1 : (Fp.div (Fp.lit 1 1) v).val * v.val - 1 = ((Fp.div (Fp.lit 1 1) v).val - 1 / v.val) * v.val := by field_simp
    rw [e1, abs_mul]
    rw [a1] at te
    have := mul_le_mul_of_nonneg_right te v0.le
    rw [mul_assoc, one_div_mul_cancel v0.ne'] at this
    exact this.trans (by norm_num)
  rcases bk with ⟨a, b⟩ | _ | _ | ⟨_ | _⟩
  · obtain ⟨f, g⟩ := he.1 v hv h1 h2
    have st : RStep v (Libm.rcpEst v) (3 / 2 ^ 13) := ⟨hv, f, h1, h2, g, by norm_num⟩
    have e : Simd4f.recip1 (.sse a b) v = Fp.mul (Libm.rcpEst v) (Fp.sub (Fp.lit 2 1) (Fp.mul v (Libm.rcpEst v))) := by
      unfold Simd4f.recip1
      have : Scalar.feq v (f0 : F32) = false := by
        rw [Bool.eq_false_iff]; intro hc
        have hc' : v.feq (zero false) = true := by rw [f0_eq] at hc; exact hc
        have := (feq_iff_val (isNaN_of_isFin hv) rfl).1 hc'
        rw [val_zero] at this; exact vne this
      simp only [this]; rfl
    have hm : Rnd ((Libm.rcpEst v).val * v.val) (Fp.mul v (Libm.rcpEst v)) := by rw [_root_.mul_comm]; exact rnd_mul hv f
    obtain ⟨r1, r2⟩ := rho_bounds st.err st.small
    have hmf : (Fp.mul v (Libm.rcpEst v)).isFin = true :=
      (rel hm (by rw [abs_of_pos (by linarith)]; norm_num; linarith) (by rw [abs_of_pos (by linarith)]; norm_num; linarith)).1
    have hdf : (Fp.sub (Fp.lit 2 1) (Fp.mul v (Libm.rcpEst v))).isFin = true := by
      have b := (rel hm (by rw [abs_of_pos (by linarith)]; norm_num; linarith) (by rw [abs_of_pos (by linarith)]; norm_num; linarith)).2
      rw [abs_of_pos (a := (Libm.rcpEst v).val * v.val) (by linarith), _root_.abs_le] at b
      refine (rnd_sub two.1 hmf).isFin hp32 (le_trans ?_ le_max32)
      rw [two.2, _root_.abs_le]; norm_num at b ⊢; constructor <;> linarith [b.1, b.2]
    obtain ⟨-, -, t1, t2⟩ := st.step hm (rnd_mul f hdf)
    rw [e]; exact ⟨t1, t2.trans (by norm_num)⟩
  · have e : Simd4f.recip1 .gcc v = Fp.div (Fp.lit 1 1) v := by
      unfold Simd4f.recip1
      simp only [abs_gt_eps hv (hs (Or.inl rfl))]; rfl
    rw [e]; exact div
  · obtain ⟨f, g⟩ := he.1 v hv h1 h2
    have key : ∀ (s : F32) (e : ℝ), RStep v s e → (Scalar.mul (Simd4f.vrecps s v) s : F32).isFin = true ∧
        |(Scalar.mul (Simd4f.vrecps s v) s : F32).val * v.val - 1| ≤ e ^ 2 + 1 / 2 ^ 22 := by
      intro s e st
      obtain ⟨r1, r2⟩ := rho_bounds st.err st.small
      have hm := rnd_mul st.sfin hv
      obtain ⟨hmf, b⟩ := rel hm (by rw [abs_of_pos (by linarith)]; norm_num; linarith) (by rw [abs_of_pos (by linarith)]; norm_num; linarith)
      have hdf : (Fp.sub (Fp.lit 2 1) (Fp.mul s v)).isFin = true := by
        rw [abs_of_pos (a := s.val * v.val) (by linarith), _root_.abs_le] at b
        refine (rnd_sub two.1 hmf).isFin hp32 (le_trans ?_ le_max32)
        rw [two.2, _root_.abs_le]; norm_num at b ⊢; constructor <;> linarith [b.1, b.2]
      have ht : Rnd (s.val * (Fp.sub (Fp.lit 2 1) (Fp.mul s v)).val) (Fp.mul (Fp.sub (Fp.lit 2 1) (Fp.mul s v)) s) := by
        rw [_root_.mul_comm]; exact rnd_mul hdf st.sfin
      obtain ⟨-, -, t1, t2⟩ := st.step hm ht
      rw [vrecps_eq st.sfin hv]
      exact ⟨t1, t2⟩
    have st : RStep v (Libm.rcpEst v) (1 / 2 ^ 7) := ⟨hv, f, h1, h2, g, by norm_num⟩
    obtain ⟨t1, t2⟩ := key _ _ st
    have st2 : RStep v (Scalar.mul (Simd4f.vrecps (Libm.rcpEst v) v) (Libm.rcpEst v) : F32) (1 / 2 ^ 13) :=
      ⟨hv, t1, h1, h2, t2.trans (by norm_num), by norm_num⟩
    obtain ⟨u1, u2⟩ := key _ _ st2
    exact ⟨u1, u2.trans (by norm_num)⟩
  · have e : Simd4f.recip1 (.scalar false) v = Fp.div (Fp.lit 1 1) v := by
      unfold Simd4f.recip1
      simp only [abs_gt_eps hv (hs (Or.inr rfl))]; rfl
    rw [e]; exact div
  · exact div

end Newton
end Graphene
