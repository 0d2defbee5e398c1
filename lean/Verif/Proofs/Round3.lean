/- Nearness of rounding: spacing of floats, values close to a float round to it, rounding is nearest. -/
import Verif.Proofs.Round2

set_option exponentiation.threshold 3000

namespace Graphene
namespace Fmt
variable (f : Fmt)

/-- Different grid values are at least one part in `2^prec` apart. -/
theorem spacing {n m : Nat} (hn : f.Grid n) (hm : f.Grid m) (h : n < m) : m ≤ (m - n) * 2 ^ f.prec := by
  have hp := f.prec_pos
  have um := f.ulp_upper m
  have un := f.ulp_upper n
  unfold Grid at hn hm
  rcases Nat.eq_zero_or_pos (f.ulpExp m) with he | he
  · rw [he, Nat.add_zero] at um
    have : 1 * 2 ^ f.prec ≤ (m - n) * 2 ^ f.prec := Nat.mul_le_mul_right _ (by omega)
    omega
  · have lm := f.ulp_lower he
    have hge : f.ulpExp n ≤ f.ulpExp m := f.ulpExp_mono h.le
    have dvd_sub : ∀ k a b : Nat, 2 ^ k ∣ a → 2 ^ k ∣ b → b < a → 2 ^ k ≤ a - b := by
      intro k a b ha hb hlt
      exact Nat.le_of_dvd (by omega) (Nat.dvd_sub ha hb)
    generalize f.ulpExp m = e at *
    generalize f.ulpExp n = g at *
    rcases hge.lt_or_eq with hlt | rfl
    · -- `n` lies below the binade of `m`
      have key : 2 ^ (e - 1) ≤ 2 ^ (f.prec + e - 1) - n := by
        rcases Nat.lt_or_ge (g + 1) e with h1 | h1
        · have a1 : n < 2 ^ (f.prec + e - 2) :=
            Nat.lt_of_lt_of_le un (Nat.pow_le_pow_right (by decide) (by omega))
          have a2 : 2 ^ (f.prec + e - 1) = 2 * 2 ^ (f.prec + e - 2) := by
            rw [← Nat.pow_succ']; congr 1; omega
          have a3 : 2 ^ (e - 1) ≤ 2 ^ (f.prec + e - 2) := Nat.pow_le_pow_right (by decide) (by omega)
          omega
        · have eg : e - 1 = g := by omega
          have ee : f.prec + e - 1 = f.prec + g := by omega
          rw [eg, ee]
          exact dvd_sub g _ n (Nat.pow_dvd_pow 2 (by omega)) hn un
      have b1 : 2 ^ (e - 1) * 2 ^ f.prec = 2 ^ (f.prec + e - 1) := by
        rw [← Nat.pow_add]; congr 1; omega
      have b2 := Nat.mul_le_mul_right (2 ^ f.prec) key
      have b3 : 1 ≤ 2 ^ f.prec := Nat.one_le_two_pow
      have b4 : m - 2 ^ (f.prec + e - 1) ≤ (m - 2 ^ (f.prec + e - 1)) * 2 ^ f.prec := Nat.le_mul_of_pos_right _ b3
      have b5 : m - n = (m - 2 ^ (f.prec + e - 1)) + (2 ^ (f.prec + e - 1) - n) := by
        have : n < 2 ^ (f.prec + e - 1) := by
          have := Nat.two_pow_pos (e - 1); omega
        omega
      rw [b5, Nat.add_mul]
      omega
    · have := dvd_sub _ m n hm hn h
      have := Nat.mul_le_mul_right (2 ^ f.prec) this
      rw [← Nat.pow_add, Nat.add_comm] at this
      omega

/-- A number within a quarter of the spacing of a grid value rounds to it. -/
theorem rnd_eq_of_near {n d m : Nat} (hd : 0 < d) (hm : f.Grid m)
    (h : |(n : ℝ) / d - m| * 2 ^ (f.prec + 2) ≤ m) : f.rnd n d = m := by
  have h1 := f.rnd_nearest (n := n) hd hm
  have h2 : |(f.rnd n d : ℝ) - m| ≤ 2 * |(n : ℝ) / d - m| := by
    have := abs_add_le ((f.rnd n d : ℝ) - (n : ℝ) / d) ((n : ℝ) / d - m)
    rw [sub_add_sub_cancel] at this
    rw [abs_sub_comm (m : ℝ)] at h1
    linarith
  have hp : (0 : ℝ) < 2 ^ f.prec := by positivity
  have h3 : |(f.rnd n d : ℝ) - m| * 2 ^ f.prec * 2 ≤ m := by
    have := mul_le_mul_of_nonneg_right h2 hp.le
    rw [pow_add] at h
    linarith
  rcases Nat.lt_trichotomy (f.rnd n d) m with g | g | g
  · exfalso
    have s := f.spacing (f.grid_rnd n d) hm g
    have s' : (m : ℝ) ≤ ((m : ℝ) - f.rnd n d) * 2 ^ f.prec := by
      have : ((m : ℕ) : ℝ) ≤ (((m - f.rnd n d) * 2 ^ f.prec : ℕ) : ℝ) := by exact_mod_cast s
      rw [Nat.cast_mul, Nat.cast_sub g.le] at this; push_cast at this; exact this
    have g' : (f.rnd n d : ℝ) < m := by exact_mod_cast g
    rw [abs_of_neg (by linarith)] at h3
    have : (0 : ℝ) < m := lt_of_le_of_lt (Nat.cast_nonneg _) g'
    nlinarith
  · exact g
  · exfalso
    have s := f.spacing hm (f.grid_rnd n d) g
    have s' : (f.rnd n d : ℝ) ≤ ((f.rnd n d : ℝ) - m) * 2 ^ f.prec := by
      have : ((f.rnd n d : ℕ) : ℝ) ≤ (((f.rnd n d - m) * 2 ^ f.prec : ℕ) : ℝ) := by exact_mod_cast s
      rw [Nat.cast_mul, Nat.cast_sub g.le] at this; push_cast at this; exact this
    have g' : (m : ℝ) < f.rnd n d := by exact_mod_cast g
    rw [abs_of_pos (by linarith)] at h3
    have : (0 : ℝ) ≤ m := Nat.cast_nonneg _
    nlinarith

end Fmt

namespace Fp
variable {f : Fmt}

/-- Rounding is to a nearest value of the format. -/
theorem Rnd.nearest {x : ℝ} {r c : Fp f} (hx : Rnd x r) (hr : r.isFin = true) (hc : c.isFin = true) :
    |r.val - x| ≤ |c.val - x| := by
  obtain ⟨z, d, t, hd, rfl, rfl⟩ := hx
  obtain ⟨e1, e2⟩ := err_aux hd hr
  cases c with
  | nan => simp [Fp.isFin] at hc
  | inf s => simp [Fp.isFin] at hc
  | fin s m h =>
    have hu := unit_pos f
    rw [e1, val_fin, sgn_real]
    have hdr : (0 : ℝ) < d := by exact_mod_cast hd
    have hn : (0 : ℝ) ≤ (z.natAbs : ℝ) / d := by positivity
    have hz : (z : ℝ) = z.natAbs ∨ (z : ℝ) = -z.natAbs := by
      rcases Int.natAbs_eq z with g | g
      · left; nth_rw 1 [g]; simp
      · right; nth_rw 1 [g]; simp
    have hmm : (0 : ℝ) ≤ m := Nat.cast_nonneg _
    have key : ∃ k : Nat, f.Grid k ∧ |(k : ℝ) - (z.natAbs : ℝ) / d| ≤
        |(if s = true then -1 else 1) * (m : ℝ) - (z : ℝ) / d| := by
      have z0 : f.Grid 0 := (rep_zero f).2
      generalize (z.natAbs : ℝ) = q at *
      rcases hz with g | g <;> rw [g] <;> cases s
      · exact ⟨m, h.2, by simp⟩
      · refine ⟨0, z0, ?_⟩
        rw [abs_of_nonpos (by simpa using hn), abs_of_nonpos (by simp only [if_true]; linarith)]
        simp only [if_true, Nat.cast_zero]; linarith
      · refine ⟨0, z0, ?_⟩
        rw [abs_of_nonpos (by simpa using hn),
          abs_of_nonneg (by simp only [Bool.false_eq_true, if_false, neg_div]; linarith)]
        simp only [Bool.false_eq_true, if_false, neg_div, Nat.cast_zero]; linarith
      · refine ⟨m, h.2, ?_⟩
        rw [← _root_.abs_neg]
        simp only [if_true]
        apply _root_.le_of_eq; congr 1; ring
    obtain ⟨k, hk, hk2⟩ := key
    have := (f.rnd_nearest (n := z.natAbs) hd hk).trans hk2
    rw [← sub_div, abs_div, abs_of_pos hu]
    exact div_le_div_of_nonneg_right this hu.le

/-- A number within a quarter of the spacing of a float rounds to that float. -/
theorem Rnd.of_near {x : ℝ} {r a : Fp f} (hx : Rnd x r) (ha : a.isFin = true)
    (h : |x - a.val| * 2 ^ (f.prec + 2) ≤ |a.val|) : r.isFin = true ∧ r.val = a.val := by
  cases a with
  | nan => simp [Fp.isFin] at ha
  | inf s => simp [Fp.isFin] at ha
  | fin s m hm =>
    have hu := unit_pos f
    by_cases h0 : m = 0
    · subst h0
      have hv : (fin s 0 hm : Fp f).val = 0 := by simp [val_fin, sgn_real]
      rw [hv, _root_.sub_zero, _root_.abs_zero] at h
      have hx0 : x = 0 := by
        have : (0 : ℝ) < 2 ^ (f.prec + 2) := by positivity
        have : |x| ≤ 0 := by nlinarith [abs_nonneg x]
        simpa using this
      subst hx0
      have g := hx.feq (hv ▸ rnd_self (a := fin s 0 hm) rfl)
      have e := (feq_iff_val hx.not_nan rfl).1 g
      refine ⟨?_, e⟩
      exact isFin_of_between (a := fin s 0 hm) (b := fin s 0 hm) rfl rfl
        (feq_iff_le.1 g).2 (feq_iff_le.1 g).1
    · obtain ⟨z, d, t, hd, rfl, rfl⟩ := hx
      have hdr : (0 : ℝ) < d := by exact_mod_cast hd
      have hm0 : (0 : ℝ) < m := by exact_mod_cast Nat.pos_of_ne_zero h0
      rw [val_fin, sgn_real, ← sub_div, abs_div, abs_div, abs_of_pos hu] at h
      have h' : |(z : ℝ) / d - (if s = true then -1 else 1) * m| * 2 ^ (f.prec + 2) ≤ m := by
        have e : |(if s = true then (-1 : ℝ) else 1) * m| = m := by
          cases s <;> simp
        rw [e, div_mul_eq_mul_div, div_le_div_iff_of_pos_right hu] at h
        exact h
      have p4 : (4 : ℝ) ≤ 2 ^ (f.prec + 2) := by
        rw [pow_add]; have : (1 : ℝ) ≤ 2 ^ f.prec := one_le_pow₀ (by norm_num); linarith
      have hd2 : |(z : ℝ) / d - (if s = true then -1 else 1) * m| ≤ m / 4 := by
        have := abs_nonneg ((z : ℝ) / d - (if s = true then -1 else 1) * m)
        nlinarith
      have key : (z < 0 ↔ s = true) ∧ z ≠ 0 ∧ |(z.natAbs : ℝ) / d - m| * 2 ^ (f.prec + 2) ≤ m := by
        have ab := _root_.abs_le.1 hd2
        cases s with
        | false =>
          simp only [Bool.false_eq_true, if_false, _root_.one_mul] at *
          have hz : 0 < (z : ℝ) / d := by linarith
          have hz' : (0 : ℝ) < z := by
            by_contra c; exact absurd hz (_root_.not_lt.2 (div_nonpos_of_nonpos_of_nonneg (_root_.not_lt.1 c) hdr.le))
          have hz2 : 0 < z := by exact_mod_cast hz'
          refine ⟨by constructor <;> intro h <;> [omega; cases h], hz2.ne', ?_⟩
          have : (z.natAbs : ℝ) = z := by
            rw [Nat.cast_natAbs, abs_of_pos hz2]
          rw [this]; exact h'
        | true =>
          simp only [if_true] at *
          have hz : (z : ℝ) / d < 0 := by linarith
          have hz' : (z : ℝ) < 0 := by
            by_contra c; exact absurd hz (_root_.not_lt.2 (div_nonneg (_root_.not_lt.1 c) hdr.le))
          have hz2 : z < 0 := by exact_mod_cast hz'
          refine ⟨by simpa using hz2, hz2.ne, ?_⟩
          have : (z.natAbs : ℝ) = -z := by
            rw [Nat.cast_natAbs, abs_of_neg hz2]; simp
          rw [this]
          refine _root_.le_trans (_root_.le_of_eq ?_) h'
          rw [← _root_.abs_neg]; congr 2; ring
      have e := f.rnd_eq_of_near hd hm.2 key.2.2
      have hfin : (ofInt z d t : Fp f) = fin s m hm := by
        unfold ofInt
        rw [if_neg key.2.1]
        have hs : decide (z < 0) = s := by
          cases s <;> simp_all
        unfold ofMag
        rw [dif_pos (by rw [e]; exact hm.1)]
        simp only [hs, e]
      rw [hfin]; exact ⟨rfl, rfl⟩

end Fp
end Graphene
