/-
  Theory of the rounding used by the IEEE-754 model (`Fmt.rnd`, `Fp.ofMag`):
  it is monotone, exact on representable values, returns a nearest representable
  value, and has relative error at most `2^-prec` (plus half a unit below the normal range).
-/
import Verif.Proofs.FpLemmas
import Mathlib.Analysis.SpecialFunctions.Sqrt
import Mathlib.Tactic.Positivity
import Mathlib.Tactic.GCongr

set_option exponentiation.threshold 3000

namespace Graphene

/-- Round `num / d` to the nearest integer, ties to even. -/
def rne (num d : Nat) : Nat :=
  if 2 * (num % d) < d then num / d else if d < 2 * (num % d) then num / d + 1
  else num / d + (num / d) % 2

theorem Fmt.rnd_eq (f : Fmt) (num den : Nat) :
    f.rnd num den = rne num (den * 2 ^ f.ulpExp (num / den)) * 2 ^ f.ulpExp (num / den) := rfl

theorem rne_ge (num d : Nat) : num / d ≤ rne num d := by unfold rne; split_ifs <;> omega
theorem rne_le (num d : Nat) : rne num d ≤ num / d + 1 := by unfold rne; split_ifs <;> omega

/-- the integer rounding errs by at most one half -/
theorem rne_err_hi {num d : Nat} : 2 * (rne num d * d) ≤ 2 * num + d := by
  have h := Nat.div_add_mod num d
  have h2 : num / d % 2 ≤ 1 := by omega
  unfold rne
  rw [Nat.mul_comm] at h
  generalize num / d % 2 = p at *
  split_ifs with h1 h3
  · omega
  · rw [Nat.add_mul]; omega
  · have : p * d ≤ d := by nlinarith
    rw [Nat.add_mul]; omega
theorem rne_err_lo {num d : Nat} (hd : 0 < d) : 2 * num ≤ 2 * (rne num d * d) + d := by
  have h := Nat.div_add_mod num d
  have hm := Nat.mod_lt num hd
  unfold rne
  rw [Nat.mul_comm] at h
  split_ifs with h1 h3
  · omega
  · rw [Nat.add_mul]; omega
  · rw [Nat.add_mul]; omega

theorem rne_exact {k d : Nat} (hd : 0 < d) : rne (k * d) d = k := by
  unfold rne; simp [Nat.mul_div_cancel _ hd, hd]

/-- the integer rounding is monotone -/
theorem rne_mono {n d n' d' : Nat} (hd : 0 < d) (hd' : 0 < d') (h : n * d' ≤ n' * d) :
    rne n d ≤ rne n' d' := by
  have hq : n / d ≤ n' / d' := by
    rw [Nat.le_div_iff_mul_le hd']
    have a : n / d * d ≤ n := Nat.div_mul_le_self n d
    have : n / d * d' * d ≤ n' * d := by nlinarith
    exact Nat.le_of_mul_le_mul_right this hd
  rcases hq.lt_or_eq with h1 | h1
  · exact (rne_le n d).trans ((Nat.succ_le_of_lt h1).trans (rne_ge n' d'))
  · have e := Nat.div_add_mod n d
    have e' := Nat.div_add_mod n' d'
    have hr : (n % d) * d' ≤ (n' % d') * d := by
      rw [h1] at e
      generalize n' / d' = q at *
      generalize n % d = r at *
      generalize n' % d' = r' at *
      subst e e'
      nlinarith
    unfold rne
    rw [h1]
    generalize n' / d' = q at *
    generalize n % d = r at *
    generalize n' % d' = r' at *
    have hq2 : q % 2 ≤ 1 := by omega
    split_ifs with a1 a2 a3 a4 a5 a6 a7 <;> try omega
    all_goals (exfalso; nlinarith)

/-- among the integers, `rne` is nearest -/
theorem rne_nearest {n d : Nat} (hd : 0 < d) (k : Nat) :
    |((rne n d : ℤ) * d - n)| ≤ |((k : ℤ) * d - n)| := by
  have h1 := rne_err_hi (num := n) (d := d)
  have h2 := rne_err_lo (num := n) hd
  generalize rne n d = q at *
  by_cases hk : k = q
  · subst hk; exact le_refl _
  have hdi : (0 : ℤ) < d := by exact_mod_cast hd
  have h1' : 2 * ((q : ℤ) * d) ≤ 2 * n + d := by exact_mod_cast h1
  have h2' : 2 * (n : ℤ) ≤ 2 * (q * d) + d := by exact_mod_cast h2
  have hA : |((q : ℤ) * d - n)| * 2 ≤ d := by
    rcases abs_cases ((q : ℤ) * d - n) with ⟨h, _⟩ | ⟨h, _⟩ <;> rw [h] <;> linarith
  have hB : (d : ℤ) ≤ |((k : ℤ) * d - q * d)| := by
    rw [← sub_mul, abs_mul, abs_of_pos hdi]
    have : (1 : ℤ) ≤ |(k : ℤ) - q| := Int.one_le_abs (sub_ne_zero.2 (by exact_mod_cast hk))
    nlinarith
  have hC : |((k : ℤ) * d - q * d)| ≤ |((k : ℤ) * d - n)| + |((q : ℤ) * d - n)| := by
    have := abs_sub ((k : ℤ) * d - n) ((q : ℤ) * d - n)
    simpa using this
  linarith

namespace Fmt
variable (f : Fmt)

theorem ulp_lower {q : Nat} (h : 0 < f.ulpExp q) : 2 ^ (f.prec + f.ulpExp q - 1) ≤ q := by
  have hq : q ≠ 0 := by
    rintro rfl
    have := f.prec_pos
    simp [ulpExp] at h; omega
  have : f.prec + f.ulpExp q - 1 = q.log2 := by unfold ulpExp at *; omega
  rw [this]; exact Nat.log2_self_le hq
theorem ulp_upper (q : Nat) : q < 2 ^ (f.prec + f.ulpExp q) :=
  Nat.lt_of_lt_of_le Nat.lt_log2_self
    (Nat.pow_le_pow_right (by decide) (by unfold ulpExp; omega))

theorem log2_mono {a b : Nat} (h : a ≤ b) : a.log2 ≤ b.log2 := by
  rcases Nat.eq_zero_or_pos a with h0 | h0
  · subst h0; simp
  · rw [Nat.le_log2 (by omega)]; exact (Nat.log2_self_le (by omega)).trans h
theorem ulpExp_mono {a b : Nat} (h : a ≤ b) : f.ulpExp a ≤ f.ulpExp b := by
  unfold ulpExp; have := log2_mono h; omega

theorem quot_lt (n d : Nat) : n / (d * 2 ^ f.ulpExp (n / d)) < 2 ^ f.prec := by
  rw [← Nat.div_div_eq_div_mul, Nat.div_lt_iff_lt_mul (Nat.two_pow_pos _), ← Nat.pow_add]
  exact f.ulp_upper _

theorem rnd_le_pow (n d : Nat) : f.rnd n d ≤ 2 ^ (f.prec + f.ulpExp (n / d)) := by
  rw [rnd_eq, Nat.pow_add]
  refine Nat.mul_le_mul_right _ ?_
  have := f.quot_lt n d
  have := rne_le n (d * 2 ^ f.ulpExp (n / d))
  omega
theorem pow_le_rnd {n d : Nat} (h : 0 < f.ulpExp (n / d)) :
    2 ^ (f.prec + f.ulpExp (n / d) - 1) ≤ f.rnd n d := by
  have hl := f.ulp_lower h
  rw [rnd_eq]
  have e : f.prec + f.ulpExp (n / d) - 1 = (f.prec - 1) + f.ulpExp (n / d) := by
    have := f.prec_pos; omega
  rw [e] at hl ⊢
  rw [Nat.pow_add] at hl ⊢
  refine Nat.mul_le_mul_right _ (le_trans ?_ (rne_ge _ _))
  rwa [← Nat.div_div_eq_div_mul, Nat.le_div_iff_mul_le (Nat.two_pow_pos _)]

/-- Rounding is monotone. -/
theorem rnd_mono {n d n' d' : Nat} (hd : 0 < d) (hd' : 0 < d') (h : n * d' ≤ n' * d) :
    f.rnd n d ≤ f.rnd n' d' := by
  have hq : n / d ≤ n' / d' := by
    rw [Nat.le_div_iff_mul_le hd']
    have a : n / d * d ≤ n := Nat.div_mul_le_self n d
    have : n / d * d' * d ≤ n' * d := by nlinarith
    exact Nat.le_of_mul_le_mul_right this hd
  rcases (f.ulpExp_mono hq).lt_or_eq with he | he
  · refine (f.rnd_le_pow n d).trans (le_trans ?_ (f.pow_le_rnd (n := n') (d := d') (by omega)))
    exact Nat.pow_le_pow_right (by decide) (by omega)
  · rw [rnd_eq, rnd_eq, ← he]
    refine Nat.mul_le_mul_right _ (rne_mono (Nat.mul_pos hd (Nat.two_pow_pos _))
      (Nat.mul_pos hd' (Nat.two_pow_pos _)) ?_)
    calc n * (d' * 2 ^ f.ulpExp (n / d)) = (n * d') * 2 ^ f.ulpExp (n / d) := by ring
      _ ≤ (n' * d) * 2 ^ f.ulpExp (n / d) := Nat.mul_le_mul_right _ h
      _ = _ := by ring

/-- Rounding depends only on the ratio. -/
theorem rnd_congr {n d n' d' : Nat} (hd : 0 < d) (hd' : 0 < d') (h : n * d' = n' * d) :
    f.rnd n d = f.rnd n' d' :=
  le_antisymm (f.rnd_mono hd hd' h.le) (f.rnd_mono hd' hd h.ge)

/-- Values on the format's grid, exponent range unbounded above. -/
def Grid (m : Nat) : Prop := 2 ^ f.ulpExp m ∣ m

theorem grid_rnd (n d : Nat) : f.Grid (f.rnd n d) := f.rnd_dvd n d

theorem rnd_grid {m : Nat} (h : f.Grid m) {d : Nat} (hd : 0 < d) : f.rnd (m * d) d = m := by
  obtain ⟨k, hk⟩ := h
  rw [rnd_eq, Nat.mul_div_cancel _ hd]
  generalize hu : (2 : Nat) ^ f.ulpExp m = u at *
  have hu0 : 0 < u := hu ▸ Nat.two_pow_pos _
  have e : m * d = k * (d * u) := by rw [hk]; ring
  rw [e, rne_exact (Nat.mul_pos hd hu0), hk]; ring

theorem grid_pow_mul {q t : Nat} (hq : q ≤ 2 ^ f.prec) : f.Grid (q * 2 ^ t) := by
  have h : f.ulpExp (q * 2 ^ t) ≤ t ∨ q = 2 ^ f.prec := by
    rcases hq.lt_or_eq with h | h
    · left
      rcases Nat.eq_zero_or_pos q with h0 | h0
      · subst h0; have := f.prec_pos; simp [ulpExp]; omega
      · have hlt : q * 2 ^ t < 2 ^ (f.prec + t) := by
          rw [Nat.pow_add]; exact Nat.mul_lt_mul_of_pos_right h (Nat.two_pow_pos t)
        have hne : q * 2 ^ t ≠ 0 := (Nat.mul_pos h0 (Nat.two_pow_pos t)).ne'
        have : (q * 2 ^ t).log2 < f.prec + t := (Nat.log2_lt hne).2 hlt
        unfold ulpExp; omega
    · exact .inr h
  rcases h with h | h
  · exact Nat.dvd_trans (Nat.pow_dvd_pow 2 h) (Nat.dvd_mul_left _ _)
  · subst h
    unfold Grid
    rw [← Nat.pow_add]
    apply Nat.pow_dvd_pow
    unfold ulpExp
    rw [Nat.log2_two_pow]
    have := f.prec_pos
    omega

/-- Absolute error: at most half a unit in the last place. -/
theorem rnd_abs_err {n d : Nat} (hd : 0 < d) :
    |(f.rnd n d : ℝ) - (n : ℝ) / d| ≤ 2 ^ f.ulpExp (n / d) / 2 := by
  rw [rnd_eq]
  generalize f.ulpExp (n / d) = e
  have hD : 0 < d * 2 ^ e := Nat.mul_pos hd (Nat.two_pow_pos _)
  have h1 := rne_err_hi (num := n) (d := d * 2 ^ e)
  have h2 := rne_err_lo (num := n) hD
  generalize rne n (d * 2 ^ e) = q at *
  have h1' : 2 * ((q : ℝ) * (d * 2 ^ e)) ≤ 2 * n + d * 2 ^ e := by exact_mod_cast h1
  have h2' : 2 * (n : ℝ) ≤ 2 * (q * (d * 2 ^ e)) + d * 2 ^ e := by exact_mod_cast h2
  have hdr : (0 : ℝ) < d := by exact_mod_cast hd
  push_cast
  have e2 : (q : ℝ) * 2 ^ e - n / d = ((q : ℝ) * (d * 2 ^ e) - n) / d := by field_simp
  rw [e2, abs_div, abs_of_pos hdr, div_le_iff₀ hdr, abs_le]
  constructor <;> linarith

/-- Relative error at most `2^-prec`, unless below the normal range, where the error is
at most half a unit. -/
theorem rnd_err {n d : Nat} (hd : 0 < d) :
    |(f.rnd n d : ℝ) - (n : ℝ) / d| ≤ ((n : ℝ) / d) * (1 / 2 ^ f.prec) ∨
    |(f.rnd n d : ℝ) - (n : ℝ) / d| ≤ 1 / 2 := by
  have h := f.rnd_abs_err (n := n) hd
  rcases Nat.eq_zero_or_pos (f.ulpExp (n / d)) with he | he
  · right; simpa [he] using h
  · left
    refine h.trans ?_
    have hl := f.ulp_lower he
    have hdr : (0 : ℝ) < d := by exact_mod_cast hd
    have : ((2 : ℝ) ^ (f.prec + f.ulpExp (n / d) - 1)) ≤ (n : ℝ) / d := by
      rw [le_div_iff₀ hdr]
      have := (Nat.le_div_iff_mul_le hd).1 hl
      exact_mod_cast this
    have hp : (0 : ℝ) < 2 ^ f.prec := by positivity
    rw [mul_one_div, le_div_iff₀ hp]
    refine le_trans (le_of_eq ?_) this
    have e : f.prec + f.ulpExp (n / d) = (f.prec + f.ulpExp (n / d) - 1) + 1 := by
      have := f.prec_pos; omega
    have e3 : (2 : ℝ) ^ f.ulpExp (n / d) / 2 * 2 ^ f.prec = 2 ^ (f.prec + f.ulpExp (n / d)) / 2 := by
      rw [pow_add]; ring
    rw [e3, e, pow_succ]; simp

/-- An integer below `2^prec` units is exact. -/
theorem rnd_small {n : Nat} (h : n < 2 ^ f.prec) : f.rnd n 1 = n := by
  have g : f.Grid n := by simpa using f.grid_pow_mul (q := n) (t := 0) h.le
  simpa using f.rnd_grid g (d := 1) (by decide)

/-- An integer number of units is rounded with relative error at most `2^-prec`
(no underflow). -/
theorem rnd_err_int (n : Nat) :
    |(f.rnd n 1 : ℝ) - n| ≤ (n : ℝ) * (1 / 2 ^ f.prec) := by
  rcases Nat.lt_or_ge n (2 ^ f.prec) with h | h
  · rw [f.rnd_small h]; simp
  · have hr := f.rnd_err (n := n) (d := 1) (by decide)
    simp only [Nat.cast_one, div_one] at hr
    rcases hr with hr | hr
    · exact hr
    · refine hr.trans ?_
      have : (2 : ℝ) ^ f.prec ≤ n := by exact_mod_cast h
      have hp : (0 : ℝ) < 2 ^ f.prec := by positivity
      rw [mul_one_div]
      have := (one_le_div hp).2 this
      linarith

/-- The result is a nearest grid value. -/
theorem rnd_nearest {n d : Nat} (hd : 0 < d) {m : Nat} (hm : f.Grid m) :
    |(f.rnd n d : ℝ) - (n : ℝ) / d| ≤ |(m : ℝ) - (n : ℝ) / d| := by
  have hdr : (0 : ℝ) < d := by exact_mod_cast hd
  -- nearest among the multiples of the unit in the last place
  have key : ∀ k : Nat, |(f.rnd n d : ℝ) - (n : ℝ) / d| ≤
      |((k * 2 ^ f.ulpExp (n / d) : Nat) : ℝ) - (n : ℝ) / d| := by
    intro k
    rw [rnd_eq]
    generalize f.ulpExp (n / d) = e
    have h := rne_nearest (n := n) (Nat.mul_pos hd (Nat.two_pow_pos e)) k
    generalize rne n (d * 2 ^ e) = q at *
    have h' : |((q : ℝ) * (d * 2 ^ e) - n)| ≤ |((k : ℝ) * (d * 2 ^ e) - n)| := by exact_mod_cast h
    have e2 : ∀ q : ℝ, q * 2 ^ e - n / d = (q * (d * 2 ^ e) - n) / d := by intro q; field_simp
    push_cast
    rw [e2, e2, abs_div, abs_div]
    gcongr
  by_cases hdvd : 2 ^ f.ulpExp (n / d) ∣ m
  · obtain ⟨k, hk⟩ := hdvd
    rw [Nat.mul_comm] at hk
    rw [hk]; exact key k
  · -- a coarser ulp than `m`'s: `m` lies below the binade of `n / d`
    have he : f.ulpExp m < f.ulpExp (n / d) := by
      by_contra hc
      exact hdvd (Nat.dvd_trans (Nat.pow_dvd_pow 2 (not_lt.1 hc)) hm)
    have hmlt : m < 2 ^ (f.prec + f.ulpExp (n / d) - 1) :=
      Nat.lt_of_lt_of_le (f.ulp_upper m) (Nat.pow_le_pow_right (by decide) (by omega))
    have hl := f.ulp_lower (q := n / d) (by omega)
    have hk := key (2 ^ (f.prec - 1))
    have e : 2 ^ (f.prec - 1) * 2 ^ f.ulpExp (n / d) = 2 ^ (f.prec + f.ulpExp (n / d) - 1) := by
      rw [← Nat.pow_add]; congr 1; have := f.prec_pos; omega
    rw [e] at hk
    refine hk.trans ?_
    have hx : ((2 ^ (f.prec + f.ulpExp (n / d) - 1) : Nat) : ℝ) ≤ (n : ℝ) / d := by
      rw [le_div_iff₀ hdr]
      exact_mod_cast (Nat.le_div_iff_mul_le hd).1 hl
    have hm' : (m : ℝ) < ((2 ^ (f.prec + f.ulpExp (n / d) - 1) : Nat) : ℝ) := by exact_mod_cast hmlt
    rw [abs_of_nonpos (by linarith), abs_of_nonpos (by linarith)]
    linarith

end Fmt
end Graphene
