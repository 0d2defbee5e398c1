/-
  Exact float arithmetic on a grid of multiples of a power of two, and the correctness of
  `floorf` / `ceilf`.
-/
import Verif.Proofs.Approx
import Verif.Proofs.RealLemmas
import Mathlib.Algebra.Order.Floor.Ring

set_option exponentiation.threshold 3000

namespace Graphene
namespace Fp

theorem rep_int {n : Nat} (hn : n ≤ 2 ^ 24) : binary32.Rep (n * 2 ^ 149) := by
  constructor
  · refine Nat.lt_of_le_of_lt (Nat.mul_le_mul hn le_rfl) ?_
    decide +kernel
  · rcases Nat.lt_or_ge n (2 ^ 24) with h | h
    · rcases Nat.eq_zero_or_pos n with h0 | h0
      · subst h0; simp
      · have hne : n * 2 ^ 149 ≠ 0 := Nat.ne_of_gt (Nat.mul_pos h0 (Nat.two_pow_pos _))
        have hlt : n * 2 ^ 149 < 2 ^ (24 + 149) := by
          rw [Nat.pow_add]; exact Nat.mul_lt_mul_of_pos_right h (Nat.two_pow_pos _)
        have : (n * 2 ^ 149).log2 < 24 + 149 := (Nat.log2_lt hne).2 hlt
        have hle : binary32.ulpExp (n * 2 ^ 149) ≤ 149 := by
          change (n * 2 ^ 149).log2 + 1 - 24 ≤ 149; omega
        exact Nat.dvd_trans (Nat.pow_dvd_pow 2 hle) (Nat.dvd_mul_left _ _)
    · have : n = 2 ^ 24 := Nat.le_antisymm hn h
      subst this; decide +kernel

/-- `floorf` and `ceilf` of a finite float: the rounding of the quotient is exact. -/
theorem toIntegral_rep {m : Nat} (h : binary32.Rep m) (c : Prop) [Decidable c] :
    binary32.Rep ((if m % 2 ^ 149 ≠ 0 ∧ c then m / 2 ^ 149 + 1 else m / 2 ^ 149) * 2 ^ 149) := by
  rcases Nat.lt_or_ge m (2 ^ 173) with hm | hm
  · apply rep_int
    have : m / 2 ^ 149 < 2 ^ 24 := by
      rw [Nat.div_lt_iff_lt_mul (Nat.two_pow_pos _), ← Nat.pow_add]; exact hm
    split <;> omega
  · have hd : 2 ^ 149 ∣ m := by
      refine Nat.dvd_trans (Nat.pow_dvd_pow 2 ?_) h.2
      have : 173 ≤ m.log2 := (Nat.le_log2 (by intro e; subst e; simp at hm)).2 hm
      change 149 ≤ m.log2 + 1 - 24
      omega
    have h0 : m % 2 ^ 149 = 0 := Nat.mod_eq_zero_of_dvd hd
    rw [if_neg (fun g => g.1 h0), Nat.div_mul_cancel hd]
    exact h

theorem int_round (m : Nat) {U : Nat} (hU : 0 < U) :
    (⌊(m : ℝ) / U⌋ : ℝ) = ((m / U : Nat) : ℝ) ∧
    (⌈(m : ℝ) / U⌉ : ℝ) = ((if m % U ≠ 0 then m / U + 1 else m / U : Nat) : ℝ) := by
  have hU' : (0 : ℝ) < U := by exact_mod_cast hU
  have e0 : U * (m / U) + m % U = m := Nat.div_add_mod m U
  have hr : m % U < U := Nat.mod_lt m hU
  generalize m / U = q at *
  generalize m % U = r at *
  have e2 : (m : ℝ) / U = q + (r : ℝ) / U := by
    rw [← e0]; push_cast; field_simp
  have h1 : (r : ℝ) / U < 1 := by rw [div_lt_one hU']; exact_mod_cast hr
  have h0 : 0 ≤ (r : ℝ) / U := by positivity
  constructor
  · have : ⌊(m : ℝ) / U⌋ = (q : ℤ) := by
      rw [Int.floor_eq_iff, e2]; push_cast; constructor <;> linarith
    rw [this]; simp
  · have : ⌈(m : ℝ) / U⌉ = ((if r ≠ 0 then q + 1 else q : Nat) : ℤ) := by
      rw [Int.ceil_eq_iff, e2]
      by_cases h : r = 0
      · simp [h]
      · have : 0 < (r : ℝ) / U := by
          have : (0 : ℝ) < (r : ℝ) := by exact_mod_cast Nat.pos_of_ne_zero h
          positivity
        rw [if_pos h]; push_cast; constructor <;> linarith
    rw [this]; simp

theorem toIntegral_eq (d s : Bool) {m : Nat} (h : binary32.Rep m) :
    toIntegral d (.fin s m h : F32) = .fin s _ (toIntegral_rep h (s = d)) :=
  ofMag_exact s (toIntegral_rep h (s = d)) (by decide) (Nat.mul_one _).symm

theorem val_mul_unit (s : Bool) (n : Nat) (h : binary32.Rep (n * 2 ^ 149)) :
    (Fp.fin s (n * 2 ^ 149) h : F32).val = (if s then -1 else 1) * (n : ℝ) := by
  rw [val_fin, sgn_real]
  change _ / (2 : ℝ) ^ 149 = _
  push_cast
  field_simp
  norm_num

/-- `floorf` is the floor function on finite floats (no rounding, no overflow). -/
theorem floor_is {x : F32} (hx : x.isFin = true) : Is (Fp.floor x) (⌊x.val⌋ : ℝ) := by
  cases x with
  | nan => simp [isFin] at hx
  | inf s => simp [isFin] at hx
  | fin s m h =>
    have k := int_round m (U := 2 ^ 149) (Nat.two_pow_pos _)
    have hv : (Fp.fin s m h : F32).val = (if s then -1 else 1) * ((m : ℝ) / ((2 ^ 149 : Nat) : ℝ)) := by
      rw [val_fin, sgn_real, mul_div_assoc]; norm_num
    unfold floor
    rw [toIntegral_eq true s h]
    refine ⟨rfl, ?_⟩
    rw [val_mul_unit, hv]
    cases s
    · have e : (if m % 2 ^ 149 ≠ 0 ∧ false = true then m / 2 ^ 149 + 1 else m / 2 ^ 149) = m / 2 ^ 149 :=
        if_neg (fun g => by simp at g)
      rw [e]
      simp only [Bool.false_eq_true, if_false, _root_.one_mul]
      exact k.1.symm
    · simp only [and_true, if_true, neg_mul, _root_.one_mul, Int.floor_neg, Int.cast_neg]
      rw [k.2]

/-- `ceilf` is the ceiling function on finite floats. -/
theorem ceil_is {x : F32} (hx : x.isFin = true) : Is (Fp.ceil x) (⌈x.val⌉ : ℝ) := by
  cases x with
  | nan => simp [isFin] at hx
  | inf s => simp [isFin] at hx
  | fin s m h =>
    have k := int_round m (U := 2 ^ 149) (Nat.two_pow_pos _)
    have hv : (Fp.fin s m h : F32).val = (if s then -1 else 1) * ((m : ℝ) / ((2 ^ 149 : Nat) : ℝ)) := by
      rw [val_fin, sgn_real, mul_div_assoc]; norm_num
    unfold ceil
    rw [toIntegral_eq false s h]
    refine ⟨rfl, ?_⟩
    rw [val_mul_unit, hv]
    cases s
    · simp only [and_true, Bool.false_eq_true, if_false, _root_.one_mul]
      exact k.2.symm
    · have e : (if m % 2 ^ 149 ≠ 0 ∧ true = false then m / 2 ^ 149 + 1 else m / 2 ^ 149) = m / 2 ^ 149 :=
        if_neg (fun g => by simp at g)
      rw [e]
      simp only [if_true, neg_mul, _root_.one_mul, Int.ceil_neg, Int.cast_neg]
      rw [k.1]

/-! ### The grid of multiples of `2^-k` -/

/-- `x` is exactly the real `v`, a multiple of `2^-k` of magnitude at most `B / 2^k` -/
structure OnGrid (k B : Nat) (x : F32) (v : ℝ) : Prop where
  is : Is x v
  grid : ∃ n : ℤ, n.natAbs ≤ B ∧ v = n / 2 ^ k

namespace OnGrid
variable {k B C D : Nat} {x y : F32} {v w : ℝ}

theorem mono (h : OnGrid k B x v) (e : B ≤ C) : OnGrid k C x v :=
  ⟨h.is, h.grid.imp fun _ g => ⟨g.1.trans e, g.2⟩⟩
theorem of_is (hk : k ≤ 149) {r : F32} {z : ℝ} (hr : Rnd z r) (hB : B ≤ 2 ^ 24) {n : ℤ} (hn : n.natAbs ≤ B) (hz : z = n / 2 ^ k) :
    OnGrid k B r z := by
  have d := lit_dyadic n k (hn.trans hB) hk
  exact ⟨hr.is ⟨d.1, d.2.trans hz.symm⟩, n, hn, hz⟩
theorem neg (h : OnGrid k B x v) : OnGrid k B (Fp.neg x) (-v) := by
  obtain ⟨n, hn, hv⟩ := h.grid
  exact ⟨h.is.neg, -n, by simpa using hn, by rw [hv]; push_cast; ring⟩
theorem abs (h : OnGrid k B x v) : OnGrid k B (Fp.abs x) |v| := by
  obtain ⟨n, hn, hv⟩ := h.grid
  refine ⟨⟨by simpa using h.is.fin, by rw [val_abs, h.is.val]⟩, |n|, by rwa [Int.natAbs_abs], ?_⟩
  rw [hv, abs_div, Int.cast_abs]; congr 1; exact abs_of_pos (by positivity)
theorem add (hk : k ≤ 149) (hx : OnGrid k B x v) (hy : OnGrid k C y w) (hD : B + C ≤ D) (hB : D ≤ 2 ^ 24) :
    OnGrid k D (Fp.add x y) (v + w) := by
  obtain ⟨n, hn, hv⟩ := hx.grid
  obtain ⟨m, hm, hw⟩ := hy.grid
  have r := rnd_add hx.is.fin hy.is.fin
  rw [hx.is.val, hy.is.val] at r
  exact of_is hk r hB (n := n + m) (by omega) (by rw [hv, hw]; push_cast; ring)
theorem sub (hk : k ≤ 149) (hx : OnGrid k B x v) (hy : OnGrid k C y w) (hD : B + C ≤ D) (hB : D ≤ 2 ^ 24) :
    OnGrid k D (Fp.sub x y) (v - w) := by
  obtain ⟨n, hn, hv⟩ := hx.grid
  obtain ⟨m, hm, hw⟩ := hy.grid
  have r := rnd_sub hx.is.fin hy.is.fin
  rw [hx.is.val, hy.is.val] at r
  exact of_is hk r hB (n := n - m) (by omega) (by rw [hv, hw]; push_cast; ring)
/-- multiplication by a small integer -/
theorem mul_int (hk : k ≤ 149) (hx : OnGrid k B x v) {c : F32} {j : ℤ} (hc : Is c j) (hD : B * j.natAbs ≤ D) (hB : D ≤ 2 ^ 24) :
    OnGrid k D (Fp.mul x c) (v * j) := by
  obtain ⟨n, hn, hv⟩ := hx.grid
  have r := rnd_mul hx.is.fin hc.fin
  rw [hx.is.val, hc.val] at r
  refine of_is hk r hB (n := n * j) ?_ (by rw [hv]; push_cast; ring)
  rw [Int.natAbs_mul]; exact (Nat.mul_le_mul_right _ hn).trans hD
theorem zero : OnGrid k B (Fp.zero false) 0 := ⟨Is.zero_is, 0, by simp, by simp⟩

end OnGrid
end Fp
end Graphene
