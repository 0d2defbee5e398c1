/-
  The square root of the floating-point model is the correctly rounded one, and what follows from that.
-/
import Verif.Proofs.Round3
import Verif.Proofs.Approx

set_option exponentiation.threshold 3000

namespace Graphene
namespace Fmt
variable (f : Fmt)

/-- A sharper error bound: strictly below `u` relative to the exact value, at most `u` relative to the result. -/
theorem rnd_err_sharp {n d : Nat} (hd : 0 < d) :
    |(f.rnd n d : ℝ) - (n : ℝ) / d| ≤ 1 / 2 ∨
    (|(f.rnd n d : ℝ) - (n : ℝ) / d| < ((n : ℝ) / d) * (1 / 2 ^ f.prec) ∧
     |(f.rnd n d : ℝ) - (n : ℝ) / d| ≤ (f.rnd n d : ℝ) * (1 / 2 ^ f.prec)) := by
  have h := f.rnd_abs_err (n := n) hd
  rcases Nat.eq_zero_or_pos (f.ulpExp (n / d)) with he | he
  · left; simpa [he] using h
  · right
    have hl := f.ulp_lower he
    have hr := f.pow_le_rnd he
    have hdr : (0 : ℝ) < d := by exact_mod_cast hd
    have hl2 : 2 ^ (f.prec + f.ulpExp (n / d) - 1) * d ≤ n := (Nat.le_div_iff_mul_le hd).1 hl
    have this : ((2 : ℝ) ^ (f.prec + f.ulpExp (n / d) - 1)) ≤ (n : ℝ) / d := by
      rw [le_div_iff₀ hdr]; exact_mod_cast hl2
    have hr' : ((2 : ℝ) ^ (f.prec + f.ulpExp (n / d) - 1)) ≤ f.rnd n d := by exact_mod_cast hr
    have hp : (0 : ℝ) < 2 ^ f.prec := by positivity
    have e : f.prec + f.ulpExp (n / d) = (f.prec + f.ulpExp (n / d) - 1) + 1 := by
      have := f.prec_pos; omega
    have e3 : (2 : ℝ) ^ f.ulpExp (n / d) / 2 * 2 ^ f.prec = 2 ^ (f.prec + f.ulpExp (n / d)) / 2 := by
      rw [pow_add]; ring
    have e4 : (2 : ℝ) ^ f.ulpExp (n / d) / 2 * 2 ^ f.prec = 2 ^ (f.prec + f.ulpExp (n / d) - 1) := by
      rw [e3, e, pow_succ]; simp
    constructor
    · rcases hl2.lt_or_eq with g | g
      · refine lt_of_le_of_lt h ?_
        rw [mul_one_div, lt_div_iff₀ hp, e4, lt_div_iff₀ hdr]
        exact_mod_cast g
      · have gg : f.Grid (2 ^ (f.prec + f.ulpExp (n / d) - 1)) := by
          have := f.grid_pow_mul (q := 1) (t := f.prec + f.ulpExp (n / d) - 1) Nat.one_le_two_pow
          simpa using this
        have er : f.rnd n d = 2 ^ (f.prec + f.ulpExp (n / d) - 1) := by
          have := f.rnd_grid gg hd
          rwa [g] at this
        have en : (n : ℝ) / d = 2 ^ (f.prec + f.ulpExp (n / d) - 1) := by
          rw [div_eq_iff hdr.ne']; exact_mod_cast g.symm
        rw [er, en]; push_cast; rw [sub_self, abs_zero]; positivity
    · refine h.trans ?_
      rw [mul_one_div, le_div_iff₀ hp, e4]; exact hr'

/-- floats of at least `2^prec` units are even -/
theorem grid_even {m : Nat} (h : f.Grid m) (hm : 2 ^ f.prec ≤ m) : 2 ∣ m := by
  refine Nat.dvd_trans ?_ h
  have hne : m ≠ 0 := by have := Nat.two_pow_pos f.prec; omega
  have := (Nat.le_log2 hne).2 hm
  have : 1 ≤ f.ulpExp m := by unfold ulpExp; have := f.prec_pos; omega
  exact Nat.pow_dvd_pow 2 this (m := 1)
end Fmt

namespace Fp
variable {f : Fmt}

/-- `Rnd.err`, sharper. -/
theorem Rnd.err_sharp {x : ℝ} {r : Fp f} (hx : Rnd x r) (h : r.isFin = true) :
    |r.val - x| ≤ f.eta ∨ (|r.val - x| < f.u * |x| ∧ |r.val - x| ≤ f.u * |r.val|) := by
  obtain ⟨z, d, t, hd, rfl, rfl⟩ := hx
  obtain ⟨e1, e2⟩ := err_aux hd h
  have hu := unit_pos f
  have e3 : |(ofInt z d t : Fp f).val| = (f.rnd z.natAbs d : ℝ) / 2 ^ f.ubit := by
    rw [val_ofInt_fin hd h, abs_div, abs_of_pos hu, _root_.abs_mul]
    congr 1
    have : |(f.rnd z.natAbs d : ℝ)| = f.rnd z.natAbs d := abs_of_nonneg (Nat.cast_nonneg _)
    rw [this]
    split_ifs <;> simp
  rw [e1, e2, e3]
  rcases f.rnd_err_sharp (n := z.natAbs) hd with g | ⟨g1, g2⟩
  · left
    unfold Fmt.eta
    gcongr
  · right
    constructor
    · rw [div_lt_iff₀ hu]
      refine _root_.lt_of_lt_of_le g1 (_root_.le_of_eq ?_)
      unfold Fmt.u; field_simp
    · rw [div_le_iff₀ hu]
      refine g2.trans (_root_.le_of_eq ?_)
      unfold Fmt.u; field_simp

/-- the units of a finite float that is not negative -/
theorem units_of {c : Fp f} (hc : c.isFin = true) (h0 : 0 ≤ c.val) :
    ∃ k : Nat, f.Grid k ∧ c.val = (k : ℝ) / 2 ^ f.ubit := by
  cases c with
  | nan => simp [Fp.isFin] at hc
  | inf s => simp [Fp.isFin] at hc
  | fin s m h =>
    have hu := unit_pos f
    rw [val_fin, sgn_real] at h0 ⊢
    cases s
    · exact ⟨m, h.2, by simp⟩
    · refine ⟨0, (rep_zero f).2, ?_⟩
      simp only [if_true] at h0 ⊢
      have : (0 : ℝ) ≤ m := Nat.cast_nonneg _
      rw [le_div_iff₀ hu] at h0
      have hm : (m : ℝ) = 0 := by linarith
      rw [hm]; simp

/-- what the square root of the model computes -/
theorem sqrt_rnd {a : Fp f} (ha : a.isFin = true) (h0 : 0 < a.val) :
    ∃ N : Nat, 2 ^ f.ubit ≤ N ∧ √a.val = √(N : ℝ) / 2 ^ f.ubit ∧ a.val = (N : ℝ) / (2 ^ f.ubit * 2 ^ f.ubit) ∧
      Rnd ((2 * N.sqrt + (if N.sqrt * N.sqrt = N then 0 else 1) : Nat) / 2 / 2 ^ f.ubit : ℝ) (Fp.sqrt a) := by
  cases a with
  | nan => simp [Fp.isFin] at ha
  | inf s => simp [Fp.isFin] at ha
  | fin s m h =>
    have hu := unit_pos f
    rw [val_fin, sgn_real] at h0 ⊢
    cases s
    · have hm : m ≠ 0 := by rintro rfl; simp at h0
      refine ⟨m * 2 ^ f.ubit, Nat.le_mul_of_pos_left _ (Nat.pos_of_ne_zero hm), ?_, ?_, ?_⟩
      · have := sqrt_units (f := f) (m := m)
        simpa using this
      · push_cast; simp only [Bool.false_eq_true, if_false, one_mul]; field_simp
      · have e : Fp.sqrt (fin false m h : Fp f) = ofMag f false (2 * (m * 2 ^ f.ubit).sqrt +
            (if (m * 2 ^ f.ubit).sqrt * (m * 2 ^ f.ubit).sqrt = m * 2 ^ f.ubit then 0 else 1)) 2 := by
          simp only [sqrt, hm, if_false, Bool.false_eq_true]
        rw [e, ofMag_eq_ofInt _ _ (by decide)]
        exact ⟨_, 2, false, by decide, by simp [sgn], rfl⟩
    · exfalso
      simp only [if_true] at h0
      have : (0 : ℝ) ≤ m := Nat.cast_nonneg _
      rw [lt_div_iff₀ hu] at h0
      linarith

/-- The root rounds monotonically. -/
theorem sqrt_mono {a b : Fp f} (ha : a.isFin = true) (hb : b.isFin = true) (h0 : 0 < a.val) (h : a.val ≤ b.val) :
    (Fp.sqrt a).le (Fp.sqrt b) = true := by
  obtain ⟨N, -, -, eN, rN⟩ := sqrt_rnd ha h0
  obtain ⟨M, -, -, eM, rM⟩ := sqrt_rnd hb (_root_.lt_of_lt_of_le h0 h)
  have hu := unit_pos f
  have hNM : N ≤ M := by
    rw [eN, eM, div_le_div_iff_of_pos_right (by positivity)] at h
    exact_mod_cast h
  refine rN.mono rM ?_
  have hs := Nat.sqrt_le_sqrt hNM
  have h1 := Nat.sqrt_le N
  have h2 : 2 * N.sqrt + (if N.sqrt * N.sqrt = N then 0 else 1) ≤ 2 * M.sqrt + (if M.sqrt * M.sqrt = M then 0 else 1) := by
    rcases hs.lt_or_eq with g | g
    · split_ifs <;> omega
    · rw [g] at h1 ⊢
      split_ifs with i j j
      · exact le_rfl
      · omega
      · omega
      · exact le_rfl
  gcongr

theorem sqrt_bounds (N : Nat) : (N.sqrt : ℝ) ≤ √(N : ℝ) ∧ √(N : ℝ) < N.sqrt + 1 := by
  have h1 := Nat.sqrt_le N
  have h2 := Nat.lt_succ_sqrt N
  constructor
  · apply Real.le_sqrt_of_sq_le; rw [sq]; exact_mod_cast h1
  · rw [Real.sqrt_lt' (by positivity), sq]; exact_mod_cast h2

/-- The root does not cross a float. -/
theorem sqrt_ge_of {a b : Fp f} (ha : a.isFin = true) (h0 : 0 < a.val) (hb : b.isFin = true) (h : b.val ≤ √a.val) :
    b.le (Fp.sqrt a) = true := by
  obtain ⟨N, -, e, -, r⟩ := sqrt_rnd ha h0
  have hu := unit_pos f
  refine r.ge_of hb ?_
  rcases _root_.le_total 0 b.val with g | g
  · obtain ⟨k, -, ek⟩ := units_of hb g
    rw [ek, e, div_le_div_iff_of_pos_right hu] at h
    have hk : k ≤ N.sqrt := by
      rw [Nat.le_sqrt]
      have : (k : ℝ) ^ 2 ≤ N := by
        rw [Real.le_sqrt (by positivity) (by positivity)] at h; exact h
      rw [sq] at this; exact_mod_cast this
    rw [ek]
    gcongr
    rw [le_div_iff₀ (by norm_num)]
    have : k * 2 ≤ 2 * N.sqrt + (if N.sqrt * N.sqrt = N then 0 else 1) := by omega
    exact_mod_cast this
  · exact g.trans (by positivity)

theorem sqrt_le_of {a b : Fp f} (ha : a.isFin = true) (h0 : 0 < a.val) (hb : b.isFin = true) (h : √a.val ≤ b.val) :
    (Fp.sqrt a).le b = true := by
  obtain ⟨N, -, e, -, r⟩ := sqrt_rnd ha h0
  have hu := unit_pos f
  refine r.le_of hb ?_
  obtain ⟨k, -, ek⟩ := units_of hb ((Real.sqrt_nonneg _).trans h)
  rw [ek, e, div_le_div_iff_of_pos_right hu] at h
  have hN : N ≤ k * k := by
    rw [Real.sqrt_le_left (by positivity), sq] at h; exact_mod_cast h
  have h1 := Nat.sqrt_le N
  have hk : N.sqrt ≤ k := by
    by_contra hc
    have : k + 1 ≤ N.sqrt := by omega
    have := Nat.mul_le_mul this this
    nlinarith
  rw [ek]
  gcongr
  rw [div_le_iff₀ (by norm_num)]
  have : 2 * N.sqrt + (if N.sqrt * N.sqrt = N then 0 else 1) ≤ k * 2 := by
    split_ifs with i
    · omega
    · have : N.sqrt ≠ k := by rintro rfl; omega
      omega
  exact_mod_cast this

/-- An exact root is found exactly. -/
theorem sqrt_exact {a b : Fp f} (ha : a.isFin = true) (h0 : 0 < a.val) (hb : b.isFin = true) (h : √a.val = b.val) :
    (Fp.sqrt a).val = b.val := by
  have h1 := sqrt_ge_of ha h0 hb h.ge
  have h2 := sqrt_le_of ha h0 hb h.le
  have hn := (sqrt_rnd ha h0).choose_spec.2.2.2.not_nan
  rw [le_iff_val (isNaN_of_isFin hb) hn] at h1
  rw [le_iff_val hn (isNaN_of_isFin hb)] at h2
  exact le_antisymm h2 h1

/-- Correct rounding: no float is nearer to the exact root than the computed one. -/
theorem sqrt_nearest (hp : 2 * f.prec + 4 ≤ f.ubit) (ht : f.ubit + 2 ≤ f.top) {a c : Fp f} (ha : a.isFin = true)
    (h0 : 0 < a.val) (hc : c.isFin = true) : |(Fp.sqrt a).val - √a.val| ≤ |c.val - √a.val| := by
  obtain ⟨hf, herr⟩ := sqrt_err (by omega) ht ha h0.le
  obtain ⟨N, hN, e, -, r⟩ := sqrt_rnd ha h0
  have hu := unit_pos f
  have hs0 : 0 ≤ (Fp.sqrt a).val := by
    have := r.ge_of (a := zero false) rfl (by rw [val_zero]; positivity)
    rwa [le_iff_val rfl (isNaN_of_isFin hf), val_zero] at this
  have hr1 : 2 ^ (f.prec + 2) ≤ N.sqrt := by
    rw [Nat.le_sqrt, ← Nat.pow_add]
    exact _root_.le_trans (Nat.pow_le_pow_right (by decide) (by omega)) hN
  obtain ⟨b1, b2⟩ := sqrt_bounds N
  have hb := Real.sqrt_nonneg (N : ℝ)
  obtain ⟨S, gs, es⟩ := units_of hf hs0
  have hS : (S : ℝ) ≤ 3 / 2 * (N.sqrt + 1) ∧ (N.sqrt : ℝ) / 2 ≤ S := by
    have hub : f.u ≤ 1 / 2 := by
      have h2 : (2 : ℝ) ^ 1 ≤ 2 ^ f.prec := pow_le_pow_right₀ (by norm_num) f.prec_pos
      unfold Fmt.u
      rw [div_le_div_iff₀ (by positivity) (by norm_num)]; linarith
    rw [es, e, ← sub_div, abs_div, abs_of_pos hu, div_le_iff₀ hu] at herr
    have e2 : f.u * (√(N : ℝ) / 2 ^ f.ubit) * 2 ^ f.ubit = f.u * √(N : ℝ) := by field_simp
    rw [e2] at herr
    obtain ⟨g1, g2⟩ := _root_.abs_le.1 herr
    constructor <;> nlinarith
  have main : ∀ c : Fp f, c.isFin = true → 0 ≤ c.val → |(Fp.sqrt a).val - √a.val| ≤ |c.val - √a.val| := by
    intro c hc hc0
    obtain ⟨C, gc, ec⟩ := units_of hc hc0
    have near := r.nearest hf hc
    rw [es, ec, ← sub_div, ← sub_div, abs_div, abs_div, div_le_div_iff_of_pos_right (by positivity)] at near
    rw [es, ec, e, ← sub_div, ← sub_div, abs_div, abs_div]
    refine div_le_div_of_nonneg_right ?_ (abs_nonneg _)
    by_cases hx : N.sqrt * N.sqrt = N
    · rw [if_pos hx] at near
      have hs : √(N : ℝ) = N.sqrt := by
        nth_rw 1 [← hx]; push_cast; exact Real.sqrt_mul_self (by positivity)
      rw [hs]
      have e3 : ((2 * N.sqrt + 0 : Nat) : ℝ) / 2 = N.sqrt := by push_cast; ring
      rwa [e3] at near
    · rw [if_neg hx] at near
      have e3 : ((2 * N.sqrt + 1 : Nat) : ℝ) / 2 = N.sqrt + 1 / 2 := by push_cast; ring
      rw [e3] at near
      have near2 : |(2 * S - (2 * N.sqrt + 1) : ℤ)| ≤ |(2 * C - (2 * N.sqrt + 1) : ℤ)| := by
        have h2 : |(2 * S - (2 * N.sqrt + 1) : ℝ)| ≤ |(2 * C - (2 * N.sqrt + 1) : ℝ)| := by
          have i1 : (2 * S - (2 * N.sqrt + 1) : ℝ) = 2 * (S - (N.sqrt + 1 / 2)) := by ring
          have i2 : (2 * C - (2 * N.sqrt + 1) : ℝ) = 2 * (C - (N.sqrt + 1 / 2)) := by ring
          rw [i1, i2, _root_.abs_mul, _root_.abs_mul]
          exact mul_le_mul_of_nonneg_left near (abs_nonneg _)
        exact_mod_cast h2
      generalize N.sqrt = q at *
      have hq : 2 ^ f.prec * 4 ≤ q := by
        rw [Nat.pow_add] at hr1; exact hr1
      have hS' : 2 * S ≤ 3 * (q + 1) := by
        have : (2 : ℝ) * S ≤ 3 * (q + 1) := by linarith [hS.1]
        exact_mod_cast this
      have hS'' : q ≤ 2 * S := by
        have : (q : ℝ) ≤ 2 * S := by linarith [hS.2]
        exact_mod_cast this
      have hpp := Nat.two_pow_pos f.prec
      have evS : 2 ^ f.prec ≤ S → 2 ∣ S := f.grid_even gs
      have evC : 2 ^ f.prec ≤ C → 2 ∣ C := f.grid_even gc
      -- in whole units: either the competitor is on the same side and further, or the midpoint is beyond the root
      have cases4 : (C ≤ S ∧ S ≤ q) ∨ (S ≤ q ∧ 2 * q + 2 ≤ C + S) ∨ (q + 1 ≤ S ∧ S ≤ C) ∨ (q + 1 ≤ S ∧ S + C ≤ 2 * q) := by
        rcases abs_cases (2 * S - (2 * q + 1) : ℤ) with ⟨k1, k2⟩ | ⟨k1, k2⟩ <;>
        rcases abs_cases (2 * C - (2 * q + 1) : ℤ) with ⟨k3, k4⟩ | ⟨k3, k4⟩ <;>
        rw [k1, k3] at near2 <;> omega
      have bq1 := b1
      have bq2 := b2
      generalize √(N : ℝ) = t at *
      rcases cases4 with ⟨i, j⟩ | ⟨i, j⟩ | ⟨i, j⟩ | ⟨i, j⟩
      · have i' : (C : ℝ) ≤ S := by exact_mod_cast i
        have j' : (S : ℝ) ≤ q := by exact_mod_cast j
        rw [abs_of_nonpos (by linarith), abs_of_nonpos (by linarith)]; linarith
      · have i' : (S : ℝ) ≤ q := by exact_mod_cast i
        have j' : (2 : ℝ) * q + 2 ≤ C + S := by exact_mod_cast j
        rw [abs_of_nonpos (by linarith), abs_of_nonneg (by linarith)]; linarith
      · have i' : (q : ℝ) + 1 ≤ S := by exact_mod_cast i
        have j' : (S : ℝ) ≤ C := by exact_mod_cast j
        rw [abs_of_nonneg (by linarith), abs_of_nonneg (by linarith)]; linarith
      · have i' : (q : ℝ) + 1 ≤ S := by exact_mod_cast i
        have j' : (S : ℝ) + C ≤ 2 * q := by exact_mod_cast j
        rw [abs_of_nonneg (by linarith), abs_of_nonpos (by linarith)]; linarith
  rcases _root_.le_total 0 c.val with g | g
  · exact main c hc g
  · refine (main (zero false) rfl (by simp)).trans ?_
    rw [val_zero, zero_sub, _root_.abs_neg, abs_of_nonneg (Real.sqrt_nonneg _), abs_of_nonpos (by linarith [Real.sqrt_nonneg a.val])]
    linarith

/-- different floats that are not negative are apart by `u` of the larger one -/
theorem gap {c d : Fp f} (hc : c.isFin = true) (hd : d.isFin = true) (h0 : 0 ≤ c.val) (h : c.val < d.val) :
    f.u * d.val ≤ d.val - c.val := by
  obtain ⟨m, gm, em⟩ := units_of hc h0
  obtain ⟨n, gn, en⟩ := units_of hd (h0.trans h.le)
  have hu := unit_pos f
  rw [em, en] at h ⊢
  rw [div_lt_div_iff_of_pos_right hu] at h
  have hmn : m < n := by exact_mod_cast h
  have s := f.spacing gm gn hmn
  have s' : (n : ℝ) ≤ (n - m) * 2 ^ f.prec := by
    have : ((n : ℕ) : ℝ) ≤ (((n - m) * 2 ^ f.prec : ℕ) : ℝ) := by exact_mod_cast s
    rwa [Nat.cast_mul, Nat.cast_sub hmn.le, Nat.cast_pow, Nat.cast_ofNat] at this
  rw [← sub_div, ← mul_div_assoc, div_le_div_iff_of_pos_right hu]
  unfold Fmt.u
  rw [div_mul_eq_mul_div, one_mul, div_le_iff₀ (by positivity)]
  exact s'

/-- The root of the rounded square of a float is that float, unless the square overflows or is subnormal. -/
theorem sqrt_sq (hp : 2 * f.prec + 4 ≤ f.ubit) (ht : f.ubit + 2 ≤ f.top) {w : Fp f} (hw : w.isFin = true)
    (hq : (Fp.mul w w).isFin = true) (hn : f.eta * 4 ≤ f.u * w.val ^ 2) :
    (Fp.sqrt (Fp.mul w w)).isFin = true ∧ (Fp.sqrt (Fp.mul w w)).val = |w.val| := by
  have hu0 : 0 < f.u := by unfold Fmt.u; positivity
  have hu1 : f.u ≤ 1 / 2 := by
    have h2 : (2 : ℝ) ^ 1 ≤ 2 ^ f.prec := pow_le_pow_right₀ (by norm_num) f.prec_pos
    unfold Fmt.u
    rw [div_le_div_iff₀ (by positivity) (by norm_num)]; linarith
  have he0 : 0 < f.eta := by unfold Fmt.eta; positivity
  have r := rnd_mul hw hw
  set W := |w.val| with hW
  have hWw : w.val * w.val = W ^ 2 := by rw [hW, sq_abs, sq]
  have hW2 : w.val ^ 2 = W ^ 2 := by rw [hW, sq_abs]
  rw [hW2] at hn
  have hWpos : 0 < W := by
    rcases (abs_nonneg w.val).lt_or_eq with g | g
    · exact g
    · exfalso
      have e : W = 0 := g.symm
      rw [e] at hn
      norm_num at hn; linarith
  have hWsq : 0 < W ^ 2 := by positivity
  rw [hWw] at r
  have hb : (Fp.mul w w).val < W ^ 2 * (1 + f.u) ∧ W ^ 2 ≤ (Fp.mul w w).val * (1 + f.u) := by
    rcases r.err_sharp hq with g | ⟨g1, g2⟩
    · obtain ⟨i, j⟩ := _root_.abs_le.1 g
      constructor
      · nlinarith
      · nlinarith
    · rw [abs_of_pos hWsq] at g1
      have i := (abs_lt.1 g1)
      have j := (_root_.abs_le.1 g2)
      have qp : 0 < (Fp.mul w w).val := by nlinarith
      rw [abs_of_pos qp] at j
      constructor
      · nlinarith
      · nlinarith
  have qpos : 0 < (Fp.mul w w).val := by nlinarith
  have hf := (sqrt_err (by omega) ht hq qpos.le).1
  refine ⟨hf, ?_⟩
  have near := sqrt_nearest hp ht hq qpos (c := Fp.abs w) (by simpa using hw)
  rw [val_abs, ← hW] at near
  have s0 : 0 ≤ (Fp.sqrt (Fp.mul w w)).val := by
    obtain ⟨N, -, -, -, rr⟩ := sqrt_rnd hq qpos
    have := rr.ge_of (a := zero false) rfl (by rw [val_zero]; positivity)
    rwa [le_iff_val rfl (isNaN_of_isFin hf), val_zero] at this
  have tsq : √(Fp.mul w w).val ^ 2 = (Fp.mul w w).val := Real.sq_sqrt qpos.le
  have t0 := Real.sqrt_nonneg (Fp.mul w w).val
  rcases lt_trichotomy (Fp.sqrt (Fp.mul w w)).val W with g | g | g
  · exfalso
    have gp := gap hf (d := Fp.abs w) (by simpa using hw) s0 (by rw [val_abs]; exact g)
    rw [val_abs, ← hW] at gp
    generalize (Fp.sqrt (Fp.mul w w)).val = s at *
    generalize √(Fp.mul w w).val = t at *
    generalize (Fp.mul w w).val = q at *
    have ht1 : t ≤ W * (1 - f.u / 2) := by
      rcases _root_.le_total s t with i | i
      · rcases _root_.le_total t W with j | j
        · rw [abs_of_nonpos (by linarith), abs_of_nonneg (by linarith)] at near; nlinarith
        · rw [abs_of_nonpos (by linarith), abs_of_nonpos (by linarith)] at near; nlinarith
      · nlinarith
    have ht2 : t ^ 2 ≤ (W * (1 - f.u / 2)) ^ 2 := pow_le_pow_left₀ t0 ht1 2
    have hc : q * (1 + f.u) ≤ W ^ 2 * ((1 - f.u / 2) ^ 2 * (1 + f.u)) := by
      rw [← tsq]
      calc t ^ 2 * (1 + f.u) ≤ (W * (1 - f.u / 2)) ^ 2 * (1 + f.u) := by gcongr
        _ = _ := by ring
    have hk : (1 - f.u / 2) ^ 2 * (1 + f.u) < 1 := by nlinarith [mul_pos hu0 hu0]
    nlinarith
  · exact g
  · exfalso
    have gp := gap (c := Fp.abs w) (by simpa using hw) hf (by rw [val_abs]; positivity) (by rw [val_abs]; exact g)
    rw [val_abs, ← hW] at gp
    generalize (Fp.sqrt (Fp.mul w w)).val = s at *
    generalize √(Fp.mul w w).val = t at *
    generalize (Fp.mul w w).val = q at *
    have hs : W * (1 + f.u) ≤ s := by nlinarith
    have ht1 : W * (1 + f.u / 2) ≤ t := by
      rcases _root_.le_total t W with j | j
      · rw [abs_of_nonneg (by linarith), abs_of_nonneg (by linarith)] at near; linarith
      · rcases _root_.le_total s t with i | i
        · nlinarith
        · rw [abs_of_nonneg (by linarith), abs_of_nonpos (by linarith)] at near; nlinarith
    have ht2 : (W * (1 + f.u / 2)) ^ 2 ≤ t ^ 2 := pow_le_pow_left₀ (by positivity) ht1 2
    have : (W * (1 + f.u / 2)) ^ 2 = W ^ 2 * (1 + f.u) + W ^ 2 * (f.u ^ 2 / 4) := by ring
    have : 0 < W ^ 2 * (f.u ^ 2 / 4) := by positivity
    linarith
end Fp
end Graphene
