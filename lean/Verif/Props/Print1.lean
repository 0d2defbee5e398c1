/-
  C141: what graphene_matrix_print writes.
-/
import Verif.Model.Print
import Verif.Spec.Mat
import Verif.Proofs.Round2
import Verif.Proofs.KDecide
import Mathlib.Tactic.IntervalCases

namespace Graphene
open Fp Spec
variable [Libm binary32]

/-! ## Specification: how a person reads the text -/

/-- the value of a decimal digit -/
def Spec.digitValue (c : Char) : Option Nat := if 48 ≤ c.toNat ∧ c.toNat ≤ 57 then some (c.toNat - 48) else none

/-- the value of a decimal numeral, read from the left; nothing else than digits may occur -/
def Spec.numeral (cs : List Char) : Option Nat := cs.foldlM (fun a c => (digitValue c).map (10 * a + ·)) 0

/-- the value of a signed decimal number with a fractional part -/
noncomputable def Spec.readDecimal : List Char → Option ℝ
  | [] => none
  | s :: cs =>
    let before := cs.takeWhile (· ≠ '.')
    let after := (cs.dropWhile (· ≠ '.')).drop 1
    match numeral before, numeral after with
    | some i, some f =>
      let v : ℝ := i + f / 10 ^ after.length
      if s = '+' then some v else if s = '-' then some (-v) else none
    | _, _ => none

/-- the lines of a text -/
def Spec.textLines (cs : List Char) : List (List Char) := cs.splitOnP (· == '\n')

/-- the words of a line -/
def Spec.textWords (cs : List Char) : List (List Char) := (cs.splitOnP (· == ' ')).filter (· ≠ [])

/-! ## Digits -/

omit [Libm binary32] in
theorem digit_value (n : Nat) : digitValue (digitChar n) = some (n % 10) := by
  have : ∀ k : Fin 10, digitValue (Char.ofNat (48 + k)) = some k.val := by decide
  exact this ⟨n % 10, Nat.mod_lt _ (by decide)⟩

omit [Libm binary32] in
theorem digit_plain (n : Nat) : digitChar n ≠ '.' ∧ digitChar n ≠ ' ' ∧ digitChar n ≠ '\n' := by
  have : ∀ k : Fin 10, Char.ofNat (48 + k) ≠ '.' ∧ Char.ofNat (48 + k) ≠ ' ' ∧ Char.ofNat (48 + k) ≠ '\n' := by decide
  exact this ⟨n % 10, Nat.mod_lt _ (by decide)⟩

omit [Libm binary32] in
theorem numeral_snoc {cs : List Char} {a : Nat} (h : numeral cs = some a) (n : Nat) :
    numeral (cs ++ [digitChar n]) = some (10 * a + n % 10) := by
  unfold numeral at *
  rw [List.foldlM_append, h]
  simp [digit_value]

omit [Libm binary32] in
theorem numeral_decimal (n : Nat) : numeral (decimal n) = some n := by
  induction n using Nat.strong_induction_on with
  | _ n ih =>
    rw [decimal]
    split
    · rename_i h
      have := numeral_snoc (cs := []) (a := 0) rfl n
      simpa [Nat.mod_eq_of_lt h] using this
    · rename_i h
      rw [numeral_snoc (ih _ (by omega))]
      congr 1; omega

omit [Libm binary32] in
theorem numeral_last (k n : Nat) : numeral (lastDigits k n) = some (n % 10 ^ k) := by
  induction k generalizing n with
  | zero => simp [lastDigits, numeral, Nat.mod_one]
  | succ k ih =>
    rw [lastDigits, numeral_snoc (ih _)]
    congr 1
    rw [pow_succ', Nat.mod_mul]
    omega

omit [Libm binary32] in
theorem last_length (k n : Nat) : (lastDigits k n).length = k := by
  induction k generalizing n with
  | zero => rfl
  | succ k ih => simp [lastDigits, ih]

omit [Libm binary32] in
theorem decimal_plain (n : Nat) : ∀ c ∈ decimal n, c ≠ '.' ∧ c ≠ ' ' ∧ c ≠ '\n' := by
  induction n using Nat.strong_induction_on with
  | _ n ih =>
    rw [decimal]
    split
    · intro c hc
      rw [List.mem_singleton.1 hc]; exact digit_plain n
    · rename_i h
      intro c hc
      rcases List.mem_append.1 hc with hc | hc
      · exact ih _ (by omega) c hc
      · rw [List.mem_singleton.1 hc]; exact digit_plain n

omit [Libm binary32] in
theorem last_plain (k n : Nat) : ∀ c ∈ lastDigits k n, c ≠ '.' ∧ c ≠ ' ' ∧ c ≠ '\n' := by
  induction k generalizing n with
  | zero => simp [lastDigits]
  | succ k ih =>
    intro c hc
    rcases List.mem_append.1 hc with hc | hc
    · exact ih _ c hc
    · rw [List.mem_singleton.1 hc]; exact digit_plain n

omit [Libm binary32] in
theorem nearest_half (a b : Nat) (hb : 0 < b) : |(nearestNat a b : ℝ) - a / b| ≤ 1 / 2 := by
  have e := Nat.div_add_mod a b
  have lt := Nat.mod_lt a hb
  have hr : (0 : ℝ) < b := by exact_mod_cast hb
  have e' : (a : ℝ) = b * (a / b : ℕ) + (a % b : ℕ) := by exact_mod_cast e.symm
  have d : (a : ℝ) / b = (a / b : ℕ) + (a % b : ℕ) / (b : ℝ) := by
    rw [e']; field_simp
  have key : ∀ {x y : ℝ}, 2 * x ≤ y → 0 < y → x / y ≤ 1 / 2 := by
    intro x y h1 h2
    rw [div_le_iff₀ h2]; linarith
  have ltr : ((a % b : ℕ) : ℝ) < b := by exact_mod_cast lt
  have nn : (0 : ℝ) ≤ (a % b : ℕ) / (b : ℝ) := by positivity
  have r1 : ((a % b : ℕ) : ℝ) / b ≤ 1 := by rw [div_le_one hr]; exact ltr.le
  unfold nearestNat
  simp only
  rw [d, _root_.abs_le]
  split
  · rename_i h
    have h' : 2 * ((a % b : ℕ) : ℝ) < b := by exact_mod_cast h
    have := key h'.le hr
    constructor <;> linarith
  · rename_i h0
    have h0' : (b : ℝ) ≤ 2 * (a % b : ℕ) := by exact_mod_cast not_lt.1 h0
    have g : 1 / 2 ≤ ((a % b : ℕ) : ℝ) / b := by rw [le_div_iff₀ hr]; linarith
    split
    · push_cast
      constructor <;> linarith
    · rename_i h1
      have h1' : 2 * ((a % b : ℕ) : ℝ) ≤ b := by exact_mod_cast not_lt.1 h1
      have := key h1' hr
      rcases Nat.mod_two_eq_zero_or_one (a / b) with m | m <;> rw [m] <;> push_cast <;> constructor <;> linarith

/-! ## One number -/

omit [Libm binary32] in
/-- C141: the text of a finite number has a sign, digits, a point and six digits; read back it is within half a unit of the sixth
decimal of the number. -/
theorem C141_number (x : F32) (hx : x.isFin = true) : ∃ v : ℝ, readDecimal (plusFixed6 x) = some v ∧
    |v - x.val| ≤ 1 / 2 / 10 ^ 6 ∧ ((plusFixed6 x).dropWhile (· ≠ '.')).length = 7 := by
  cases x with
  | nan => simp [isFin] at hx
  | inf s => simp [isFin] at hx
  | fin s m h =>
    obtain ⟨n, hn⟩ : ∃ n, n = nearestNat (m * 10 ^ 6) (2 ^ 149) := ⟨_, rfl⟩
    have near := nearest_half (m * 10 ^ 6) (2 ^ 149) (by positivity)
    rw [← hn] at near
    have tw : ∀ r, (decimal (n / 10 ^ 6) ++ '.' :: r).takeWhile (· ≠ '.') = decimal (n / 10 ^ 6) := by
      intro r
      rw [List.takeWhile_append_of_pos (fun c hc => by simpa using (decimal_plain _ c hc).1)]
      simp
    have dw : ∀ r, (decimal (n / 10 ^ 6) ++ '.' :: r).dropWhile (· ≠ '.') = '.' :: r := by
      intro r
      rw [List.dropWhile_append_of_pos (fun c hc => by simpa using (decimal_plain _ c hc).1)]
      simp
    have e : plusFixed6 (.fin s m h) = (if s then '-' else '+') :: (decimal (n / 10 ^ 6) ++ '.' :: lastDigits 6 n) := by
      rw [hn]; rfl
    have val : ((n / 10 ^ 6 : ℕ) : ℝ) + ((n % 10 ^ 6 : ℕ) : ℝ) / 10 ^ 6 = n / 10 ^ 6 := by
      have : (n : ℝ) = 10 ^ 6 * (n / 10 ^ 6 : ℕ) + (n % 10 ^ 6 : ℕ) := by exact_mod_cast (Nat.div_add_mod n (10 ^ 6)).symm
      rw [this]; field_simp
    have ml : (m : ℝ) / 2 ^ 149 * 10 ^ 6 = ((m * 10 ^ 6 : ℕ) : ℝ) / ((2 ^ 149 : ℕ) : ℝ) := by
      push_cast; ring
    have fin : |(n : ℝ) / 10 ^ 6 - m / 2 ^ 149| ≤ 1 / 2 / 10 ^ 6 := by
      rw [show (n : ℝ) / 10 ^ 6 - m / 2 ^ 149 = ((n : ℝ) - m / 2 ^ 149 * 10 ^ 6) / 10 ^ 6 by ring, abs_div,
        abs_of_pos (by norm_num : (0 : ℝ) < 10 ^ 6), ml]
      gcongr
    have rd : readDecimal (plusFixed6 (.fin s m h)) = some (if s then -((n : ℝ) / 10 ^ 6) else (n : ℝ) / 10 ^ 6) := by
      rw [e, readDecimal]
      simp only [tw, dw, List.drop_succ_cons, List.drop_zero, numeral_decimal, numeral_last, last_length, val]
      cases s <;> simp
    have vv : (Fp.fin s m h : F32).val = if s then -((m : ℝ) / 2 ^ 149) else (m : ℝ) / 2 ^ 149 := by
      rw [val_fin, sgn]
      cases s <;> simp <;> try ring
    refine ⟨_, rd, ?_, ?_⟩
    · rw [vv]
      cases s
      · exact fin
      · simp only [if_true]
        rw [neg_sub_neg, _root_.abs_sub_comm]; exact fin
    · rw [e, List.dropWhile_cons_of_pos (by cases s <;> decide), dw, List.length_cons, last_length]

/-! ## The matrix -/

omit [Libm binary32] in
/-- the text of a number is one word -/
theorem number_plain (x : F32) : plusFixed6 x ≠ [] ∧ ∀ c ∈ plusFixed6 x, c ≠ ' ' ∧ c ≠ '\n' := by
  cases x with
  | nan => decide
  | inf s => cases s <;> decide
  | fin s m h =>
    refine ⟨by simp [plusFixed6], ?_⟩
    intro c hc
    simp only [plusFixed6, List.cons_append, List.mem_cons, List.mem_append] at hc
    rcases hc with rfl | hc | rfl | hc
    · cases s <;> decide
    · exact (decimal_plain _ c hc).2
    · decide
    · exact (last_plain _ _ c hc).2

/-- C141: the output is four lines; line `i` has a bar, the texts of the four entries of row `i` in order, and a bar; the text of
a finite entry reads back as a number within half a unit of the sixth decimal. -/
theorem C141_layout (m : M4 F32) : ∃ r : Fin 4 → List Char, textLines (GMatrix.print m) = [r 0, r 1, r 2, r 3, []] ∧
    ∀ i, ∃ t : Fin 4 → List Char, textWords (r i) = [['|'], t 0, t 1, t 2, t 3, ['|']] ∧
      ∀ j, (mat m i j).isFin = true → ∃ v : ℝ, readDecimal (t j) = some v ∧ |v - (mat m i j).val| ≤ 1 / 2 / 10 ^ 6 := by
  obtain ⟨row, hrow⟩ : ∃ row : Nat → List Char, ∀ i, row i = ['|'] ++ ' ' :: (plusFixed6 (GMatrix.getValue m i 0) ++ ' ' ::
      (plusFixed6 (GMatrix.getValue m i 1) ++ ' ' :: (plusFixed6 (GMatrix.getValue m i 2) ++ ' ' ::
        (plusFixed6 (GMatrix.getValue m i 3) ++ ' ' :: ['|'])))) := ⟨_, fun _ => rfl⟩
  have pr : ∀ i, GMatrix.printRow m i = row i ++ ['\n'] := by
    intro i; rw [hrow]; simp [GMatrix.printRow]
  have plain : ∀ i, ∀ c ∈ row i, (c == '\n') = false := by
    intro i c hc
    rw [hrow] at hc
    simp only [List.mem_append, List.mem_cons, List.not_mem_nil, or_false] at hc
    rcases hc with rfl | rfl | hc | rfl | hc | rfl | hc | rfl | hc | rfl | rfl <;> first | decide | simpa using ((number_plain _).2 c hc).2
  refine ⟨fun i => row i, ?_, ?_⟩
  · have e : GMatrix.print m = row 0 ++ '\n' :: (row 1 ++ '\n' :: (row 2 ++ '\n' :: (row 3 ++ '\n' :: []))) := by
      simp [GMatrix.print, List.range, List.range.loop, pr]
    have st : ∀ i (rest : List Char), (row i ++ '\n' :: rest).splitOnP (· == '\n') = row i :: rest.splitOnP (· == '\n') :=
      fun i rest => List.splitOnP_append_cons_of_forall_mem (plain i) _ (by decide) rest
    unfold textLines
    rw [e, st, st, st, st]
    rfl
  · intro i
    refine ⟨fun j => plusFixed6 (GMatrix.getValue m i j), ?_, ?_⟩
    · have st : ∀ (x : F32) (rest : List Char), (plusFixed6 x ++ ' ' :: rest).splitOnP (· == ' ') = plusFixed6 x :: rest.splitOnP (· == ' ') :=
        fun x rest => List.splitOnP_append_cons_of_forall_mem (fun c hc => by simpa using ((number_plain x).2 c hc).1) _ (by decide) rest
      have s0 : ∀ (rest : List Char), (['|'] ++ ' ' :: rest).splitOnP (· == ' ') = ['|'] :: rest.splitOnP (· == ' ') :=
        fun rest => List.splitOnP_append_cons_of_forall_mem (by decide) _ (by decide) rest
      have s1 : (['|'] : List Char).splitOnP (· == ' ') = [['|']] := List.splitOnP_eq_singleton (by decide)
      unfold textWords
      simp only [hrow]
      rw [s0, st, st, st, st, s1]
      simp [(number_plain _).1]
    · intro j hj
      have e : GMatrix.getValue m i j = mat m i j := by
        fin_cases i <;> fin_cases j <;> rfl
      obtain ⟨v, h1, h2, -⟩ := C141_number (mat m i j) hj
      exact ⟨v, by show readDecimal (plusFixed6 (GMatrix.getValue m i j)) = some v; rw [e]; exact h1, h2⟩

/-- C141: matrices with the same output agree to within a unit of the sixth decimal. -/
theorem C141_same_output (m n : M4 F32) (h : GMatrix.print m = GMatrix.print n) (i j : Fin 4)
    (hm : (mat m i j).isFin = true) (hn : (mat n i j).isFin = true) : |(mat m i j).val - (mat n i j).val| ≤ 1 / 10 ^ 6 := by
  obtain ⟨r, h1, h2⟩ := C141_layout m
  obtain ⟨q, g1, g2⟩ := C141_layout n
  rw [h, g1] at h1
  have e : q = r := by
    funext k
    injection h1 with a1 h1
    injection h1 with a2 h1
    injection h1 with a3 h1
    injection h1 with a4 h1
    fin_cases k <;> assumption
  obtain ⟨t, t1, t2⟩ := h2 i
  obtain ⟨u, u1, u2⟩ := g2 i
  rw [e, t1] at u1
  have e' : t = u := by
    funext k
    injection u1 with a0 u1
    injection u1 with a1 u1
    injection u1 with a2 u1
    injection u1 with a3 u1
    injection u1 with a4 u1
    fin_cases k <;> assumption
  obtain ⟨v, v1, v2⟩ := t2 j hm
  obtain ⟨w, w1, w2⟩ := u2 j hn
  rw [e', w1] at v1
  obtain rfl : w = v := by injection v1
  have := abs_sub_le (mat m i j).val w (mat n i j).val
  rw [_root_.abs_sub_comm (mat m i j).val w] at this
  norm_num at v2 w2 this ⊢
  linarith

omit [Libm binary32] in
/-- C141: infinite entries and not-a-numbers are recognisable and never read as numbers. -/
theorem C141_special (x : F32) (hx : x.isFin = false) : readDecimal (plusFixed6 x) = none ∧
    ((plusFixed6 x).drop 1 = ['n', 'a', 'n'] ↔ x.isNaN = true) := by
  cases x with
  | nan => exact ⟨rfl, by simp [plusFixed6, isNaN]⟩
  | inf s => exact ⟨by cases s <;> rfl, by simp [plusFixed6, isNaN]⟩
  | fin s m h => simp [isFin] at hx

/-- a tie in the seventh decimal, a negative number, a large one and the largest -/
example : plusFixed6 (Fp.lit 1 128) = "+0.007812".toList ∧ plusFixed6 (Fp.lit (-5) 3) = "-1.666667".toList ∧
    plusFixed6 (Fp.lit 16777217 1) = "+16777216.000000".toList ∧ plusFixed6 (Fp.zero true : F32) = "-0.000000".toList := by
  decide +kernel

example : GMatrix.print (GMatrix.initTranslate (⟨Fp.lit 7 1, Fp.lit (-1) 3, Fp.lit 1 2⟩ : Point3D F32)) =
    ("| +1.000000 +0.000000 +0.000000 +0.000000 |\n| +0.000000 +1.000000 +0.000000 +0.000000 |\n" ++
      "| +0.000000 +0.000000 +1.000000 +0.000000 |\n| +7.000000 -0.333333 +0.500000 +1.000000 |\n").toList := by
  kdecide

end Graphene
