/-
  C126: the vector backends, instruction by instruction, compute the documented lane
  operations.  This file: the bit-level facts.
-/
import Verif.Model.Intrinsics
import Verif.Proofs.FpLemmas
import Verif.Proofs.KDecide

set_option exponentiation.threshold 3000

namespace Graphene
open Bits Ins

/-! ### words and values -/

theorem expo_nat (b : Word) : expo b = b.toNat / 8388608 % 256 := by
  rw [expo, BitVec.extractLsb'_toNat, Nat.shiftRight_eq_div_pow]
theorem mant_nat (b : Word) : mant b = b.toNat % 8388608 := by
  rw [mant, BitVec.extractLsb'_toNat, Nat.shiftRight_zero]
theorem msb_nat (b : Word) : b.msb = decide (2147483648 ≤ b.toNat) := by
  rw [BitVec.msb_eq_decide]

theorem ofNat_fields (S E M : Nat) (hE : E < 256) (hM : M < 8388608) :
    expo (BitVec.ofNat 32 (S * 2147483648 + E * 8388608 + M)) = E ∧
    mant (BitVec.ofNat 32 (S * 2147483648 + E * 8388608 + M)) = M := by
  rw [expo_nat, mant_nat, BitVec.toNat_ofNat]
  generalize hn : S * 2147483648 + E * 8388608 + M = n
  have e32 : 2 ^ 32 = 4294967296 := by norm_num
  rw [e32]
  constructor <;> omega

theorem ofNat_msb (s : Bool) (E M : Nat) (hE : E < 256) (hM : M < 8388608) :
    (BitVec.ofNat 32 (s.toNat * 2147483648 + E * 8388608 + M)).msb = s := by
  rw [msb_nat, BitVec.toNat_ofNat]
  have e32 : 2 ^ 32 = 4294967296 := by norm_num
  rw [e32]
  cases s
  · rw [Bool.toNat_false, decide_eq_false_iff_not]; omega
  · rw [Bool.toNat_true, decide_eq_true_eq]; omega

theorem fin_congr {s : Bool} {m n : Nat} (h : binary32.Rep m) (k : binary32.Rep n) (e : m = n) :
    (Fp.fin s m h : F32) = .fin s n k := by subst e; rfl

/-- every datum has a word: `decode` is onto -/
theorem decode_encode (x : F32) : decode (encode x) = x := by
  cases x with
  | nan => decide +kernel
  | inf s => cases s <;> decide +kernel
  | fin s m h =>
    have h1 : m < 2 ^ 277 := h.1
    have h2 := h.2
    have hm : m < 2 ^ (m.log2 + 1) := Nat.lt_log2_self
    set e := binary32.ulpExp m with he
    have hed : e = m.log2 + 1 - 24 := rfl
    obtain ⟨k, hk⟩ := h2
    have hp : 0 < 2 ^ e := Nat.two_pow_pos e
    have hdiv : m / 2 ^ e = k := by rw [hk]; exact Nat.mul_div_cancel_left _ hp
    have hk24 : k < 2 ^ 24 := by
      have : m < 2 ^ 24 * 2 ^ e := by
        rw [← Nat.pow_add]; exact lt_of_lt_of_le hm (Nat.pow_le_pow_right (by decide) (by omega))
      rw [hk, Nat.mul_comm] at this
      exact Nat.lt_of_mul_lt_mul_right this
    have he253 : e ≤ 253 := by
      rcases Nat.eq_zero_or_pos m with h0 | h0
      · subst h0; simp [hed]
      · have : m.log2 < 277 := (Nat.log2_lt (by omega)).2 h1
        omega
    have hk23 : 0 < e → 2 ^ 23 ≤ k := by
      intro h0
      have hm0 : m ≠ 0 := by rintro rfl; simp [hed] at h0
      have h3 : 2 ^ m.log2 ≤ m := Nat.log2_self_le hm0
      have h4 : 2 ^ 23 * 2 ^ e ≤ 2 ^ e * k := by
        rw [← Nat.pow_add, ← hk]
        exact le_trans (Nat.pow_le_pow_right (by decide) (by omega)) h3
      rw [Nat.mul_comm] at h4
      exact Nat.le_of_mul_le_mul_left h4 hp
    have p23 : 2 ^ 23 = 8388608 := by norm_num
    have p24 : 2 ^ 24 = 16777216 := by norm_num
    have p31 : 2 ^ 31 = 2147483648 := by norm_num
    rw [p23] at hk23
    rw [p24] at hk24
    have hword : encode (.fin s m h) =
        BitVec.ofNat 32 (s.toNat * 2147483648 + (e + k / 8388608) * 8388608 + k % 8388608) := by
      rw [encode, ← he, hdiv, p23, p31]
      congr 1
      have : k / 8388608 * 8388608 + k % 8388608 = k := Nat.div_add_mod' _ _
      cases s
      · rw [Bool.toNat_false, if_neg (by decide)]; omega
      · rw [Bool.toNat_true, if_pos rfl]; omega
    have hE : e + k / 8388608 < 255 := by omega
    have hM : k % 8388608 < 8388608 := Nat.mod_lt _ (by decide)
    obtain ⟨f1, f2⟩ := ofNat_fields s.toNat (e + k / 8388608) (k % 8388608) (by omega) hM
    have f3 := ofNat_msb s (e + k / 8388608) (k % 8388608) (by omega) hM
    rw [← hword] at f1 f2 f3
    generalize encode (.fin s m h) = b at f1 f2 f3
    unfold decode
    rw [dif_neg (by omega)]
    by_cases hz : expo b = 0
    · rw [dif_pos hz, f3]
      refine fin_congr _ _ ?_
      have e0 : e = 0 := by omega
      rw [f2, hk, e0, Nat.pow_zero, Nat.mul_one, Nat.one_mul]
      omega
    · rw [dif_neg hz, f3]
      refine fin_congr _ _ ?_
      have hk' : 8388608 ≤ k := by
        by_contra hc
        have : k / 8388608 = 0 := by omega
        have : 0 < e := by omega
        exact hc (hk23 this)
      have a1 : e + k / 8388608 - 1 = e := by omega
      have a2 : 8388608 + k % 8388608 = k := by omega
      rw [f1, f2, hk, Nat.mul_comm, p23, a1, a2]

/-- sign manipulation leaves the other fields alone -/
theorem decode_of_fields {a b : Word} {s : Bool} (he : expo a = expo b) (hm : mant a = mant b) (hs : a.msb = s) :
    decode a = match decode b with
      | .nan => .nan
      | .inf _ => .inf s
      | .fin _ m h => .fin s m h := by
  unfold decode
  by_cases h1 : expo b = 255
  · rw [dif_pos h1, dif_pos (he.trans h1), hm, hs]
    by_cases h2 : mant b = 0 <;> simp [h2]
  · rw [dif_neg h1, dif_neg (by rwa [he])]
    by_cases h2 : expo b = 0
    · rw [dif_pos h2, dif_pos (he.trans h2)]
      subst hs; simp only
      exact fin_congr _ _ (by rw [hm])
    · rw [dif_neg h2, dif_neg (by rwa [he])]
      subst hs; simp only
      exact fin_congr _ _ (by rw [he, hm])

theorem ones8 : ∀ i, i < 8 → (255#8).getLsbD i = true := by decide
theorem ones23 : ∀ i, i < 23 → (8388607#23).getLsbD i = true := by decide

theorem expo_sign (a : Word) : expo (a ^^^ 0x80000000#32) = expo a ∧ expo (a &&& 0x7fffffff#32) = expo a ∧
    mant (a ^^^ 0x80000000#32) = mant a ∧ mant (a &&& 0x7fffffff#32) = mant a := by
  simp only [expo, mant, BitVec.extractLsb'_xor, BitVec.extractLsb'_and]
  refine ⟨?_, ?_, ?_, ?_⟩ <;> congr 1 <;> ext i hi <;> simp
  · intro _; exact ones8 i hi
  · intro _; exact ones23 i hi

theorem decode_msb {a : Word} (h : (decode a).isNaN = false) : (decode a).signbit = a.msb := by
  unfold decode at h ⊢
  by_cases h1 : expo a = 255
  · rw [dif_pos h1] at h ⊢
    by_cases h2 : mant a = 0
    · rw [if_pos h2]; rfl
    · rw [if_neg h2] at h; simp [Fp.isNaN] at h
  · rw [dif_neg h1]
    by_cases h2 : expo a = 0
    · rw [dif_pos h2]; rfl
    · rw [dif_neg h2]; rfl

/-- flipping bit 31 negates -/
theorem decode_neg (a : Word) : decode (a ^^^ 0x80000000#32) = Fp.neg (decode a) := by
  have h := expo_sign a
  have hs : (a ^^^ 0x80000000#32).msb = !a.msb := by
    rw [BitVec.msb_xor, show (0x80000000#32).msb = true by decide, Bool.xor_true]
  have hn := @decode_msb a
  rw [decode_of_fields h.1 h.2.2.1 hs]
  cases e : decode a <;> rw [e] at hn <;> simp_all [Fp.neg, Fp.isNaN, Fp.signbit]

/-- clearing bit 31 takes the absolute value -/
theorem decode_fabs (a : Word) : decode (cfabs a) = Fp.abs (decode a) := by
  have h := expo_sign a
  have hs : (a &&& 0x7fffffff#32).msb = false := by
    rw [BitVec.msb_and, show (0x7fffffff#32).msb = false by decide, Bool.and_false]
  unfold cfabs
  rw [decode_of_fields h.2.1 h.2.2.2 hs]
  cases decode a <;> rfl

/-- `+0` is the all-zeros word, and only that -/
theorem decode_eq_zero (a : Word) : decode a = Fp.zero false ↔ a = 0 := by
  constructor
  · intro h
    have hs : a.msb = false := by rw [← decode_msb (by rw [h]; rfl), h]; rfl
    have hm : mant a = 0 ∧ expo a = 0 := by
      unfold decode at h
      by_cases h1 : expo a = 255
      · rw [dif_pos h1] at h
        by_cases h2 : mant a = 0 <;> simp [h2, Fp.zero] at h
      · rw [dif_neg h1] at h
        by_cases h2 : expo a = 0
        · rw [dif_pos h2] at h
          simp only [Fp.zero, Fp.fin.injEq] at h
          exact ⟨by simpa using h.2, h2⟩
        · rw [dif_neg h2] at h
          simp only [Fp.zero, Fp.fin.injEq] at h
          have := Nat.mul_eq_zero.1 h.2
          have h3 : 2 ^ (expo a - 1) ≠ 0 := (Nat.two_pow_pos _).ne'
          omega
    rw [expo_nat, mant_nat] at hm
    rw [msb_nat, decide_eq_false_iff_not] at hs
    apply BitVec.eq_of_toNat_eq
    simp only [BitVec.ofNat_eq_ofNat, BitVec.toNat_ofNat]
    omega
  · rintro rfl; decide +kernel

theorem decode_w0 : decode w0 = Fp.zero false := (decode_eq_zero _).2 rfl

/-- the hardware described by `Alu` exists: round every result with `encode` -/
@[reducible] def Alu.ieee [Libm binary32] : Alu where
  add a b := encode (Fp.add (decode a) (decode b))
  sub a b := encode (Fp.sub (decode a) (decode b))
  mul a b := encode (Fp.mul (decode a) (decode b))
  div a b := encode (Fp.div (decode a) (decode b))
  fma a b c := encode (Fp.fma (decode a) (decode b) (decode c))
  sqrt a := encode (Fp.sqrt (decode a))
  ceil a := encode (Fp.ceil (decode a))
  floor a := encode (Fp.floor (decode a))
  rcpe a := encode (Libm.rcpEst (decode a))
  rsqrte a := encode (Libm.rsqrtEst (decode a))
  add_val _ _ := decode_encode _
  sub_val _ _ := decode_encode _
  mul_val _ _ := decode_encode _
  div_val _ _ := decode_encode _
  fma_val _ _ _ := decode_encode _
  sqrt_val _ := decode_encode _
  ceil_val _ := decode_encode _
  floor_val _ := decode_encode _
  rcpe_val _ := decode_encode _
  rsqrte_val _ := decode_encode _

end Graphene
