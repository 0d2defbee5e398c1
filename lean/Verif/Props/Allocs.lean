/-
  C82: aligned allocation.
-/
import Verif.Model.Alloc
import Mathlib.Data.List.Basic

namespace Graphene.Alloc

namespace Spec

/-- a system allocator that never returns less than it was asked for -/
def Honest (sys : Sys) : Prop := ∀ a n b, sys a n = some b → n ≤ b.length

/-- the arguments are values of a `size_t` of `W` bits and the alignment is not zero -/
def Fits (c : Cfg) (size number alignment : Nat) : Prop :=
  size < 2 ^ c.W ∧ number < 2 ^ c.W ∧ alignment < 2 ^ c.W ∧ 0 < alignment

/-- rounding up to the alignment cannot exceed the largest `size_t` (only the `aligned_alloc` build rounds) -/
def Roomy (c : Cfg) (size number alignment : Nat) : Prop :=
  c.path = .alignedAlloc → size * number ≤ 2 ^ c.W - alignment

end Spec
open Spec

theorem overflow_iff (c : Cfg) (size number : Nat) (h0 : 0 < size) :
    number > (2 ^ c.W - 1) / size ↔ 2 ^ c.W ≤ size * number := by
  have hp : 0 < 2 ^ c.W := Nat.two_pow_pos _
  rw [gt_iff_lt, Nat.div_lt_iff_lt_mul h0, Nat.mul_comm]
  omega

/-- C82: an empty request returns `NULL`, an overflowing one aborts (or returns `NULL` when assertions are disabled); in both
cases whatever the system allocator would answer. -/
theorem C82_rejected (c : Cfg) (sys : Sys) (size number alignment : Nat) :
    (size = 0 ∨ number = 0 → alignedAlloc c sys size number alignment = .null ∧ alignedAlloc0 c sys size number alignment = .null) ∧
    (2 ^ c.W ≤ size * number →
      alignedAlloc c sys size number alignment = (if c.asserts then .abort else .null) ∧
      alignedAlloc0 c sys size number alignment = (if c.asserts then .abort else .null)) := by
  constructor
  · intro h
    have : alignedAlloc c sys size number alignment = .null := by
      simp only [alignedAlloc, if_pos h]
    exact ⟨this, by rw [alignedAlloc0, this]⟩
  · intro h
    have hp : 0 < 2 ^ c.W := Nat.two_pow_pos _
    have hs : 0 < size := by rcases Nat.eq_zero_or_pos size with h0 | h0; · rw [h0] at h; omega
                             · exact h0
    have hn : 0 < number := by rcases Nat.eq_zero_or_pos number with h0 | h0; · rw [h0] at h; omega
                               · exact h0
    have : alignedAlloc c sys size number alignment = (if c.asserts then .abort else .null) := by
      simp only [alignedAlloc]
      rw [if_neg (by omega), if_pos ⟨hs, (overflow_iff c size number hs).2 h⟩]
    exact ⟨this, by rw [alignedAlloc0, this]; cases c.asserts <;> rfl⟩

/-- the request made to the system covers the product and, where the build needs it, is a multiple of the alignment -/
theorem realSize_spec {c : Cfg} {size number alignment : Nat} (hf : Fits c size number alignment) (hr : Roomy c size number alignment)
    (hl : size * number < 2 ^ c.W) :
    size * number ≤ realSize c size number alignment ∧ realSize c size number alignment < size * number + alignment ∧
    (c.path = .alignedAlloc → alignment ∣ realSize c size number alignment) ∧
    (c.path ≠ .alignedAlloc → realSize c size number alignment = size * number) := by
  obtain ⟨-, -, h3, h4⟩ := hf
  have hm : size * number % 2 ^ c.W = size * number := Nat.mod_eq_of_lt hl
  rcases hp : c.path with _ | _ | _ | _
  case alignedAlloc =>
    have hr := hr hp
    simp only [realSize, hp, hm]
    set n := size * number
    have hlt := Nat.mod_lt n h4
    split
    · rename_i h
      have hw : 2 ^ c.W ≥ alignment := Nat.le_of_lt h3
      rcases Nat.lt_or_ge (n + (alignment - n % alignment)) (2 ^ c.W) with h6 | h6
      · rw [Nat.mod_eq_of_lt h6]
        refine ⟨by omega, by omega, fun _ => ?_, by simp⟩
        have := Nat.div_add_mod n alignment
        refine ⟨n / alignment + 1, ?_⟩
        rw [Nat.mul_add, Nat.mul_one]; omega
      · exfalso; omega
    · rename_i h
      refine ⟨Nat.le_refl _, by omega, fun _ => Nat.dvd_of_mod_eq_zero (by omega), by simp⟩
  all_goals
    simp only [realSize, hp, hm]
    refine ⟨Nat.le_refl _, by omega, by simp, by simp⟩

/-- C82: with a system allocator that returns at least what it is asked for, and when rounding the size up to the alignment
cannot exceed the largest `size_t`, `graphene_aligned_alloc` returns `NULL`, aborts, or returns a block of at least
`size * number` bytes; the system allocator's block is passed through unchanged.  Missing: `C82_rounding_false`. -/
theorem C82_size_partial (c : Cfg) (sys : Sys) (size number alignment : Nat) (hs : Honest sys) (hf : Fits c size number alignment)
    (hr : Roomy c size number alignment) :
    alignedAlloc c sys size number alignment = .null ∨ alignedAlloc c sys size number alignment = .abort ∨
    ∃ b n, alignedAlloc c sys size number alignment = .block b ∧ sys alignment n = some b ∧ size * number ≤ b.length := by
  rcases Nat.lt_or_ge (size * number) (2 ^ c.W) with hl | hl
  · by_cases h0 : size = 0 ∨ number = 0
    · exact Or.inl ((C82_rejected c sys size number alignment).1 h0).1
    · have hs0 : 0 < size := by omega
      have hno : ¬ (size > 0 ∧ number > (2 ^ c.W - 1) / size) := by
        rintro ⟨-, h⟩; have := (overflow_iff c size number hs0).1 h; omega
      have e : alignedAlloc c sys size number alignment =
          match sys alignment (realSize c size number alignment) with
          | some b => .block b
          | none => if c.asserts then .abort else .null := by
        simp only [alignedAlloc]; rw [if_neg h0, if_neg hno]; rfl
      rw [e]
      cases h : sys alignment (realSize c size number alignment) with
      | none => cases c.asserts <;> simp
      | some b =>
        right; right
        exact ⟨b, _, rfl, h, Nat.le_trans (realSize_spec hf hr hl).1 (hs _ _ _ h)⟩
  · rw [((C82_rejected c sys size number alignment).2 hl).1]
    cases c.asserts <;> simp

/-- C82: under the same conditions `graphene_aligned_alloc0` never writes outside the block; the block it returns is the one
`graphene_aligned_alloc` returns, with the first `size * number` bytes cleared and the others untouched. -/
theorem C82_zero_partial (c : Cfg) (sys : Sys) (size number alignment : Nat) (hs : Honest sys) (hf : Fits c size number alignment)
    (hr : Roomy c size number alignment) :
    alignedAlloc0 c sys size number alignment ≠ .ub ∧
    ∀ b, alignedAlloc0 c sys size number alignment = .block b →
      ∃ b0, alignedAlloc c sys size number alignment = .block b0 ∧ b.length = b0.length ∧ size * number ≤ b.length ∧
        ∀ i, i < b.length → b[i]? = if i < size * number then some 0 else b0[i]? := by
  have hrej := C82_rejected c sys size number alignment
  rcases C82_size_partial c sys size number alignment hs hf hr with h | h | ⟨b0, n, h, -, hlen⟩
  · rw [alignedAlloc0, h]; simp
  · rw [alignedAlloc0, h]; simp
  · have hl : size * number < 2 ^ c.W := by
      by_contra hl
      rw [(hrej.2 (by omega)).1] at h
      cases hc : c.asserts <;> simp [hc] at h
    have hm : size * number % 2 ^ c.W = size * number := Nat.mod_eq_of_lt hl
    have e : alignedAlloc0 c sys size number alignment = .block (List.replicate (size * number) 0 ++ b0.drop (size * number)) := by
      rw [alignedAlloc0, h]; simp only [hm, memset0, if_pos hlen]
    rw [e]
    refine ⟨by simp, ?_⟩
    intro b hb
    simp only [Outcome.block.injEq] at hb
    subst hb
    refine ⟨b0, h, ?_, ?_, ?_⟩
    · simp; omega
    · simp
    · intro i _
      split
      · rename_i hi
        rw [List.getElem?_append_left (by simpa using hi)]
        simp [hi]
      · rename_i hi
        rw [List.getElem?_append_right (by simpa using hi)]
        simp only [List.length_replicate, List.getElem?_drop]
        congr 1; omega

/-- C82 is false with `aligned_alloc`: rounding up to the alignment wraps around.  Asking for 2⁶⁴ − 1 bytes aligned to 16 asks the system
for 0 bytes; clearing the block then writes outside it. -/
theorem C82_rounding_false (asserts : Bool) :
    let c : Cfg := ⟨64, .alignedAlloc, asserts⟩
    let sys : Sys := fun _ n => if n < 1000 then some (List.replicate n 7) else none
    Honest sys ∧ Fits c (2 ^ 64 - 1) 1 16 ∧
    alignedAlloc c sys (2 ^ 64 - 1) 1 16 = .block [] ∧ alignedAlloc0 c sys (2 ^ 64 - 1) 1 16 = .ub := by
  refine ⟨?_, by simp [Fits], ?_, ?_⟩
  · intro a n b h
    dsimp only at h
    split at h
    · simp only [Option.some.injEq] at h; rw [← h]; simp
    · cases h
  · simp [alignedAlloc, realSize]
  · simp [alignedAlloc0, alignedAlloc, realSize, memset0]

/-- non-vacuity: a 64 byte object with 16 byte alignment, in every build -/
example (p : Path) : ∃ sys : Sys, Honest sys ∧ Fits ⟨64, p, true⟩ 64 1 16 ∧ Roomy ⟨64, p, true⟩ 64 1 16 ∧
    alignedAlloc0 ⟨64, p, true⟩ sys 64 1 16 = .block (List.replicate 64 0) := by
  refine ⟨fun _ n => some (List.replicate n 7), ?_, by simp [Fits], by simp [Roomy], ?_⟩
  · intro a n b h
    simp only [Option.some.injEq] at h; rw [← h]; simp
  · rcases p with _ | _ | _ | _ <;> rfl

end Graphene.Alloc
