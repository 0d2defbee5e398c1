/-
  The rewritings of Model/Unsafe: what they keep, exactness on a grid and accuracy of everything the compiler may emit.
-/
import Verif.Model.Unsafe
import Verif.Proofs.Approx
import Mathlib.Data.Nat.Prime.Basic

namespace Graphene
open Fp
namespace FExpr

/-- Expressions of additions, subtractions, products and constants that are exact in single precision. -/
def Plain : FExpr → Prop
  | var _ => True
  | lit n d => d ∣ 2 ^ 149 ∧ n.natAbs ≤ 2 ^ 24
  | add a b => Plain a ∧ Plain b
  | sub a b => Plain a ∧ Plain b
  | mul a b => Plain a ∧ Plain b
  | neg a => Plain a
  | fma a b c => Plain a ∧ Plain b ∧ Plain c
  | junk => False

/-- The exact value. -/
noncomputable def real (env : Nat → ℝ) : FExpr → ℝ
  | var i => env i
  | lit n d => n / d
  | add a b => real env a + real env b
  | sub a b => real env a - real env b
  | mul a b => real env a * real env b
  | neg a => -real env a
  | fma a b c => real env a * real env b + real env c
  | junk => 0

/-- The sum of the magnitudes of the terms, from magnitudes of the inputs and constants. -/
noncomputable def size (B : Nat → ℝ) (L : Int → Nat → ℝ) : FExpr → ℝ
  | var i => B i
  | lit n d => L n d
  | add a b => size B L a + size B L b
  | sub a b => size B L a + size B L b
  | mul a b => size B L a * size B L b
  | neg a => size B L a
  | fma a b c => size B L a * size B L b + size B L c
  | junk => 0

/-- The number of fractional bits, from the numbers of fractional bits of the inputs and of the constant zero. -/
def unit (k : Nat → Nat) (z : Nat) : FExpr → Nat
  | var i => k i
  | lit n d => if n = 0 then z else Nat.log 2 d
  | add a b => max (unit k z a) (unit k z b)
  | sub a b => max (unit k z a) (unit k z b)
  | mul a b => unit k z a + unit k z b
  | neg a => unit k z a
  | fma a b c => max (unit k z a + unit k z b) (unit k z c)
  | junk => 0

/-- The number of rounded operations. -/
def ops : FExpr → Nat
  | var _ => 0
  | lit _ _ => 0
  | add a b => ops a + ops b + 1
  | sub a b => ops a + ops b + 1
  | mul a b => ops a + ops b + 1
  | neg a => ops a
  | fma a b c => ops a + ops b + ops c + 1
  | junk => 0

theorem Rule.real_eq {a b : FExpr} (h : Rule a b) (env : Nat → ℝ) : real env b = real env a := by
  cases h <;> simp only [real] <;> push_cast <;> ring

theorem Step.real_eq {a b : FExpr} (h : Step a b) (env : Nat → ℝ) : real env b = real env a := by
  induction h with
  | root h => exact h.real_eq env
  | _ => simp only [real, *]

theorem Rule.plain {a b : FExpr} (h : Rule a b) (p : Plain a) : Plain b := by
  cases h <;> simp only [Plain] at p ⊢ <;> try tauto
  exact ⟨⟨one_dvd _, by decide⟩, p.1⟩

theorem Step.plain {a b : FExpr} (h : Step a b) (p : Plain a) : Plain b := by
  induction h with
  | root h => exact h.plain p
  | _ => simp only [Plain] at p ⊢; tauto

theorem log_fold (z : Nat) (n m : Int) (d e : Nat) (hn : n ≠ 0) (hm : m ≠ 0) (h : d * e ∣ 2 ^ 149) :
    (if n * m = 0 then z else Nat.log 2 (d * e)) ≤ (if n = 0 then z else Nat.log 2 d) + (if m = 0 then z else Nat.log 2 e) := by
  rw [if_neg (mul_ne_zero hn hm), if_neg hn, if_neg hm]
  obtain ⟨i, -, hi⟩ := (Nat.dvd_prime_pow Nat.prime_two).1 (dvd_of_mul_right_dvd h)
  obtain ⟨j, -, hj⟩ := (Nat.dvd_prime_pow Nat.prime_two).1 (dvd_of_mul_left_dvd h)
  rw [hi, hj, ← pow_add, Nat.log_pow (by decide), Nat.log_pow (by decide), Nat.log_pow (by decide)]

theorem Rule.unit_le {a b : FExpr} (h : Rule a b) (k : Nat → Nat) (z : Nat) : unit k z b ≤ unit k z a := by
  cases h <;> simp only [unit] <;> first | omega | (simp; done) | skip
  exact log_fold _ _ _ _ _ (by assumption) (by assumption) (by assumption)

theorem Step.unit_le {a b : FExpr} (h : Step a b) (k : Nat → Nat) (z : Nat) : unit k z b ≤ unit k z a := by
  induction h with
  | root h => exact h.unit_le k z
  | _ => simp only [unit]; omega

/-- the magnitudes of constants that the lemmas need -/
structure Mags (B : Nat → ℝ) (L : Int → Nat → ℝ) : Prop where
  var : ∀ i, 0 ≤ B i
  lit : ∀ n d, 0 ≤ L n d
  one : L 1 1 = 1
  two : L 2 1 = 2
  mul : ∀ n d m e, n ≠ 0 → m ≠ 0 → L (n * m) (d * e) ≤ L n d * L m e

theorem size_nonneg {B : Nat → ℝ} {L : Int → Nat → ℝ} (m : Mags B L) (e : FExpr) : 0 ≤ size B L e := by
  induction e <;> simp only [size]
  · exact m.var _
  · exact m.lit _ _
  · linarith
  · linarith
  · rename_i h g; exact mul_nonneg h g
  · assumption
  · rename_i h g f; exact add_nonneg (mul_nonneg h g) f
  · exact le_rfl

theorem Rule.size_le {a b : FExpr} (h : Rule a b) {B : Nat → ℝ} {L : Int → Nat → ℝ} (m : Mags B L) : size B L b ≤ size B L a := by
  cases h <;> simp only [size] <;> try (refine _root_.le_of_eq ?_; ring1)
  · have := m.lit 0 1; linarith
  · rw [m.one]; linarith
  · rw [m.two]; linarith
  · rw [m.two]; linarith
  · exact m.mul _ _ _ _ (by assumption) (by assumption)
  · rename_i c; linarith [size_nonneg m b, size_nonneg m c]
  · rename_i c; linarith [size_nonneg m b, size_nonneg m c]

theorem Step.size_le {a b : FExpr} (h : Step a b) {B : Nat → ℝ} {L : Int → Nat → ℝ} (m : Mags B L) : size B L b ≤ size B L a := by
  have := fun e => size_nonneg m e
  induction h with
  | root h => exact h.size_le m
  | _ => simp only [size]; gcongr <;> exact this _

theorem size_mono {B B' : Nat → ℝ} {L L' : Int → Nat → ℝ} (m : Mags B L) (hB : ∀ i, B i ≤ B' i) (hL : ∀ n d, L n d ≤ L' n d)
    (e : FExpr) : size B L e ≤ size B' L' e := by
  have n := fun e => size_nonneg m e
  induction e with
  | var i => exact hB i
  | lit i d => exact hL i d
  | add a b ha hb => exact add_le_add ha hb
  | sub a b ha hb => exact add_le_add ha hb
  | mul a b ha hb => exact mul_le_mul ha hb (n b) ((n a).trans ha)
  | neg a h => exact h
  | fma a b c ha hb hc => exact add_le_add (mul_le_mul ha hb (n b) ((n a).trans ha)) hc
  | junk => exact le_rfl

/-- Everything emitted denotes the same number, with no more fractional bits and no larger terms. -/
theorem Emits.keeps {a b : FExpr} (h : Emits a b) : (Plain a → Plain b) ∧ (∀ env, real env b = real env a) ∧
    (∀ k z, unit k z b ≤ unit k z a) ∧ ∀ B L, Mags B L → size B L b ≤ size B L a := by
  induction h with
  | source => exact ⟨id, fun _ => rfl, fun _ _ => le_rfl, fun _ _ _ => le_rfl⟩
  | step _ s ih =>
    obtain ⟨h1, h2, h3, h4⟩ := ih
    exact ⟨fun p => s.plain (h1 p), fun env => (s.real_eq env).trans (h2 env), fun k z => (s.unit_le k z).trans (h3 k z),
      fun B L m => (s.size_le m).trans (h4 B L m)⟩

/-! ## Exactness -/

/-- magnitudes of constants for the grid: the constant zero counts as one unit `1 / 2^z` -/
noncomputable def gridLit (z : Nat) (n : Int) (d : Nat) : ℝ := if n = 0 then 1 / 2 ^ z else |(n : ℝ)| / d

theorem gridLit_nonneg (z : Nat) (n : Int) (d : Nat) : 0 ≤ gridLit z n d := by unfold gridLit; split <;> positivity
theorem gridLit_one (z : Nat) : gridLit z 1 1 = 1 := by simp [gridLit]
theorem gridLit_two (z : Nat) : gridLit z 2 1 = 2 := by simp [gridLit]
theorem gridLit_mul (z : Nat) (n : Int) (d : Nat) (m : Int) (e : Nat) (hn : n ≠ 0) (hm : m ≠ 0) :
    gridLit z (n * m) (d * e) ≤ gridLit z n d * gridLit z m e := by
  simp only [gridLit, hn, hm, mul_ne_zero hn hm, if_false]
  refine _root_.le_of_eq ?_
  push_cast; rw [_root_.abs_mul]; ring
theorem int_abs_ge {n : ℤ} (h : n ≠ 0) : (1 : ℝ) ≤ |(n : ℝ)| := by exact_mod_cast Int.one_le_abs h

/-- inputs `z / 2^k` of magnitude at most `B`, where `B` is at least one unit -/
structure GridEnv (env : Nat → F32) (k : Nat → Nat) (B : Nat → ℝ) : Prop where
  fin : ∀ i, (env i).isFin = true
  int : ∀ i, ∃ z : ℤ, (env i).val = z / 2 ^ k i
  le : ∀ i, |(env i).val| ≤ B i
  unit : ∀ i, 1 ≤ B i * 2 ^ k i

theorem gridMags {env : Nat → F32} {k : Nat → Nat} {B : Nat → ℝ} (h : GridEnv env k B) (z : Nat) : Mags B (gridLit z) where
  var i := (abs_nonneg _).trans (h.le i)
  lit n d := gridLit_nonneg z n d
  one := gridLit_one z
  two := gridLit_two z
  mul := gridLit_mul z

theorem one_le_grid {env : Nat → F32} {k : Nat → Nat} {z : Nat} {B : Nat → ℝ} (h : GridEnv env k B) {e : FExpr} (p : Plain e) :
    1 ≤ size B (gridLit z) e * 2 ^ unit k z e := by
  have nn := fun e => size_nonneg (gridMags h z) e
  have up : ∀ {x : ℝ} {a b : Nat}, 0 ≤ x → a ≤ b → x * 2 ^ a ≤ x * 2 ^ b := by
    intro x a b hx hab
    gcongr
    norm_num
  have sum : ∀ {x y : ℝ} {a b : Nat}, 0 ≤ x → 0 ≤ y → 1 ≤ x * 2 ^ a → 1 ≤ (x + y) * 2 ^ (max a b) := by
    intro x y a b hx hy h
    rw [add_mul]
    have h1 := up hx (le_max_left a b)
    have h2 : 0 ≤ y * 2 ^ (max a b) := by positivity
    linarith
  have prod : ∀ {x y : ℝ} {a b : Nat}, 1 ≤ x * 2 ^ a → 1 ≤ y * 2 ^ b → 1 ≤ x * y * 2 ^ (a + b) := by
    intro x y a b h1 h2
    rw [pow_add, show x * y * (2 ^ a * 2 ^ b) = (x * 2 ^ a) * (y * 2 ^ b) by ring]
    nlinarith
  induction e with
  | var i => exact h.unit i
  | lit n d =>
    simp only [size, unit, gridLit]
    split
    · simp
    · rename_i hn
      obtain ⟨j, -, rfl⟩ := (Nat.dvd_prime_pow Nat.prime_two).1 p.1
      rw [Nat.log_pow (by decide)]
      push_cast
      rw [div_mul_cancel₀ _ (by positivity)]
      exact int_abs_ge hn
  | add a b iha ihb => exact sum (nn a) (nn b) (iha p.1)
  | sub a b iha ihb => exact sum (nn a) (nn b) (iha p.1)
  | mul a b iha ihb => exact prod (iha p.1) (ihb p.2)
  | neg a ih => exact ih p
  | fma a b c iha ihb ihc => exact sum (mul_nonneg (nn a) (nn b)) (nn c) (prod (iha p.1) (ihb p.2.1))
  | junk => exact p.elim

/-- On the grid nothing is rounded. -/
theorem grid_exact {env : Nat → F32} {k : Nat → Nat} {z : Nat} {B : Nat → ℝ} (h : GridEnv env k B) {e : FExpr} (p : Plain e)
    (hs : size B (gridLit z) e * 2 ^ unit k z e ≤ 2 ^ 24) (hu : unit k z e ≤ 149) :
    Is (eval env e) (real (fun i => (env i).val) e) ∧ (∃ w : ℤ, real (fun i => (env i).val) e = w / 2 ^ unit k z e) ∧
      |real (fun i => (env i).val) e| ≤ size B (gridLit z) e := by
  have nn := fun e => size_nonneg (gridMags h z) e
  have rnd : ∀ {r : F32} {x S : ℝ} {m : Nat}, Rnd x r → (∃ z : ℤ, x = z / 2 ^ m) → |x| ≤ S → S * 2 ^ m ≤ 2 ^ 24 → m ≤ 149 → Is r x := by
    intro r x S m hr ⟨z, hz⟩ hx hS hm
    have zb : |(z : ℝ)| ≤ 2 ^ 24 := by
      rw [hz, abs_div, abs_of_pos (by positivity : (0 : ℝ) < 2 ^ m), div_le_iff₀ (by positivity)] at hx
      linarith
    have zn : z.natAbs ≤ 2 ^ 24 := by
      have e : ((z.natAbs : ℕ) : ℝ) = |(z : ℝ)| := by rw [← Int.cast_abs, Int.abs_eq_natAbs]; simp
      exact_mod_cast e ▸ zb
    have l := lit_dyadic z m zn hm
    exact hr.is ⟨l.1, by rw [l.2, hz]⟩
  have up : ∀ {x : ℝ} {a b : Nat}, 0 ≤ x → a ≤ b → x * 2 ^ a ≤ x * 2 ^ b := by
    intro x a b hx hab
    gcongr
    norm_num
  have lift : ∀ {x : ℝ} {a b : Nat}, (∃ z : ℤ, x = z / 2 ^ a) → a ≤ b → ∃ z : ℤ, x = z / 2 ^ b := by
    intro x a b ⟨z, hz⟩ hab
    refine ⟨z * 2 ^ (b - a), ?_⟩
    obtain ⟨c, rfl⟩ := Nat.exists_eq_add_of_le hab
    rw [hz, Nat.add_sub_cancel_left, pow_add]; push_cast; field_simp
  have isum : ∀ {x y : ℝ} {a : Nat}, (∃ z : ℤ, x = z / 2 ^ a) → (∃ z : ℤ, y = z / 2 ^ a) → ∃ z : ℤ, x + y = z / 2 ^ a := by
    intro x y a ⟨z, hz⟩ ⟨w, hw⟩
    exact ⟨z + w, by rw [hz, hw]; push_cast; ring⟩
  have idif : ∀ {x y : ℝ} {a : Nat}, (∃ z : ℤ, x = z / 2 ^ a) → (∃ z : ℤ, y = z / 2 ^ a) → ∃ z : ℤ, x - y = z / 2 ^ a := by
    intro x y a ⟨z, hz⟩ ⟨w, hw⟩
    exact ⟨z - w, by rw [hz, hw]; push_cast; ring⟩
  have iprod : ∀ {x y : ℝ} {a b : Nat}, (∃ z : ℤ, x = z / 2 ^ a) → (∃ z : ℤ, y = z / 2 ^ b) → ∃ z : ℤ, x * y = z / 2 ^ (a + b) := by
    intro x y a b ⟨z, hz⟩ ⟨w, hw⟩
    exact ⟨z * w, by rw [hz, hw, pow_add]; push_cast; field_simp⟩
  have part : ∀ {x y : ℝ} {a b c : Nat}, 0 ≤ x → 0 ≤ y → a ≤ c → (x + y) * 2 ^ c ≤ 2 ^ 24 → x * 2 ^ a ≤ 2 ^ 24 := by
    intro x y a b c hx hy hac hh
    have h1 := up hx hac
    have h2 : 0 ≤ y * 2 ^ c := by positivity
    rw [add_mul] at hh
    linarith
  have fac : ∀ {x y : ℝ} {a b : Nat}, 0 ≤ x → 1 ≤ y * 2 ^ b → x * y * 2 ^ (a + b) ≤ 2 ^ 24 → x * 2 ^ a ≤ 2 ^ 24 := by
    intro x y a b hx h1 h2
    rw [pow_add, show x * y * (2 ^ a * 2 ^ b) = (x * 2 ^ a) * (y * 2 ^ b) by ring] at h2
    have : 0 ≤ x * 2 ^ a := by positivity
    nlinarith
  induction e with
  | var i => exact ⟨Is.self (h.fin i), h.int i, h.le i⟩
  | lit n d =>
    obtain ⟨hd, hn⟩ := p
    obtain ⟨j, hj, rfl⟩ := (Nat.dvd_prime_pow Nat.prime_two).1 hd
    have l := lit_dyadic n j hn hj
    refine ⟨⟨l.1, by rw [show eval env (lit n (2 ^ j)) = Fp.lit n (2 ^ j) from rfl, l.2]; simp [real]⟩, ⟨n, ?_⟩, ?_⟩
    · simp only [real, unit]
      split
      · rename_i h0; simp [h0]
      · rw [Nat.log_pow (by decide)]; simp
    · simp only [real, size, gridLit]
      split
      · rename_i h0; simp [h0]
      · rw [abs_div, Nat.abs_cast]
  | add a b iha ihb =>
    simp only [size, unit] at hs hu
    obtain ⟨a1, a2, a3⟩ := iha p.1 (part (b := 0) (nn a) (nn b) (le_max_left _ _) hs) ((le_max_left _ _).trans hu)
    obtain ⟨b1, b2, b3⟩ := ihb p.2 (part (b := 0) (nn b) (nn a) (le_max_right _ _) (by rwa [_root_.add_comm])) ((le_max_right _ _).trans hu)
    have i := isum (lift a2 (le_max_left _ (unit k z b))) (lift b2 (le_max_right (unit k z a) _))
    have ab : |real (fun i => (env i).val) a + real (fun i => (env i).val) b| ≤ size B (gridLit z) a + size B (gridLit z) b :=
      (abs_add_le _ _).trans (add_le_add a3 b3)
    have r := rnd_add a1.fin b1.fin
    rw [a1.val, b1.val] at r
    exact ⟨rnd r i ab hs hu, i, ab⟩
  | sub a b iha ihb =>
    simp only [size, unit] at hs hu
    obtain ⟨a1, a2, a3⟩ := iha p.1 (part (b := 0) (nn a) (nn b) (le_max_left _ _) hs) ((le_max_left _ _).trans hu)
    obtain ⟨b1, b2, b3⟩ := ihb p.2 (part (b := 0) (nn b) (nn a) (le_max_right _ _) (by rwa [_root_.add_comm])) ((le_max_right _ _).trans hu)
    have i := idif (lift a2 (le_max_left _ (unit k z b))) (lift b2 (le_max_right (unit k z a) _))
    have ab : |real (fun i => (env i).val) a - real (fun i => (env i).val) b| ≤ size B (gridLit z) a + size B (gridLit z) b :=
      (abs_sub _ _).trans (add_le_add a3 b3)
    have r := rnd_sub a1.fin b1.fin
    rw [a1.val, b1.val] at r
    exact ⟨rnd r i ab hs hu, i, ab⟩
  | mul a b iha ihb =>
    simp only [size, unit] at hs hu
    obtain ⟨a1, a2, a3⟩ := iha p.1 (fac (nn a) (one_le_grid h p.2) hs) (by omega)
    obtain ⟨b1, b2, b3⟩ := ihb p.2 (fac (nn b) (one_le_grid h p.1) (by rwa [_root_.mul_comm (size _ _ b), _root_.add_comm (unit k z b)])) (by omega)
    have i := iprod a2 b2
    have ab : |real (fun i => (env i).val) a * real (fun i => (env i).val) b| ≤ size B (gridLit z) a * size B (gridLit z) b := by
      rw [_root_.abs_mul]; exact mul_le_mul a3 b3 (abs_nonneg _) (nn a)
    have r := rnd_mul a1.fin b1.fin
    rw [a1.val, b1.val] at r
    exact ⟨rnd r i ab hs hu, i, ab⟩
  | neg a ih =>
    obtain ⟨a1, ⟨w, a2⟩, a3⟩ := ih p hs hu
    exact ⟨a1.neg, ⟨-w, by simp only [real, unit]; rw [a2]; push_cast; ring⟩, by simp only [real, size]; rwa [_root_.abs_neg]⟩
  | fma a b c iha ihb ihc =>
    simp only [size, unit] at hs hu
    have hab : size B (gridLit z) a * size B (gridLit z) b * 2 ^ (unit k z a + unit k z b) ≤ 2 ^ 24 :=
      part (b := 0) (mul_nonneg (nn a) (nn b)) (nn c) (le_max_left _ _) hs
    obtain ⟨a1, a2, a3⟩ := iha p.1 (fac (nn a) (one_le_grid h p.2.1) hab) (by omega)
    obtain ⟨b1, b2, b3⟩ := ihb p.2.1 (fac (nn b) (one_le_grid h p.1) (by rwa [_root_.mul_comm (size _ _ b), _root_.add_comm (unit k z b)])) (by omega)
    obtain ⟨c1, c2, c3⟩ := ihc p.2.2 (part (b := 0) (nn c) (mul_nonneg (nn a) (nn b)) (le_max_right _ _) (by rwa [_root_.add_comm])) (by omega)
    have i := isum (lift (iprod a2 b2) (le_max_left _ (unit k z c))) (lift c2 (le_max_right (unit k z a + unit k z b) _))
    have ab : |real (fun i => (env i).val) a * real (fun i => (env i).val) b + real (fun i => (env i).val) c| ≤
        size B (gridLit z) a * size B (gridLit z) b + size B (gridLit z) c := by
      refine (abs_add_le _ _).trans (add_le_add ?_ c3)
      rw [_root_.abs_mul]; exact mul_le_mul a3 b3 (abs_nonneg _) (nn a)
    have r := rnd_fma a1.fin b1.fin c1.fin
    rw [a1.val, b1.val, c1.val] at r
    exact ⟨rnd r i ab hs hu, i, ab⟩
  | junk => exact p.elim

/-! ## Accuracy -/

noncomputable def absLit (n : Int) (d : Nat) : ℝ := |(n : ℝ)| / d
/-- the same, counted as at least one -/
noncomputable def oneLit (n : Int) (d : Nat) : ℝ := max 1 (|(n : ℝ)| / d)

/-- sum of the magnitudes of the terms -/
noncomputable def terms (env : Nat → F32) (e : FExpr) : ℝ := size (fun i => |(env i).val|) absLit e
/-- the same with every input and constant counted as at least one -/
noncomputable def terms1 (env : Nat → F32) (e : FExpr) : ℝ := size (fun i => max 1 |(env i).val|) oneLit e

theorem absLit_mul (n : Int) (d : Nat) (m : Int) (e : Nat) : absLit (n * m) (d * e) = absLit n d * absLit m e := by
  simp only [absLit]
  push_cast; rw [_root_.abs_mul]; ring

theorem termsMags (env : Nat → F32) : Mags (fun i => |(env i).val|) absLit where
  var _ := abs_nonneg _
  lit _ _ := by unfold absLit; positivity
  one := by simp [absLit]
  two := by simp [absLit]
  mul n d m e _ _ := _root_.le_of_eq (absLit_mul n d m e)

theorem terms1Mags (env : Nat → F32) : Mags (fun i => max 1 |(env i).val|) oneLit where
  var _ := zero_le_one.trans (le_max_left _ _)
  lit _ _ := zero_le_one.trans (le_max_left _ _)
  one := by simp [oneLit]
  two := by simp [oneLit]
  mul n d m e _ _ := by
    have h := absLit_mul n d m e
    have n0 : 0 ≤ |(n : ℝ)| / d := by positivity
    have m0 : 0 ≤ |(m : ℝ)| / e := by positivity
    unfold oneLit
    refine max_le ?_ ?_
    · have := le_max_left 1 (|(n : ℝ)| / d); have := le_max_left 1 (|(m : ℝ)| / e); nlinarith
    · unfold absLit at h; rw [h]
      exact mul_le_mul (le_max_right _ _) (le_max_right _ _) m0 (n0.trans (le_max_right _ _))

theorem terms_nonneg (env : Nat → F32) (e : FExpr) : 0 ≤ terms env e := size_nonneg (termsMags env) e

theorem terms1_ge (env : Nat → F32) {e : FExpr} (p : Plain e) : 1 ≤ terms1 env e ∧ terms env e ≤ terms1 env e := by
  have nn := fun e => terms_nonneg env e
  unfold terms terms1 at *
  induction e with
  | var i => exact ⟨le_max_left _ _, le_max_right _ _⟩
  | lit n d =>
    exact ⟨le_max_left _ _, le_max_right _ _⟩
  | add a b iha ihb => have ha := iha p.1; have hb := ihb p.2; simp only [size]; constructor <;> linarith [ha.1, ha.2, hb.1, hb.2]
  | sub a b iha ihb => have ha := iha p.1; have hb := ihb p.2; simp only [size]; constructor <;> linarith [ha.1, ha.2, hb.1, hb.2]
  | mul a b iha ihb =>
    have ha := iha p.1; have hb := ihb p.2; simp only [size]
    exact ⟨by nlinarith [ha.1, hb.1], mul_le_mul ha.2 hb.2 (nn b) (by linarith [ha.1])⟩
  | neg a ih => exact ih p
  | fma a b c iha ihb ihc =>
    have ha := iha p.1; have hb := ihb p.2.1; have hc := ihc p.2.2; simp only [size]
    exact ⟨by nlinarith [ha.1, hb.1, hc.1], add_le_add (mul_le_mul ha.2 hb.2 (nn b) (by linarith [ha.1])) hc.2⟩
  | junk => exact p.elim

/-- the growth of relative errors over `n` operations -/
noncomputable def grow (n : Nat) : ℝ := (1 + 1 / 2 ^ 24) ^ n
/-- the growth of underflow errors over `n` operations -/
noncomputable def tiny (n : Nat) : ℝ := (1 + 1 / 2 ^ 149) ^ n

/-- the bound -/
noncomputable def bound (env : Nat → F32) (n : Nat) (e : FExpr) : ℝ := grow n * (terms env e + (tiny n - 1) * terms1 env e)

theorem grow_one (n : Nat) : 1 ≤ grow n := one_le_pow₀ (by norm_num)
theorem tiny_one (n : Nat) : 1 ≤ tiny n := one_le_pow₀ (by norm_num)
theorem grow_mono {m n : Nat} (h : m ≤ n) : grow m ≤ grow n := pow_le_pow_right₀ (by norm_num) h
theorem tiny_mono {m n : Nat} (h : m ≤ n) : tiny m ≤ tiny n := pow_le_pow_right₀ (by norm_num) h
theorem grow_add (m n : Nat) : grow (m + n) = grow m * grow n := pow_add _ _ _
theorem tiny_add (m n : Nat) : tiny (m + n) = tiny m * tiny n := pow_add _ _ _

theorem bound_mono (env : Nat → F32) {m n : Nat} (h : m ≤ n) {e : FExpr} (p : Plain e) : bound env m e ≤ bound env n e := by
  unfold bound
  have h1 := (terms1_ge env p).1
  have h2 := terms_nonneg env e
  have h3 := tiny_one m
  have h4 := tiny_mono h
  have : (tiny m - 1) * terms1 env e ≤ (tiny n - 1) * terms1 env e := by gcongr
  have h5 : 0 ≤ (tiny m - 1) * terms1 env e := mul_nonneg (by linarith) (by linarith)
  refine mul_le_mul (grow_mono h) (by linarith) (by linarith) (by linarith [grow_one n])

theorem bound_le (env : Nat → F32) (n : Nat) {e : FExpr} (p : Plain e) : bound env n e ≤ grow n * (tiny n * terms1 env e) := by
  unfold bound
  have h1 := terms1_ge env p
  have h2 := grow_one n
  refine mul_le_mul_of_nonneg_left ?_ (by linarith)
  nlinarith

theorem bound_nonneg (env : Nat → F32) (n : Nat) {e : FExpr} (p : Plain e) : 0 ≤ bound env n e := by
  unfold bound
  have h1 := terms1_ge env p
  have h2 := grow_one n
  have h3 := tiny_one n
  have h4 := terms_nonneg env e
  exact mul_nonneg (by linarith) (add_nonneg h4 (mul_nonneg (by linarith) (by linarith)))

theorem Approx.weaken {a : F32} {x A E E' : ℝ} (h : Approx a x A E) (hE : E ≤ E') : Approx a x A E' :=
  ⟨h.fin, h.hx, h.err.trans (by linarith)⟩

theorem bound_add (env : Nat → F32) {a b : FExpr} (pa : Plain a) (pb : Plain b) (m n : Nat) :
    (1 + 1 / 2 ^ 24) * (bound env m a + bound env n b) ≤ bound env (m + n + 1) (add a b) := by
  have h1 := bound_mono env (Nat.le_add_right m n) pa
  have h2 := bound_mono env (Nat.le_add_left n m) pb
  have e : bound env (m + n) (add a b) = bound env (m + n) a + bound env (m + n) b := by
    simp only [bound, terms, terms1, size]; ring
  have g : (1 + 1 / 2 ^ 24) * bound env (m + n) (add a b) ≤ bound env (m + n + 1) (add a b) := by
    unfold bound
    have p : Plain (add a b) := ⟨pa, pb⟩
    have t := terms1_ge env p
    have t0 := terms_nonneg env (add a b)
    have q := tiny_mono (Nat.le_succ (m + n))
    have q1 := tiny_one (m + n)
    rw [grow_add _ 1, show grow 1 = 1 + 1 / 2 ^ 24 from pow_one _, ← _root_.mul_assoc, _root_.mul_comm (1 + 1 / 2 ^ 24 : ℝ)]
    have gp := grow_one (m + n)
    refine mul_le_mul_of_nonneg_left ?_ (by positivity)
    have : (tiny (m + n) - 1) * terms1 env (add a b) ≤ (tiny (m + n + 1) - 1) * terms1 env (add a b) := by
      refine mul_le_mul_of_nonneg_right ?_ (by linarith)
      exact sub_le_sub_right q 1
    linarith
  refine _root_.le_trans (mul_le_mul_of_nonneg_left (add_le_add h1 h2) (by positivity)) ?_
  rw [← e]; exact g

theorem bound_mul (env : Nat → F32) {a b : FExpr} (pa : Plain a) (pb : Plain b) (m n : Nat) :
    (1 + 1 / 2 ^ 24) * (bound env m a * bound env n b) + 1 / 2 ^ 150 ≤ bound env (m + n + 1) (mul a b) := by
  have ta := terms1_ge env pa
  have tb := terms1_ge env pb
  have na := terms_nonneg env a
  have nb := terms_nonneg env b
  have qa := tiny_one m
  have qb := tiny_one n
  have ga := grow_one (m + n)
  have e1 : terms env (mul a b) = terms env a * terms env b := rfl
  have e2 : terms1 env (mul a b) = terms1 env a * terms1 env b := rfl
  have key : (terms env a + (tiny m - 1) * terms1 env a) * (terms env b + (tiny n - 1) * terms1 env b) ≤
      terms env a * terms env b + (tiny (m + n) - 1) * (terms1 env a * terms1 env b) := by
    rw [tiny_add]
    have i1 : terms env a * ((tiny n - 1) * terms1 env b) ≤ terms1 env a * ((tiny n - 1) * terms1 env b) :=
      mul_le_mul_of_nonneg_right ta.2 (mul_nonneg (by linarith) (by linarith))
    have i2 : (tiny m - 1) * terms1 env a * terms env b ≤ (tiny m - 1) * terms1 env a * terms1 env b :=
      mul_le_mul_of_nonneg_left tb.2 (mul_nonneg (by linarith) (by linarith))
    nlinarith
  have st : (tiny (m + n) - 1) * (terms1 env a * terms1 env b) + 1 / 2 ^ 149 ≤ (tiny (m + n + 1) - 1) * (terms1 env a * terms1 env b) := by
    rw [tiny_add _ 1, show tiny 1 = 1 + 1 / 2 ^ 149 from pow_one _]
    have t1 := tiny_one (m + n)
    have s1 : 1 ≤ terms1 env a * terms1 env b := by nlinarith
    have : 1 / 2 ^ 149 ≤ tiny (m + n) * (1 / 2 ^ 149) * (terms1 env a * terms1 env b) := by
      have : (1 : ℝ) ≤ tiny (m + n) * (terms1 env a * terms1 env b) := by nlinarith
      nlinarith [this]
    nlinarith
  unfold bound
  rw [e1, e2, grow_add (m + n) 1, show grow 1 = 1 + 1 / 2 ^ 24 from pow_one _]
  have := mul_le_mul_of_nonneg_left key (by linarith : 0 ≤ grow (m + n))
  rw [grow_add] at this ga ⊢
  have f : (1 + 1 / 2 ^ 24) * (grow m * grow n) * (1 / 2 ^ 149) ≥ 1 / 2 ^ 150 := by
    have : (1 : ℝ) ≤ (1 + 1 / 2 ^ 24) * (grow m * grow n) := by nlinarith
    have h2 : (1 / 2 ^ 150 : ℝ) ≤ 1 / 2 ^ 149 := by norm_num
    nlinarith
  have g := mul_le_mul_of_nonneg_left st (by positivity : 0 ≤ (1 + 1 / 2 ^ 24) * (grow m * grow n))
  nlinarith

theorem bound_succ (env : Nat → F32) (n : Nat) {e : FExpr} (p : Plain e) : (1 + 1 / 2 ^ 24) * bound env n e ≤ bound env (n + 1) e := by
  unfold bound
  have t := terms1_ge env p
  have t0 := terms_nonneg env e
  have q := tiny_mono (Nat.le_succ n)
  have q1 := tiny_one n
  have gp := grow_one n
  rw [grow_add _ 1, show grow 1 = 1 + 1 / 2 ^ 24 from pow_one _, ← _root_.mul_assoc, _root_.mul_comm (1 + 1 / 2 ^ 24 : ℝ)]
  refine mul_le_mul_of_nonneg_left ?_ (by positivity)
  have : (tiny n - 1) * terms1 env e ≤ (tiny (n + 1) - 1) * terms1 env e :=
    mul_le_mul_of_nonneg_right (sub_le_sub_right q 1) (by linarith)
  linarith

theorem bound_fma (env : Nat → F32) {a b c : FExpr} (pa : Plain a) (pb : Plain b) (pc : Plain c) (m n l : Nat) :
    (1 + 1 / 2 ^ 24) * (bound env m a * bound env n b + bound env l c) + 1 / 2 ^ 150 ≤ bound env (m + n + l + 1) (fma a b c) := by
  have h1 := bound_mul env pa pb m n
  have h2 := bound_succ env l pc
  have h3 := bound_mono env (by omega : m + n + 1 ≤ m + n + l + 1) (e := mul a b) ⟨pa, pb⟩
  have h4 := bound_mono env (by omega : l + 1 ≤ m + n + l + 1) pc
  have e : bound env (m + n + l + 1) (fma a b c) = bound env (m + n + l + 1) (mul a b) + bound env (m + n + l + 1) c := by
    simp only [bound, terms, terms1, size]; ring
  rw [e]
  linarith

/-- The result of `n` operations is accurate relative to the magnitudes of the terms. -/
theorem accurate {env : Nat → F32} (hf : ∀ i, (env i).isFin = true) {e : FExpr} (p : Plain e)
    (hm : grow (ops e) * (tiny (ops e) * terms1 env e) ≤ 2 ^ 127) :
    Approx (eval env e) (real (fun i => (env i).val) e) (terms env e) (bound env (ops e) e) := by
  have sub : ∀ {a : FExpr} {m n : Nat} {T : ℝ}, Plain a → m ≤ n → terms1 env a ≤ T → grow n * (tiny n * T) ≤ 2 ^ 127 →
      grow m * (tiny m * terms1 env a) ≤ 2 ^ 127 := by
    intro a m n T pa hmn hT h
    have t := terms1_ge env pa
    refine _root_.le_trans ?_ h
    have g1 := grow_one m
    have g2 := tiny_one m
    exact mul_le_mul (grow_mono hmn) (mul_le_mul (tiny_mono hmn) hT (by linarith) (by linarith [tiny_one n]))
      (mul_nonneg (by linarith) (by linarith)) (by linarith [grow_one n])
  have ov : ∀ {e : FExpr} {n : Nat} {x : ℝ}, Plain e → (1 + 1 / 2 ^ 24) * x ≤ bound env n e → 0 ≤ x →
      grow n * (tiny n * terms1 env e) ≤ 2 ^ 127 → x ≤ binary32.maxVal := by
    intro e n x pe hx x0 h
    refine _root_.le_trans ?_ le_max32
    have := bound_le env n pe
    nlinarith
  have nu : (1 : ℝ) + binary32.u = 1 + 1 / 2 ^ 24 := by rw [u32]; norm_num
  induction e with
  | var i =>
    have := Approx.exact (hf i)
    refine Approx.weaken this (_root_.le_of_eq ?_)
    simp [bound, ops, grow, tiny, terms, size]
  | lit n d =>
    obtain ⟨hd, hn⟩ := p
    obtain ⟨j, hj, rfl⟩ := (Nat.dvd_prime_pow Nat.prime_two).1 hd
    have l := lit_dyadic n j hn hj
    have := Approx.exact l.1
    rw [l.2] at this
    have e1 : terms env (lit n (2 ^ j)) = |(n : ℝ) / 2 ^ j| := by simp [terms, size, absLit, abs_div]
    have e2 : real (fun i => (env i).val) (lit n (2 ^ j)) = (n : ℝ) / 2 ^ j := by simp [real]
    rw [e1, e2]
    refine Approx.weaken this (_root_.le_of_eq ?_)
    simp [bound, ops, grow, tiny, terms, size, absLit, abs_div]
  | add a b iha ihb =>
    have ta := terms1_ge env p.1
    have tb := terms1_ge env p.2
    have e1 : terms1 env (add a b) = terms1 env a + terms1 env b := rfl
    have A := iha p.1 (sub (n := ops (add a b)) p.1 (by simp only [ops]; omega) (by rw [e1]; linarith) hm)
    have C := ihb p.2 (sub (n := ops (add a b)) p.2 (by simp only [ops]; omega) (by rw [e1]; linarith) hm)
    have k := bound_add env p.1 p.2 (ops a) (ops b)
    have o := ov (e := add a b) p k (add_nonneg (bound_nonneg env _ p.1) (bound_nonneg env _ p.2)) hm
    have r := Approx.add hp32 A C o
    rw [nu] at r
    exact Approx.weaken r k
  | sub a b iha ihb =>
    have ta := terms1_ge env p.1
    have tb := terms1_ge env p.2
    have e1 : terms1 env (FExpr.sub a b) = terms1 env a + terms1 env b := rfl
    have A := iha p.1 (sub (n := ops (FExpr.sub a b)) p.1 (by simp only [ops]; omega) (by rw [e1]; linarith) hm)
    have C := ihb p.2 (sub (n := ops (FExpr.sub a b)) p.2 (by simp only [ops]; omega) (by rw [e1]; linarith) hm)
    have k := bound_add env p.1 p.2 (ops a) (ops b)
    have o := ov (e := add a b) p k (add_nonneg (bound_nonneg env _ p.1) (bound_nonneg env _ p.2)) hm
    have r := Approx.sub hp32 A C o
    rw [nu] at r
    exact Approx.weaken r k
  | mul a b iha ihb =>
    have ta := terms1_ge env p.1
    have tb := terms1_ge env p.2
    have e1 : terms1 env (mul a b) = terms1 env a * terms1 env b := rfl
    have A := iha p.1 (sub (n := ops (mul a b)) p.1 (by simp only [ops]; omega) (by rw [e1]; nlinarith [ta.1, tb.1]) hm)
    have C := ihb p.2 (sub (n := ops (mul a b)) p.2 (by simp only [ops]; omega) (by rw [e1]; nlinarith [ta.1, tb.1]) hm)
    have k := bound_mul env p.1 p.2 (ops a) (ops b)
    have o := ov (e := mul a b) p (_root_.le_trans (le_add_of_nonneg_right (by positivity)) k)
      (mul_nonneg (bound_nonneg env _ p.1) (bound_nonneg env _ p.2)) hm
    have r := Approx.mul hp32 A C o
    rw [nu, eta32] at r
    exact Approx.weaken r k
  | neg a ih =>
    exact Approx.neg (ih p hm)
  | fma a b c iha ihb ihc =>
    have ta := terms1_ge env p.1
    have tb := terms1_ge env p.2.1
    have tc := terms1_ge env p.2.2
    have e1 : terms1 env (fma a b c) = terms1 env a * terms1 env b + terms1 env c := rfl
    have A := iha p.1 (sub (n := ops (fma a b c)) p.1 (by simp only [ops]; omega) (by rw [e1]; nlinarith [ta.1, tb.1, tc.1]) hm)
    have C := ihb p.2.1 (sub (n := ops (fma a b c)) p.2.1 (by simp only [ops]; omega) (by rw [e1]; nlinarith [ta.1, tb.1, tc.1]) hm)
    have D := ihc p.2.2 (sub (n := ops (fma a b c)) p.2.2 (by simp only [ops]; omega) (by rw [e1]; nlinarith [ta.1, tb.1, tc.1]) hm)
    have k := bound_fma env p.1 p.2.1 p.2.2 (ops a) (ops b) (ops c)
    have o := ov (e := fma a b c) p (_root_.le_trans (le_add_of_nonneg_right (by positivity)) k)
      (add_nonneg (mul_nonneg (bound_nonneg env _ p.1) (bound_nonneg env _ p.2.1)) (bound_nonneg env _ p.2.2)) hm
    have r := Approx.fma hp32 A C D o
    rw [nu, eta32] at r
    exact Approx.weaken r k
  | junk => exact p.elim

/-- Everything emitted for a source expression: value within the bound of the exact value of the source. -/
theorem Emits.accurate {env : Nat → F32} (hf : ∀ i, (env i).isFin = true) {e e' : FExpr} (h : Emits e e') (p : Plain e)
    (hm : grow (ops e') * (tiny (ops e') * terms1 env e) ≤ 2 ^ 127) :
    (eval env e').isFin = true ∧ |(eval env e').val - real (fun i => (env i).val) e| ≤
      (grow (ops e') - 1) * terms env e + grow (ops e') * (tiny (ops e') - 1) * terms1 env e := by
  obtain ⟨k1, k2, -, k4⟩ := h.keeps
  have t1 := k4 _ _ (terms1Mags env)
  have t0 := k4 _ _ (termsMags env)
  change terms1 env e' ≤ terms1 env e at t1
  change terms env e' ≤ terms env e at t0
  have g := grow_one (ops e')
  have t := tiny_one (ops e')
  have s1 := terms1_ge env (k1 p)
  have a := FExpr.accurate hf (k1 p) (_root_.le_trans (by gcongr) hm)
  refine ⟨a.fin, ?_⟩
  rw [← k2]
  refine a.err.trans ?_
  unfold bound
  have i1 : (grow (ops e') - 1) * terms env e' ≤ (grow (ops e') - 1) * terms env e := by gcongr
  have i2 : grow (ops e') * (tiny (ops e') - 1) * terms1 env e' ≤ grow (ops e') * (tiny (ops e') - 1) * terms1 env e := by
    gcongr
  linarith

/-- at most a thousand steps of relative size `x` -/
theorem pow_small {x : ℝ} (hx : 0 ≤ x) (hx1 : x ≤ 1 / 2 ^ 24) {n : Nat} (hn : n ≤ 1024) : (1 + x) ^ n ≤ 1 + 2 * n * x := by
  induction n with
  | zero => simp
  | succ n ih =>
    have h := ih (by omega)
    have hc : (n : ℝ) ≤ 1024 := by exact_mod_cast (by omega : n ≤ 1024)
    have hn0 : (0 : ℝ) ≤ n := Nat.cast_nonneg n
    rw [pow_succ]
    have h1 := mul_le_mul_of_nonneg_right h (by linarith : (0 : ℝ) ≤ 1 + x)
    have h2 : n * x ≤ 1 / 4 := by
      have : n * x ≤ 1024 * (1 / 2 ^ 24) := mul_le_mul hc hx1 hx (by norm_num)
      norm_num at this ⊢; linarith
    have h3 := mul_le_mul_of_nonneg_right h2 hx
    push_cast
    nlinarith

/-- The same with a simpler bound. -/
theorem Emits.close {env : Nat → F32} (hf : ∀ i, (env i).isFin = true) {e e' : FExpr} (h : Emits e e') (p : Plain e)
    (hn : ops e' ≤ 1024) (hm : terms1 env e ≤ 2 ^ 125) :
    (eval env e').isFin = true ∧ |(eval env e').val - real (fun i => (env i).val) e| ≤
      ops e' / 2 ^ 23 * terms env e + ops e' / 2 ^ 147 * terms1 env e := by
  have g := pow_small (x := 1 / 2 ^ 24) (by positivity) le_rfl hn
  have t := pow_small (x := 1 / 2 ^ 149) (by positivity) (by norm_num) hn
  change grow (ops e') ≤ _ at g
  change tiny (ops e') ≤ _ at t
  have g1 := grow_one (ops e')
  have t1 := tiny_one (ops e')
  have hc : ((ops e' : ℕ) : ℝ) ≤ 1024 := by exact_mod_cast hn
  have hc0 : (0 : ℝ) ≤ (ops e' : ℕ) := Nat.cast_nonneg _
  have s1 := terms1_ge env p
  have s0 := terms_nonneg env e
  have g2 : grow (ops e') ≤ 2 := by norm_num at g ⊢; linarith
  have t2 : tiny (ops e') ≤ 2 := by norm_num at t ⊢; linarith
  have a := Emits.accurate hf h p (by
    have : tiny (ops e') * terms1 env e ≤ 2 * 2 ^ 125 := mul_le_mul t2 hm (by linarith) (by norm_num)
    have := mul_le_mul g2 this (mul_nonneg (by linarith) (by linarith)) (by norm_num)
    norm_num at this ⊢; linarith)
  refine ⟨a.1, a.2.trans (add_le_add ?_ ?_)⟩
  · refine mul_le_mul_of_nonneg_right ?_ s0
    norm_num at g ⊢; linarith
  · refine mul_le_mul_of_nonneg_right ?_ (by linarith)
    have : grow (ops e') * (tiny (ops e') - 1) ≤ 2 * (tiny (ops e') - 1) := mul_le_mul_of_nonneg_right g2 (by linarith)
    norm_num at t ⊢; linarith

/-- Everything emitted for a source expression on the grid is exact. -/
theorem Emits.exact {env : Nat → F32} {k : Nat → Nat} {z : Nat} {B : Nat → ℝ} (hg : GridEnv env k B) {e e' : FExpr} (h : Emits e e') (p : Plain e)
    (hs : size B (gridLit z) e * 2 ^ unit k z e ≤ 2 ^ 24) (hu : unit k z e ≤ 149) : Is (eval env e') (real (fun i => (env i).val) e) := by
  obtain ⟨k1, k2, k3, k4⟩ := h.keeps
  have m := gridMags hg z
  rw [← k2]
  refine (grid_exact hg (k1 p) (_root_.le_trans ?_ hs) ((k3 k z).trans hu)).1
  exact mul_le_mul (k4 _ _ m) (pow_le_pow_right₀ (by norm_num) (k3 k z)) (by positivity) (size_nonneg m e)

end FExpr
end Graphene
