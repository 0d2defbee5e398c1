/- Helper lemmas about the IEEE-754 model: order, exactness of rounding, sign symmetry. -/
import Verif.Model.Fp
import Mathlib.Tactic.Ring
import Mathlib.Tactic.Linarith
import Mathlib.Tactic.NormNum

set_option exponentiation.threshold 3000

namespace Graphene

/-- Rounding a representable value is exact. -/
theorem Fmt.rnd_exact (f : Fmt) {m : Nat} (h : f.Rep m) {d : Nat} (hd : 0 < d) :
    f.rnd (m * d) d = m := by
  unfold Fmt.rnd
  rw [Nat.mul_div_cancel _ hd]
  obtain ⟨k, hk⟩ := h.2
  generalize hu : (2 : Nat) ^ f.ulpExp m = u at *
  have hu0 : 0 < u := hu ▸ Nat.two_pow_pos _
  have e : m * d = k * (d * u) := by rw [hk]; ring
  simp only [e]
  rw [Nat.mul_div_cancel _ (Nat.mul_pos hd hu0), Nat.mul_mod_left]
  have : 2 * 0 < d * u := by simpa using ⟨hd, hu0⟩
  rw [if_pos this, hk]; ring

namespace Fp
variable {f : Fmt}

theorem ofMag_exact (s : Bool) {m : Nat} (h : f.Rep m) {n d : Nat} (hd : 0 < d) (e : n = m * d) :
    ofMag f s n d = .fin s m h := by
  subst e
  unfold ofMag
  have := f.rnd_exact h hd
  split
  · congr 1
  · rename_i hn; exact absurd h.1 (by rwa [this] at hn)

theorem fin_congr {s : Bool} {m n : Nat} (h : f.Rep m) (e : m = n) :
    (Fp.fin s m h : Fp f) = .fin s n (e ▸ h) := by subst e; rfl

theorem ofMag_zero (s : Bool) {d : Nat} (hd : 0 < d) : ofMag f s 0 d = zero s :=
  ofMag_exact s (rep_zero f) hd (by simp)

/-! ### Order -/

@[simp] theorem isNaN_nan : (nan : Fp f).isNaN = true := rfl
@[simp] theorem isNaN_inf (s) : (inf s : Fp f).isNaN = false := rfl
@[simp] theorem isNaN_fin (s m h) : (fin s m h : Fp f).isNaN = false := rfl

theorem isNaN_iff {a : Fp f} : a.isNaN = true ↔ a = .nan := by cases a <;> simp

theorem lt_iff {a b : Fp f} : a.lt b = true ↔ a.isNaN = false ∧ b.isNaN = false ∧ a.key < b.key := by
  unfold lt; cases a.isNaN <;> cases b.isNaN <;> simp
theorem le_iff {a b : Fp f} : a.le b = true ↔ a.isNaN = false ∧ b.isNaN = false ∧ a.key ≤ b.key := by
  unfold le; cases a.isNaN <;> cases b.isNaN <;> simp
theorem feq_iff {a b : Fp f} : a.feq b = true ↔ a.isNaN = false ∧ b.isNaN = false ∧ a.key = b.key := by
  unfold feq; cases a.isNaN <;> cases b.isNaN <;> simp

theorem le_refl {a : Fp f} (h : a.isNaN = false) : a.le a = true := le_iff.2 ⟨h, h, Int.le_refl _⟩
theorem le_trans {a b c : Fp f} (h1 : a.le b = true) (h2 : b.le c = true) : a.le c = true := by
  rw [le_iff] at *; exact ⟨h1.1, h2.2.1, h1.2.2.trans h2.2.2⟩
theorem lt_of_lt_of_le {a b c : Fp f} (h1 : a.lt b = true) (h2 : b.le c = true) : a.lt c = true := by
  rw [le_iff, lt_iff] at *; exact ⟨h1.1, h2.2.1, h1.2.2.trans_le h2.2.2⟩
theorem lt_of_le_of_lt {a b c : Fp f} (h1 : a.le b = true) (h2 : b.lt c = true) : a.lt c = true := by
  rw [le_iff] at *; rw [lt_iff] at *; exact ⟨h1.1, h2.2.1, h1.2.2.trans_lt h2.2.2⟩
theorem le_of_lt {a b : Fp f} (h : a.lt b = true) : a.le b = true := by
  rw [le_iff]; rw [lt_iff] at h; exact ⟨h.1, h.2.1, h.2.2.le⟩
theorem le_of_not_lt {a b : Fp f} (ha : a.isNaN = false) (hb : b.isNaN = false) (h : a.lt b = false) :
    b.le a = true := by
  rw [le_iff]; refine ⟨hb, ha, ?_⟩
  by_contra hc
  have : a.lt b = true := lt_iff.2 ⟨ha, hb, not_le.1 hc⟩
  simp [this] at h
theorem not_lt_of_le {a b : Fp f} (h : a.le b = true) : b.lt a = false := by
  rw [le_iff] at h
  rw [← Bool.not_eq_true, lt_iff]; intro h'; exact absurd h'.2.2 (not_lt.2 h.2.2)
theorem lt_of_not_le {a b : Fp f} (ha : a.isNaN = false) (hb : b.isNaN = false) (h : a.le b = false) :
    b.lt a = true := by
  rw [lt_iff]; refine ⟨hb, ha, ?_⟩
  by_contra hc
  have : a.le b = true := le_iff.2 ⟨ha, hb, not_lt.1 hc⟩
  simp [this] at h
theorem le_total {a b : Fp f} (ha : a.isNaN = false) (hb : b.isNaN = false) :
    a.le b = true ∨ b.le a = true := by
  rcases Int.le_total a.key b.key with h | h
  · exact .inl (le_iff.2 ⟨ha, hb, h⟩)
  · exact .inr (le_iff.2 ⟨hb, ha, h⟩)
theorem le_left_not_nan {a b : Fp f} (h : a.le b = true) : a.isNaN = false := (le_iff.1 h).1
theorem le_right_not_nan {a b : Fp f} (h : a.le b = true) : b.isNaN = false := (le_iff.1 h).2.1
theorem feq_iff_le {a b : Fp f} : a.feq b = true ↔ a.le b = true ∧ b.le a = true := by
  rw [feq_iff, le_iff, le_iff]
  constructor
  · rintro ⟨h1, h2, h3⟩; exact ⟨⟨h1, h2, h3.le⟩, h2, h1, h3.ge⟩
  · rintro ⟨⟨h1, h2, h3⟩, _, _, h4⟩; exact ⟨h1, h2, le_antisymm h3 h4⟩

theorem sgn_abs_lt {s : Bool} {m n : Nat} (h : m < n) : sgn s m < n ∧ -(n : Int) < sgn s m := by
  unfold sgn; cases s <;> simp <;> omega

/-- every non-NaN lies between the infinities -/
theorem le_posInf {a : Fp f} (h : a.isNaN = false) : a.le (.inf false) = true := by
  rw [le_iff]; refine ⟨h, rfl, ?_⟩
  cases a with
  | nan => simp at h
  | inf s => cases s <;> simp [key, sgn]
  | fin s m hm =>
    have := (sgn_abs_lt (s := s) hm.1).1
    simp only [key]; rw [show sgn false (2 ^ f.top) = ((2 ^ f.top : Nat) : Int) from rfl]; exact this.le
theorem negInf_le {a : Fp f} (h : a.isNaN = false) : (Fp.inf true : Fp f).le a = true := by
  rw [le_iff]; refine ⟨rfl, h, ?_⟩
  cases a with
  | nan => simp at h
  | inf s => cases s <;> simp [key, sgn]
  | fin s m hm =>
    have := (sgn_abs_lt (s := s) hm.1).2
    simp only [key]; rw [show sgn true (2 ^ f.top) = -((2 ^ f.top : Nat) : Int) from rfl]; exact this.le

/-- the key determines a non-NaN value up to the sign of zero -/
theorem eq_of_key {a b : Fp f} (ha : a.isNaN = false) (hb : b.isNaN = false) (h : a.key = b.key)
    (h0 : a.key ≠ 0) : a = b := by
  cases a with
  | nan => simp at ha
  | inf s =>
    cases b with
    | nan => simp at hb
    | inf t =>
      have : (2 : Int) ^ f.top > 0 := by positivity
      cases s <;> cases t <;> simp [key, sgn] at h ⊢ <;> omega
    | fin t n hn =>
      have h1 := sgn_abs_lt (s := t) hn.1
      cases s <;> simp [key, sgn] at h h1 <;> (split_ifs at h h1 <;> omega)
  | fin s m hm =>
    have h2 := sgn_abs_lt (s := s) hm.1
    cases b with
    | nan => simp at hb
    | inf t =>
      cases t <;> simp [key, sgn] at h h2 <;> (split_ifs at h h2 <;> omega)
    | fin t n hn =>
      have : s = t ∧ m = n := by
        cases s <;> cases t <;> simp [key, sgn] at h h0 ⊢ <;> omega
      obtain ⟨rfl, rfl⟩ := this; rfl

/-! ### The `Scalar` operations on `Fp` are the IEEE ones -/
section
variable [Libm f] (a b c : Fp f)
@[simp] theorem sc_lt : (a <. b) = Fp.lt a b := rfl
@[simp] theorem sc_le : (a <=. b) = Fp.le a b := rfl
@[simp] theorem sc_feq : Scalar.feq a b = Fp.feq a b := rfl
@[simp] theorem sc_add : a +. b = Fp.add a b := rfl
@[simp] theorem sc_sub : a -. b = Fp.sub a b := rfl
@[simp] theorem sc_mul : a *. b = Fp.mul a b := rfl
@[simp] theorem sc_div : a /. b = Fp.div a b := rfl
@[simp] theorem sc_neg : Scalar.neg a = Fp.neg a := rfl
@[simp] theorem sc_abs : Scalar.abs a = Fp.abs a := rfl
@[simp] theorem sc_sqrt : Scalar.sqrt a = Fp.sqrt a := rfl
@[simp] theorem sc_isNaN : Scalar.isNaN a = Fp.isNaN a := rfl
@[simp] theorem sc_isInf : Scalar.isInf a = Fp.isInf a := rfl
@[simp] theorem sc_inf : (Scalar.inf : Fp f) = .inf false := rfl
@[simp] theorem sc_lit (n : Int) (d : Nat) : (Scalar.lit n d : Fp f) = Fp.lit n d := rfl
end

/-! ### Zero, one, signs -/

theorem f0_eq [Libm f] : (f0 : Fp f) = zero false := by
  show lit 0 1 = _
  simp only [lit]; rw [if_pos (by decide)]
  simpa using ofMag_zero (f := f) false (d := 1) (by decide)

@[simp] theorem neg_neg (a : Fp f) : neg (neg a) = a := by cases a <;> simp [neg]
@[simp] theorem abs_neg (a : Fp f) : abs (neg a) = abs a := by cases a <;> simp [neg, abs]
@[simp] theorem isNaN_neg (a : Fp f) : (neg a).isNaN = a.isNaN := by cases a <;> rfl
@[simp] theorem isNaN_abs (a : Fp f) : (abs a).isNaN = a.isNaN := by cases a <;> rfl
theorem sgn_not (s : Bool) (m : Nat) : sgn (!s) m = -sgn s m := by cases s <;> simp [sgn]
@[simp] theorem key_neg (a : Fp f) : (neg a).key = -a.key := by
  cases a <;> simp [neg, key, sgn_not]
@[simp] theorem key_zero (s : Bool) : (zero s : Fp f).key = 0 := by simp [zero, key, sgn]

theorem abs_ofMag (s t : Bool) (n d : Nat) : abs (ofMag f s n d) = abs (ofMag f t n d) := by
  unfold ofMag; split <;> rfl

theorem abs_ofInt_neg (z : Int) (d : Nat) (s t : Bool) :
    abs (ofInt (-z) d s : Fp f) = abs (ofInt z d t) := by
  unfold ofInt
  by_cases h : z = 0
  · simp [h, zero, abs]
  · simp [h, abs_ofMag (decide (0 < z)) (decide (z < 0))]

/-- `|a - b| = |b - a|`, exactly, for all operands. -/
theorem abs_sub_comm (a b : Fp f) : abs (sub a b) = abs (sub b a) := by
  cases a <;> cases b <;> try rfl
  · rename_i s t; cases s <;> cases t <;> rfl
  · rename_i s m _ t n _
    simp only [sub, neg, add]
    rw [← abs_ofInt_neg (sgn t n + sgn (!s) m) 1 (s && !t)]
    congr 2
    rw [sgn_not, sgn_not]; ring

/-- a square only depends on the absolute value -/
theorem mul_self_abs (a : Fp f) : mul a a = mul (abs a) (abs a) := by
  cases a <;> simp [mul, abs]

theorem sub_mul_self_comm (a b : Fp f) : mul (sub a b) (sub a b) = mul (sub b a) (sub b a) := by
  rw [mul_self_abs, abs_sub_comm, ← mul_self_abs]

theorem abs_le_abs_iff (a : Fp f) : (abs a).key = |a.key| := by
  cases a with
  | nan => rfl
  | inf s =>
    have : (0 : Int) ≤ 2 ^ f.top := by positivity
    cases s <;> simp [abs, key, sgn, abs_of_nonneg this]
  | fin s m h => cases s <;> simp [abs, key, sgn]

/-! ### Exact operations -/

theorem rep_one32 : binary32.Rep (2 ^ 149) := by decide +kernel
theorem rep_one64 : binary64.Rep (2 ^ 1074) := by decide +kernel

theorem lit_one32 : (lit 1 1 : F32) = .fin false (2 ^ 149) rep_one32 := by
  unfold lit; rw [if_pos (by decide)]
  exact ofMag_exact _ rep_one32 (by decide) (by decide +kernel)
theorem lit_one64 : (lit 1 1 : F64) = .fin false (2 ^ 1074) rep_one64 := by
  unfold lit; rw [if_pos (by decide)]
  exact ofMag_exact _ rep_one64 (by decide) (by decide +kernel)
theorem lit_zero : (lit 0 1 : Fp f) = zero false := by
  unfold lit; rw [if_pos (by decide)]; simpa using ofMag_zero (f := f) false (d := 1) (by decide)
theorem lit_negOne32 : (lit (-1) 1 : F32) = .fin true (2 ^ 149) rep_one32 := by
  unfold lit; rw [if_pos (by decide)]
  exact ofMag_exact _ rep_one32 (by decide) (by decide +kernel)

theorem mul_unit {u : f.Rep (2 ^ f.ubit)} (t : Bool) (a : Fp f) :
    mul a (.fin t (2 ^ f.ubit) u) = if t then neg a else a := by
  have h2 : (2 : Nat) ^ f.ubit ≠ 0 := (Nat.two_pow_pos _).ne'
  cases a with
  | nan => cases t <;> rfl
  | inf s => simp only [mul, if_neg h2]; cases t <;> cases s <;> simp [neg]
  | fin s m h =>
    simp only [mul]; rw [ofMag_exact _ h (Nat.two_pow_pos _) rfl]
    cases t <;> cases s <;> simp [neg]
theorem unit_mul {u : f.Rep (2 ^ f.ubit)} (t : Bool) (a : Fp f) :
    mul (.fin t (2 ^ f.ubit) u) a = if t then neg a else a := by
  have h2 : (2 : Nat) ^ f.ubit ≠ 0 := (Nat.two_pow_pos _).ne'
  cases a with
  | nan => cases t <;> rfl
  | inf s => simp only [mul, if_neg h2]; cases t <;> cases s <;> simp [neg]
  | fin s m h =>
    simp only [mul]; rw [ofMag_exact _ h (Nat.two_pow_pos _) (Nat.mul_comm _ _)]
    cases t <;> cases s <;> simp [neg]

theorem mul_one32 (a : F32) : mul a (lit 1 1) = a := by
  rw [lit_one32]; simpa using mul_unit (f := binary32) (u := rep_one32) false a
theorem mul_negOne32 (a : F32) : mul a (lit (-1) 1) = neg a := by
  rw [lit_negOne32]; simpa using mul_unit (f := binary32) (u := rep_one32) true a
theorem one_mul64 (a : F64) : mul (lit 1 1) a = a := by
  rw [lit_one64]; simpa using unit_mul (f := binary64) (u := rep_one64) false a
theorem one_mul32 (a : F32) : mul (lit 1 1) a = a := by
  rw [lit_one32]; simpa using unit_mul (f := binary32) (u := rep_one32) false a

theorem ofInt_exact {s : Bool} {m : Nat} (h : f.Rep m) (t : Bool) :
    (ofInt (sgn s m) 1 t : Fp f) = if m = 0 then zero t else .fin s m h := by
  unfold ofInt
  by_cases h0 : m = 0
  · subst h0; simp [sgn]
  · have : sgn s m ≠ 0 := by cases s <;> simp [sgn, h0]
    rw [if_neg this, if_neg h0]
    have hs : decide (sgn s m < 0) = s := by cases s <;> simp [sgn]; omega
    rw [hs]
    exact ofMag_exact _ h (by decide) (by cases s <;> simp [sgn])

/-- adding a zero changes at most the sign of a zero -/
theorem add_zero_fin {s : Bool} {m : Nat} (h : f.Rep m) (t : Bool) :
    add (.fin s m h) (zero t) = if m = 0 then zero (s && t) else .fin s m h := by
  simp only [add, zero]
  rw [show sgn t 0 = 0 by cases t <;> rfl, Int.add_zero, ofInt_exact h]; rfl
theorem zero_add_fin {s : Bool} {m : Nat} (h : f.Rep m) (t : Bool) :
    add (zero t) (.fin s m h) = if m = 0 then zero (t && s) else .fin s m h := by
  simp only [add, zero]
  rw [show sgn t 0 = 0 by cases t <;> rfl, Int.zero_add, ofInt_exact h]; rfl

theorem zero_mul_fin {s t : Bool} {m : Nat} (h : f.Rep m) :
    mul (zero t) (.fin s m h) = zero (t ^^ s) := by
  simp only [mul, zero, Nat.zero_mul]; exact ofMag_zero _ (Nat.two_pow_pos _)

theorem rep_widen {m : Nat} (h : binary32.Rep m) : binary64.Rep (m * 2 ^ 925) := by
  obtain ⟨h1, h2⟩ := h
  rcases Nat.eq_zero_or_pos m with h0 | h0
  · subst h0; simpa using rep_zero binary64
  have hlog : (m * 2 ^ 925).log2 = m.log2 + 925 := by
    have hp : 0 < 2 ^ 925 := Nat.two_pow_pos _
    rw [Nat.log2_eq_iff (Nat.mul_pos h0 hp).ne']
    have a1 : 2 ^ m.log2 ≤ m := Nat.log2_self_le h0.ne'
    have a2 : m < 2 ^ (m.log2 + 1) := Nat.lt_log2_self
    constructor
    · rw [Nat.pow_add]; exact Nat.mul_le_mul_right _ a1
    · rw [show m.log2 + 925 + 1 = (m.log2 + 1) + 925 by omega, Nat.pow_add]
      exact Nat.mul_lt_mul_of_pos_right a2 hp
  constructor
  · calc m * 2 ^ 925 < 2 ^ 277 * 2 ^ 925 := Nat.mul_lt_mul_of_pos_right h1 (Nat.two_pow_pos _)
      _ = 2 ^ 1202 := by rw [← Nat.pow_add]
      _ ≤ 2 ^ 2098 := Nat.pow_le_pow_right (by decide) (by decide)
  · have : binary64.ulpExp (m * 2 ^ 925) ≤ binary32.ulpExp m + 925 := by
      simp only [Fmt.ulpExp, hlog]; omega
    refine Nat.dvd_trans (Nat.pow_dvd_pow 2 this) ?_
    rw [Nat.pow_add]; exact Nat.mul_dvd_mul_right h2 _

/-- widening is exact -/
theorem widen_fin {s : Bool} {m : Nat} (h : binary32.Rep m) :
    convert binary64 (.fin s m h : F32) = .fin s (m * 2 ^ 925) (rep_widen h) := by
  simp only [convert]
  exact ofMag_exact _ _ (Nat.two_pow_pos _) (by rw [Nat.mul_assoc, ← Nat.pow_add])

/-- widening then narrowing is the identity -/
theorem narrow_widen (a : F32) : convert binary32 (convert binary64 a) = a := by
  cases a with
  | nan => rfl
  | inf s => rfl
  | fin s m h =>
    rw [widen_fin]; simp only [convert]
    exact ofMag_exact _ h (Nat.two_pow_pos _) (by rw [Nat.mul_assoc, ← Nat.pow_add])

end Fp
end Graphene
