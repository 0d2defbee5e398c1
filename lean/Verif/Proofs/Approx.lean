/-
  A small calculus of floating-point error bounds.  `Approx a x A E`: the finite datum `a`
  approximates the real `x`, where `|x| ≤ A` and the error is at most `E - A`
  (so `|a| ≤ E`).  The bound of a compound expression is obtained by composing the rules.
-/
import Verif.Proofs.Round2

set_option exponentiation.threshold 3000

namespace Graphene
namespace Fp
variable {f : Fmt}

/-- `a` approximates `x` with `|x| ≤ A` and error at most `E - A`. -/
structure Approx (a : Fp f) (x A E : ℝ) : Prop where
  fin : a.isFin = true
  hx : |x| ≤ A
  err : |a.val - x| ≤ E - A

theorem u_pos (f : Fmt) : 0 < f.u := by unfold Fmt.u; positivity
theorem eta_pos (f : Fmt) : 0 < f.eta := by unfold Fmt.eta; positivity

namespace Approx
variable {a b c : Fp f} {x y z A B C E F G : ℝ}

theorem abs_le (h : Approx a x A E) : |a.val| ≤ E := by
  have := abs_add_le (a.val - x) x
  rw [sub_add_cancel] at this
  linarith [h.hx, h.err]
theorem nonneg (h : Approx a x A E) : 0 ≤ A := (abs_nonneg _).trans h.hx
theorem le (h : Approx a x A E) : A ≤ E := by linarith [abs_nonneg (a.val - x), h.err]

theorem exact (h : a.isFin = true) : Approx a a.val |a.val| |a.val| := ⟨h, le_rfl, by simp⟩
theorem of_eq (h : a.isFin = true) (e : a.val = x) : Approx a x |x| |x| := e ▸ exact h

theorem neg (h : Approx a x A E) : Approx (Fp.neg a) (-x) A E :=
  ⟨by simpa using h.fin, by simpa using h.hx, by
    rw [val_neg, neg_sub_neg, _root_.abs_sub_comm]; exact h.err⟩

theorem add (hp : f.prec ≤ f.top) (h : Approx a x A E) (g : Approx b y B F) (hm : E + F ≤ f.maxVal) :
    Approx (Fp.add a b) (x + y) (A + B) ((1 + f.u) * (E + F)) := by
  have hs : |a.val + b.val| ≤ E + F := (abs_add_le _ _).trans (add_le_add h.abs_le g.abs_le)
  have hf : (Fp.add a b).isFin = true := (rnd_add h.fin g.fin).isFin hp (hs.trans hm)
  refine ⟨hf, (abs_add_le _ _).trans (add_le_add h.hx g.hx), ?_⟩
  have h1 := add_err h.fin g.fin hf
  have h2 : f.u * |a.val + b.val| ≤ f.u * (E + F) := mul_le_mul_of_nonneg_left hs (u_pos f).le
  have h3 := abs_add_le ((Fp.add a b).val - (a.val + b.val)) ((a.val - x) + (b.val - y))
  have h4 := abs_add_le (a.val - x) (b.val - y)
  have e : (Fp.add a b).val - (a.val + b.val) + ((a.val - x) + (b.val - y)) = (Fp.add a b).val - (x + y) := by ring
  rw [e] at h3
  have := h.err
  have := g.err
  linarith

theorem sub (hp : f.prec ≤ f.top) (h : Approx a x A E) (g : Approx b y B F) (hm : E + F ≤ f.maxVal) :
    Approx (Fp.sub a b) (x - y) (A + B) ((1 + f.u) * (E + F)) := by
  have := add hp h g.neg hm
  rwa [← sub_eq_add_neg] at this

theorem mul (hp : f.prec ≤ f.top) (h : Approx a x A E) (g : Approx b y B F) (hm : E * F ≤ f.maxVal) :
    Approx (Fp.mul a b) (x * y) (A * B) ((1 + f.u) * (E * F) + f.eta) := by
  have hA := h.nonneg
  have hB := g.nonneg
  have hs : |a.val * b.val| ≤ E * F := by
    rw [abs_mul]
    exact mul_le_mul h.abs_le g.abs_le (abs_nonneg _) ((abs_nonneg _).trans h.abs_le)
  have hr := rnd_mul h.fin g.fin
  have hf : (Fp.mul a b).isFin = true := hr.isFin hp (hs.trans hm)
  refine ⟨hf, by rw [abs_mul]; exact mul_le_mul h.hx g.hx (abs_nonneg _) hA, ?_⟩
  have h1 := hr.err_add hf
  have h2 : f.u * |a.val * b.val| ≤ f.u * (E * F) := mul_le_mul_of_nonneg_left hs (u_pos f).le
  have h5 : |a.val * b.val - x * y| ≤ E * F - A * B := by
    have e : a.val * b.val - x * y = (a.val - x) * b.val + x * (b.val - y) := by ring
    rw [e]
    refine (abs_add_le _ _).trans ?_
    rw [abs_mul, abs_mul]
    have i1 : |a.val - x| * |b.val| ≤ (E - A) * F :=
      mul_le_mul h.err g.abs_le (abs_nonneg _) ((abs_nonneg _).trans h.err)
    have i2 : |x| * |b.val - y| ≤ A * (F - B) :=
      mul_le_mul h.hx g.err (abs_nonneg _) hA
    linarith
  have h3 := abs_add_le ((Fp.mul a b).val - a.val * b.val) (a.val * b.val - x * y)
  rw [sub_add_sub_cancel] at h3
  linarith

theorem fma (hp : f.prec ≤ f.top) (h : Approx a x A E) (g : Approx b y B F) (k : Approx c z C G)
    (hm : E * F + G ≤ f.maxVal) :
    Approx (Fp.fma a b c) (x * y + z) (A * B + C) ((1 + f.u) * (E * F + G) + f.eta) := by
  have hA := h.nonneg
  have hs : |a.val * b.val + c.val| ≤ E * F + G := by
    refine (abs_add_le _ _).trans (add_le_add ?_ k.abs_le)
    rw [abs_mul]
    exact mul_le_mul h.abs_le g.abs_le (abs_nonneg _) ((abs_nonneg _).trans h.abs_le)
  have hr := rnd_fma h.fin g.fin k.fin
  have hf : (Fp.fma a b c).isFin = true := hr.isFin hp (hs.trans hm)
  refine ⟨hf, ?_, ?_⟩
  · refine (abs_add_le _ _).trans (add_le_add ?_ k.hx)
    rw [abs_mul]; exact mul_le_mul h.hx g.hx (abs_nonneg _) hA
  have h1 := hr.err_add hf
  have h2 : f.u * |a.val * b.val + c.val| ≤ f.u * (E * F + G) := mul_le_mul_of_nonneg_left hs (u_pos f).le
  have h5 : |a.val * b.val - x * y| ≤ E * F - A * B := by
    have e : a.val * b.val - x * y = (a.val - x) * b.val + x * (b.val - y) := by ring
    rw [e]
    refine (abs_add_le _ _).trans ?_
    rw [abs_mul, abs_mul]
    have i1 : |a.val - x| * |b.val| ≤ (E - A) * F :=
      mul_le_mul h.err g.abs_le (abs_nonneg _) ((abs_nonneg _).trans h.err)
    have i2 : |x| * |b.val - y| ≤ A * (F - B) :=
      mul_le_mul h.hx g.err (abs_nonneg _) hA
    linarith
  have h3 := abs_add_le ((Fp.fma a b c).val - (a.val * b.val + c.val)) ((a.val * b.val - x * y) + (c.val - z))
  have h4 := abs_add_le (a.val * b.val - x * y) (c.val - z)
  have e : (Fp.fma a b c).val - (a.val * b.val + c.val) + ((a.val * b.val - x * y) + (c.val - z))
      = (Fp.fma a b c).val - (x * y + z) := by ring
  rw [e] at h3
  have := k.err
  linarith

/-- A difference of two exact values has a purely relative error. -/
theorem sub_exact (hp : f.prec ≤ f.top) (ha : a.isFin = true) (hb : b.isFin = true)
    (hm : |a.val - b.val| ≤ f.maxVal) :
    Approx (Fp.sub a b) (a.val - b.val) |a.val - b.val| ((1 + f.u) * |a.val - b.val|) := by
  have hf := (rnd_sub ha hb).isFin hp hm
  exact ⟨hf, le_rfl, by have := sub_err ha hb hf; linarith⟩
theorem add_exact (hp : f.prec ≤ f.top) (ha : a.isFin = true) (hb : b.isFin = true)
    (hm : |a.val + b.val| ≤ f.maxVal) :
    Approx (Fp.add a b) (a.val + b.val) |a.val + b.val| ((1 + f.u) * |a.val + b.val|) := by
  have hf := (rnd_add ha hb).isFin hp hm
  exact ⟨hf, le_rfl, by have := add_err ha hb hf; linarith⟩

theorem mono (h : Approx a x A E) {E' : ℝ} (hE : E ≤ E') : Approx a x A E' :=
  ⟨h.fin, h.hx, by linarith [h.err]⟩

theorem congr (h : Approx a x A E) {x' A' : ℝ} (hx : x = x') (hA : A = A') : Approx a x' A' E :=
  hx ▸ hA ▸ h

/-- Square root of an approximated non-negative number with error `e·x + t`. -/
theorem sqrt (hp : f.prec ≤ f.ubit / 2) (ht : f.ubit + 2 ≤ f.top)
    (ha : a.isFin = true) (h0 : 0 ≤ a.val) (hx : 0 ≤ x) {e t s : ℝ} (he0 : 0 ≤ e) (he1 : e ≤ 1)
    (hs : 0 ≤ s) (hts : t ≤ s ^ 2) (h : |a.val - x| ≤ e * x + t) :
    (Fp.sqrt a).isFin = true ∧
    |(Fp.sqrt a).val - √x| ≤ (e + f.u * (1 + e)) * √x + (1 + f.u) * s := by
  obtain ⟨h1, h2⟩ := sqrt_err hp ht ha h0
  refine ⟨h1, ?_⟩
  have hX := Real.sqrt_nonneg x
  have hXs : √x ^ 2 = x := Real.sq_sqrt hx
  obtain ⟨l, r⟩ := _root_.abs_le.1 h
  have up : √a.val ≤ (1 + e) * √x + s := by
    rw [Real.sqrt_le_left (by positivity)]
    have i1 : (1 + e) * √x * s ≥ 0 := by positivity
    have i2 : e * (1 + e) * x ≥ 0 := by positivity
    have e1 : ((1 + e) * √x + s) ^ 2 = (1 + e) * (1 + e) * √x ^ 2 + 2 * ((1 + e) * √x * s) + s ^ 2 := by ring
    rw [e1, hXs]; linarith
  have lo : (1 - e) * √x - s ≤ √a.val := by
    rcases _root_.le_total ((1 - e) * √x) s with hc | hc
    · linarith [Real.sqrt_nonneg a.val]
    · apply Real.le_sqrt_of_sq_le
      have i1 : s * s ≤ (1 - e) * √x * s := mul_le_mul_of_nonneg_right hc hs
      have i2 : 0 ≤ e * (1 - e) * x := mul_nonneg (mul_nonneg he0 (by linarith)) hx
      have e1 : ((1 - e) * √x - s) ^ 2 = (1 - e) * (1 - e) * √x ^ 2 - 2 * ((1 - e) * √x * s) + s ^ 2 := by ring
      rw [e1, hXs]; linarith
  have hu := u_pos f
  have h3 : |√a.val - √x| ≤ e * √x + s := by
    rw [_root_.abs_le]; constructor <;> linarith
  have h4 : f.u * √a.val ≤ f.u * ((1 + e) * √x + s) := mul_le_mul_of_nonneg_left up hu.le
  have h5 := abs_add_le ((Fp.sqrt a).val - √a.val) (√a.val - √x)
  rw [sub_add_sub_cancel] at h5
  linarith

end Approx

/-! ### binary32 -/

@[simp] theorem u32 : binary32.u = 1 / 16777216 := by norm_num [Fmt.u]
theorem eta32 : binary32.eta = 1 / 2 ^ 150 := by norm_num [Fmt.eta]
theorem maxVal32 : binary32.maxVal = (2 ^ 24 - 1) * 2 ^ 104 := by norm_num [Fmt.maxVal]
theorem le_max32 : (2 : ℝ) ^ 127 ≤ binary32.maxVal := by rw [maxVal32]; norm_num
theorem hp32 : binary32.prec ≤ binary32.top := by decide
theorem hs32 : binary32.prec ≤ binary32.ubit / 2 := by decide
theorem ht32 : binary32.ubit + 2 ≤ binary32.top := by decide
theorem hp64 : binary64.prec ≤ binary64.top := by decide

/-- A literal `n / 2^k` with at most 24 significant bits is exact. -/
theorem lit_dyadic (n : Int) (k : Nat) (hn : n.natAbs ≤ 2 ^ 24) (hk : k ≤ 149) :
    (lit n (2 ^ k) : F32).isFin = true ∧ (lit n (2 ^ k) : F32).val = (n : ℝ) / 2 ^ k := by
  have hrep : binary32.Rep (n.natAbs * 2 ^ (149 - k)) := by
    constructor
    · refine Nat.lt_of_le_of_lt (Nat.mul_le_mul hn (Nat.pow_le_pow_right (by decide) (Nat.sub_le 149 k))) ?_
      decide +kernel
    · exact binary32.grid_pow_mul hn
  have e : (lit n (2 ^ k) : F32) = .fin (decide (n < 0)) _ hrep := by
    unfold lit; rw [if_pos (Nat.two_pow_pos _)]
    refine ofMag_exact _ hrep (Nat.two_pow_pos _) ?_
    rw [Nat.mul_assoc, ← Nat.pow_add]; congr 2; show 149 = _; omega
  rw [e]
  refine ⟨rfl, ?_⟩
  rw [val_fin, sgn_real]
  have h2 : (2 : ℝ) ^ 149 = 2 ^ (149 - k) * 2 ^ k := by rw [← pow_add]; congr 1; omega
  show _ / (2 : ℝ) ^ 149 = _
  rw [h2]
  have hp : (2 : ℝ) ^ (149 - k) ≠ 0 := by positivity
  have hq : (2 : ℝ) ^ k ≠ 0 := by positivity
  have hz : (if decide (n < 0) = true then (-1 : ℝ) else 1) * (n.natAbs : ℝ) = n := by
    have : (n.natAbs : ℝ) = |(n : ℝ)| := by rw [← Int.cast_abs, Int.abs_eq_natAbs]; simp
    rw [this]
    by_cases h : n < 0
    · have : (n : ℝ) < 0 := by exact_mod_cast h
      simp [h, abs_of_neg this]
    · have : (0 : ℝ) ≤ n := by exact_mod_cast not_lt.1 h
      simp [h, abs_of_nonneg this]
  push_cast
  rw [← mul_assoc, hz]; field_simp

theorem lit_int (n : Int) (hn : n.natAbs ≤ 2 ^ 24) :
    (lit n 1 : F32).isFin = true ∧ (lit n 1 : F32).val = (n : ℝ) := by
  have := lit_dyadic n 0 hn (by decide)
  simpa using this

end Fp
end Graphene

namespace Graphene
namespace Fp
variable {f : Fmt}

/-! ### Exact evaluation -/

/-- `a` is finite and stands for the real number `x`. -/
structure Is (a : Fp f) (x : ℝ) : Prop where
  fin : a.isFin = true
  val : a.val = x

/-- An operation whose exact result is representable returns it. -/
theorem Rnd.is {x : ℝ} {r c : Fp f} (h : Rnd x r) (hc : Is c x) : Is r x := by
  have hv := h.exact hc.fin hc.val.symm
  refine ⟨?_, hv.trans hc.val⟩
  have hf := h.feq (hc.val ▸ rnd_self hc.fin)
  obtain ⟨h1, h2⟩ := feq_iff_le.1 hf
  exact isFin_of_between hc.fin hc.fin h2 h1

namespace Is
variable {a b : Fp f} {x y : ℝ}

theorem self (h : a.isFin = true) : Is a a.val := ⟨h, rfl⟩
theorem neg (h : Is a x) : Is (Fp.neg a) (-x) := ⟨by simpa using h.fin, by rw [val_neg, h.val]⟩
theorem congr (h : Is a x) (e : x = y) : Is a y := e ▸ h
theorem zero_is : Is (zero false : Fp f) 0 := ⟨rfl, by simp⟩

theorem add_of (ha : Is a x) (hb : Is b y) {c : Fp f} (hc : Is c (x + y)) : Is (Fp.add a b) (x + y) := by
  have := rnd_add ha.fin hb.fin
  rw [ha.val, hb.val] at this
  exact this.is hc
theorem sub_of (ha : Is a x) (hb : Is b y) {c : Fp f} (hc : Is c (x - y)) : Is (Fp.sub a b) (x - y) := by
  have := rnd_sub ha.fin hb.fin
  rw [ha.val, hb.val] at this
  exact this.is hc
theorem mul_of (ha : Is a x) (hb : Is b y) {c : Fp f} (hc : Is c (x * y)) : Is (Fp.mul a b) (x * y) := by
  have := rnd_mul ha.fin hb.fin
  rw [ha.val, hb.val] at this
  exact this.is hc

theorem add_zero (ha : Is a x) (hb : Is b 0) : Is (Fp.add a b) x := by
  have := add_of ha hb (c := a) (ha.congr (by ring)); exact this.congr (by ring)
theorem zero_add (ha : Is a 0) (hb : Is b x) : Is (Fp.add a b) x := by
  have := add_of ha hb (c := b) (hb.congr (by ring)); exact this.congr (by ring)
theorem sub_zero (ha : Is a x) (hb : Is b 0) : Is (Fp.sub a b) x := by
  have := sub_of ha hb (c := a) (ha.congr (by ring)); exact this.congr (by ring)
theorem mul_zero (ha : Is a x) (hb : Is b 0) : Is (Fp.mul a b) 0 := by
  have := mul_of ha hb (c := b) (hb.congr (by ring)); exact this.congr (by ring)
theorem zero_mul (ha : Is a 0) (hb : Is b x) : Is (Fp.mul a b) 0 := by
  have := mul_of ha hb (c := a) (ha.congr (by ring)); exact this.congr (by ring)
theorem mul_one (ha : Is a x) (hb : Is b 1) : Is (Fp.mul a b) x := by
  have := mul_of ha hb (c := a) (ha.congr (by ring)); exact this.congr (by ring)
theorem one_mul (ha : Is a 1) (hb : Is b x) : Is (Fp.mul a b) x := by
  have := mul_of ha hb (c := b) (hb.congr (by ring)); exact this.congr (by ring)

/-- equal real numbers compare equal -/
theorem feq (ha : Is a x) (hb : Is b x) : Fp.feq a b = true :=
  (feq_iff_val (isNaN_of_isFin ha.fin) (isNaN_of_isFin hb.fin)).2 (ha.val.trans hb.val.symm)
end Is

/-- Adding data that stand for the same numbers gives the same number. -/
theorem add_val_congr {a b a' b' : Fp f} (ha : a.isFin = true) (hb : b.isFin = true)
    (ha' : a'.isFin = true) (hb' : b'.isFin = true) (h1 : a.val = a'.val) (h2 : b.val = b'.val) :
    Fp.feq (Fp.add a b) (Fp.add a' b') = true := by
  have r1 := rnd_add ha hb
  have r2 := rnd_add ha' hb'
  rw [h1, h2] at r1
  exact r1.feq r2
theorem mul_val_congr {a b a' b' : Fp f} (ha : a.isFin = true) (hb : b.isFin = true)
    (ha' : a'.isFin = true) (hb' : b'.isFin = true) (h1 : a.val = a'.val) (h2 : b.val = b'.val) :
    Fp.feq (Fp.mul a b) (Fp.mul a' b') = true := by
  have r1 := rnd_mul ha hb
  have r2 := rnd_mul ha' hb'
  rw [h1, h2] at r1
  exact r1.feq r2

end Fp
end Graphene
