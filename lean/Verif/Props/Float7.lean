/-
  C92: interpolation in floating point (IEEE binary32, computed in binary64 as the code does).
-/
import Verif.Model.Point
import Verif.Proofs.Round3
import Verif.Proofs.Approx
import Verif.Props.Points
import Verif.Props.Float6
import Verif.Proofs.KDecide

set_option exponentiation.threshold 3000

namespace Graphene
open Fp Spec

theorem widen_is {a : F32} (h : a.isFin = true) : Is (Fp.convert binary64 a) a.val := by
  cases a with
  | nan => simp [Fp.isFin] at h
  | inf s => simp [Fp.isFin] at h
  | fin s m hm =>
    rw [widen_fin]
    refine ⟨rfl, ?_⟩
    rw [val_fin, val_fin, sgn_real, sgn_real]
    change _ / (2 : ℝ) ^ 1074 = _ / (2 : ℝ) ^ 149
    rw [div_eq_div_iff (by positivity) (by positivity)]
    push_cast
    rw [show (1074 : ℕ) = 925 + 149 from rfl, pow_add]; ring

theorem abs_val_le_max {a : F32} (h : a.isFin = true) : |a.val| ≤ 2 ^ 128 := by
  cases a with
  | nan => simp [Fp.isFin] at h
  | inf s => simp [Fp.isFin] at h
  | fin s m hm =>
    have h1 : (m : ℝ) < 2 ^ 277 := by exact_mod_cast hm.1
    rw [val_fin, sgn_real, abs_div, abs_mul, abs_of_pos (unit_pos _)]
    have e : |(if s = true then (-1 : ℝ) else 1)| = 1 := by cases s <;> simp
    rw [e, _root_.one_mul, Nat.abs_cast]
    change (m : ℝ) / 2 ^ 149 ≤ _
    rw [div_le_iff₀ (by positivity), ← pow_add]
    exact h1.le

theorem max64 : (2 : ℝ) ^ 131 ≤ binary64.maxVal := by
  unfold Fmt.maxVal
  show (2 : ℝ) ^ 131 ≤ (2 ^ 53 - 1) * 2 ^ (2098 - 53) / 2 ^ 1074
  rw [le_div_iff₀ (by positivity), ← pow_add]
  have h1 : (2 : ℝ) ^ (131 + 1074) ≤ 2 ^ (2098 - 53) := pow_le_pow_right₀ (by norm_num) (by norm_num)
  have h2 : (1 : ℝ) ≤ 2 ^ 53 - 1 := by norm_num
  have h3 : (0 : ℝ) < 2 ^ (2098 - 53) := by positivity
  calc (2 : ℝ) ^ (131 + 1074) ≤ 2 ^ (2098 - 53) := h1
    _ = 1 * 2 ^ (2098 - 53) := (_root_.one_mul _).symm
    _ ≤ _ := mul_le_mul_of_nonneg_right h2 h3.le

/-- the double computation of `flerpf` -/
def lerp64 (t A B : F64) : F64 := Fp.add (Fp.mul (Fp.sub (Fp.lit 1 1) t) A) (Fp.mul t B)

theorem one64_is : Is (Fp.lit 1 1 : F64) 1 := by
  rw [lit_one64]
  refine ⟨rfl, ?_⟩
  rw [val_fin, sgn_real]
  simp only [Bool.false_eq_true, if_false, _root_.one_mul]
  rw [Nat.cast_pow]; exact div_self (by positivity)

theorem eta_le {a : F32} (h : a.isFin = true) (h0 : a.val ≠ 0) : binary64.eta ≤ binary64.u * |a.val| := by
  cases a with
  | nan => simp [Fp.isFin] at h
  | inf s => simp [Fp.isFin] at h
  | fin s m hm =>
    rw [val_fin, sgn_real] at *
    have hm0 : (1 : ℝ) ≤ m := by
      rcases Nat.eq_zero_or_pos m with g | g
      · subst g; simp at h0
      · exact_mod_cast g
    have e : |(if s = true then (-1 : ℝ) else 1) * m| = m := by cases s <;> simp
    rw [abs_div, e, abs_of_pos (unit_pos _)]
    unfold Fmt.eta Fmt.u
    change 1 / 2 / (2 : ℝ) ^ 1074 ≤ 1 / 2 ^ 53 * (m / 2 ^ 149)
    have h1 : 1 / 2 / (2 : ℝ) ^ 1074 ≤ 1 / 2 ^ 53 * (1 / 2 ^ 149) := by
      rw [div_div, ← pow_succ', one_div_mul_one_div, ← pow_add]
      exact one_div_le_one_div_of_le (by positivity) (pow_le_pow_right₀ (by norm_num) (by norm_num))
    refine h1.trans ?_
    have : (1 : ℝ) / 2 ^ 149 ≤ m / 2 ^ 149 := div_le_div_of_nonneg_right hm0 (by positivity)
    exact mul_le_mul_of_nonneg_left this (by positivity)

/-- a factor of an interpolation: a finite double between 0 and 1 -/
def Spec.Factor (t : F64) : Prop := t.isFin = true ∧ 0 ≤ t.val ∧ t.val ≤ 1

variable {t : F64}

theorem compl_spec (ht : Factor t) :
    let c := Fp.sub (Fp.lit 1 1) t
    c.isFin = true ∧ 0 ≤ c.val ∧ c.val ≤ 1 ∧ |c.val - (1 - t.val)| ≤ binary64.u * (1 - t.val) := by
  intro c
  have r := rnd_sub one64_is.fin ht.1
  rw [one64_is.val] at r
  have lo := r.ge_of (a := zero false) rfl (by rw [val_zero]; linarith [ht.2.2])
  have hi := r.le_of one64_is.fin (by rw [one64_is.val]; linarith [ht.2.1])
  have cf : c.isFin = true := isFin_of_between rfl one64_is.fin lo hi
  rw [le_iff_val rfl (isNaN_of_isFin cf), val_zero] at lo
  rw [le_iff_val (isNaN_of_isFin cf) (isNaN_of_isFin one64_is.fin), one64_is.val] at hi
  refine ⟨cf, lo, hi, ?_⟩
  have := sub_err one64_is.fin ht.1 cf
  rwa [one64_is.val, abs_of_nonneg (show 0 ≤ 1 - t.val by linarith [ht.2.2])] at this

/-- a product with a factor in [0,1] -/
theorem scaled_spec {f : Fmt} {p A : Fp f} (hp : p.isFin = true) (p0 : 0 ≤ p.val) (p1 : p.val ≤ 1)
    (hA : A.isFin = true) :
    (Fp.mul p A).isFin = true ∧ |(Fp.mul p A).val| ≤ |A.val| := by
  have r := rnd_mul hp hA
  have hb : |p.val * A.val| ≤ |A.val| := by
    rw [abs_mul, abs_of_nonneg p0]; nlinarith [abs_nonneg A.val]
  have hb' := _root_.abs_le.1 hb
  have lo := r.ge_of (a := Fp.neg (Fp.abs A)) (by simpa using hA) (by simpa using hb'.1)
  have hi := r.le_of (a := Fp.abs A) (by simpa using hA) (by simpa using hb'.2)
  have f := isFin_of_between (a := Fp.neg (Fp.abs A)) (b := Fp.abs A) (by simpa using hA) (by simpa using hA) lo hi
  rw [le_iff_val (isNaN_of_isFin (by simpa using hA)) (isNaN_of_isFin f)] at lo
  rw [le_iff_val (isNaN_of_isFin f) (isNaN_of_isFin (by simpa using hA))] at hi
  simp only [val_neg, val_abs] at lo hi
  exact ⟨f, _root_.abs_le.2 ⟨lo, hi⟩⟩

theorem lerp64_fin (ht : Factor t) {A B : F64} (hA : A.isFin = true) (hB : B.isFin = true)
    (bA : |A.val| ≤ 2 ^ 128) (bB : |B.val| ≤ 2 ^ 128) : (lerp64 t A B).isFin = true := by
  obtain ⟨cf, c0, c1, -⟩ := compl_spec ht
  obtain ⟨xf, xb⟩ := scaled_spec cf c0 c1 hA
  obtain ⟨yf, yb⟩ := scaled_spec ht.1 ht.2.1 ht.2.2 hB
  refine (rnd_add xf yf).isFin hp64 ((abs_add_le _ _).trans (_root_.le_trans ?_ max64))
  calc _ ≤ (2 : ℝ) ^ 128 + 2 ^ 128 := add_le_add (xb.trans bA) (yb.trans bB)
    _ ≤ 2 ^ 131 := by norm_num

theorem lerp64_mono (ht : Factor t) {A B A' B' : F64} (hA : A.isFin = true) (hB : B.isFin = true)
    (hA' : A'.isFin = true) (hB' : B'.isFin = true) (h1 : A.val ≤ A'.val) (h2 : B.val ≤ B'.val)
    (bA : |A.val| ≤ 2 ^ 128) (bB : |B.val| ≤ 2 ^ 128) (bA' : |A'.val| ≤ 2 ^ 128) (bB' : |B'.val| ≤ 2 ^ 128) :
    (lerp64 t A B).val ≤ (lerp64 t A' B').val := by
  obtain ⟨cf, c0, c1, -⟩ := compl_spec ht
  have xf := (scaled_spec cf c0 c1 hA).1
  have yf := (scaled_spec ht.1 ht.2.1 ht.2.2 hB).1
  have xf' := (scaled_spec cf c0 c1 hA').1
  have yf' := (scaled_spec ht.1 ht.2.1 ht.2.2 hB').1
  have m1 := (rnd_mul cf hA).mono (rnd_mul cf hA') (mul_le_mul_of_nonneg_left h1 c0)
  have m2 := (rnd_mul ht.1 hB).mono (rnd_mul ht.1 hB') (mul_le_mul_of_nonneg_left h2 ht.2.1)
  rw [le_iff_val (isNaN_of_isFin xf) (isNaN_of_isFin xf')] at m1
  rw [le_iff_val (isNaN_of_isFin yf) (isNaN_of_isFin yf')] at m2
  have := (rnd_add xf yf).mono (rnd_add xf' yf') (add_le_add m1 m2)
  exact (le_iff_val (isNaN_of_isFin (lerp64_fin ht hA hB bA bB))
    (isNaN_of_isFin (lerp64_fin ht hA' hB' bA' bB'))).1 this

theorem u64 : binary64.u = 1 / 2 ^ 53 := rfl

/-- error of the double computation, all operands being floats -/
theorem lerp64_err (ht : Factor t) {a b : F32} (ha : a.isFin = true) (hb : b.isFin = true) :
    |(lerp64 t (Fp.convert binary64 a) (Fp.convert binary64 b)).val - ((1 - t.val) * a.val + t.val * b.val)|
      ≤ 6 * (binary64.u * |a.val| + binary64.u * |b.val|) := by
  have A := widen_is ha
  have B := widen_is hb
  have bA := abs_val_le_max ha
  have bB := abs_val_le_max hb
  obtain ⟨cf, c0, c1, ce⟩ := compl_spec ht
  obtain ⟨xf, xb⟩ := scaled_spec cf c0 c1 A.fin
  obtain ⟨yf, yb⟩ := scaled_spec ht.1 ht.2.1 ht.2.2 B.fin
  have sf := lerp64_fin ht A.fin B.fin (by rw [A.val]; exact bA) (by rw [B.val]; exact bB)
  have se := add_err xf yf sf
  set c := Fp.sub (Fp.lit 1 1) t
  have u0 := u_pos binary64
  -- the products, allowing for underflow
  have prod : ∀ {p : F64} {v : F32}, p.isFin = true → 0 ≤ p.val → p.val ≤ 1 → v.isFin = true →
      |(Fp.mul p (Fp.convert binary64 v)).val - p.val * v.val| ≤ 2 * (binary64.u * |v.val|) := by
    intro p v pf p0 p1 hv
    have V := widen_is hv
    have r := rnd_mul pf V.fin
    have f := (scaled_spec pf p0 p1 V.fin).1
    rw [V.val] at r
    by_cases h0 : v.val = 0
    · rw [h0] at r ⊢
      have := r.exact (a := zero false) rfl (by simp)
      rw [this]; simp
    · have e := r.err_add f
      have := eta_le hv h0
      rw [abs_mul, abs_of_nonneg p0] at e
      have : binary64.u * (p.val * |v.val|) ≤ binary64.u * |v.val| :=
        mul_le_mul_of_nonneg_left (by nlinarith [abs_nonneg v.val]) u0.le
      linarith
  have ex := prod cf c0 c1 ha
  have ey := prod ht.1 ht.2.1 ht.2.2 hb
  rw [A.val] at xb
  rw [B.val] at yb
  set x := Fp.mul c (Fp.convert binary64 a)
  set y := Fp.mul t (Fp.convert binary64 b)
  have e0 : |(c.val - (1 - t.val)) * a.val| ≤ binary64.u * |a.val| := by
    rw [abs_mul]
    have : binary64.u * (1 - t.val) ≤ binary64.u := by nlinarith [ht.2.1]
    exact mul_le_mul_of_nonneg_right (ce.trans this) (abs_nonneg _)
  have es : binary64.u * |x.val + y.val| ≤ binary64.u * |a.val| + binary64.u * |b.val| := by
    rw [← mul_add]
    exact mul_le_mul_of_nonneg_left ((abs_add_le _ _).trans (add_le_add xb yb)) u0.le
  have split : (lerp64 t (Fp.convert binary64 a) (Fp.convert binary64 b)).val -
      ((1 - t.val) * a.val + t.val * b.val) =
      ((Fp.add x y).val - (x.val + y.val)) + (x.val - c.val * a.val) + (y.val - t.val * b.val) +
      (c.val - (1 - t.val)) * a.val := by
    show (Fp.add x y).val - _ = _
    ring
  rw [split]
  have t1 := abs_add_le (((Fp.add x y).val - (x.val + y.val)) + (x.val - c.val * a.val) + (y.val - t.val * b.val))
    ((c.val - (1 - t.val)) * a.val)
  have t2 := abs_add_le (((Fp.add x y).val - (x.val + y.val)) + (x.val - c.val * a.val)) (y.val - t.val * b.val)
  have t3 := abs_add_le ((Fp.add x y).val - (x.val + y.val)) (x.val - c.val * a.val)
  have n1 : 0 ≤ binary64.u * |a.val| := mul_nonneg u0.le (abs_nonneg _)
  have n2 : 0 ≤ binary64.u * |b.val| := mul_nonneg u0.le (abs_nonneg _)
  linarith

/-- interpolating between equal values gives that value, whatever the factor -/
theorem flerpf_const [Libm binary64] (ht : Factor t) {a : F32} (ha : a.isFin = true) :
    (flerpf a a t).isFin = true ∧ (flerpf a a t).val = a.val := by
  rw [flerpf_fp]
  have A := widen_is ha
  have bA := abs_val_le_max ha
  have sf := lerp64_fin ht A.fin A.fin (by rw [A.val]; exact bA) (by rw [A.val]; exact bA)
  have e := lerp64_err ht ha ha
  have e1 : (1 - t.val) * a.val + t.val * a.val = a.val := by ring
  rw [e1, u64] at e
  refine (rnd_convert sf).of_near ha ?_
  show _ * (2 : ℝ) ^ (24 + 2) ≤ _
  have := abs_nonneg a.val
  norm_num at e ⊢
  linarith

/-- interpolation stays between its operands -/
theorem flerpf_between [Libm binary64] (ht : Factor t) {a b : F32} (ha : a.isFin = true) (hb : b.isFin = true) :
    (flerpf a b t).isFin = true ∧
    Min.min a.val b.val ≤ (flerpf a b t).val ∧ (flerpf a b t).val ≤ Max.max a.val b.val := by
  have A := widen_is ha
  have B := widen_is hb
  have bA := abs_val_le_max ha
  have bB := abs_val_le_max hb
  have lower : ∀ l : F32, l.isFin = true → l.val ≤ a.val → l.val ≤ b.val →
      Fp.le l (flerpf a b t) = true := by
    intro l hl h1 h2
    have L := widen_is hl
    have bL := abs_val_le_max hl
    have m := lerp64_mono ht L.fin L.fin A.fin B.fin (by rw [L.val, A.val]; exact h1) (by rw [L.val, B.val]; exact h2)
      (by rw [L.val]; exact bL) (by rw [L.val]; exact bL) (by rw [A.val]; exact bA) (by rw [B.val]; exact bB)
    obtain ⟨kf, kv⟩ := flerpf_const ht hl
    have := (rnd_convert (g := binary32) (lerp64_fin ht L.fin L.fin (by rw [L.val]; exact bL) (by rw [L.val]; exact bL))).mono
      (rnd_convert (g := binary32) (lerp64_fin ht A.fin B.fin (by rw [A.val]; exact bA) (by rw [B.val]; exact bB))) m
    rw [flerpf_fp] at kf kv ⊢
    have n : Fp.isNaN (Fp.convert binary32 (lerp64 t (Fp.convert binary64 a) (Fp.convert binary64 b))) = false :=
      (rnd_convert (g := binary32) (lerp64_fin ht A.fin B.fin (by rw [A.val]; exact bA) (by rw [B.val]; exact bB))).not_nan
    replace this := (le_iff_val (isNaN_of_isFin kf) n).1 this
    refine (le_iff_val (isNaN_of_isFin hl) n).2 ?_
    rw [← kv]; exact this
  have upper : ∀ l : F32, l.isFin = true → a.val ≤ l.val → b.val ≤ l.val →
      Fp.le (flerpf a b t) l = true := by
    intro l hl h1 h2
    have L := widen_is hl
    have bL := abs_val_le_max hl
    have m := lerp64_mono ht A.fin B.fin L.fin L.fin (by rw [L.val, A.val]; exact h1) (by rw [L.val, B.val]; exact h2)
      (by rw [A.val]; exact bA) (by rw [B.val]; exact bB) (by rw [L.val]; exact bL) (by rw [L.val]; exact bL)
    obtain ⟨kf, kv⟩ := flerpf_const ht hl
    have := (rnd_convert (g := binary32) (lerp64_fin ht A.fin B.fin (by rw [A.val]; exact bA) (by rw [B.val]; exact bB))).mono
      (rnd_convert (g := binary32) (lerp64_fin ht L.fin L.fin (by rw [L.val]; exact bL) (by rw [L.val]; exact bL))) m
    rw [flerpf_fp] at kf kv ⊢
    have n : Fp.isNaN (Fp.convert binary32 (lerp64 t (Fp.convert binary64 a) (Fp.convert binary64 b))) = false :=
      (rnd_convert (g := binary32) (lerp64_fin ht A.fin B.fin (by rw [A.val]; exact bA) (by rw [B.val]; exact bB))).not_nan
    replace this := (le_iff_val n (isNaN_of_isFin kf)).1 this
    refine (le_iff_val n (isNaN_of_isFin hl)).2 ?_
    rw [← kv]; exact this
  rcases _root_.le_total a.val b.val with h | h
  · have l := lower a ha le_rfl h
    have u := upper b hb h le_rfl
    have f := isFin_of_between ha hb l u
    rw [le_iff_val (isNaN_of_isFin ha) (isNaN_of_isFin f)] at l
    rw [le_iff_val (isNaN_of_isFin f) (isNaN_of_isFin hb)] at u
    rw [min_eq_left h, max_eq_right h]
    exact ⟨f, l, u⟩
  · have l := lower b hb h le_rfl
    have u := upper a ha le_rfl h
    have f := isFin_of_between hb ha l u
    rw [le_iff_val (isNaN_of_isFin hb) (isNaN_of_isFin f)] at l
    rw [le_iff_val (isNaN_of_isFin f) (isNaN_of_isFin ha)] at u
    rw [min_eq_right h, max_eq_left h]
    exact ⟨f, l, u⟩


/-! ### the statements -/

/-- `r` lies between `a` and `b` (and is finite) -/
def Spec.Between (r a b : F32) : Prop :=
  r.isFin = true ∧ Min.min a.val b.val ≤ r.val ∧ r.val ≤ Max.max a.val b.val

/-- `r` is the interpolation of `a` and `b` by `t`, up to one rounding to float and a term 2^26 times smaller -/
def Spec.NearLerp (r a b : F32) (t : F64) : Prop :=
  |r.val - ((1 - t.val) * a.val + t.val * b.val)| ≤
    2⁻¹ ^ 24 * |(1 - t.val) * a.val + t.val * b.val| + 2⁻¹ ^ 50 * (|a.val| + |b.val|) + 2⁻¹ ^ 150

theorem flerpf_near [Libm binary64] (ht : Factor t) {a b : F32} (ha : a.isFin = true) (hb : b.isFin = true) :
    NearLerp (flerpf a b t) a b t := by
  have hf := (flerpf_between ht ha hb).1
  have A := widen_is ha
  have B := widen_is hb
  have bA := abs_val_le_max ha
  have bB := abs_val_le_max hb
  have lf := lerp64_fin ht A.fin B.fin (by rw [A.val]; exact bA) (by rw [B.val]; exact bB)
  have e := lerp64_err ht ha hb
  unfold NearLerp
  rw [flerpf_fp] at hf ⊢
  have r := (rnd_convert (g := binary32) lf).err_add hf
  rw [u32, eta32] at r
  rw [u64] at e
  change |(Fp.convert binary32 (lerp64 t _ _)).val - _| ≤ _
  change |(Fp.convert binary32 (lerp64 t _ _)).val - (lerp64 t _ _).val| ≤ _ at r
  set y := (lerp64 t (Fp.convert binary64 a) (Fp.convert binary64 b)).val
  set x := (1 - t.val) * a.val + t.val * b.val
  have h1 := abs_add_le ((Fp.convert binary32 (lerp64 t (Fp.convert binary64 a) (Fp.convert binary64 b)) : F32).val - y) (y - x)
  rw [sub_add_sub_cancel] at h1
  have h2 := abs_add_le (y - x) x
  rw [sub_add_cancel] at h2
  have := abs_nonneg a.val
  have := abs_nonneg b.val
  generalize |(Fp.convert binary32 (lerp64 t (Fp.convert binary64 a) (Fp.convert binary64 b)) : F32).val - x| = q1 at *
  generalize |(Fp.convert binary32 (lerp64 t (Fp.convert binary64 a) (Fp.convert binary64 b)) : F32).val - y| = q2 at *
  generalize |y - x| = q3 at *
  generalize |y| = q4 at *
  generalize |x| = q5 at *
  norm_num at r e ⊢
  linarith

variable [Libm binary32] [Libm binary64]

omit [Libm binary32] in
/-- C92: points -/
theorem C92_point (ht : Factor t) (a b : Point F32) (ax : a.x.isFin = true) (ay : a.y.isFin = true)
    (bx : b.x.isFin = true) (bY : b.y.isFin = true) :
    Between (Point.interpolate a b t).x a.x b.x ∧ Between (Point.interpolate a b t).y a.y b.y ∧
    NearLerp (Point.interpolate a b t).x a.x b.x t ∧ NearLerp (Point.interpolate a b t).y a.y b.y t :=
  ⟨flerpf_between ht ax bx, flerpf_between ht ay bY, flerpf_near ht ax bx, flerpf_near ht ay bY⟩

omit [Libm binary32] in
/-- C92: 3D points -/
theorem C92_point3d (ht : Factor t) (a b : Point3D F32) (ax : a.x.isFin = true) (ay : a.y.isFin = true)
    (az : a.z.isFin = true) (bx : b.x.isFin = true) (bY : b.y.isFin = true) (bz : b.z.isFin = true) :
    Between (Point3D.interpolate a b t).x a.x b.x ∧ Between (Point3D.interpolate a b t).y a.y b.y ∧
    Between (Point3D.interpolate a b t).z a.z b.z ∧
    NearLerp (Point3D.interpolate a b t).x a.x b.x t ∧ NearLerp (Point3D.interpolate a b t).y a.y b.y t ∧
    NearLerp (Point3D.interpolate a b t).z a.z b.z t :=
  ⟨flerpf_between ht ax bx, flerpf_between ht ay bY, flerpf_between ht az bz,
    flerpf_near ht ax bx, flerpf_near ht ay bY, flerpf_near ht az bz⟩

omit [Libm binary32] in
/-- C92: sizes -/
theorem C92_size (ht : Factor t) (a b : Size F32) (aw : a.width.isFin = true) (ah : a.height.isFin = true)
    (bw : b.width.isFin = true) (bh : b.height.isFin = true) :
    Between (Size.interpolate a b t).width a.width b.width ∧
    Between (Size.interpolate a b t).height a.height b.height ∧
    NearLerp (Size.interpolate a b t).width a.width b.width t ∧
    NearLerp (Size.interpolate a b t).height a.height b.height t :=
  ⟨flerpf_between ht aw bw, flerpf_between ht ah bh, flerpf_near ht aw bw, flerpf_near ht ah bh⟩

/-- C92: rectangles with sizes that are not negative; the result is again such a rectangle -/
theorem C92_rect (ht : Factor t) {a b : Rect F32} (ha : NormalRect a) (hb : NormalRect b) :
    NormalRect (Rect.interpolate a b t) ∧
    Between (Rect.interpolate a b t).origin.x a.origin.x b.origin.x ∧
    Between (Rect.interpolate a b t).origin.y a.origin.y b.origin.y ∧
    Between (Rect.interpolate a b t).size.width a.size.width b.size.width ∧
    Between (Rect.interpolate a b t).size.height a.size.height b.size.height ∧
    NearLerp (Rect.interpolate a b t).origin.x a.origin.x b.origin.x t ∧
    NearLerp (Rect.interpolate a b t).origin.y a.origin.y b.origin.y t ∧
    NearLerp (Rect.interpolate a b t).size.width a.size.width b.size.width t ∧
    NearLerp (Rect.interpolate a b t).size.height a.size.height b.size.height t := by
  unfold Rect.interpolate
  rw [normalize_id ha, normalize_id hb]
  obtain ⟨⟨a1, a2, a3, a4⟩, a5, a6⟩ := ha
  obtain ⟨⟨b1, b2, b3, b4⟩, b5, b6⟩ := hb
  have x := flerpf_between ht a1 b1
  have y := flerpf_between ht a2 b2
  have w := flerpf_between ht a3 b3
  have h := flerpf_between ht a4 b4
  exact ⟨⟨⟨x.1, y.1, w.1, h.1⟩, (le_min a5 b5).trans w.2.1, (le_min a6 b6).trans h.2.1⟩, x, y, w, h,
    flerpf_near ht a1 b1, flerpf_near ht a2 b2, flerpf_near ht a3 b3, flerpf_near ht a4 b4⟩

/-! ### vectors: computed in float throughout -/

omit [Libm binary32] [Libm binary64] in
theorem one32_is : Is (Fp.lit 1 1 : F32) 1 := by
  have := lit_int 1 (by decide)
  exact ⟨this.1, by rw [this.2]; norm_num⟩

omit [Libm binary32] [Libm binary64] in
theorem compl32 {s : F32} (hs : s.isFin = true) (s0 : 0 ≤ s.val) (s1 : s.val ≤ 1) :
    let c := Fp.sub (Fp.lit 1 1) s
    c.isFin = true ∧ 0 ≤ c.val ∧ c.val ≤ 1 ∧ |c.val - (1 - s.val)| ≤ binary32.u * (1 - s.val) := by
  intro c
  have r := rnd_sub one32_is.fin hs
  rw [one32_is.val] at r
  have lo := r.ge_of (a := zero false) rfl (by rw [val_zero]; linarith)
  have hi := r.le_of one32_is.fin (by rw [one32_is.val]; linarith)
  have cf : c.isFin = true := isFin_of_between rfl one32_is.fin lo hi
  rw [le_iff_val rfl (isNaN_of_isFin cf), val_zero] at lo
  rw [le_iff_val (isNaN_of_isFin cf) (isNaN_of_isFin one32_is.fin), one32_is.val] at hi
  refine ⟨cf, lo, hi, ?_⟩
  have := sub_err one32_is.fin hs cf
  rwa [one32_is.val, abs_of_nonneg (show 0 ≤ 1 - s.val by linarith)] at this

/-- one lane of a vector interpolation -/
def vlerp (t : F64) (a b : F32) : F32 :=
  Fp.add (Fp.mul (Fp.sub (Fp.lit 1 1) (Fp.convert binary32 t)) a) (Fp.mul (Fp.convert binary32 t) b)

/-- the accuracy of vector interpolation: five roundings of the larger operand -/
def Spec.NearLerpV (r a b : F32) (t : F64) : Prop :=
  r.isFin = true ∧ |r.val - ((1 - t.val) * a.val + t.val * b.val)| ≤
    5 * 2⁻¹ ^ 24 * (|a.val| + |b.val|) + 2⁻¹ ^ 149

omit [Libm binary32] [Libm binary64] in
theorem vlerp_near (ht : Factor t) {a b : F32} (ha : a.isFin = true) (hb : b.isFin = true)
    (bnd : |a.val| + |b.val| ≤ 2 ^ 127) : NearLerpV (vlerp t a b) a b t := by
  have r := rnd_convert (g := binary32) ht.1
  have lo := r.ge_of (a := zero false) rfl (by rw [val_zero]; exact ht.2.1)
  have hi := r.le_of one32_is.fin (by rw [one32_is.val]; exact ht.2.2)
  have sf := isFin_of_between rfl one32_is.fin lo hi
  rw [le_iff_val rfl (isNaN_of_isFin sf), val_zero] at lo
  rw [le_iff_val (isNaN_of_isFin sf) (isNaN_of_isFin one32_is.fin), one32_is.val] at hi
  have se := r.err_add sf
  unfold vlerp NearLerpV
  set s := (Fp.convert binary32 t : F32)
  obtain ⟨cf, c0, c1, ce⟩ := compl32 sf lo hi
  set c := Fp.sub (Fp.lit 1 1) s
  obtain ⟨xf, xb⟩ := scaled_spec cf c0 c1 ha
  obtain ⟨yf, yb⟩ := scaled_spec sf lo hi hb
  have xe := (rnd_mul cf ha).err_add xf
  have ye := (rnd_mul sf hb).err_add yf
  set x := Fp.mul c a
  set y := Fp.mul s b
  have zb : |x.val + y.val| ≤ |a.val| + |b.val| := (abs_add_le _ _).trans (add_le_add xb yb)
  have zf : (Fp.add x y).isFin = true := (rnd_add xf yf).isFin hp32 (zb.trans (bnd.trans le_max32))
  have ze := add_err xf yf zf
  refine ⟨zf, ?_⟩
  set z := Fp.add x y
  have u0 := u_pos binary32
  have n1 := abs_nonneg a.val
  have n2 := abs_nonneg b.val
  have ze' : |z.val - (x.val + y.val)| ≤ binary32.u * (|a.val| + |b.val|) :=
    ze.trans (mul_le_mul_of_nonneg_left zb u0.le)
  have xe' : |x.val - c.val * a.val| ≤ binary32.u * |a.val| + binary32.eta := by
    refine xe.trans (add_le_add_left ?_ _)
    rw [abs_mul, abs_of_nonneg c0]
    exact mul_le_mul_of_nonneg_left (by nlinarith) u0.le
  have ye' : |y.val - s.val * b.val| ≤ binary32.u * |b.val| + binary32.eta := by
    refine ye.trans (add_le_add_left ?_ _)
    rw [abs_mul, abs_of_nonneg lo]
    exact mul_le_mul_of_nonneg_left (by nlinarith) u0.le
  have ce' : |(c.val - (1 - s.val)) * a.val| ≤ binary32.u * |a.val| := by
    rw [abs_mul]
    exact mul_le_mul_of_nonneg_right (ce.trans (by nlinarith)) n1
  have se' : |(s.val - t.val) * (b.val - a.val)| ≤ 2 * binary32.u * (|a.val| + |b.val|) := by
    rw [abs_mul]
    have h1 : |s.val - t.val| ≤ 2 * binary32.u := by
      rw [abs_of_nonneg ht.2.1, eta32] at se
      rw [u32] at *
      have := ht.2.2
      norm_num at *
      linarith
    have h2 : |b.val - a.val| ≤ |a.val| + |b.val| := by
      rw [_root_.add_comm]; exact abs_sub _ _
    exact mul_le_mul h1 h2 (abs_nonneg _) (by positivity)
  have split : z.val - ((1 - t.val) * a.val + t.val * b.val) =
      (z.val - (x.val + y.val)) + (x.val - c.val * a.val) + (y.val - s.val * b.val) +
      (c.val - (1 - s.val)) * a.val + (s.val - t.val) * (b.val - a.val) := by ring
  rw [split]
  have t1 := abs_add_le ((z.val - (x.val + y.val)) + (x.val - c.val * a.val) + (y.val - s.val * b.val) +
      (c.val - (1 - s.val)) * a.val) ((s.val - t.val) * (b.val - a.val))
  have t2 := abs_add_le ((z.val - (x.val + y.val)) + (x.val - c.val * a.val) + (y.val - s.val * b.val))
      ((c.val - (1 - s.val)) * a.val)
  have t3 := abs_add_le ((z.val - (x.val + y.val)) + (x.val - c.val * a.val)) (y.val - s.val * b.val)
  have t4 := abs_add_le (z.val - (x.val + y.val)) (x.val - c.val * a.val)
  rw [u32] at *
  rw [eta32] at *
  generalize |z.val - (x.val + y.val)| = q1 at *
  generalize |x.val - c.val * a.val| = q2 at *
  generalize |y.val - s.val * b.val| = q3 at *
  generalize |(c.val - (1 - s.val)) * a.val| = q4 at *
  generalize |(s.val - t.val) * (b.val - a.val)| = q5 at *
  norm_num at ze' xe' ye' ce' se' ⊢
  linarith

omit [Libm binary64] in
theorem vlerp_lane (a b : V4 F32) :
    Simd4f.interpolate a b (FloatConv.narrow t : F32) =
      ⟨vlerp t a.x b.x, vlerp t a.y b.y, vlerp t a.z b.z, vlerp t a.w b.w⟩ := rfl

omit [Libm binary64] in
/-- C92: vectors -/
theorem C92_vec (ht : Factor t) :
    (∀ a b : Vec2 F32, a.getX.isFin = true → a.getY.isFin = true → b.getX.isFin = true → b.getY.isFin = true →
      |a.getX.val| + |b.getX.val| ≤ 2 ^ 127 → |a.getY.val| + |b.getY.val| ≤ 2 ^ 127 →
      NearLerpV (Vec2.interpolate a b t).getX a.getX b.getX t ∧
      NearLerpV (Vec2.interpolate a b t).getY a.getY b.getY t) ∧
    (∀ a b : Vec3 F32, a.getX.isFin = true → a.getY.isFin = true → a.getZ.isFin = true →
      b.getX.isFin = true → b.getY.isFin = true → b.getZ.isFin = true →
      |a.getX.val| + |b.getX.val| ≤ 2 ^ 127 → |a.getY.val| + |b.getY.val| ≤ 2 ^ 127 →
      |a.getZ.val| + |b.getZ.val| ≤ 2 ^ 127 →
      NearLerpV (Vec3.interpolate a b t).getX a.getX b.getX t ∧
      NearLerpV (Vec3.interpolate a b t).getY a.getY b.getY t ∧
      NearLerpV (Vec3.interpolate a b t).getZ a.getZ b.getZ t) ∧
    (∀ a b : Vec4 F32, a.getX.isFin = true → a.getY.isFin = true → a.getZ.isFin = true → a.getW.isFin = true →
      b.getX.isFin = true → b.getY.isFin = true → b.getZ.isFin = true → b.getW.isFin = true →
      |a.getX.val| + |b.getX.val| ≤ 2 ^ 127 → |a.getY.val| + |b.getY.val| ≤ 2 ^ 127 →
      |a.getZ.val| + |b.getZ.val| ≤ 2 ^ 127 → |a.getW.val| + |b.getW.val| ≤ 2 ^ 127 →
      NearLerpV (Vec4.interpolate a b t).getX a.getX b.getX t ∧
      NearLerpV (Vec4.interpolate a b t).getY a.getY b.getY t ∧
      NearLerpV (Vec4.interpolate a b t).getZ a.getZ b.getZ t ∧
      NearLerpV (Vec4.interpolate a b t).getW a.getW b.getW t) := by
  refine ⟨fun a b h1 h2 h3 h4 h5 h6 => ?_, fun a b h1 h2 h3 h4 h5 h6 h7 h8 h9 => ?_,
    fun a b h1 h2 h3 h4 h5 h6 h7 h8 h9 h10 h11 h12 => ?_⟩
  · unfold Vec2.interpolate; rw [vlerp_lane]
    exact ⟨vlerp_near ht h1 h3 h5, vlerp_near ht h2 h4 h6⟩
  · unfold Vec3.interpolate; rw [vlerp_lane]
    exact ⟨vlerp_near ht h1 h4 h7, vlerp_near ht h2 h5 h8, vlerp_near ht h3 h6 h9⟩
  · unfold Vec4.interpolate; rw [vlerp_lane]
    exact ⟨vlerp_near ht h1 h5 h9, vlerp_near ht h2 h6 h10, vlerp_near ht h3 h7 h11, vlerp_near ht h4 h8 h12⟩

omit [Libm binary64] in
/-- C92, limits: unlike points, an interpolation of vectors can leave the segment — even between equal
vectors: from (3,3) to (3,3) by 1/10 gives less than 3. -/
theorem C92_vec_not_between : ∃ (a : Vec2 F32) (t : F64), Factor t ∧ a.getX.isFin = true ∧
    Fp.lt (Vec2.interpolate a a t).getX a.getX = true := by
  refine ⟨⟨⟨lit 3 1, lit 3 1, lit 0 1, lit 0 1⟩⟩, Fp.convert binary64 (lit 1 10 : F32), ?_, by kdecide, by kdecide⟩
  have f : (lit 1 10 : F32).isFin = true := by kdecide
  have w := widen_is f
  refine ⟨w.fin, ?_, ?_⟩
  · rw [w.val]
    have : Fp.le (zero false) (lit 1 10 : F32) = true := by kdecide
    rwa [le_iff_val rfl (isNaN_of_isFin f), val_zero] at this
  · rw [w.val]
    have : Fp.le (lit 1 10 : F32) (lit 1 1 : F32) = true := by kdecide
    rwa [le_iff_val (isNaN_of_isFin f) (isNaN_of_isFin one32_is.fin), one32_is.val] at this

omit [Libm binary32] [Libm binary64] in
/-- non-vacuity: a half is a factor -/
example : Factor (Fp.convert binary64 (lit 1 2 : F32)) := by
  have d := lit_dyadic 1 1 (by decide) (by decide)
  norm_num at d
  have w := widen_is d.1
  refine ⟨w.fin, ?_, ?_⟩ <;> rw [w.val, d.2] <;> norm_num

end Graphene
