/-
  The operations of the IEEE-754 model, related to exact real arithmetic:
  every operation is the rounding of the exact result.
-/
import Verif.Proofs.Round
import Verif.Spec.Float

set_option exponentiation.threshold 3000

namespace Graphene
namespace Fp
variable {f : Fmt}

theorem unit_pos (f : Fmt) : (0 : ℝ) < 2 ^ f.ubit := by positivity

/-! ### Values -/

@[simp] theorem val_neg (a : Fp f) : (neg a).val = -a.val := by simp [val, neg_div]
@[simp] theorem val_zero (s : Bool) : (zero s : Fp f).val = 0 := by simp [val]
theorem val_fin (s m h) : (fin s m h : Fp f).val = (sgn s m : ℝ) / 2 ^ f.ubit := rfl
@[simp] theorem val_abs (a : Fp f) : (abs a).val = |a.val| := by
  simp [val, abs_le_abs_iff, abs_div]

theorem isNaN_of_isFin {a : Fp f} (h : a.isFin = true) : a.isNaN = false := by
  cases a <;> simp_all [isFin]
@[simp] theorem isFin_neg (a : Fp f) : (neg a).isFin = a.isFin := by cases a <;> rfl
@[simp] theorem isFin_abs (a : Fp f) : (abs a).isFin = a.isFin := by cases a <;> rfl
@[simp] theorem isFin_zero (s : Bool) : (zero s : Fp f).isFin = true := rfl
@[simp] theorem isFin_fin (s m h) : (fin s m h : Fp f).isFin = true := rfl

theorem le_iff_val {a b : Fp f} (ha : a.isNaN = false) (hb : b.isNaN = false) :
    a.le b = true ↔ a.val ≤ b.val := by
  rw [le_iff, val, val, div_le_div_iff_of_pos_right (unit_pos f)]
  simp [ha, hb]
theorem lt_iff_val {a b : Fp f} (ha : a.isNaN = false) (hb : b.isNaN = false) :
    a.lt b = true ↔ a.val < b.val := by
  rw [lt_iff, val, val, div_lt_div_iff_of_pos_right (unit_pos f)]
  simp [ha, hb]
theorem feq_iff_val {a b : Fp f} (ha : a.isNaN = false) (hb : b.isNaN = false) :
    a.feq b = true ↔ a.val = b.val := by
  rw [feq_iff, val, val, div_left_inj' (unit_pos f).ne']
  simp [ha, hb]
/-- a non-zero value determines the datum -/
theorem eq_of_val {a b : Fp f} (ha : a.isNaN = false) (hb : b.isNaN = false) (h : a.val = b.val)
    (h0 : a.val ≠ 0) : a = b := by
  refine eq_of_key ha hb ?_ ?_
  · have := (div_left_inj' (unit_pos f).ne').1 h; exact_mod_cast this
  · intro hk; exact h0 (by simp [val, hk])

/-! ### Rounding a real number -/

/-- `r` is the result of rounding the rational number `x`. -/
def Rnd (x : ℝ) (r : Fp f) : Prop :=
  ∃ (z : Int) (den : Nat) (zneg : Bool), 0 < den ∧ x = (z : ℝ) / den / 2 ^ f.ubit ∧ r = ofInt z den zneg

theorem ofMag_eq_ofInt (s : Bool) (n : Nat) {d : Nat} (hd : 0 < d) :
    ofMag f s n d = ofInt (sgn s n) d s := by
  unfold ofInt
  by_cases h : n = 0
  · subst h; rw [ofMag_zero _ hd]; simp [sgn]
  · have : sgn s n ≠ 0 := by cases s <;> simp [sgn, h]
    rw [if_neg this]
    have hs : decide (sgn s n < 0) = s := by cases s <;> simp [sgn]; omega
    rw [hs]; congr 1; cases s <;> simp [sgn]

theorem isNaN_ofMag (s n d) : (ofMag f s n d).isNaN = false := by unfold ofMag; split <;> rfl
theorem isNaN_ofInt (z d s) : (ofInt z d s : Fp f).isNaN = false := by
  unfold ofInt; split
  · rfl
  · exact isNaN_ofMag ..

theorem Rnd.not_nan {x : ℝ} {r : Fp f} (h : Rnd x r) : r.isNaN = false := by
  obtain ⟨z, d, s, _, _, rfl⟩ := h; exact isNaN_ofInt ..

/-- the key of a rounded number, clipped at the overflow threshold -/
theorem key_ofMag (s n d) : (ofMag f s n d).key = sgn s (min (f.rnd n d) (2 ^ f.top)) := by
  unfold ofMag
  split
  · rename_i h; simp [key, min_eq_left h.le]
  · rename_i h; simp only [key]; rw [min_eq_right (not_lt.1 h)]

theorem key_ofInt (z : Int) {d : Nat} (hd : 0 < d) (s : Bool) :
    (ofInt z d s : Fp f).key = sgn (decide (z < 0)) (min (f.rnd z.natAbs d) (2 ^ f.top)) := by
  unfold ofInt
  split
  · rename_i h; subst h
    have : f.rnd 0 d = 0 := by simpa using f.rnd_exact (rep_zero f) hd
    simp [this, sgn]
  · exact key_ofMag ..

/-- Rounding is monotone. -/
theorem Rnd.mono {x y : ℝ} {r s : Fp f} (hx : Rnd x r) (hy : Rnd y s) (h : x ≤ y) : r.le s = true := by
  obtain ⟨z, d, t, hd, rfl, rfl⟩ := hx
  obtain ⟨z', d', t', hd', rfl, rfl⟩ := hy
  rw [le_iff]
  refine ⟨isNaN_ofInt .., isNaN_ofInt .., ?_⟩
  rw [key_ofInt _ hd, key_ofInt _ hd']
  have hdr : (0 : ℝ) < d := by exact_mod_cast hd
  have hdr' : (0 : ℝ) < d' := by exact_mod_cast hd'
  rw [div_le_div_iff_of_pos_right (unit_pos f), div_le_div_iff₀ hdr hdr'] at h
  have h' : z * d' ≤ z' * d := by exact_mod_cast h
  rcases lt_or_ge z 0 with hz | hz
  · rcases lt_or_ge z' 0 with hz' | hz'
    · have : f.rnd z'.natAbs d' ≤ f.rnd z.natAbs d := by
        refine f.rnd_mono hd' hd ?_
        zify; rw [abs_of_neg hz, abs_of_neg hz']; linarith
      simp only [hz, hz', decide_true, sgn, if_true]
      have : min (f.rnd z'.natAbs d') (2 ^ f.top) ≤ min (f.rnd z.natAbs d) (2 ^ f.top) :=
        min_le_min_right _ this
      have : ((min (f.rnd z'.natAbs d') (2 ^ f.top) : Nat) : Int) ≤ (min (f.rnd z.natAbs d) (2 ^ f.top) : Nat) := by
        exact_mod_cast this
      linarith
    · simp only [hz, not_lt.2 hz', decide_true, decide_false, sgn, if_true, Bool.false_eq_true, if_false]
      exact _root_.le_trans (neg_nonpos.2 (Int.natCast_nonneg _)) (Int.natCast_nonneg _)
  · have hz' : 0 ≤ z' := by
      by_contra hc
      have hd1 : (0 : Int) < d := by exact_mod_cast hd
      have hd2 : (0 : Int) < d' := by exact_mod_cast hd'
      nlinarith
    have : f.rnd z.natAbs d ≤ f.rnd z'.natAbs d' := by
      refine f.rnd_mono hd hd' ?_
      zify; rw [abs_of_nonneg hz, abs_of_nonneg hz']; linarith
    simp only [not_lt.2 hz, not_lt.2 hz', decide_false, sgn, Bool.false_eq_true, if_false]
    have := min_le_min_right (2 ^ f.top) this
    exact_mod_cast this

/-- Rounding is a function of the real number (up to the sign of zero). -/
theorem Rnd.feq {x : ℝ} {r s : Fp f} (hx : Rnd x r) (hy : Rnd x s) : r.feq s = true :=
  feq_iff_le.2 ⟨hx.mono hy le_rfl, hy.mono hx le_rfl⟩

/-- A finite value is its own rounding. -/
theorem rnd_self {a : Fp f} (h : a.isFin = true) : Rnd a.val a := by
  cases a with
  | nan => simp [isFin] at h
  | inf s => simp [isFin] at h
  | fin s m hm =>
    refine ⟨sgn s m, 1, s, by decide, by simp [val_fin], ?_⟩
    rw [ofInt_exact hm]
    split
    · rename_i h0; subst h0; rfl
    · rfl

/-- Rounding does not cross a representable value (from below). -/
theorem Rnd.le_of {x : ℝ} {r a : Fp f} (hx : Rnd x r) (ha : a.isFin = true) (h : x ≤ a.val) :
    r.le a = true := hx.mono (rnd_self ha) h
/-- Rounding does not cross a representable value (from above). -/
theorem Rnd.ge_of {x : ℝ} {r a : Fp f} (hx : Rnd x r) (ha : a.isFin = true) (h : a.val ≤ x) :
    a.le r = true := (rnd_self ha).mono hx h

/-- Rounding a representable value changes nothing (up to the sign of zero). -/
theorem Rnd.exact {x : ℝ} {r a : Fp f} (hx : Rnd x r) (ha : a.isFin = true) (h : x = a.val) :
    r.val = a.val := by
  subst h
  exact (feq_iff_val hx.not_nan (isNaN_of_isFin ha)).1 (hx.feq (rnd_self ha))

theorem rep_max (f : Fmt) (hp : f.prec ≤ f.top) : f.Rep ((2 ^ f.prec - 1) * 2 ^ (f.top - f.prec)) := by
  constructor
  · have e : 2 ^ f.top = 2 ^ f.prec * 2 ^ (f.top - f.prec) := by rw [← Nat.pow_add]; congr 1; omega
    rw [e]
    refine Nat.mul_lt_mul_of_pos_right ?_ (Nat.two_pow_pos _)
    have := Nat.two_pow_pos f.prec; omega
  · exact f.grid_pow_mul (Nat.sub_le _ _)

/-- The largest finite datum. -/
def max (f : Fmt) (hp : f.prec ≤ f.top) : Fp f := .fin false _ (rep_max f hp)

theorem val_max (hp : f.prec ≤ f.top) : (max f hp).val = f.maxVal := by
  unfold max
  rw [val_fin]
  simp only [sgn, Bool.false_eq_true, if_false]
  unfold Fmt.maxVal
  have : 1 ≤ 2 ^ f.prec := Nat.one_le_two_pow
  push_cast [this]
  rfl

theorem isFin_of_between {a r b : Fp f} (ha : a.isFin = true) (hb : b.isFin = true)
    (h1 : a.le r = true) (h2 : r.le b = true) : r.isFin = true := by
  cases r with
  | nan => simp [le_iff] at h1
  | fin => rfl
  | inf s =>
    exfalso
    rw [le_iff] at h1 h2
    cases a with
    | nan => simp [isFin] at ha
    | inf => simp [isFin] at ha
    | fin t m hm =>
    cases b with
    | nan => simp [isFin] at hb
    | inf => simp [isFin] at hb
    | fin t' m' hm' =>
      have e1 := sgn_abs_lt (s := t) hm.1
      have e2 := sgn_abs_lt (s := t') hm'.1
      have g1 := h1.2.2
      have g2 := h2.2.2
      simp only [key] at g1 g2
      push_cast at e1 e2
      have c1 : sgn false (2 ^ f.top) = (2 : Int) ^ f.top := by simp [sgn]
      have c2 : sgn true (2 ^ f.top) = -(2 : Int) ^ f.top := by simp [sgn]
      cases s
      · rw [c1] at g1 g2; linarith [e2.1]
      · rw [c2] at g1 g2; linarith [e1.2]

/-- No overflow below the largest finite value. -/
theorem Rnd.isFin {x : ℝ} {r : Fp f} (hp : f.prec ≤ f.top) (hx : Rnd x r) (h : |x| ≤ f.maxVal) :
    r.isFin = true := by
  have := abs_le.1 h
  refine isFin_of_between (a := neg (max f hp)) (b := max f hp) (by simp [max]) (by simp [max]) ?_ ?_
  · exact hx.ge_of (by simp [max]) (by rw [val_neg, val_max]; exact this.1)
  · exact hx.le_of (by simp [max]) (by rw [val_max]; exact this.2)

theorem sgn_real (s : Bool) (m : Nat) : ((sgn s m : Int) : ℝ) = (if s then -1 else 1) * m := by
  cases s <;> simp [sgn]

/-- the value of a finite rounding result -/
theorem val_ofInt_fin {z : Int} {d : Nat} (hd : 0 < d) {s : Bool} (h : (ofInt z d s : Fp f).isFin = true) :
    (ofInt z d s : Fp f).val = (if z < 0 then -1 else 1) * (f.rnd z.natAbs d : ℝ) / 2 ^ f.ubit := by
  unfold ofInt at *
  split
  · rename_i h0; subst h0
    have : f.rnd 0 d = 0 := by simpa using f.rnd_exact (rep_zero f) hd
    simp [this]
  · rename_i h0
    rw [if_neg h0] at h
    unfold ofMag at *
    split
    · rename_i hl
      refine (val_fin (f := f) _ _ ⟨hl, f.rnd_dvd _ _⟩).trans ?_
      rw [sgn_real]; simp
    · rename_i hl; simp [hl, Fp.isFin] at h

theorem err_aux {z : Int} {d : Nat} (hd : 0 < d) {s : Bool} (h : (ofInt z d s : Fp f).isFin = true) :
    |(ofInt z d s : Fp f).val - (z : ℝ) / d / 2 ^ f.ubit| =
      |(f.rnd z.natAbs d : ℝ) - (z.natAbs : ℝ) / d| / 2 ^ f.ubit ∧
    |(z : ℝ) / d / 2 ^ f.ubit| = (z.natAbs : ℝ) / d / 2 ^ f.ubit := by
  have hdr : (0 : ℝ) < d := by exact_mod_cast hd
  have hu := unit_pos f
  rw [val_ofInt_fin hd h]
  have e : (z.natAbs : ℝ) = |(z : ℝ)| := by
    rw [← Int.cast_abs, Int.abs_eq_natAbs]; simp
  constructor
  · rw [e]
    by_cases hz : z < 0
    · have hz' : (z : ℝ) < 0 := by exact_mod_cast hz
      rw [if_pos hz, abs_of_neg hz', ← sub_div, abs_div, abs_of_pos hu]
      congr 1
      rw [← _root_.abs_neg]; congr 1; ring
    · have hz' : (0 : ℝ) ≤ z := by exact_mod_cast not_lt.1 hz
      rw [if_neg hz, abs_of_nonneg hz', ← sub_div, abs_div, abs_of_pos hu]
      congr 1; ring_nf
  · rw [abs_div, abs_div, abs_of_pos hu, abs_of_pos hdr, e]

/-- The error of one rounding: relative `u`, or absolute `eta`. -/
theorem Rnd.err {x : ℝ} {r : Fp f} (hx : Rnd x r) (h : r.isFin = true) :
    |r.val - x| ≤ f.u * |x| ∨ |r.val - x| ≤ f.eta := by
  obtain ⟨z, d, t, hd, rfl, rfl⟩ := hx
  obtain ⟨e1, e2⟩ := err_aux hd h
  rw [e1, e2]
  have hu := unit_pos f
  rcases f.rnd_err (n := z.natAbs) hd with g | g
  · left
    rw [div_le_iff₀ hu]
    refine g.trans (_root_.le_of_eq ?_)
    unfold Fmt.u; field_simp
  · right
    unfold Fmt.eta
    gcongr

/-- The error of one rounding as a sum. -/
theorem Rnd.err_add {x : ℝ} {r : Fp f} (hx : Rnd x r) (h : r.isFin = true) :
    |r.val - x| ≤ f.u * |x| + f.eta := by
  have h1 : 0 ≤ f.u * |x| := mul_nonneg (by unfold Fmt.u; positivity) (abs_nonneg _)
  have h2 : 0 ≤ f.eta := by unfold Fmt.eta; positivity
  rcases hx.err h with g | g <;> linarith

/-! ### The operations -/

theorem rnd_add {a b : Fp f} (ha : a.isFin = true) (hb : b.isFin = true) :
    Rnd (a.val + b.val) (add a b) := by
  cases a <;> simp [isFin] at ha
  cases b <;> simp [isFin] at hb
  rename_i s m h t n g
  refine ⟨sgn s m + sgn t n, 1, s && t, by decide, ?_, rfl⟩
  simp only [val_fin]; push_cast; ring

theorem rnd_sub {a b : Fp f} (ha : a.isFin = true) (hb : b.isFin = true) :
    Rnd (a.val - b.val) (sub a b) := by
  have := rnd_add ha (b := neg b) (by simpa using hb)
  rwa [val_neg, ← sub_eq_add_neg] at this

theorem sgn_xor (s t : Bool) (m n : Nat) : sgn (s ^^ t) (m * n) = sgn s m * sgn t n := by
  cases s <;> cases t <;> simp [sgn]

theorem rnd_mul {a b : Fp f} (ha : a.isFin = true) (hb : b.isFin = true) :
    Rnd (a.val * b.val) (mul a b) := by
  cases a <;> simp [isFin] at ha
  cases b <;> simp [isFin] at hb
  rename_i s m h t n g
  refine ⟨sgn s m * sgn t n, 2 ^ f.ubit, s ^^ t, Nat.two_pow_pos _, ?_, ?_⟩
  · simp only [val_fin]; push_cast; ring
  · simp only [mul]; rw [ofMag_eq_ofInt _ _ (Nat.two_pow_pos _), sgn_xor]

theorem rnd_div {a b : Fp f} (ha : a.isFin = true) (hb : b.isFin = true) (h0 : b.val ≠ 0) :
    Rnd (a.val / b.val) (div a b) := by
  cases a <;> simp [isFin] at ha
  cases b <;> simp [isFin] at hb
  rename_i s m h t n g
  have hn : 0 < n := by
    rcases Nat.eq_zero_or_pos n with e | e
    · subst e; simp [val_fin, sgn] at h0
    · exact e
  refine ⟨sgn (s ^^ t) (m * 2 ^ f.ubit), n, s ^^ t, hn, ?_, ?_⟩
  · simp only [val_fin, sgn_real]
    have hnr : (n : ℝ) ≠ 0 := by exact_mod_cast hn.ne'
    have hu := (unit_pos f).ne'
    push_cast
    cases s <;> cases t <;> simp <;> field_simp
  · simp only [div]; rw [if_pos hn, ofMag_eq_ofInt _ _ hn]

theorem rnd_fma {a b c : Fp f} (ha : a.isFin = true) (hb : b.isFin = true) (hc : c.isFin = true) :
    Rnd (a.val * b.val + c.val) (fma a b c) := by
  cases a <;> simp [isFin] at ha
  cases b <;> simp [isFin] at hb
  cases c <;> simp [isFin] at hc
  rename_i s m h t n g u k i
  refine ⟨_, 2 ^ f.ubit, _, Nat.two_pow_pos _, ?_, rfl⟩
  simp only [val_fin]
  rw [sgn_xor]
  have : sgn u (k * 2 ^ f.ubit) = sgn u k * 2 ^ f.ubit := by cases u <;> simp [sgn]
  rw [this]
  have hu := (unit_pos f).ne'
  push_cast; field_simp

theorem rnd_convert {g : Fmt} {a : Fp f} (ha : a.isFin = true) : Rnd a.val (convert g a) := by
  cases a <;> simp [isFin] at ha
  rename_i s m h
  refine ⟨sgn s (m * 2 ^ g.ubit), 2 ^ f.ubit, s, Nat.two_pow_pos _, ?_, ?_⟩
  · simp only [val_fin, sgn_real]
    have hu := (unit_pos f).ne'
    have hg := (unit_pos g).ne'
    push_cast; field_simp
  · simp only [convert]; rw [ofMag_eq_ofInt _ _ (Nat.two_pow_pos _)]

theorem rnd_lit (n : Int) {d : Nat} (hd : 0 < d) : Rnd ((n : ℝ) / d) (lit n d : Fp f) := by
  refine ⟨n * 2 ^ f.ubit, d, decide (n < 0), hd, ?_, ?_⟩
  · have hu := (unit_pos f).ne'
    push_cast; field_simp
  · unfold lit; rw [if_pos hd, ofMag_eq_ofInt _ _ hd]
    congr 1
    rcases lt_or_ge n 0 with h | h
    · simp only [h, decide_true, sgn, if_true]
      push_cast; rw [abs_of_neg h]; ring
    · simp only [not_lt.2 h, decide_false, sgn, Bool.false_eq_true, if_false]
      push_cast; rw [abs_of_nonneg h]

/-- Addition never underflows: the error is relative. -/
theorem add_err {a b : Fp f} (ha : a.isFin = true) (hb : b.isFin = true)
    (h : (add a b).isFin = true) : |(add a b).val - (a.val + b.val)| ≤ f.u * |a.val + b.val| := by
  cases a <;> simp [isFin] at ha
  cases b <;> simp [isFin] at hb
  rename_i s m h1 t n g1
  have e : (fin s m h1 : Fp f).val + (fin t n g1 : Fp f).val
      = ((sgn s m + sgn t n : Int) : ℝ) / (1 : Nat) / 2 ^ f.ubit := by
    simp only [val_fin]; push_cast; ring
  rw [e]
  change (ofInt (sgn s m + sgn t n) 1 (s && t) : Fp f).isFin = true at h
  change |(ofInt (sgn s m + sgn t n) 1 (s && t) : Fp f).val - _| ≤ _
  obtain ⟨e1, e2⟩ := err_aux (by decide) h
  rw [e1, e2]
  have hu := unit_pos f
  rw [div_le_iff₀ hu]
  have := f.rnd_err_int (sgn s m + sgn t n).natAbs
  simp only [Nat.cast_one, div_one] at *
  refine this.trans (_root_.le_of_eq ?_)
  unfold Fmt.u; field_simp

theorem sub_err {a b : Fp f} (ha : a.isFin = true) (hb : b.isFin = true)
    (h : (sub a b).isFin = true) : |(sub a b).val - (a.val - b.val)| ≤ f.u * |a.val - b.val| := by
  have := add_err ha (b := neg b) (by simpa using hb) h
  rwa [val_neg, ← sub_eq_add_neg] at this

/-! ### Square root -/

theorem sqrt_units {m : Nat} : (Real.sqrt ((m : ℝ) / 2 ^ f.ubit)) = Real.sqrt ((m * 2 ^ f.ubit : Nat) : ℝ) / 2 ^ f.ubit := by
  have hu := unit_pos f
  have e : (m : ℝ) / 2 ^ f.ubit = ((m * 2 ^ f.ubit : Nat) : ℝ) / (2 ^ f.ubit) ^ 2 := by
    push_cast; field_simp
  rw [e, Real.sqrt_div (Nat.cast_nonneg _), Real.sqrt_sq hu.le]

/-- the rounded square root of `N` units: relative error at most `u` -/
theorem rnd_sqrt_err (f : Fmt) (hp : f.prec ≤ f.ubit / 2) {m : Nat} (hm : 0 < m) :
    |(f.rnd (2 * (m * 2 ^ f.ubit).sqrt + (if (m * 2 ^ f.ubit).sqrt * (m * 2 ^ f.ubit).sqrt = m * 2 ^ f.ubit then 0 else 1)) 2 : ℝ)
      - Real.sqrt ((m * 2 ^ f.ubit : Nat) : ℝ)| ≤ Real.sqrt ((m * 2 ^ f.ubit : Nat) : ℝ) * (1 / 2 ^ f.prec) := by
  have hN : 2 ^ f.ubit ≤ m * 2 ^ f.ubit := Nat.le_mul_of_pos_left _ hm
  generalize m * 2 ^ f.ubit = N at *
  have hr : 2 ^ (f.ubit / 2) ≤ N.sqrt := by
    rw [Nat.le_sqrt, ← Nat.pow_add]
    exact (Nat.pow_le_pow_right (by decide) (by omega)).trans hN
  have h1 : N.sqrt * N.sqrt ≤ N := Nat.sqrt_le N
  have h2 : N < (N.sqrt + 1) * (N.sqrt + 1) := Nat.lt_succ_sqrt N
  generalize N.sqrt = r at *
  have hr1 : (r : ℝ) ≤ Real.sqrt N := by
    apply Real.le_sqrt_of_sq_le; rw [sq]; exact_mod_cast h1
  have hr2 : Real.sqrt N ≤ (r : ℝ) + 1 := by
    rw [Real.sqrt_le_left (by positivity), sq]; exact_mod_cast h2.le
  have hq : (2 * r + (if r * r = N then 0 else 1)) / 2 = r := by split_ifs <;> omega
  have hlog : f.ubit / 2 ≤ r.log2 := by
    rw [Nat.le_log2 (by have := Nat.two_pow_pos (f.ubit / 2); omega)]; exact hr
  have he : 0 < f.ulpExp r := by unfold Fmt.ulpExp; omega
  have hlow := f.ulp_lower he
  -- absolute error at most half an ulp, measured from the true root
  have habs : |(f.rnd (2 * r + (if r * r = N then 0 else 1)) 2 : ℝ) - Real.sqrt N| ≤ 2 ^ f.ulpExp r / 2 := by
    rw [Fmt.rnd_eq, hq]
    obtain ⟨e, hee⟩ : ∃ e, f.ulpExp r = e + 1 := ⟨f.ulpExp r - 1, by omega⟩
    rw [hee]
    have hD : 0 < 2 * 2 ^ (e + 1) := Nat.mul_pos (by decide) (Nat.two_pow_pos _)
    by_cases hsq : r * r = N
    · rw [if_pos hsq]
      have i1 := rne_err_hi (num := 2 * r + 0) (d := 2 * 2 ^ (e + 1))
      have i2 := rne_err_lo (num := 2 * r + 0) hD
      generalize rne (2 * r + 0) (2 * 2 ^ (e + 1)) = q at *
      have hs : Real.sqrt N = r := by
        rw [← hsq]; push_cast; exact Real.sqrt_mul_self (by positivity)
      rw [hs]
      have j1 : 2 * ((q : ℝ) * (2 * 2 ^ (e + 1))) ≤ 2 * (2 * r + 0) + 2 * 2 ^ (e + 1) := by exact_mod_cast i1
      have j2 : 2 * (2 * (r : ℝ) + 0) ≤ 2 * (q * (2 * 2 ^ (e + 1))) + 2 * 2 ^ (e + 1) := by exact_mod_cast i2
      push_cast
      rw [abs_le]; constructor <;> linarith
    · rw [if_neg hsq]
      have i1 := rne_err_hi (num := 2 * r + 1) (d := 2 * 2 ^ (e + 1))
      have i2 := rne_err_lo (num := 2 * r + 1) hD
      generalize rne (2 * r + 1) (2 * 2 ^ (e + 1)) = q at *
      have k1 : q * 2 ^ (e + 1) ≤ r + 2 ^ e := by
        rw [Nat.pow_succ] at *
        generalize 2 ^ e = p at *
        have : q * (p * 2) = 2 * (q * p) := by ring
        have e3 : q * (2 * (p * 2)) = 4 * (q * p) := by ring
        rw [this]; rw [e3] at i1; omega
      have k2 : r + 1 ≤ q * 2 ^ (e + 1) + 2 ^ e := by
        rw [Nat.pow_succ] at *
        generalize 2 ^ e = p at *
        have : q * (p * 2) = 2 * (q * p) := by ring
        have e3 : q * (2 * (p * 2)) = 4 * (q * p) := by ring
        rw [this]; rw [e3] at i2; omega
      have k1' : (q : ℝ) * 2 ^ (e + 1) ≤ r + 2 ^ e := by exact_mod_cast k1
      have k2' : (r : ℝ) + 1 ≤ q * 2 ^ (e + 1) + 2 ^ e := by exact_mod_cast k2
      have e4 : (2 : ℝ) ^ (e + 1) / 2 = 2 ^ e := by rw [pow_succ]; ring
      push_cast
      rw [e4, abs_le]; constructor <;> linarith
  refine habs.trans ?_
  have hl : (2 : ℝ) ^ (f.prec + f.ulpExp r - 1) ≤ Real.sqrt N := by
    refine _root_.le_trans ?_ hr1; exact_mod_cast hlow
  have hpp : (0 : ℝ) < 2 ^ f.prec := by positivity
  rw [mul_one_div, le_div_iff₀ hpp]
  refine _root_.le_trans (_root_.le_of_eq ?_) hl
  have e : f.prec + f.ulpExp r = (f.prec + f.ulpExp r - 1) + 1 := by omega
  have e3 : (2 : ℝ) ^ f.ulpExp r / 2 * 2 ^ f.prec = 2 ^ (f.prec + f.ulpExp r) / 2 := by
    rw [pow_add]; ring
  rw [e3, e, pow_succ]; simp

/-- Square root: finite for every finite non-negative operand, relative error at most `u`. -/
theorem sqrt_err (hp : f.prec ≤ f.ubit / 2) (ht : f.ubit + 2 ≤ f.top) {a : Fp f}
    (ha : a.isFin = true) (h0 : 0 ≤ a.val) :
    (sqrt a).isFin = true ∧ |(sqrt a).val - Real.sqrt a.val| ≤ f.u * Real.sqrt a.val := by
  cases a <;> simp [isFin] at ha
  rename_i s m h
  have hu := unit_pos f
  by_cases hm : m = 0
  · subst hm
    have : (fin s 0 h : Fp f).val = 0 := by simp [val_fin, sgn]
    simp [sqrt, this]
  · have hs : s = false := by
      cases s with
      | false => rfl
      | true =>
        exfalso
        rw [val_fin, sgn_real] at h0
        have : (0 : ℝ) < m := by exact_mod_cast Nat.pos_of_ne_zero hm
        have : (-(m : ℝ)) / 2 ^ f.ubit < 0 := div_neg_of_neg_of_pos (by linarith) hu
        simp only [if_true] at h0
        rw [neg_one_mul] at h0; linarith
    subst hs
    have hpos := Nat.pos_of_ne_zero hm
    have herr := rnd_sqrt_err f hp hpos
    have hval : (fin false m h : Fp f).val = (m : ℝ) / 2 ^ f.ubit := by rw [val_fin, sgn_real]; simp
    rw [hval]
    have hfin : (f.rnd (2 * (m * 2 ^ f.ubit).sqrt + (if (m * 2 ^ f.ubit).sqrt * (m * 2 ^ f.ubit).sqrt = m * 2 ^ f.ubit then 0 else 1)) 2) < 2 ^ f.top := by
      have hlt : (m * 2 ^ f.ubit).sqrt < 2 ^ (f.top - 1) := by
        rw [Nat.sqrt_lt, ← Nat.pow_add]
        refine Nat.lt_of_lt_of_le (Nat.mul_lt_mul_of_pos_right h.1 (Nat.two_pow_pos _)) ?_
        rw [← Nat.pow_add]; exact Nat.pow_le_pow_right (by decide) (by omega)
      have g : f.Grid (2 ^ (f.top - 1)) := by
        have := f.grid_pow_mul (q := 1) (t := f.top - 1) Nat.one_le_two_pow
        simpa using this
      have hle : f.rnd (2 * (m * 2 ^ f.ubit).sqrt + (if (m * 2 ^ f.ubit).sqrt * (m * 2 ^ f.ubit).sqrt = m * 2 ^ f.ubit then 0 else 1)) 2
          ≤ f.rnd (2 ^ (f.top - 1) * 2) 2 := by
        refine f.rnd_mono (by decide) (by decide) ?_
        split_ifs <;> omega
      rw [f.rnd_grid g (by decide)] at hle
      exact Nat.lt_of_le_of_lt hle (Nat.pow_lt_pow_right (by decide) (by omega))
    have hrep : f.Rep (f.rnd (2 * (m * 2 ^ f.ubit).sqrt + (if (m * 2 ^ f.ubit).sqrt * (m * 2 ^ f.ubit).sqrt = m * 2 ^ f.ubit then 0 else 1)) 2) :=
      ⟨hfin, f.rnd_dvd _ _⟩
    have e : sqrt (fin false m h : Fp f) = .fin false _ hrep := by
      simp only [sqrt, hm, if_false, Bool.false_eq_true]
      unfold ofMag; rw [dif_pos hfin]
    rw [e]
    refine ⟨rfl, ?_⟩
    rw [val_fin, sgn_real, sqrt_units]
    simp only [Bool.false_eq_true, if_false, one_mul]
    rw [← sub_div, abs_div, abs_of_pos hu, div_le_iff₀ hu]
    refine herr.trans (_root_.le_of_eq ?_)
    unfold Fmt.u; field_simp

end Fp
end Graphene
