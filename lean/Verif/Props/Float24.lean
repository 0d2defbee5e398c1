/-
  C115: projection matrices in floating point (IEEE binary32).
-/
import Verif.Props.Float19

set_option exponentiation.threshold 3000

namespace Graphene
open Fp Spec
variable [Libm binary32]

omit [Libm binary32] in
/-- a quotient of two slightly wrong operands -/
theorem quot_core {p q : F32} {x y : ℝ} (hp : p.isFin = true) (hq : q.isFin = true)
    (ep : |p.val - x| ≤ |x| / 2 ^ 22 + 1 / 2 ^ 148) (eq : |q.val - y| ≤ |y| / 2 ^ 23) (hy : 1 / 2 ^ 30 ≤ |y|)
    (hx : |x| ≤ 2 ^ 64) :
    (Fp.div p q).isFin = true ∧ |(Fp.div p q).val - x / y| ≤ |x / y| / 2 ^ 21 + 1 / 2 ^ 117 := by
  have y0 : 0 < |y| := lt_of_lt_of_le (by positivity) hy
  have yne : y ≠ 0 := abs_pos.1 y0
  have ql : |y| * (1 - 1 / 2 ^ 23) ≤ |q.val| := by
    have := abs_add_le (y - q.val) q.val
    rw [sub_add_cancel, _root_.abs_sub_comm] at this
    linarith
  have q0 : 0 < |q.val| := lt_of_lt_of_le (by positivity) ql
  have qne : q.val ≠ 0 := abs_pos.1 q0
  have X0 : 0 ≤ |x / y| := abs_nonneg _
  have eX : |x / y| * |y| = |x| := by rw [abs_div]; field_simp
  have d : |p.val / q.val - x / y| ≤ |x / y| * (1 / 2 ^ 22 + 1 / 2 ^ 23 + 1 / 2 ^ 40) + 9 / (8 * 2 ^ 118) := by
    have e : p.val / q.val - x / y = (p.val - x - x / y * (q.val - y)) / q.val := by field_simp; ring
    rw [e, abs_div, div_le_iff₀ q0]
    have t1 : |p.val - x - x / y * (q.val - y)| ≤ |p.val - x| + |x / y| * |q.val - y| := by
      rw [← _root_.abs_mul]; exact abs_sub _ _
    have t2 : |x / y| * |q.val - y| ≤ |x| / 2 ^ 23 := by
      refine (mul_le_mul_of_nonneg_left eq X0).trans (le_of_eq ?_)
      rw [← eX]; ring
    have t3 : |x / y| * (|y| * (1 - 1 / 2 ^ 23)) ≤ |x / y| * |q.val| := mul_le_mul_of_nonneg_left ql X0
    have t4 : |x / y| * (|y| * (1 - 1 / 2 ^ 23)) = |x| * (1 - 1 / 2 ^ 23) := by rw [← eX]; ring
    have x0 := abs_nonneg x
    have t5 : 1 / 2 ^ 30 * (1 - 1 / 2 ^ 23) ≤ |q.val| := _root_.le_trans (mul_le_mul_of_nonneg_right hy (by norm_num)) ql
    rw [t4] at t3
    have e2 : (|x / y| * (1 / 2 ^ 22 + 1 / 2 ^ 23 + 1 / 2 ^ 40) + 9 / (8 * 2 ^ 118)) * |q.val|
      = |x / y| * |q.val| * (1 / 2 ^ 22 + 1 / 2 ^ 23 + 1 / 2 ^ 40) + 9 / (8 * 2 ^ 118) * |q.val| := by ring
    rw [e2]
    generalize |x / y| * |q.val| = w at *
    generalize |x / y| * |q.val - y| = w1 at *
    generalize |p.val - x - x / y * (q.val - y)| = w2 at *
    generalize |p.val - x| = z at *
    generalize |q.val| = z1 at *
    norm_num at ep t2 t3 t5 ⊢
    linarith
  have yb : |x / y| ≤ 2 ^ 94 := by
    rw [abs_div, div_le_iff₀ y0]
    norm_num at hx hy ⊢; linarith
  have r := rnd_div hp hq qne
  have rb : |p.val / q.val| ≤ |x / y| * (1 + 1 / 2 ^ 22 + 1 / 2 ^ 23 + 1 / 2 ^ 40) + 9 / (8 * 2 ^ 118) := by
    have := abs_add_le (p.val / q.val - x / y) (x / y)
    rw [sub_add_cancel] at this
    linarith
  have f : (Fp.div p q).isFin = true := r.isFin hp32 (by
    refine _root_.le_trans ?_ le_max32
    generalize |p.val / q.val| = w at *
    generalize |x / y| = X at *
    norm_num at yb rb ⊢; linarith)
  refine ⟨f, ?_⟩
  have e := r.err_add f
  have t := abs_add_le ((Fp.div p q).val - p.val / q.val) (p.val / q.val - x / y)
  rw [sub_add_sub_cancel] at t
  rw [u32, eta32] at e
  generalize |(Fp.div p q).val - p.val / q.val| = w2 at *
  generalize |(Fp.div p q).val - x / y| = w3 at *
  generalize |p.val / q.val - x / y| = w1 at *
  generalize |p.val / q.val| = w at *
  generalize |x / y| = X at *
  norm_num at e t d rb ⊢
  linarith

/-- a usable numerator: close to `x` -/
structure Num (a : F32) (x : ℝ) : Prop where
  fin : a.isFin = true
  err : |a.val - x| ≤ |x| / 2 ^ 22 + 1 / 2 ^ 148
  hx : |x| ≤ 2 ^ 64

/-- a usable denominator -/
structure Den (a : F32) (y : ℝ) : Prop where
  fin : a.isFin = true
  err : |a.val - y| ≤ |y| / 2 ^ 23
  hy : 1 / 2 ^ 30 ≤ |y|

/-- the usable parameters: finite, at most `2^30` in magnitude -/
def Spec.ModRange (a : F32) : Prop := a.isFin = true ∧ |a.val| ≤ 2 ^ 30

omit [Libm binary32] in
theorem Num.div {p q : F32} {x y : ℝ} (hp : Num p x) (hq : Den q y) :
    (Fp.div p q).isFin = true ∧ |(Fp.div p q).val - x / y| ≤ |x / y| / 2 ^ 21 + 1 / 2 ^ 117 :=
  quot_core hp.fin hq.fin hp.err hq.err hq.hy hp.hx

omit [Libm binary32] in
theorem Num.neg {p : F32} {x : ℝ} (h : Num p x) : Num (Fp.neg p) (-x) :=
  ⟨by simpa using h.fin, by
    rw [val_neg, show -p.val - -x = -(p.val - x) by ring, _root_.abs_neg, _root_.abs_neg]; exact h.err,
   by rw [_root_.abs_neg]; exact h.hx⟩

omit [Libm binary32] in
/-- a rounded value as numerator -/
theorem num_of_rnd {x : ℝ} {r : F32} (h : Rnd x r) (hx : |x| ≤ 2 ^ 64) : Num r x := by
  have f := h.isFin hp32 (hx.trans (_root_.le_trans (by norm_num) le_max32))
  refine ⟨f, ?_, hx⟩
  have e := h.err_add f
  rw [u32, eta32] at e
  have := abs_nonneg x
  refine e.trans ?_
  norm_num; linarith

omit [Libm binary32] in
theorem num_exact {r : F32} (f : r.isFin = true) (hx : |r.val| ≤ 2 ^ 64) : Num r r.val :=
  ⟨f, by simp; positivity, hx⟩

omit [Libm binary32] in
theorem num_add {a b : F32} (ha : ModRange a) (hb : ModRange b) : Num (Fp.add a b) (a.val + b.val) :=
  num_of_rnd (rnd_add ha.1 hb.1) ((abs_add_le _ _).trans (by linarith [ha.2, hb.2]))

omit [Libm binary32] in
theorem den_sub {a b : F32} (ha : ModRange a) (hb : ModRange b) (h : 1 / 2 ^ 30 ≤ |a.val - b.val|) :
    Den (Fp.sub a b) (a.val - b.val) := by
  have r := rnd_sub ha.1 hb.1
  have bd : |a.val - b.val| ≤ 2 ^ 31 := (abs_sub _ _).trans (by linarith [ha.2, hb.2])
  have f := r.isFin hp32 (bd.trans (_root_.le_trans (by norm_num) le_max32))
  refine ⟨f, ?_, h⟩
  have e := r.err_add f
  rw [u32, eta32] at e
  refine e.trans ?_
  norm_num at h ⊢; linarith

omit [Libm binary32] in
/-- an exact small factor times a value -/
theorem num_scale {c a : F32} (hc : c.isFin = true) (hc2 : |c.val| ≤ 2) (ha : ModRange a) : Num (Fp.mul c a) (c.val * a.val) :=
  num_of_rnd (rnd_mul hc ha.1) (by
    rw [_root_.abs_mul]
    calc _ ≤ (2 : ℝ) * 2 ^ 30 := mul_le_mul hc2 ha.2 (abs_nonneg _) (by norm_num)
      _ ≤ _ := by norm_num)

omit [Libm binary32] in
/-- minus a rounded sum, as `-1 * (a + b)` -/
theorem num_negsum {c a b : F32} (hc : c.isFin = true) (hc1 : c.val = -1) (ha : ModRange a) (hb : ModRange b) :
    Num (Fp.mul c (Fp.add a b)) (-(a.val + b.val)) := by
  have n := num_add ha hb
  have bd : |a.val + b.val| ≤ 2 ^ 31 := (abs_add_le _ _).trans (by linarith [ha.2, hb.2])
  have r := rnd_mul hc n.fin
  have s := Rnd.is r (c := Fp.neg (Fp.add a b)) ⟨by simpa using n.fin, by rw [val_neg, hc1]; ring⟩
  have e := n.err
  refine ⟨s.1, ?_, by rw [_root_.abs_neg]; exact bd.trans (by norm_num)⟩
  rw [s.2, hc1, show -1 * (Fp.add a b).val - -(a.val + b.val) = -((Fp.add a b).val - (a.val + b.val)) by ring, _root_.abs_neg,
    _root_.abs_neg]
  exact e

omit [Libm binary32] in
/-- `-2 * a * b` for `a`, `b` at least `2^-30` -/
theorem num_prod {c a b : F32} (hc : c.isFin = true) (hc1 : c.val = -2) (ha : ModRange a) (hb : ModRange b)
    (la : 1 / 2 ^ 30 ≤ a.val) (lb : 1 / 2 ^ 30 ≤ b.val) :
    Num (Fp.mul (Fp.mul c a) b) (-2 * a.val * b.val) := by
  have a0 : 0 < a.val := lt_of_lt_of_le (by positivity) la
  have b0 : 0 < b.val := lt_of_lt_of_le (by positivity) lb
  have ua : a.val ≤ 2 ^ 30 := (le_abs_self _).trans ha.2
  have ub : b.val ≤ 2 ^ 30 := (le_abs_self _).trans hb.2
  have r1 := rnd_mul hc ha.1
  rw [hc1] at r1
  have x1 : |-2 * a.val| = 2 * a.val := by rw [_root_.abs_mul, abs_of_pos a0]; norm_num
  have f1 := r1.isFin hp32 (by rw [x1]; refine _root_.le_trans ?_ le_max32; norm_num at ua ⊢; linarith)
  have e1 := r1.err_add f1
  rw [u32, eta32, x1] at e1
  set p := Fp.mul c a
  have e1' : |p.val - -2 * a.val| ≤ a.val * (1 / 2 ^ 23 + 1 / 2 ^ 100) := by
    refine e1.trans ?_
    norm_num at la ⊢; linarith
  have r2 := rnd_mul f1 hb.1
  have d2 : |p.val * b.val - -2 * a.val * b.val| ≤ a.val * b.val * (1 / 2 ^ 23 + 1 / 2 ^ 100) := by
    rw [show p.val * b.val - -2 * a.val * b.val = (p.val - -2 * a.val) * b.val by ring, _root_.abs_mul, abs_of_pos b0]
    calc _ ≤ a.val * (1 / 2 ^ 23 + 1 / 2 ^ 100) * b.val := mul_le_mul_of_nonneg_right e1' b0.le
      _ = _ := by ring
  have ab0 : 1 / 2 ^ 60 ≤ a.val * b.val := by
    calc (1 / 2 ^ 60 : ℝ) = 1 / 2 ^ 30 * (1 / 2 ^ 30) := by norm_num
      _ ≤ _ := mul_le_mul la lb (by positivity) a0.le
  have abu : a.val * b.val ≤ 2 ^ 60 := by
    calc a.val * b.val ≤ 2 ^ 30 * 2 ^ 30 := mul_le_mul ua ub b0.le (by positivity)
      _ = _ := by norm_num
  have x2 : |-2 * a.val * b.val| = 2 * (a.val * b.val) := by
    rw [_root_.abs_mul, x1, abs_of_pos b0]; ring
  set t := a.val * b.val
  have m2 : |p.val * b.val| ≤ 2 * t + t * (1 / 2 ^ 23 + 1 / 2 ^ 100) := by
    have := abs_add_le (p.val * b.val - -2 * a.val * b.val) (-2 * a.val * b.val)
    rw [sub_add_cancel, x2] at this
    linarith
  have f2 := r2.isFin hp32 (by
    refine m2.trans (_root_.le_trans ?_ le_max32); norm_num at abu ⊢; linarith)
  have e2 := r2.err_add f2
  rw [u32, eta32] at e2
  refine ⟨f2, ?_, by rw [x2]; norm_num at abu ⊢; linarith⟩
  rw [x2]
  have tr := abs_add_le ((Fp.mul p b).val - p.val * b.val) (p.val * b.val - -2 * a.val * b.val)
  rw [sub_add_sub_cancel] at tr
  refine tr.trans ?_
  generalize |(Fp.mul p b).val - p.val * b.val| = w at *
  generalize |p.val * b.val - -2 * a.val * b.val| = w1 at *
  generalize |p.val * b.val| = w2 at *
  clear_value t
  norm_num at e2 d2 m2 ab0 ⊢
  linarith

/-- the exact orthographic projection (`graphene_matrix_init_ortho` sends `top` to -1 and `bottom` to 1, see C62) -/
noncomputable def Spec.orthoMat (l r t b n f : ℝ) : Matrix (Fin 4) (Fin 4) ℝ :=
  !![2 / (r - l), 0, 0, 0; 0, 2 / (b - t), 0, 0; 0, 0, -2 / (f - n), 0;
     -(r + l) / (r - l), -(b + t) / (b - t), -(f + n) / (f - n), 1]

/-- the exact perspective projection of a frustum -/
noncomputable def Spec.frustumMat (l r b t n f : ℝ) : Matrix (Fin 4) (Fin 4) ℝ :=
  !![2 * n / (r - l), 0, 0, 0; 0, 2 * n / (t - b), 0, 0;
     (r + l) / (r - l), (t + b) / (t - b), -(f + n) / (f - n), -1; 0, 0, -2 * f * n / (f - n), 0]

/-- every entry is finite and within a few units in the last place of the exact entry -/
def Spec.CloseMat (m : M4 F32) (A : Matrix (Fin 4) (Fin 4) ℝ) : Prop :=
  FinMat m ∧ ∀ i j, |rmat m i j - A i j| ≤ |A i j| / 2 ^ 21 + 1 / 2 ^ 117

omit [Libm binary32] in
theorem is_close {a : F32} {x : ℝ} (h : Is a x) : a.isFin = true ∧ |a.val - x| ≤ |x| / 2 ^ 21 + 1 / 2 ^ 117 :=
  ⟨h.fin, by rw [h.val, sub_self, abs_zero]; positivity⟩

omit [Libm binary32] in
theorem closeMat_of {m : M4 F32} {A : Matrix (Fin 4) (Fin 4) ℝ}
    (h : ∀ i j, (mat m i j).isFin = true ∧ |(mat m i j).val - A i j| ≤ |A i j| / 2 ^ 21 + 1 / 2 ^ 117) : CloseMat m A :=
  ⟨fun i j => (h i j).1, fun i j => (h i j).2⟩

theorem is_lit_int (k : Int) (h : k.natAbs ≤ 2 ^ 24) : Is (lit k 1 : F32) k := ⟨(lit_int k h).1, (lit_int k h).2⟩

/-- C115: `graphene_matrix_init_ortho` -/
theorem C115_ortho_entries (l r t b n f : F32) (hl : ModRange l) (hr : ModRange r) (ht : ModRange t) (hb : ModRange b)
    (hn : ModRange n) (hf : ModRange f) (dx : 1 / 2 ^ 30 ≤ |r.val - l.val|) (dy : 1 / 2 ^ 30 ≤ |b.val - t.val|)
    (dz : 1 / 2 ^ 30 ≤ |f.val - n.val|) :
    CloseMat (GMatrix.initOrtho l r t b n f) (orthoMat l.val r.val t.val b.val n.val f.val) := by
  have z := is_close is_f0
  have o := is_close is_f1
  have two := is_lit_int 2 (by decide)
  have mtwo := is_lit_int (-2) (by decide)
  have n2 : Num (f2 : F32) 2 := by
    have := num_exact two.fin (by rw [two.val]; norm_num)
    rwa [two.val] at this
  have m2 : Num (lit (-2) 1 : F32) (-2) := by
    have := num_exact mtwo.fin (by rw [mtwo.val]; norm_num)
    rw [mtwo.val] at this
    convert this using 1
    norm_num
  have Dx := den_sub hr hl dx
  have Dy := den_sub hb ht dy
  have Dz := den_sub hf hn dz
  have ax := n2.div Dx
  have ay := n2.div Dy
  have az := m2.div Dz
  have bx := (num_add hr hl).neg.div Dx
  have bY := (num_add hb ht).neg.div Dy
  have bz := (num_add hf hn).neg.div Dz
  apply closeMat_of
  intro i j
  fin_cases i <;> fin_cases j <;> first | exact z | exact o | exact ax | exact ay | exact az | exact bx | exact bY | exact bz

/-- C115: `graphene_matrix_init_frustum` -/
theorem C115_frustum_entries (l r b t n f : F32) (hl : ModRange l) (hr : ModRange r) (hb : ModRange b) (ht : ModRange t)
    (hn : ModRange n) (hf : ModRange f) (dx : 1 / 2 ^ 30 ≤ |r.val - l.val|) (dy : 1 / 2 ^ 30 ≤ |t.val - b.val|)
    (dz : 1 / 2 ^ 30 ≤ |f.val - n.val|) (ln : 1 / 2 ^ 30 ≤ n.val) (lf : 1 / 2 ^ 30 ≤ f.val) :
    CloseMat (GMatrix.initFrustum l r b t n f) (frustumMat l.val r.val b.val t.val n.val f.val) := by
  have z := is_close is_f0
  have two := is_lit_int 2 (by decide)
  have mtwo := is_lit_int (-2) (by decide)
  have mone := is_lit_int (-1) (by decide)
  have m1 : Is (lit (-1) 1 : F32) (-1) := mone.congr (by norm_num)
  have om := is_close m1
  have n2 : Num (Fp.mul (f2 : F32) n) (2 * n.val) := by
    have := num_scale two.fin (by rw [two.val]; norm_num) hn
    rwa [two.val] at this
  have Dx := den_sub hr hl dx
  have Dy := den_sub ht hb dy
  have Dz := den_sub hf hn dz
  have ax := n2.div Dx
  have ay := n2.div Dy
  have cx := (num_add hr hl).div Dx
  have cy := (num_add ht hb).div Dy
  have cz := (num_negsum m1.fin m1.val hf hn).div Dz
  have dd := (num_prod mtwo.fin (mtwo.val.trans (by norm_num)) hf hn lf ln).div Dz
  apply closeMat_of
  intro i j
  fin_cases i <;> fin_cases j <;> first | exact z | exact om | exact ax | exact ay | exact cx | exact cy | exact cz | exact dd

/-- sums of four products, the matrix being slightly wrong -/
theorem close_core {v m A : Fin 4 → ℝ} {R : ℝ} (hv : ∀ i, |v i| ≤ 2 ^ 30) (hm : ∀ i, |m i - A i| ≤ |A i| / 2 ^ 21 + 1 / 2 ^ 117)
    (hA : ∑ i, |v i * A i| ≤ 2 ^ 125) :
    ∑ i, |v i * m i| ≤ 2 ^ 126 ∧
    (|R - ∑ i, v i * m i| ≤ dotErr (∑ i, |v i * m i|) →
      |R - ∑ i, v i * A i| ≤ (∑ i, |v i * A i|) / 2 ^ 20 + 1 / 2 ^ 80) := by
  have k : ∀ i, |v i * (m i - A i)| ≤ |v i * A i| / 2 ^ 21 + 1 / 2 ^ 87 := by
    intro i
    rw [_root_.abs_mul, _root_.abs_mul]
    have h := mul_le_mul_of_nonneg_left (hm i) (abs_nonneg (v i))
    have h2 := hv i
    norm_num at h h2 ⊢
    linarith
  have k2 : ∀ i, |v i * m i| ≤ |v i * A i| * (1 + 1 / 2 ^ 21) + 1 / 2 ^ 87 := by
    intro i
    have h := abs_add_le (v i * A i) (v i * (m i - A i))
    rw [show v i * A i + v i * (m i - A i) = v i * m i by ring] at h
    linarith [k i]
  have d : ∑ i, v i * m i - ∑ i, v i * A i = ∑ i, v i * (m i - A i) := by
    rw [← Finset.sum_sub_distrib]; exact Finset.sum_congr rfl fun i _ => by ring
  have d1 : |∑ i, v i * m i - ∑ i, v i * A i| ≤ (∑ i, |v i * A i|) / 2 ^ 21 + 1 / 2 ^ 85 := by
    rw [d]
    refine (Finset.abs_sum_le_sum_abs _ _).trans ?_
    simp only [Fin.sum_univ_four]
    have h0 := k 0; have h1 := k 1; have h2 := k 2; have h3 := k 3
    norm_num [-_root_.abs_mul] at h0 h1 h2 h3 ⊢
    linarith
  have d2 : ∑ i, |v i * m i| ≤ (∑ i, |v i * A i|) * (1 + 1 / 2 ^ 21) + 1 / 2 ^ 85 := by
    simp only [Fin.sum_univ_four]
    have h0 := k2 0; have h1 := k2 1; have h2 := k2 2; have h3 := k2 3
    norm_num [-_root_.abs_mul] at h0 h1 h2 h3 ⊢
    linarith
  have S0 : 0 ≤ ∑ i, |v i * A i| := Finset.sum_nonneg fun _ _ => abs_nonneg _
  generalize (∑ i, |v i * A i|) = S at *
  refine ⟨?_, fun h => ?_⟩
  · norm_num [-_root_.abs_mul] at hA d2 ⊢; linarith
  · have t := abs_add_le (R - ∑ i, v i * m i) (∑ i, v i * m i - ∑ i, v i * A i)
    rw [sub_add_sub_cancel] at t
    unfold dotErr at h
    generalize |R - ∑ i, v i * A i| = w at *
    generalize |R - ∑ i, v i * m i| = w1 at *
    generalize |∑ i, v i * m i - ∑ i, v i * A i| = w2 at *
    generalize (∑ i, |v i * m i|) = S' at *
    norm_num at hA d2 d1 h t ⊢
    linarith

/-- a 4-vector of finite numbers of moderate size through a matrix known to a few units in the last place -/
theorem close_vec4 {m : M4 F32} {A : Matrix (Fin 4) (Fin 4) ℝ} (h : CloseMat m A) (v : Vec4 F32) (hv : FinVec v.value)
    (hb : ∀ i, |rvec v.value i| ≤ 2 ^ 30) (j : Fin 4) (hA : ∑ i, |rvec v.value i * A i j| ≤ 2 ^ 125) :
    (vec (GMatrix.transformVec4 m v).value j).isFin = true ∧
      |rvec (GMatrix.transformVec4 m v).value j - ∑ i, rvec v.value i * A i j|
        ≤ (∑ i, |rvec v.value i * A i j|) / 2 ^ 20 + 1 / 2 ^ 80 := by
  obtain ⟨c1, c2⟩ := close_core (v := rvec v.value) (m := fun i => rmat m i j) (A := fun i => A i j)
    (R := rvec (GMatrix.transformVec4 m v).value j) hb (fun i => h.2 i j) hA
  obtain ⟨f, e⟩ := C87_transform_vec4 m v h.1 hv j c1
  exact ⟨f, c2 e⟩

theorem close_point {m : M4 F32} {A : Matrix (Fin 4) (Fin 4) ℝ} (h : CloseMat m A) (p : Point3D F32)
    (hx : ModRange p.x) (hy : ModRange p.y) (hz : ModRange p.z) (j : Fin 3)
    (hA : |p.x.val * A 0 j.castSucc| + |p.y.val * A 1 j.castSucc| + |p.z.val * A 2 j.castSucc| + |A 3 j.castSucc| ≤ 2 ^ 125) :
    (![(GMatrix.transformPoint3D m p).x, (GMatrix.transformPoint3D m p).y, (GMatrix.transformPoint3D m p).z] j).isFin = true ∧
      |(![(GMatrix.transformPoint3D m p).x, (GMatrix.transformPoint3D m p).y, (GMatrix.transformPoint3D m p).z] j).val
        - (p.x.val * A 0 j.castSucc + p.y.val * A 1 j.castSucc + p.z.val * A 2 j.castSucc + A 3 j.castSucc)|
        ≤ (|p.x.val * A 0 j.castSucc| + |p.y.val * A 1 j.castSucc| + |p.z.val * A 2 j.castSucc| + |A 3 j.castSucc|) / 2 ^ 20
          + 1 / 2 ^ 80 := by
  obtain ⟨c1, c2⟩ := close_core (v := ![p.x.val, p.y.val, p.z.val, 1]) (m := fun i => rmat m i j.castSucc)
    (A := fun i => A i j.castSucc)
    (R := (![(GMatrix.transformPoint3D m p).x, (GMatrix.transformPoint3D m p).y, (GMatrix.transformPoint3D m p).z] j).val)
    (fun i => by
      fin_cases i
      · exact hx.2
      · exact hy.2
      · exact hz.2
      · change |(1 : ℝ)| ≤ _; norm_num) (fun i => h.2 i j.castSucc) (by simpa [Fin.sum_univ_four] using hA)
  simp only [Fin.sum_univ_four, Matrix.cons_val, _root_.one_mul] at c1 c2
  obtain ⟨f, e⟩ := C87_transform_point3d m p h.1 hx.1 hy.1 hz.1 j c1
  exact ⟨f, c2 e⟩

omit [Libm binary32] in
theorem abs_div_le_of {x y B : ℝ} (hy : 1 / 2 ^ 30 ≤ |y|) (hx : |x| ≤ B) : |x / y| ≤ B * 2 ^ 30 := by
  have y0 : 0 < |y| := lt_of_lt_of_le (by positivity) hy
  rw [abs_div, div_le_iff₀ y0]
  have B0 : 0 ≤ B := (abs_nonneg x).trans hx
  have : B * 1 ≤ B * (2 ^ 30 * |y|) := mul_le_mul_of_nonneg_left (by norm_num at hy ⊢; linarith) B0
  linarith

/-- C115: orthographic projection of a point, in floating point: the image is finite, and each coordinate is the exact one — which
runs from -1 to 1 as the point crosses the view volume — up to `2^-20` times `(2 |x| + |left + right|) / |right - left|`. -/
theorem C115_ortho_point (l r t b n f : F32) (hl : ModRange l) (hr : ModRange r) (ht : ModRange t) (hb : ModRange b)
    (hn : ModRange n) (hf : ModRange f) (dx : 1 / 2 ^ 30 ≤ |r.val - l.val|) (dy : 1 / 2 ^ 30 ≤ |b.val - t.val|)
    (dz : 1 / 2 ^ 30 ≤ |f.val - n.val|) (p : Point3D F32) (hx : ModRange p.x) (hy : ModRange p.y) (hz : ModRange p.z) :
    let q := GMatrix.transformPoint3D (GMatrix.initOrtho l r t b n f) p
    (q.x.isFin = true ∧ q.y.isFin = true ∧ q.z.isFin = true) ∧
    |q.x.val - (2 * (p.x.val - l.val) / (r.val - l.val) - 1)|
      ≤ (2 * |p.x.val| + |r.val + l.val|) / |r.val - l.val| / 2 ^ 20 + 1 / 2 ^ 80 ∧
    |q.y.val - (2 * (p.y.val - t.val) / (b.val - t.val) - 1)|
      ≤ (2 * |p.y.val| + |b.val + t.val|) / |b.val - t.val| / 2 ^ 20 + 1 / 2 ^ 80 ∧
    |q.z.val - (2 * (-p.z.val - n.val) / (f.val - n.val) - 1)|
      ≤ (2 * |p.z.val| + |f.val + n.val|) / |f.val - n.val| / 2 ^ 20 + 1 / 2 ^ 80 := by
  intro q
  have C := C115_ortho_entries l r t b n f hl hr ht hb hn hf dx dy dz
  have nz : ∀ {y : ℝ}, 1 / 2 ^ 30 ≤ |y| → y ≠ 0 := fun h => abs_pos.1 (lt_of_lt_of_le (by positivity) h)
  have key : ∀ c x y d : ℝ, |c| = 2 → |x| ≤ 2 ^ 30 → |y| ≤ 2 ^ 31 → 1 / 2 ^ 30 ≤ |d| → |x * (c / d)| + |-y / d| ≤ 2 ^ 125 := by
    intro c x y d hc h1 h2 h3
    have e : x * (c / d) = x * c / d := by ring
    rw [e]
    have i1 := abs_div_le_of (x := x * c) (B := 2 ^ 31) h3 (by rw [_root_.abs_mul, hc]; norm_num at h1 ⊢; linarith)
    have i2 := abs_div_le_of (x := -y) (B := 2 ^ 31) h3 (by rw [_root_.abs_neg]; exact h2)
    refine (add_le_add i1 i2).trans (by norm_num)
  have sum2 : ∀ {a c : F32}, ModRange a → ModRange c → |a.val + c.val| ≤ 2 ^ 31 := fun h1 h2 =>
    (abs_add_le _ _).trans (by linarith [h1.2, h2.2])
  have eqv : ∀ c x y d : ℝ, |c| = 2 → |x * (c / d)| + |-y / d| = (2 * |x| + |y|) / |d| := by
    intro c x y d hc
    rw [_root_.abs_mul, abs_div, abs_div, _root_.abs_neg, hc]; ring
  have cx := close_point C p hx hy hz 0 (by
    have := key 2 p.x.val (r.val + l.val) (r.val - l.val) (by norm_num) hx.2 (sum2 hr hl) dx
    simpa [orthoMat, -_root_.abs_mul] using this)
  have cy := close_point C p hx hy hz 1 (by
    have := key 2 p.y.val (b.val + t.val) (b.val - t.val) (by norm_num) hy.2 (sum2 hb ht) dy
    simpa [orthoMat, -_root_.abs_mul] using this)
  have cz := close_point C p hx hy hz 2 (by
    have := key (-2) p.z.val (f.val + n.val) (f.val - n.val) (by norm_num) hz.2 (sum2 hf hn) dz
    simpa [orthoMat, -_root_.abs_mul] using this)
  refine ⟨⟨cx.1, cy.1, cz.1⟩, ?_, ?_, ?_⟩
  · have h := cx.2
    simp only [orthoMat, Fin.castSucc_zero, Matrix.of_apply, Matrix.cons_val, MulZeroClass.mul_zero, _root_.add_zero, abs_zero] at h
    rw [eqv 2 _ _ _ (by norm_num)] at h
    convert h using 3
    field_simp [nz dx]; ring
  · have h := cy.2
    simp only [orthoMat, show (1 : Fin 3).castSucc = (1 : Fin 4) from rfl, Matrix.of_apply, Matrix.cons_val, MulZeroClass.mul_zero,
      _root_.add_zero, _root_.zero_add, abs_zero] at h
    rw [eqv 2 _ _ _ (by norm_num)] at h
    convert h using 3
    field_simp [nz dy]; ring
  · have h := cz.2
    simp only [orthoMat, show (2 : Fin 3).castSucc = (2 : Fin 4) from rfl, Matrix.of_apply, Matrix.cons_val, MulZeroClass.mul_zero,
      _root_.add_zero, _root_.zero_add, abs_zero] at h
    rw [eqv (-2) _ _ _ (by norm_num)] at h
    convert h using 3
    field_simp [nz dz]; ring

omit [Libm binary32] in
theorem volume_core {l r x q K : ℝ} (h : l < r) (hx : l ≤ x ∧ x ≤ r) (kl : |l| ≤ K * (r - l)) (kr : |r| ≤ K * (r - l))
    (e : |q - (2 * (x - l) / (r - l) - 1)| ≤ (2 * |x| + |r + l|) / |r - l| / 2 ^ 20 + 1 / 2 ^ 80) : |q| ≤ 1 + K / 2 ^ 17 := by
  have d0 : 0 < r - l := sub_pos.2 h
  rw [abs_of_pos d0] at e
  have xb : |x| ≤ K * (r - l) := abs_le.2 ⟨by linarith [(abs_le.1 kl).1], by linarith [(abs_le.1 kr).2]⟩
  have sb : |r + l| ≤ 2 * (K * (r - l)) := (abs_add_le _ _).trans (by linarith)
  have K0 : 1 / 2 ≤ K := by
    have : 1 * (r - l) ≤ 2 * K * (r - l) := by linarith [le_abs_self r, neg_abs_le l]
    have := le_of_mul_le_mul_right this d0
    linarith
  have t : (2 * |x| + |r + l|) / (r - l) ≤ 4 * K := by
    rw [div_le_iff₀ d0]; linarith
  have i : |2 * (x - l) / (r - l) - 1| ≤ 1 := by
    rw [abs_le]
    have a1 : 0 ≤ 2 * (x - l) / (r - l) := div_nonneg (by linarith [hx.1]) d0.le
    have a2 : 2 * (x - l) / (r - l) ≤ 2 := by rw [div_le_iff₀ d0]; linarith [hx.2]
    constructor <;> linarith
  have tr := abs_add_le (q - (2 * (x - l) / (r - l) - 1)) (2 * (x - l) / (r - l) - 1)
  rw [sub_add_cancel] at tr
  generalize |2 * (x - l) / (r - l) - 1| = w at *
  generalize |q - (2 * (x - l) / (r - l) - 1)| = w1 at *
  generalize (2 * |x| + |r + l|) / (r - l) = w2 at *
  norm_num at e ⊢
  linarith

/-- C115: every point of the view volume of an orthographic projection lands in the clip cube, up to `K / 2^17`, where `K` bounds how
far the volume is from the origin in units of its size (`K = 1/2` for a symmetric volume). -/
theorem C115_ortho_volume (l r t b n f : F32) (hl : ModRange l) (hr : ModRange r) (ht : ModRange t) (hb : ModRange b)
    (hn : ModRange n) (hf : ModRange f) (dx : 1 / 2 ^ 30 ≤ r.val - l.val) (dy : 1 / 2 ^ 30 ≤ b.val - t.val)
    (dz : 1 / 2 ^ 30 ≤ f.val - n.val) (K : ℝ) (kx : |l.val| ≤ K * (r.val - l.val) ∧ |r.val| ≤ K * (r.val - l.val))
    (ky : |t.val| ≤ K * (b.val - t.val) ∧ |b.val| ≤ K * (b.val - t.val))
    (kz : |n.val| ≤ K * (f.val - n.val) ∧ |f.val| ≤ K * (f.val - n.val))
    (p : Point3D F32) (hx : ModRange p.x) (hy : ModRange p.y) (hz : ModRange p.z)
    (vx : l.val ≤ p.x.val ∧ p.x.val ≤ r.val) (vy : t.val ≤ p.y.val ∧ p.y.val ≤ b.val)
    (vz : n.val ≤ -p.z.val ∧ -p.z.val ≤ f.val) :
    let q := GMatrix.transformPoint3D (GMatrix.initOrtho l r t b n f) p
    |q.x.val| ≤ 1 + K / 2 ^ 17 ∧ |q.y.val| ≤ 1 + K / 2 ^ 17 ∧ |q.z.val| ≤ 1 + K / 2 ^ 17 := by
  intro q
  have pos : (0 : ℝ) < 1 / 2 ^ 30 := by positivity
  obtain ⟨-, ex, ey, ez⟩ := C115_ortho_point l r t b n f hl hr ht hb hn hf (dx.trans (le_abs_self _)) (dy.trans (le_abs_self _))
    (dz.trans (le_abs_self _)) p hx hy hz
  refine ⟨volume_core (by linarith) vx kx.1 kx.2 ex, volume_core (by linarith) vy ky.1 ky.2 ey,
    volume_core (by linarith) vz kz.1 kz.2 ?_⟩
  rwa [_root_.abs_neg]

/-- C115: perspective projection of a point by `graphene_matrix_init_frustum` and `graphene_matrix_transform_vec4`: the homogeneous
coordinate is exactly the distance `-z` in front of the eye, the others are the exact ones up to `2^-20` of the absolute values that
are added up. -/
theorem C115_frustum_point (l r b t n f : F32) (hl : ModRange l) (hr : ModRange r) (hb : ModRange b) (ht : ModRange t)
    (hn : ModRange n) (hf : ModRange f) (dx : 1 / 2 ^ 30 ≤ |r.val - l.val|) (dy : 1 / 2 ^ 30 ≤ |t.val - b.val|)
    (dz : 1 / 2 ^ 30 ≤ |f.val - n.val|) (ln : 1 / 2 ^ 30 ≤ n.val) (lf : 1 / 2 ^ 30 ≤ f.val)
    (x y z : F32) (hx : ModRange x) (hy : ModRange y) (hz : ModRange z) :
    let q := GMatrix.transformVec4 (GMatrix.initFrustum l r b t n f) (Vec4.init x y z f1)
    FinVec q.value ∧ q.getW.val = -z.val ∧
    |q.getX.val - (2 * n.val * x.val + z.val * (r.val + l.val)) / (r.val - l.val)|
      ≤ (2 * n.val * |x.val| + |z.val| * |r.val + l.val|) / |r.val - l.val| / 2 ^ 20 + 1 / 2 ^ 80 ∧
    |q.getY.val - (2 * n.val * y.val + z.val * (t.val + b.val)) / (t.val - b.val)|
      ≤ (2 * n.val * |y.val| + |z.val| * |t.val + b.val|) / |t.val - b.val| / 2 ^ 20 + 1 / 2 ^ 80 ∧
    |q.getZ.val - -(z.val * (f.val + n.val) + 2 * f.val * n.val) / (f.val - n.val)|
      ≤ (|z.val| * (f.val + n.val) + 2 * f.val * n.val) / |f.val - n.val| / 2 ^ 20 + 1 / 2 ^ 80 := by
  intro q
  have C := C115_frustum_entries l r b t n f hl hr hb ht hn hf dx dy dz ln lf
  have pos : (0 : ℝ) < 1 / 2 ^ 30 := by positivity
  have n0 : 0 < n.val := lt_of_lt_of_le pos ln
  have f0' : 0 < f.val := lt_of_lt_of_le pos lf
  have one := is_f1
  set v : Vec4 F32 := Vec4.init x y z f1 with hv
  have v0 : rvec v.value 0 = x.val := rfl
  have v1 : rvec v.value 1 = y.val := rfl
  have v2 : rvec v.value 2 = z.val := rfl
  have v3 : rvec v.value 3 = 1 := one.val
  have fv : FinVec v.value := by
    intro i
    fin_cases i
    · exact hx.1
    · exact hy.1
    · exact hz.1
    · exact one.fin
  have bv : ∀ i, |rvec v.value i| ≤ 2 ^ 30 := by
    intro i
    fin_cases i
    · exact hx.2
    · exact hy.2
    · exact hz.2
    · change |rvec v.value 3| ≤ _; rw [v3]; norm_num
  have un : n.val ≤ 2 ^ 30 := (le_abs_self _).trans hn.2
  have uf : f.val ≤ 2 ^ 30 := (le_abs_self _).trans hf.2
  have sum2 : ∀ {a c : F32}, ModRange a → ModRange c → |a.val + c.val| ≤ 2 ^ 31 := fun h1 h2 =>
    (abs_add_le _ _).trans (by linarith [h1.2, h2.2])
  have key : ∀ s k d : ℝ, |s| ≤ 2 ^ 30 → |k| ≤ 2 ^ 61 → 1 / 2 ^ 30 ≤ |d| → |s * (k / d)| ≤ 2 ^ 121 := by
    intro s k d h1 h2 h3
    rw [_root_.abs_mul]
    calc _ ≤ 2 ^ 30 * (2 ^ 61 * 2 ^ 30) := mul_le_mul h1 (abs_div_le_of h3 h2) (abs_nonneg _) (by positivity)
      _ ≤ _ := by norm_num
  have k2n : |2 * n.val| ≤ 2 ^ 61 := by rw [abs_of_pos (by linarith)]; norm_num at un ⊢; linarith
  have kfn : |-2 * f.val * n.val| ≤ 2 ^ 61 := by
    rw [_root_.abs_mul, _root_.abs_mul, abs_of_pos n0, abs_of_pos f0']
    have : f.val * n.val ≤ 2 ^ 30 * 2 ^ 30 := mul_le_mul uf un n0.le (by positivity)
    norm_num at this ⊢; linarith
  have up : ∀ {a : ℝ}, a ≤ 2 ^ 31 → a ≤ 2 ^ 61 := fun h => h.trans (by norm_num)
  have s0 : ∀ w : Fin 4 → ℝ, ∑ i, w i = w 0 + w 1 + w 2 + w 3 := Fin.sum_univ_four
  -- the four lanes
  have cx := close_vec4 C v fv bv 0 (by
    rw [s0, v0, v1, v2, v3]
    have h1 := key x.val (2 * n.val) (r.val - l.val) hx.2 k2n dx
    have h2 := key z.val (r.val + l.val) (r.val - l.val) hz.2 (up (sum2 hr hl)) dx
    simp only [frustumMat, Matrix.of_apply, Matrix.cons_val, MulZeroClass.mul_zero, abs_zero, _root_.add_zero]
    refine (add_le_add h1 h2).trans (by norm_num))
  have cy := close_vec4 C v fv bv 1 (by
    rw [s0, v0, v1, v2, v3]
    have h1 := key y.val (2 * n.val) (t.val - b.val) hy.2 k2n dy
    have h2 := key z.val (t.val + b.val) (t.val - b.val) hz.2 (up (sum2 ht hb)) dy
    simp only [frustumMat, Matrix.of_apply, Matrix.cons_val, MulZeroClass.mul_zero, abs_zero, _root_.add_zero, _root_.zero_add]
    refine (add_le_add h1 h2).trans (by norm_num))
  have cz := close_vec4 C v fv bv 2 (by
    rw [s0, v0, v1, v2, v3]
    have h1 := key z.val (-(f.val + n.val)) (f.val - n.val) hz.2 (by rw [_root_.abs_neg]; exact up (sum2 hf hn)) dz
    have h2 := key 1 (-2 * f.val * n.val) (f.val - n.val) (by norm_num) kfn dz
    simp only [frustumMat, Matrix.of_apply, Matrix.cons_val, MulZeroClass.mul_zero, abs_zero, _root_.add_zero, _root_.zero_add]
    refine (add_le_add h1 h2).trans (by norm_num))
  have zr := is_f0
  have mone := is_lit_int (-1) (by decide)
  have hw : Is q.getW (-z.val) := by
    have m1 : Is (lit (-1) 1 : F32) (-1) := mone.congr (by norm_num)
    have pz : Is (Fp.mul (lit (-1) 1 : F32) z) (-z.val) := by
      have r1 := rnd_mul m1.fin hz.1
      rw [m1.val, neg_one_mul] at r1
      exact r1.is (c := Fp.neg z) ((Is.self hz.1).neg)
    exact is_lane (a := f0) (b := f0) (c := lit (-1) 1) (d := f0) (zr.zero_mul (Is.self hx.1)) (zr.zero_mul (Is.self hy.1)) pz
      (zr.zero_mul one) (.inr (.inr (.inl ⟨rfl, rfl, rfl, rfl⟩)))
  refine ⟨?_, hw.val, ?_, ?_, ?_⟩
  · intro i
    fin_cases i
    · exact cx.1
    · exact cy.1
    · exact cz.1
    · exact hw.fin
  · have h := cx.2
    rw [s0, s0, v0, v1, v2, v3] at h
    simp only [frustumMat, Matrix.of_apply, Matrix.cons_val, MulZeroClass.mul_zero, abs_zero, _root_.add_zero] at h
    rw [show |x.val * (2 * n.val / (r.val - l.val))| + |z.val * ((r.val + l.val) / (r.val - l.val))|
      = (2 * n.val * |x.val| + |z.val| * |r.val + l.val|) / |r.val - l.val| by
        rw [_root_.abs_mul, _root_.abs_mul, abs_div, abs_div, abs_of_pos (show 0 < 2 * n.val by linarith)]; ring] at h
    rw [show (2 * n.val * x.val + z.val * (r.val + l.val)) / (r.val - l.val) = x.val * (2 * n.val / (r.val - l.val))
      + z.val * ((r.val + l.val) / (r.val - l.val)) by ring]
    exact h
  · have h := cy.2
    rw [s0, s0, v0, v1, v2, v3] at h
    simp only [frustumMat, Matrix.of_apply, Matrix.cons_val, MulZeroClass.mul_zero, abs_zero, _root_.add_zero, _root_.zero_add] at h
    rw [show |y.val * (2 * n.val / (t.val - b.val))| + |z.val * ((t.val + b.val) / (t.val - b.val))|
      = (2 * n.val * |y.val| + |z.val| * |t.val + b.val|) / |t.val - b.val| by
        rw [_root_.abs_mul, _root_.abs_mul, abs_div, abs_div, abs_of_pos (show 0 < 2 * n.val by linarith)]; ring] at h
    rw [show (2 * n.val * y.val + z.val * (t.val + b.val)) / (t.val - b.val) = y.val * (2 * n.val / (t.val - b.val))
      + z.val * ((t.val + b.val) / (t.val - b.val)) by ring]
    exact h
  · have h := cz.2
    rw [s0, s0, v0, v1, v2, v3] at h
    simp only [frustumMat, Matrix.of_apply, Matrix.cons_val, MulZeroClass.mul_zero, abs_zero, _root_.add_zero, _root_.zero_add] at h
    rw [show |z.val * (-(f.val + n.val) / (f.val - n.val))| + |1 * (-2 * f.val * n.val / (f.val - n.val))|
      = (|z.val| * (f.val + n.val) + 2 * f.val * n.val) / |f.val - n.val| by
        rw [_root_.abs_mul, _root_.one_mul, abs_div, abs_div, _root_.abs_neg, abs_of_pos (show 0 < f.val + n.val by linarith),
          show -2 * f.val * n.val = -(2 * f.val * n.val) by ring, _root_.abs_neg,
          abs_of_pos (show 0 < 2 * f.val * n.val by positivity)]; ring] at h
    rw [show -(z.val * (f.val + n.val) + 2 * f.val * n.val) / (f.val - n.val) = z.val * (-(f.val + n.val) / (f.val - n.val))
      + 1 * (-2 * f.val * n.val / (f.val - n.val)) by ring]
    exact h

omit [Libm binary32] in
theorem visible_core {l r x n d q K : ℝ} (h : l < r) (n0 : 0 < n) (dl : 1 / 2 ^ 30 ≤ d) (hx : l * d ≤ n * x ∧ n * x ≤ r * d)
    (kl : |l| ≤ K * (r - l)) (kr : |r| ≤ K * (r - l))
    (e : |q - (2 * n * x + -d * (r + l)) / (r - l)| ≤ (2 * n * |x| + d * |r + l|) / |r - l| / 2 ^ 20 + 1 / 2 ^ 80) :
    |q| ≤ d * (1 + K / 2 ^ 17) := by
  have w0 : 0 < r - l := sub_pos.2 h
  have d0 : 0 < d := lt_of_lt_of_le (by positivity) dl
  rw [abs_of_pos w0] at e
  have xb : n * |x| ≤ d * (K * (r - l)) := by
    rw [← abs_of_pos n0, ← _root_.abs_mul, _root_.abs_le]
    have a1 := mul_le_mul_of_nonneg_right (abs_le.1 kl).1 d0.le
    have a2 := mul_le_mul_of_nonneg_right (abs_le.1 kr).2 d0.le
    constructor <;> linarith [hx.1, hx.2]
  have sb : d * |r + l| ≤ d * (2 * (K * (r - l))) := mul_le_mul_of_nonneg_left ((abs_add_le _ _).trans (by linarith)) d0.le
  have K0 : 1 / 2 ≤ K := by
    have : 1 * (r - l) ≤ 2 * K * (r - l) := by linarith [le_abs_self r, neg_abs_le l]
    have := le_of_mul_le_mul_right this w0
    linarith
  have t : (2 * n * |x| + d * |r + l|) / (r - l) ≤ 4 * (K * d) := by
    rw [div_le_iff₀ w0]; linarith
  have i : |(2 * n * x + -d * (r + l)) / (r - l)| ≤ d := by
    rw [abs_div, abs_of_pos w0, div_le_iff₀ w0, _root_.abs_le]
    constructor <;> linarith [hx.1, hx.2]
  have tr := abs_add_le (q - (2 * n * x + -d * (r + l)) / (r - l)) ((2 * n * x + -d * (r + l)) / (r - l))
  rw [sub_add_cancel] at tr
  have Kd : d / 2 ≤ K * d := by nlinarith
  generalize |(2 * n * x + -d * (r + l)) / (r - l)| = w at *
  generalize |q - (2 * n * x + -d * (r + l)) / (r - l)| = w1 at *
  generalize (2 * n * |x| + d * |r + l|) / (r - l) = w2 at *
  rw [show d * (1 + K / 2 ^ 17) = d + K * d / 2 ^ 17 by ring]
  norm_num at e dl ⊢
  linarith

/-- C115: no visible point is clipped away by rounding: a point of the view frustum is mapped to homogeneous coordinates with
`|x|, |y|, |z| ≤ w (1 + K / 2^17)` and `w` the exact distance in front of the eye; `K` bounds the coordinates of the frustum in units
of its size. -/
theorem C115_frustum_visible (l r b t n f : F32) (hl : ModRange l) (hr : ModRange r) (hb : ModRange b) (ht : ModRange t)
    (hn : ModRange n) (hf : ModRange f) (dx : 1 / 2 ^ 30 ≤ r.val - l.val) (dy : 1 / 2 ^ 30 ≤ t.val - b.val)
    (dz : 1 / 2 ^ 30 ≤ f.val - n.val) (ln : 1 / 2 ^ 30 ≤ n.val) (K : ℝ)
    (kx : |l.val| ≤ K * (r.val - l.val) ∧ |r.val| ≤ K * (r.val - l.val))
    (ky : |b.val| ≤ K * (t.val - b.val) ∧ |t.val| ≤ K * (t.val - b.val)) (kz : f.val ≤ K * (f.val - n.val))
    (x y z : F32) (hx : ModRange x) (hy : ModRange y) (hz : ModRange z)
    (vz : n.val ≤ -z.val ∧ -z.val ≤ f.val)
    (vx : l.val * -z.val ≤ n.val * x.val ∧ n.val * x.val ≤ r.val * -z.val)
    (vy : b.val * -z.val ≤ n.val * y.val ∧ n.val * y.val ≤ t.val * -z.val) :
    let q := GMatrix.transformVec4 (GMatrix.initFrustum l r b t n f) (Vec4.init x y z f1)
    q.getW.val = -z.val ∧ |q.getX.val| ≤ q.getW.val * (1 + K / 2 ^ 17) ∧ |q.getY.val| ≤ q.getW.val * (1 + K / 2 ^ 17) ∧
      |q.getZ.val| ≤ q.getW.val * (1 + K / 2 ^ 17) := by
  intro q
  have pos : (0 : ℝ) < 1 / 2 ^ 30 := by positivity
  have lf : 1 / 2 ^ 30 ≤ f.val := by linarith
  obtain ⟨-, ew, ex, ey, ez⟩ := C115_frustum_point l r b t n f hl hr hb ht hn hf (dx.trans (le_abs_self _))
    (dy.trans (le_abs_self _)) (dz.trans (le_abs_self _)) ln lf x y z hx hy hz
  refine ⟨ew, ?_⟩
  change q.getW.val = _ at ew
  rw [ew]
  obtain ⟨d, hd⟩ : ∃ d, d = -z.val := ⟨_, rfl⟩
  have zd : z.val = -d := by linarith
  have n0 : 0 < n.val := lt_of_lt_of_le pos ln
  have d0 : 0 < d := by linarith [vz.1]
  rw [zd, _root_.abs_neg, abs_of_pos d0] at ex ey ez
  rw [← hd] at vx vy vz ⊢
  refine ⟨visible_core (by linarith) n0 (by linarith [vz.1]) vx kx.1 kx.2 ex,
    visible_core (by linarith) n0 (by linarith [vz.1]) vy ky.1 ky.2 ey, ?_⟩
  have w0 : 0 < f.val - n.val := by linarith
  rw [abs_of_pos w0] at ez
  have K1 : 1 ≤ K := by
    have : 1 * (f.val - n.val) ≤ K * (f.val - n.val) := by linarith
    exact le_of_mul_le_mul_right this w0
  have fn : n.val * f.val ≤ d * f.val := mul_le_mul_of_nonneg_right vz.1 (by linarith)
  have fd : d * n.val ≤ f.val * n.val := mul_le_mul_of_nonneg_right vz.2 n0.le
  have nd : d * n.val ≤ d * f.val := mul_le_mul_of_nonneg_left (by linarith) d0.le
  have fk : d * f.val ≤ d * (K * (f.val - n.val)) := mul_le_mul_of_nonneg_left kz d0.le
  have t : (d * (f.val + n.val) + 2 * f.val * n.val) / (f.val - n.val) ≤ 4 * (K * d) := by
    rw [div_le_iff₀ w0]
    have := mul_comm n.val f.val
    nlinarith
  have i : |-(-d * (f.val + n.val) + 2 * f.val * n.val) / (f.val - n.val)| ≤ d := by
    rw [abs_div, abs_of_pos w0, div_le_iff₀ w0, _root_.abs_le]
    constructor <;> nlinarith
  have tr := abs_add_le (q.getZ.val - -(-d * (f.val + n.val) + 2 * f.val * n.val) / (f.val - n.val))
    (-(-d * (f.val + n.val) + 2 * f.val * n.val) / (f.val - n.val))
  rw [sub_add_cancel] at tr
  have Kd : d ≤ K * d := by nlinarith
  have dl : 1 / 2 ^ 30 ≤ d := by linarith [vz.1]
  change |q.getZ.val - _| ≤ _ at ez
  generalize |-(-d * (f.val + n.val) + 2 * f.val * n.val) / (f.val - n.val)| = w at *
  generalize |q.getZ.val - -(-d * (f.val + n.val) + 2 * f.val * n.val) / (f.val - n.val)| = w1 at *
  generalize (d * (f.val + n.val) + 2 * f.val * n.val) / (f.val - n.val) = w2 at *
  rw [show d * (1 + K / 2 ^ 17) = d + K * d / 2 ^ 17 by ring]
  norm_num at ez dl ⊢
  linarith

/-! ### perspective -/

/-- `tanf` of the C library is accurate to `2^-22` (relative) between `2^-8` and `25/16` (just below a right angle) -/
def Spec.TanAccurate : Prop :=
  ∀ v : F32, v.isFin = true → 1 / 2 ^ 8 ≤ v.val → v.val ≤ 25 / 16 →
    (Libm.tan v).isFin = true ∧ |(Libm.tan v).val - Real.tan v.val| ≤ Real.tan v.val / 2 ^ 22

theorem half_pi : (Fp.div (Scalar.pi : F32) f2) = lit 13176795 (2 ^ 23) := by kdecide

/-- the angle whose tangent is taken -/
theorem persp_arg (fovy : F32) (hf : fovy.isFin = true) (lo : 1 ≤ fovy.val) (hi : fovy.val ≤ 179) :
    let a := Fp.sub (Fp.div (Scalar.pi : F32) f2) (Fp.mul (degToRad fovy) (lit 1 2))
    a.isFin = true ∧ |a.val - (Real.pi / 2 - fovy.val * (Real.pi / 180) / 2)| ≤ 1 / 2 ^ 21 := by
  intro a
  have plo := Real.pi_gt_d20
  have phi := Real.pi_lt_d20
  have fa : |fovy.val| ≤ 179 := by rw [abs_of_pos (by linarith)]; exact hi
  obtain ⟨rf, re⟩ := C108_radians fovy hf (fa.trans (by norm_num))
  set rad := degToRad fovy
  have re' : |rad.val - fovy.val * (Real.pi / 180)| ≤ 179 / 2 ^ 29 + 1 / 2 ^ 150 := re.trans (by
    generalize |fovy.val| = q at *; norm_num at fa ⊢; linarith)
  obtain ⟨hf', hv⟩ := lit_dyadic 1 1 (by norm_num) (by norm_num)
  have hv' : (lit 1 2 : F32).val = 1 / 2 := by
    have : (lit 1 2 : F32) = lit 1 (2 ^ 1) := rfl
    rw [this, hv]; norm_num
  have hff : (lit 1 2 : F32).isFin = true := hf'
  obtain ⟨pf, pv⟩ := lit_dyadic 13176795 23 (by norm_num) (by norm_num)
  have pv' : (lit 13176795 (2 ^ 23) : F32).val = 13176795 / 2 ^ 23 := by rw [pv]; norm_num
  have th : fovy.val * (Real.pi / 180) ≤ 355 / 113 ∧ 0 ≤ fovy.val * (Real.pi / 180) := by
    constructor
    · have : fovy.val * (Real.pi / 180) ≤ 179 * (Real.pi / 180) := mul_le_mul_of_nonneg_right hi (by positivity)
      norm_num at *; linarith
    · positivity
  obtain ⟨rl, ru⟩ := _root_.abs_le.1 re'
  have r1 := rnd_mul rf hff
  rw [hv'] at r1
  have rb : |rad.val * (1 / 2)| ≤ 8 / 5 := by
    rw [_root_.abs_le]; constructor <;> norm_num at * <;> linarith
  have f1' := r1.isFin hp32 (rb.trans (_root_.le_trans (by norm_num) le_max32))
  have e1 := r1.err_add f1'
  rw [u32, eta32] at e1
  have e1' : |(Fp.mul rad (lit 1 2)).val - rad.val * (1 / 2)| ≤ 8 / 5 / 2 ^ 24 + 1 / 2 ^ 150 := e1.trans (by
    generalize |rad.val * (1 / 2)| = q at *; norm_num at rb ⊢; linarith)
  obtain ⟨hl, hu⟩ := _root_.abs_le.1 e1'
  have r2 := rnd_sub pf f1'
  rw [pv'] at r2
  have ae : a = Fp.sub (lit 13176795 (2 ^ 23)) (Fp.mul rad (lit 1 2)) := by rw [← half_pi]
  rw [ae]
  generalize (Fp.mul rad (lit 1 2)).val = H at *
  have ab : |13176795 / 2 ^ 23 - H| ≤ 8 / 5 := by
    rw [_root_.abs_le]; constructor <;> norm_num at * <;> linarith
  have f2' := r2.isFin hp32 (ab.trans (_root_.le_trans (by norm_num) le_max32))
  have e2 := r2.err_add f2'
  rw [u32, eta32] at e2
  refine ⟨f2', ?_⟩
  have e2' : |(Fp.sub (lit 13176795 (2 ^ 23)) (Fp.mul rad (lit 1 2))).val - (13176795 / 2 ^ 23 - H)| ≤ 8 / 5 / 2 ^ 24 + 1 / 2 ^ 150 :=
    e2.trans (by generalize |13176795 / 2 ^ 23 - H| = q at *; norm_num at ab ⊢; linarith)
  obtain ⟨sl, su⟩ := _root_.abs_le.1 e2'
  rw [_root_.abs_le]
  generalize (Fp.sub (lit 13176795 (2 ^ 23)) (Fp.mul rad (lit 1 2))).val = S at *
  generalize fovy.val * (Real.pi / 180) = T at *
  constructor <;> norm_num at plo phi rl ru hl hu sl su ⊢ <;> linarith

omit [Libm binary32] in
theorem tan_near {a b δ : ℝ} (h : |a - b| ≤ δ) (ca : 0 < Real.cos a) (cb : 0 < Real.cos b) (sb : 0 < Real.sin b) :
    |Real.tan a - Real.tan b| ≤ Real.tan b * (δ / (Real.cos a * Real.sin b)) := by
  have e : Real.tan a - Real.tan b = Real.sin (a - b) / (Real.cos a * Real.cos b) := by
    rw [Real.tan_eq_sin_div_cos, Real.tan_eq_sin_div_cos, Real.sin_sub]; field_simp
  have e2 : Real.tan b * (δ / (Real.cos a * Real.sin b)) = δ / (Real.cos a * Real.cos b) := by
    rw [Real.tan_eq_sin_div_cos]; field_simp
  rw [e, e2, abs_div, abs_of_pos (mul_pos ca cb)]
  apply div_le_div_of_nonneg_right _ (mul_pos ca cb).le
  exact Real.abs_sin_le_abs.trans h

omit [Libm binary32] in
theorem sin_lower {θ : ℝ} (lo : Real.pi / 180 ≤ θ) (hi : θ ≤ Real.pi - Real.pi / 180) : 1 / 90 ≤ Real.sin θ := by
  have p := Real.pi_pos
  have key : ∀ x, Real.pi / 180 ≤ x → x ≤ Real.pi / 2 → 1 / 90 ≤ Real.sin x := by
    intro x h1 h2
    refine _root_.le_trans ?_ (Real.mul_le_sin (by linarith) h2)
    have : 2 / Real.pi * (Real.pi / 180) ≤ 2 / Real.pi * x := mul_le_mul_of_nonneg_left h1 (by positivity)
    refine _root_.le_trans (le_of_eq ?_) this
    field_simp; norm_num
  rcases le_total θ (Real.pi / 2) with h | h
  · exact key θ lo h
  · rw [← Real.sin_pi_sub]; exact key _ (by linarith) (by linarith)

/-- the cotangent of half the field of view -/
theorem persp_cot (ht : TanAccurate) (fovy : F32) (hf : fovy.isFin = true) (lo : 1 ≤ fovy.val) (hi : fovy.val ≤ 179) :
    let c := Libm.tan (Fp.sub (Fp.div (Scalar.pi : F32) f2) (Fp.mul (degToRad fovy) (lit 1 2)))
    let θ := fovy.val * (Real.pi / 180)
    c.isFin = true ∧ |c.val - (Real.tan (θ / 2))⁻¹| ≤ (Real.tan (θ / 2))⁻¹ * (3 / 4 / 2 ^ 19 / Real.sin θ) ∧
      0 < (Real.tan (θ / 2))⁻¹ ∧ (Real.tan (θ / 2))⁻¹ ≤ 180 := by
  intro c θ
  have plo := Real.pi_gt_d20
  have phi := Real.pi_lt_d20
  obtain ⟨af, ae⟩ := persp_arg fovy hf lo hi
  set a := Fp.sub (Fp.div (Scalar.pi : F32) f2) (Fp.mul (degToRad fovy) (lit 1 2))
  have tl : Real.pi / 180 ≤ θ := by
    have : 1 * (Real.pi / 180) ≤ fovy.val * (Real.pi / 180) := mul_le_mul_of_nonneg_right lo (by positivity)
    change _ ≤ fovy.val * (Real.pi / 180)
    linarith
  have tu : θ ≤ Real.pi - Real.pi / 180 := by
    have : fovy.val * (Real.pi / 180) ≤ 179 * (Real.pi / 180) := mul_le_mul_of_nonneg_right hi (by positivity)
    change fovy.val * (Real.pi / 180) ≤ _
    linarith
  change |a.val - (Real.pi / 2 - θ / 2)| ≤ _ at ae
  obtain ⟨b, hb⟩ : ∃ b, b = Real.pi / 2 - θ / 2 := ⟨_, rfl⟩
  rw [← hb] at ae
  have s90 := sin_lower tl tu
  clear_value θ
  have cb : Real.cos b = Real.sin (θ / 2) := by rw [hb, Real.cos_pi_div_two_sub]
  have sb : Real.sin b = Real.cos (θ / 2) := by rw [hb, Real.sin_pi_div_two_sub]
  have tb : Real.tan b = (Real.tan (θ / 2))⁻¹ := by rw [hb, Real.tan_pi_div_two_sub]
  have dbl : Real.sin θ = 2 * (Real.cos b * Real.sin b) := by
    rw [cb, sb, ← mul_assoc, ← Real.sin_two_mul]; congr 1; ring
  have sb0 : 0 < Real.sin b := by rw [sb]; exact Real.cos_pos_of_mem_Ioo ⟨by linarith, by linarith⟩
  have cb0 : 0 < Real.cos b := by rw [cb]; exact Real.sin_pos_of_pos_of_lt_pi (by linarith) (by linarith)
  have sb1 := Real.sin_le_one b
  have cbl : 1 / 180 ≤ Real.cos b := by
    have : Real.cos b * Real.sin b ≤ Real.cos b * 1 := mul_le_mul_of_nonneg_left sb1 cb0.le
    linarith
  have cab : |Real.cos a.val - Real.cos b| ≤ 1 / 2 ^ 21 := by
    refine _root_.le_trans ?_ ae
    exact Real.abs_cos_sub_cos_le a.val b
  have cal : Real.cos b * (1 - 1 / 2 ^ 13) ≤ Real.cos a.val := by
    have := (_root_.abs_le.1 cab).1
    norm_num at this ⊢; linarith
  have ca0 : 0 < Real.cos a.val := lt_of_lt_of_le (by positivity) cal
  obtain ⟨al, au⟩ := _root_.abs_le.1 ae
  obtain ⟨tf, te⟩ := ht a af (by norm_num at al plo ⊢; linarith) (by norm_num at au phi plo ⊢; linarith)
  have tn := tan_near ae ca0 cb0 sb0
  have T0 : 0 < Real.tan b := by rw [Real.tan_eq_sin_div_cos]; positivity
  have T1 : Real.tan b ≤ 180 := by
    rw [Real.tan_eq_sin_div_cos, div_le_iff₀ cb0]; linarith
  rw [← tb]
  refine ⟨tf, ?_, T0, T1⟩
  have σ0 : 0 < Real.sin θ := by linarith
  have σ1 := Real.sin_le_one θ
  have q : 1 / 2 ^ 21 / (Real.cos a.val * Real.sin b) ≤ (1 / 2 ^ 20 + 1 / 2 ^ 32) / Real.sin θ := by
    rw [div_le_div_iff₀ (mul_pos ca0 sb0) σ0, dbl]
    have := mul_le_mul_of_nonneg_right cal sb0.le
    norm_num at this ⊢
    have h0 := mul_pos cb0 sb0
    nlinarith
  have tn' := tn.trans (mul_le_mul_of_nonneg_left q T0.le)
  have inv1 : 1 ≤ 1 / Real.sin θ := by rw [le_div_iff₀ σ0]; linarith
  rw [div_eq_mul_one_div _ (Real.sin θ)] at tn'
  rw [div_eq_mul_one_div _ (Real.sin θ)]
  have i90 : 1 / Real.sin θ ≤ 90 := by rw [div_le_iff₀ σ0]; linarith
  generalize 1 / Real.sin θ = κ at *
  have Tk : Real.tan b ≤ Real.tan b * κ := by nlinarith
  have tr := abs_add_le (c.val - Real.tan a.val) (Real.tan a.val - Real.tan b)
  rw [sub_add_sub_cancel] at tr
  change |c.val - _| ≤ _ at te
  have ta : Real.tan a.val ≤ Real.tan b + Real.tan b * ((1 / 2 ^ 20 + 1 / 2 ^ 32) * κ) := by
    have := le_abs_self (Real.tan a.val - Real.tan b); linarith
  rw [show Real.tan b * ((1 / 2 ^ 20 + 1 / 2 ^ 32) * κ) = (1 / 2 ^ 20 + 1 / 2 ^ 32) * (Real.tan b * κ) by ring] at tn' ta
  rw [show Real.tan b * (3 / 4 / 2 ^ 19 * κ) = 3 / 4 / 2 ^ 19 * (Real.tan b * κ) by ring]
  generalize Real.tan b * κ = Q at *
  norm_num at te tn' ta ⊢
  linarith

/-- the exact perspective projection: `c` is the cotangent of half the vertical field of view -/
noncomputable def Spec.fovMat (c aspect n f : ℝ) : Matrix (Fin 4) (Fin 4) ℝ :=
  !![c / aspect, 0, 0, 0; 0, c, 0, 0; 0, 0, -(f + n) / (f - n), -1; 0, 0, -2 * n * f / (f - n), 0]

/-- C115: `graphene_matrix_init_perspective`, field of view between 1 and 179 degrees: every entry is finite and relatively within
`2^-19 / sin (fovy)` of the exact entry (`2^-117` if that is tiny). -/
theorem C115_perspective_entries (ht : TanAccurate) (fovy aspect n f : F32) (hfv : fovy.isFin = true) (lo : 1 ≤ fovy.val)
    (hi : fovy.val ≤ 179) (ha : ModRange aspect) (la : 1 / 2 ^ 30 ≤ aspect.val) (hn : ModRange n) (hf : ModRange f)
    (dz : 1 / 2 ^ 30 ≤ |f.val - n.val|) (ln : 1 / 2 ^ 30 ≤ n.val) (lf : 1 / 2 ^ 30 ≤ f.val) :
    let m := GMatrix.initPerspective fovy aspect n f
    let θ := fovy.val * (Real.pi / 180)
    let P := fovMat (Real.tan (θ / 2))⁻¹ aspect.val n.val f.val
    FinMat m ∧ ∀ i j, |rmat m i j - P i j| ≤ |P i j| * (1 / 2 ^ 19 / Real.sin θ) + 1 / 2 ^ 117 := by
  intro m θ P
  obtain ⟨cf, ce, c0, cu⟩ := persp_cot ht fovy hfv lo hi
  have tl : Real.pi / 180 ≤ θ := by
    have : 1 * (Real.pi / 180) ≤ fovy.val * (Real.pi / 180) := mul_le_mul_of_nonneg_right lo (by positivity)
    change _ ≤ fovy.val * (Real.pi / 180)
    linarith
  have tu : θ ≤ Real.pi - Real.pi / 180 := by
    have : fovy.val * (Real.pi / 180) ≤ 179 * (Real.pi / 180) := mul_le_mul_of_nonneg_right hi (by positivity)
    change fovy.val * (Real.pi / 180) ≤ _
    linarith
  have s90 := sin_lower tl tu
  have σ0 : 0 < Real.sin θ := by linarith
  have σ1 := Real.sin_le_one θ
  have inv1 : 1 ≤ 1 / Real.sin θ := by rw [le_div_iff₀ σ0]; linarith
  have i90 : 1 / Real.sin θ ≤ 90 := by rw [div_le_iff₀ σ0]; linarith
  change |(Libm.tan (Fp.sub (Fp.div (Scalar.pi : F32) f2) (Fp.mul (degToRad fovy) (lit 1 2)))).val - (Real.tan (θ / 2))⁻¹|
    ≤ (Real.tan (θ / 2))⁻¹ * (3 / 4 / 2 ^ 19 / Real.sin θ) at ce
  rw [div_eq_mul_one_div _ (Real.sin θ)] at ce
  have A0 : 0 < aspect.val := lt_of_lt_of_le (by positivity) la
  have Au : aspect.val ≤ 2 ^ 30 := (le_abs_self _).trans ha.2
  have z := is_f0
  have mtwo := is_lit_int (-2) (by decide)
  have m1 : Is (lit (-1) 1 : F32) (-1) := (is_lit_int (-1) (by decide)).congr (by norm_num)
  have Dz := den_sub hf hn dz
  have cz := (num_add hf hn).neg.div Dz
  have dd := (num_prod mtwo.fin (mtwo.val.trans (by norm_num)) hn hf ln lf).div Dz
  -- entry (0, 0)
  have q00 : (Fp.div (Libm.tan (Fp.sub (Fp.div (Scalar.pi : F32) f2) (Fp.mul (degToRad fovy) (lit 1 2)))) aspect).isFin = true ∧
      |(Fp.div (Libm.tan (Fp.sub (Fp.div (Scalar.pi : F32) f2) (Fp.mul (degToRad fovy) (lit 1 2)))) aspect).val
        - (Real.tan (θ / 2))⁻¹ / aspect.val| ≤ |(Real.tan (θ / 2))⁻¹ / aspect.val| * (1 / 2 ^ 19 / Real.sin θ) + 1 / 2 ^ 117 := by
    generalize Libm.tan (Fp.sub (Fp.div (Scalar.pi : F32) f2) (Fp.mul (degToRad fovy) (lit 1 2))) = c at *
    change 0 < (Real.tan (θ / 2))⁻¹ at c0
    change (Real.tan (θ / 2))⁻¹ ≤ 180 at cu
    rw [div_eq_mul_one_div _ (Real.sin θ)]
    generalize (Real.tan (θ / 2))⁻¹ = C at *
    generalize 1 / Real.sin θ = κ at *
    have r := rnd_div cf ha.1 A0.ne'
    have d : |c.val / aspect.val - C / aspect.val| ≤ C / aspect.val * (3 / 4 / 2 ^ 19 * κ) := by
      rw [← sub_div, abs_div, abs_of_pos A0, div_le_iff₀ A0]
      refine ce.trans (le_of_eq ?_)
      field_simp
    have X0 : 0 < C / aspect.val := div_pos c0 A0
    have Xu : C / aspect.val ≤ 180 * 2 ^ 30 := by
      rw [div_le_iff₀ A0]
      norm_num at la ⊢; linarith
    rw [abs_of_pos X0]
    generalize C / aspect.val = X at *
    generalize c.val / aspect.val = Y at *
    have Yb : |Y| ≤ X + X * (3 / 4 / 2 ^ 19 * κ) := by
      have := abs_add_le (Y - X) X
      rw [sub_add_cancel, abs_of_pos X0] at this
      linarith
    have XK : X ≤ X * κ := by nlinarith
    have XK2 : X * κ ≤ X * 90 := mul_le_mul_of_nonneg_left i90 X0.le
    rw [show X * (3 / 4 / 2 ^ 19 * κ) = 3 / 4 / 2 ^ 19 * (X * κ) by ring] at d Yb
    rw [show X * (1 / 2 ^ 19 * κ) = 1 / 2 ^ 19 * (X * κ) by ring]
    generalize X * κ = Q at *
    have ff := r.isFin hp32 (Yb.trans (_root_.le_trans (by norm_num at Xu ⊢; linarith) le_max32))
    refine ⟨ff, ?_⟩
    have e := r.err_add ff
    rw [u32, eta32] at e
    have tr := abs_add_le ((Fp.div c aspect).val - Y) (Y - X)
    rw [sub_add_sub_cancel] at tr
    generalize |Y| = y at *
    generalize |Y - X| = w at *
    generalize |(Fp.div c aspect).val - Y| = w1 at *
    norm_num at e d Yb ⊢
    linarith
  have q11 : |(Libm.tan (Fp.sub (Fp.div (Scalar.pi : F32) f2) (Fp.mul (degToRad fovy) (lit 1 2)))).val - (Real.tan (θ / 2))⁻¹|
      ≤ |(Real.tan (θ / 2))⁻¹| * (1 / 2 ^ 19 / Real.sin θ) + 1 / 2 ^ 117 := by
    rw [abs_of_pos c0, div_eq_mul_one_div _ (Real.sin θ)]
    refine ce.trans ?_
    have : (Real.tan (θ / 2))⁻¹ * (3 / 4 / 2 ^ 19 * (1 / Real.sin θ)) ≤ (Real.tan (θ / 2))⁻¹ * (1 / 2 ^ 19 * (1 / Real.sin θ)) := by
      apply mul_le_mul_of_nonneg_left _ c0.le
      apply mul_le_mul_of_nonneg_right _ (by positivity)
      norm_num
    have h0 : (0 : ℝ) ≤ 1 / 2 ^ 117 := by positivity
    linarith
  have weak : ∀ {a : F32} {x : ℝ}, |a.val - x| ≤ |x| / 2 ^ 21 + 1 / 2 ^ 117 →
      |a.val - x| ≤ |x| * (1 / 2 ^ 19 / Real.sin θ) + 1 / 2 ^ 117 := by
    intro a x h
    refine h.trans (add_le_add ?_ le_rfl)
    rw [div_eq_mul_inv]
    apply mul_le_mul_of_nonneg_left _ (abs_nonneg x)
    rw [div_eq_mul_one_div _ (Real.sin θ)]
    norm_num at inv1 ⊢
    linarith
  have zz := weak (is_close z).2
  have mm := weak (is_close m1).2
  have key : ∀ i j, (mat m i j).isFin = true ∧ |(mat m i j).val - P i j| ≤ |P i j| * (1 / 2 ^ 19 / Real.sin θ) + 1 / 2 ^ 117 := by
    intro i j
    fin_cases i <;> fin_cases j
    · exact q00
    · exact ⟨z.fin, zz⟩
    · exact ⟨z.fin, zz⟩
    · exact ⟨z.fin, zz⟩
    · exact ⟨z.fin, zz⟩
    · exact ⟨cf, q11⟩
    · exact ⟨z.fin, zz⟩
    · exact ⟨z.fin, zz⟩
    · exact ⟨z.fin, zz⟩
    · exact ⟨z.fin, zz⟩
    · exact ⟨cz.1, weak cz.2⟩
    · exact ⟨m1.fin, mm⟩
    · exact ⟨z.fin, zz⟩
    · exact ⟨z.fin, zz⟩
    · exact ⟨dd.1, weak dd.2⟩
    · exact ⟨z.fin, zz⟩
  exact ⟨fun i j => (key i j).1, fun i j => (key i j).2⟩

/-! ### The hypotheses are met -/

omit [Libm binary32] in
theorem modRange_int (k : Int) (h : k.natAbs ≤ 2 ^ 24) : ModRange (lit k 1 : F32) := by
  have e := lit_int k h
  refine ⟨e.1, ?_⟩
  rw [e.2]
  have : |(k : ℝ)| = (k.natAbs : ℝ) := by rw [Nat.cast_natAbs]; simp
  rw [this]
  calc (k.natAbs : ℝ) ≤ ((2 ^ 24 : ℕ) : ℝ) := by exact_mod_cast h
    _ ≤ _ := by norm_num

/-- an 800 x 600 window, z from 1 to 100: `K = 2` will do -/
example (x y z : F32) (hx : ModRange x) (hy : ModRange y) (hz : ModRange z) (vx : 0 ≤ x.val ∧ x.val ≤ 800)
    (vy : 0 ≤ y.val ∧ y.val ≤ 600) (vz : 1 ≤ -z.val ∧ -z.val ≤ 100) :
    let q := GMatrix.transformPoint3D (GMatrix.initOrtho (lit 0 1) (lit 800 1) (lit 0 1) (lit 600 1) (lit 1 1) (lit 100 1)) ⟨x, y, z⟩
    |q.x.val| ≤ 1 + 2 / 2 ^ 17 ∧ |q.y.val| ≤ 1 + 2 / 2 ^ 17 ∧ |q.z.val| ≤ 1 + 2 / 2 ^ 17 := by
  have e0 := (lit_int 0 (by decide)).2
  have e1 := (lit_int 1 (by decide)).2
  have e8 := (lit_int 800 (by decide)).2
  have e6 := (lit_int 600 (by decide)).2
  have ec := (lit_int 100 (by decide)).2
  refine C115_ortho_volume _ _ _ _ _ _ (modRange_int 0 (by decide)) (modRange_int 800 (by decide)) (modRange_int 0 (by decide))
    (modRange_int 600 (by decide)) (modRange_int 1 (by decide)) (modRange_int 100 (by decide)) ?_ ?_ ?_ 2 ?_ ?_ ?_ ⟨x, y, z⟩ hx hy hz
    ?_ ?_ ?_ <;> rw [‹(lit _ 1 : F32).val = _›, ‹(lit _ 1 : F32).val = _›] <;> norm_num <;> assumption

/-- the frustum over `[-1, 1] x [-1, 1]` at distance 1, up to distance 100, and the visible point (5, -7, -20) -/
example :
    let q := GMatrix.transformVec4 (GMatrix.initFrustum (lit (-1) 1) (lit 1 1) (lit (-1) 1) (lit 1 1) (lit 1 1) (lit 100 1))
      (Vec4.init (lit 5 1) (lit (-7) 1) (lit (-20) 1) f1 : Vec4 F32)
    q.getW.val = 20 ∧ |q.getX.val| ≤ 20 * (1 + 2 / 2 ^ 17) ∧ |q.getY.val| ≤ 20 * (1 + 2 / 2 ^ 17) ∧
      |q.getZ.val| ≤ 20 * (1 + 2 / 2 ^ 17) := by
  intro q
  have em := (lit_int (-1) (by decide)).2
  have e1 := (lit_int 1 (by decide)).2
  have ec := (lit_int 100 (by decide)).2
  have e5 := (lit_int 5 (by decide)).2
  have e7 := (lit_int (-7) (by decide)).2
  have e20 := (lit_int (-20) (by decide)).2
  have h := C115_frustum_visible (lit (-1) 1) (lit 1 1) (lit (-1) 1) (lit 1 1) (lit 1 1) (lit 100 1) (modRange_int _ (by decide))
    (modRange_int _ (by decide)) (modRange_int _ (by decide)) (modRange_int _ (by decide)) (modRange_int _ (by decide))
    (modRange_int _ (by decide)) (by rw [em, e1]; norm_num) (by rw [em, e1]; norm_num) (by rw [ec, e1]; norm_num)
    (by rw [e1]; norm_num) 2 (by rw [em, e1]; norm_num) (by rw [em, e1]; norm_num) (by rw [ec, e1]; norm_num)
    (lit 5 1) (lit (-7) 1) (lit (-20) 1) (modRange_int _ (by decide)) (modRange_int _ (by decide)) (modRange_int _ (by decide))
    (by rw [e20, e1, ec]; norm_num) (by rw [em, e20, e1, e5]; norm_num) (by rw [em, e20, e1, e7]; norm_num)
  obtain ⟨w, h⟩ := h
  have w' : q.getW.val = 20 := by refine w.trans ?_; rw [e20]; norm_num
  exact ⟨w', by rw [← w']; exact h⟩

omit [Libm binary32] in
/-- a float relatively within `2^-22` of a number between `2^-8` and `2^8` -/
theorem near_rel {t : ℝ} (lo : 1 / 2 ^ 8 ≤ t) (hi : t ≤ 2 ^ 8) : ∃ r : F32, r.isFin = true ∧ |r.val - t| ≤ t / 2 ^ 22 := by
  have hr := abs_sub_round (t * 2 ^ 40)
  obtain ⟨r1, r2⟩ := _root_.abs_le.1 hr
  generalize round (t * 2 ^ 40) = n at *
  have R := rnd_lit (f := binary32) n (d := 2 ^ 40) (by positivity)
  have d : |(n : ℝ) / ((2 ^ 40 : ℕ) : ℝ) - t| ≤ 1 / 2 ^ 41 := by
    have e : (n : ℝ) / ((2 ^ 40 : ℕ) : ℝ) - t = (n - t * 2 ^ 40) / 2 ^ 40 := by push_cast; field_simp; ring
    rw [e, abs_div, abs_of_pos (by positivity : (0 : ℝ) < 2 ^ 40), div_le_iff₀ (by positivity), _root_.abs_le]
    constructor <;> norm_num at r1 r2 ⊢ <;> linarith
  have b : |(n : ℝ) / ((2 ^ 40 : ℕ) : ℝ)| ≤ t + 1 / 2 ^ 41 := by
    have := abs_add_le ((n : ℝ) / ((2 ^ 40 : ℕ) : ℝ) - t) t
    rw [sub_add_cancel, abs_of_pos (show 0 < t by norm_num at lo; linarith)] at this
    linarith
  generalize (n : ℝ) / ((2 ^ 40 : ℕ) : ℝ) = x at *
  have f := R.isFin hp32 (b.trans (_root_.le_trans (by norm_num at hi ⊢; linarith) le_max32))
  refine ⟨_, f, ?_⟩
  have e := R.err_add f
  rw [u32, eta32] at e
  have tr := abs_add_le ((lit n (2 ^ 40) : F32).val - x) (x - t)
  rw [sub_add_sub_cancel] at tr
  refine tr.trans ?_
  generalize |x| = y at *
  generalize |x - t| = w at *
  generalize |(lit n (2 ^ 40) : F32).val - x| = w1 at *
  norm_num at e d b lo ⊢
  linarith

omit [Libm binary32] in
theorem tan_range {v : ℝ} (lo : 1 / 2 ^ 8 ≤ v) (hi : v ≤ 25 / 16) : 1 / 2 ^ 8 ≤ Real.tan v ∧ Real.tan v ≤ 2 ^ 8 := by
  have plo := Real.pi_gt_d20
  have v0 : 0 < v := lt_of_lt_of_le (by positivity) lo
  have vp : v < Real.pi / 2 := by norm_num at plo hi ⊢; linarith
  refine ⟨lo.trans (Real.lt_tan v0 vp).le, ?_⟩
  have c : 1 / 2 ^ 8 ≤ Real.cos v := by
    rw [← Real.sin_pi_div_two_sub]
    refine _root_.le_trans ?_ (Real.mul_le_sin (by linarith) (by linarith))
    have p4 := Real.pi_le_four
    have : 2 / 4 * (Real.pi / 2 - v) ≤ 2 / Real.pi * (Real.pi / 2 - v) := by
      apply mul_le_mul_of_nonneg_right _ (by linarith)
      exact div_le_div_of_nonneg_left (by norm_num) Real.pi_pos p4
    norm_num at plo hi this ⊢
    linarith
  have c0 : 0 < Real.cos v := lt_of_lt_of_le (by positivity) c
  rw [Real.tan_eq_sin_div_cos, div_le_iff₀ c0]
  have := Real.sin_le_one v
  norm_num at c ⊢; linarith

omit [Libm binary32] in
/-- A C library satisfying `TanAccurate` exists. -/
theorem tan_exists (L : Libm binary32) : ∃ M : Libm binary32, @Spec.TanAccurate M := by
  classical
  refine ⟨{ L with tan := fun v => if h : 1 / 2 ^ 8 ≤ v.val ∧ v.val ≤ 25 / 16 then
      Classical.choose (near_rel (tan_range h.1 h.2).1 (tan_range h.1 h.2).2) else v }, ?_⟩
  intro v _ h1 h2
  have h : 1 / 2 ^ 8 ≤ v.val ∧ v.val ≤ 25 / 16 := ⟨h1, h2⟩
  have k := Classical.choose_spec (near_rel (tan_range h.1 h.2).1 (tan_range h.1 h.2).2)
  simp only [dif_pos h]
  exact k

/-- a 60 degree field of view, aspect 2, z from 1 to 100 -/
example (ht : TanAccurate) (i j : Fin 4) :
    |rmat (GMatrix.initPerspective (lit 60 1) (lit 2 1) (lit 1 1) (lit 100 1) : M4 F32) i j
      - fovMat (Real.tan (60 * (Real.pi / 180) / 2))⁻¹ 2 1 100 i j|
      ≤ |fovMat (Real.tan (60 * (Real.pi / 180) / 2))⁻¹ 2 1 100 i j| * (1 / 2 ^ 19 / Real.sin (60 * (Real.pi / 180))) + 1 / 2 ^ 117 := by
  have e1 := (lit_int 1 (by decide)).2
  have e2 := (lit_int 2 (by decide)).2
  have ec := (lit_int 100 (by decide)).2
  have e6 := (lit_int 60 (by decide))
  have h := (C115_perspective_entries ht (lit 60 1) (lit 2 1) (lit 1 1) (lit 100 1) e6.1 (by rw [e6.2]; norm_num)
    (by rw [e6.2]; norm_num) (modRange_int _ (by decide)) (by rw [e2]; norm_num) (modRange_int _ (by decide))
    (modRange_int _ (by decide)) (by rw [e1, ec]; norm_num) (by rw [e1]; norm_num) (by rw [ec]; norm_num)).2 i j
  rw [e1, e2, ec, e6.2] at h
  norm_num at h ⊢
  exact h

end Graphene
