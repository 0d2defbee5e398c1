/-
  C109: component-wise arithmetic on vectors and matrices is correctly rounded (IEEE binary32).
-/
import Verif.Props.Float19
import Verif.Props.Float8
import Verif.Proofs.Newton
import Verif.Proofs.KDecide

set_option exponentiation.threshold 3000

namespace Graphene
open Fp Spec

/-- the largest finite float, `FLT_MAX` -/
noncomputable def Spec.fltMax : ℝ := (2 ^ 24 - 1) * 2 ^ 104

/-- `r` is the exact result of `op` on the values of `a` and `b`, rounded to nearest, whenever that does not overflow -/
def Spec.Rounded (op : ℝ → ℝ → ℝ) (a b r : F32) : Prop :=
  a.isFin = true → b.isFin = true → |op a.val b.val| ≤ fltMax → Nearest r (op a.val b.val)

/-- the components of vectors -/
def Spec.comp2 [Libm binary32] (v : Vec2 F32) : Fin 2 → F32 := ![v.getX, v.getY]
def Spec.comp3 [Libm binary32] (v : Vec3 F32) : Fin 3 → F32 := ![v.getX, v.getY, v.getZ]
def Spec.comp4 [Libm binary32] (v : Vec4 F32) : Fin 4 → F32 := ![v.getX, v.getY, v.getZ, v.getW]

theorem nearest_of_rnd {x : ℝ} {r : F32} (h : Rnd x r) (hx : |x| ≤ fltMax) : Nearest r x := by
  have f : r.isFin = true := h.isFin hp32 (by rw [maxVal32]; exact hx)
  exact ⟨f, fun c hc => h.nearest f hc⟩

theorem rounded_add (a b : F32) : Rounded (· + ·) a b (Fp.add a b) := fun ha hb h => nearest_of_rnd (rnd_add ha hb) h
theorem rounded_sub (a b : F32) : Rounded (· - ·) a b (Fp.sub a b) := fun ha hb h => nearest_of_rnd (rnd_sub ha hb) h
theorem rounded_mul (a b : F32) : Rounded (· * ·) a b (Fp.mul a b) := fun ha hb h => nearest_of_rnd (rnd_mul ha hb) h

variable [Libm binary32]

/-- divisors for which the quotient is correctly rounded: any non-zero one on SSE and GCC, those above `FLT_EPSILON` on
the scalar backend, none on NEON, which multiplies by an approximate reciprocal -/
def Spec.Divisor (bk : Backend) (b : F32) : Prop :=
  match bk with
  | .sse _ _ => b.val ≠ 0
  | .gcc => b.val ≠ 0
  | .neon => False
  | .scalar _ => 1 / 2 ^ 23 < |b.val|

theorem eps_is : Is (fltEps : F32) (1 / 2 ^ 23) := by
  have := lit_dyadic 1 23 (by decide) (by decide)
  exact ⟨this.1, by rw [show (fltEps : F32) = Fp.lit 1 (2 ^ 23) from rfl, this.2]; norm_num⟩

theorem gt_eps {b : F32} (hb : b.isFin = true) : (Scalar.abs b >. (fltEps : F32)) = true ↔ 1 / 2 ^ 23 < |b.val| := by
  change (fltEps : F32).lt (Fp.abs b) = true ↔ _
  rw [lt_iff_val (isNaN_of_isFin eps_is.fin) (isNaN_of_isFin (by simpa using hb)), val_abs, eps_is.val]

theorem rounded_div (bk : Backend) (a b : F32) (hd : Divisor bk b) : Rounded (· / ·) a b (Simd4f.div1 bk a b) := by
  intro ha hb h
  rcases bk with _ | _ | _ | _
  · exact nearest_of_rnd (rnd_div ha hb hd) h
  · exact nearest_of_rnd (rnd_div ha hb hd) h
  · exact hd.elim
  · have : (Scalar.abs b >. (fltEps : F32)) = true := (gt_eps hb).2 hd
    have ne : b.val ≠ 0 := by
      intro h0; rw [Divisor, h0] at hd; norm_num at hd
    unfold Simd4f.div1
    simp only [this, if_true]
    exact nearest_of_rnd (rnd_div ha hb ne) h

/-- quotients on NEON: relative error `2^-19` -/
theorem div_neon (he : EstAccurate .neon) {a b : F32} (ha : a.isFin = true) (hb : b.isFin = true)
    (h1 : 1 / 2 ^ 100 ≤ |b.val|) (h2 : |b.val| ≤ 2 ^ 100) (hq : |a.val / b.val| ≤ 2 ^ 125) :
    (Simd4f.div1 .neon a b).isFin = true ∧
      |(Simd4f.div1 .neon a b).val - a.val / b.val| ≤ |a.val / b.val| / 2 ^ 19 + 1 / 2 ^ 150 := by
  obtain ⟨rf, re⟩ := Newton.recip1_near .neon he hb h1 h2 (by simp)
  have b0 : 0 < |b.val| := lt_of_lt_of_le (by positivity) h1
  have bne : b.val ≠ 0 := abs_pos.1 b0
  set r := Simd4f.recip1 .neon b with hr
  have e1 : |a.val * r.val - a.val / b.val| ≤ |a.val / b.val| / 2 ^ 20 := by
    have : a.val * r.val - a.val / b.val = a.val / b.val * (r.val * b.val - 1) := by field_simp
    rw [this, _root_.abs_mul]
    have := mul_le_mul_of_nonneg_left re (abs_nonneg (a.val / b.val))
    rw [mul_one_div] at this; exact this
  have e2 : |a.val * r.val| ≤ |a.val / b.val| * (1 + 1 / 2 ^ 20) := by
    have := abs_sub_abs_le_abs_sub (a.val * r.val) (a.val / b.val)
    linarith
  have p := prod_approx ha rf (e2.trans (by norm_num at hq ⊢; linarith))
  have t := abs_add_le ((Simd4f.div1 .neon a b).val - a.val * r.val) (a.val * r.val - a.val / b.val)
  rw [sub_add_sub_cancel] at t
  have pe := p.err
  refine ⟨p.fin, t.trans ?_⟩
  have pe' : |(Simd4f.div1 .neon a b).val - a.val * r.val| ≤ 1 / 16777216 * |a.val * r.val| + 1 / 2 ^ 150 := by
    refine pe.trans (le_of_eq ?_); ring
  generalize |(Simd4f.div1 .neon a b).val - a.val * r.val| = X at *
  generalize |a.val * r.val - a.val / b.val| = Y at *
  generalize |a.val * r.val| = Z at *
  have := abs_nonneg (a.val / b.val)
  generalize |a.val / b.val| = Q at *
  norm_num at e1 e2 pe' ⊢; linarith

/-! ### Vectors -/

/-- Sum, difference, product and scaling of `graphene_vec2_t`, every component. -/
theorem C109_vec2 (a b : Vec2 F32) (f : F32) (i : Fin 2) :
    Rounded (· + ·) (comp2 a i) (comp2 b i) (comp2 (a.add b) i) ∧
    Rounded (· - ·) (comp2 a i) (comp2 b i) (comp2 (a.subtract b) i) ∧
    Rounded (· * ·) (comp2 a i) (comp2 b i) (comp2 (a.multiply b) i) ∧
    Rounded (· * ·) (comp2 a i) f (comp2 (a.scale f) i) := by
  fin_cases i <;> exact ⟨rounded_add _ _, rounded_sub _ _, rounded_mul _ _, rounded_mul _ _⟩

/-- Sum, difference, product and scaling of `graphene_vec3_t`, every component. -/
theorem C109_vec3 (a b : Vec3 F32) (f : F32) (i : Fin 3) :
    Rounded (· + ·) (comp3 a i) (comp3 b i) (comp3 (a.add b) i) ∧
    Rounded (· - ·) (comp3 a i) (comp3 b i) (comp3 (a.subtract b) i) ∧
    Rounded (· * ·) (comp3 a i) (comp3 b i) (comp3 (a.multiply b) i) ∧
    Rounded (· * ·) (comp3 a i) f (comp3 (a.scale f) i) := by
  fin_cases i <;> exact ⟨rounded_add _ _, rounded_sub _ _, rounded_mul _ _, rounded_mul _ _⟩

/-- Sum, difference, product and scaling of `graphene_vec4_t`, every component. -/
theorem C109_vec4 (a b : Vec4 F32) (f : F32) (i : Fin 4) :
    Rounded (· + ·) (comp4 a i) (comp4 b i) (comp4 (a.add b) i) ∧
    Rounded (· - ·) (comp4 a i) (comp4 b i) (comp4 (a.subtract b) i) ∧
    Rounded (· * ·) (comp4 a i) (comp4 b i) (comp4 (a.multiply b) i) ∧
    Rounded (· * ·) (comp4 a i) f (comp4 (a.scale f) i) := by
  fin_cases i <;> exact ⟨rounded_add _ _, rounded_sub _ _, rounded_mul _ _, rounded_mul _ _⟩

/-- Quotients, wherever the backend divides. -/
theorem C109_divide (bk : Backend) :
    (∀ (a b : Vec2 F32) (i : Fin 2), Divisor bk (comp2 b i) →
      Rounded (· / ·) (comp2 a i) (comp2 b i) (comp2 (a.divide bk b) i)) ∧
    (∀ (a b : Vec3 F32) (i : Fin 3), Divisor bk (comp3 b i) →
      Rounded (· / ·) (comp3 a i) (comp3 b i) (comp3 (a.divide bk b) i)) ∧
    (∀ (a b : Vec4 F32) (i : Fin 4), Divisor bk (comp4 b i) →
      Rounded (· / ·) (comp4 a i) (comp4 b i) (comp4 (a.divide bk b) i)) := by
  refine ⟨fun a b i h => ?_, fun a b i h => ?_, fun a b i h => ?_⟩ <;> fin_cases i <;> exact rounded_div bk _ _ h

/-- Quotients on NEON: relative error at most `2^-19`, if the reciprocal estimate is as accurate as Arm's manual says. -/
theorem C109_divide_neon (he : EstAccurate .neon) (a b : Vec4 F32) (i : Fin 4)
    (ha : (comp4 a i).isFin = true) (hb : (comp4 b i).isFin = true)
    (h1 : 1 / 2 ^ 100 ≤ |(comp4 b i).val|) (h2 : |(comp4 b i).val| ≤ 2 ^ 100)
    (hq : |(comp4 a i).val / (comp4 b i).val| ≤ 2 ^ 125) :
    let r := comp4 (a.divide .neon b) i
    let q := (comp4 a i).val / (comp4 b i).val
    r.isFin = true ∧ |r.val - q| ≤ |q| / 2 ^ 19 + 1 / 2 ^ 150 := by
  fin_cases i <;> exact div_neon he ha hb h1 h2 hq

/-- Quotients by tiny components on the scalar backend are zero, whatever the numerator (even NaN). -/
theorem C109_divide_tiny (x : Bool) (a b : Vec4 F32) (i : Fin 4) (hb : (comp4 b i).isFin = true)
    (h : |(comp4 b i).val| ≤ 1 / 2 ^ 23) : comp4 (a.divide (.scalar x) b) i = f0 := by
  have k : ∀ {c d : F32}, d.isFin = true → |d.val| ≤ 1 / 2 ^ 23 → Simd4f.div1 (.scalar x) c d = f0 := by
    intro c d hd h
    have : (Scalar.abs d >. (fltEps : F32)) = false := by
      rw [Bool.eq_false_iff]; intro hc
      exact absurd ((gt_eps hd).1 hc) (not_lt.2 h)
    unfold Simd4f.div1
    simp only [this]; rfl
  fin_cases i <;> exact k hb h

/-- Negation is exact on every backend (infinities included): it only flips the sign. -/
theorem C109_negate (bk : Backend) (a : Vec4 F32) (i : Fin 4) :
    comp4 (a.negate bk) i = Fp.neg (comp4 a i) ∧ (comp4 (a.negate bk) i).val = -(comp4 a i).val := by
  have k : ∀ c : F32, Simd4f.neg1 bk c = Fp.neg c := by
    intro c; cases bk <;> first | rfl | exact mul_negOne32 c
  have e : comp4 (a.negate bk) i = Fp.neg (comp4 a i) := by
    fin_cases i <;> exact k _
  exact ⟨e, by rw [e, val_neg]⟩

/-! ### Matrices -/

/-- `graphene_simd4x4f_add`, `_sub` and `_mul`, every entry. -/
theorem C109_matrix (a b : M4 F32) (i j : Fin 4) :
    Rounded (· + ·) (mat a i j) (mat b i j) (mat (Simd4x4f.add a b) i j) ∧
    Rounded (· - ·) (mat a i j) (mat b i j) (mat (Simd4x4f.sub a b) i j) ∧
    Rounded (· * ·) (mat a i j) (mat b i j) (mat (Simd4x4f.mul a b) i j) := by
  fin_cases i <;> fin_cases j <;> exact ⟨rounded_add _ _, rounded_sub _ _, rounded_mul _ _⟩

/-- `graphene_simd4x4f_div`, every entry. -/
theorem C109_matrix_div (bk : Backend) (a b : M4 F32) (i j : Fin 4) (h : Divisor bk (mat b i j)) :
    Rounded (· / ·) (mat a i j) (mat b i j) (mat (Simd4x4f.div bk a b) i j) := by
  fin_cases i <;> fin_cases j <;> exact rounded_div bk _ _ h

/-- `graphene_simd4x4f_sum`: every component is the sum of a column, to within `2^-22` of the sum of magnitudes. -/
theorem C109_sum (m : M4 F32) (j : Fin 4) (h : ∀ i, (mat m i j).isFin = true)
    (hb : ∑ i, |(mat m i j).val| ≤ 2 ^ 126) :
    (vec (Simd4x4f.sum m) j).isFin = true ∧
      |(vec (Simd4x4f.sum m) j).val - ∑ i, (mat m i j).val| ≤ (∑ i, |(mat m i j).val|) / 2 ^ 22 := by
  have k : ∀ {a b c d : F32}, a.isFin = true → b.isFin = true → c.isFin = true → d.isFin = true →
      |a.val| + |b.val| + |c.val| + |d.val| ≤ 2 ^ 126 →
      (Fp.add (Fp.add (Fp.add a b) c) d).isFin = true ∧
      |(Fp.add (Fp.add (Fp.add a b) c) d).val - (a.val + b.val + c.val + d.val)| ≤ (|a.val| + |b.val| + |c.val| + |d.val|) / 2 ^ 22 := by
    intro a b c d ha hb hc hd h
    have n1 := abs_nonneg a.val
    have n2 := abs_nonneg b.val
    have n3 := abs_nonneg c.val
    have n4 := abs_nonneg d.val
    have s1 := sum2_approx (Approx.exact ha) (Approx.exact hb) (by linarith)
    have s2 := sum2_approx s1 (Approx.exact hc) (by linarith)
    have s3 := sum2_approx s2 (Approx.exact hd) (by linarith)
    refine ⟨s3.fin, s3.err.trans ?_⟩
    norm_num; linarith
  rw [Fin.sum_univ_four] at hb ⊢
  rw [Fin.sum_univ_four]
  fin_cases j <;> exact k (h 0) (h 1) (h 2) (h 3) hb

/-! ### The hypotheses are met -/

omit [Libm binary32] in
theorem lit3_is : Is (lit 1 1 : F32) 1 ∧ Is (lit 3 1 : F32) 3 := by
  have a := lit_int 1 (by decide)
  have b := lit_int 3 (by decide)
  exact ⟨⟨a.1, by rw [a.2]; norm_num⟩, ⟨b.1, by rw [b.2]; norm_num⟩⟩

/-- a third is rounded to nearest, on every backend that divides -/
example (bk : Backend) (h : bk ≠ .neon) :
    Nearest (comp4 ((Vec4.init (lit 1 1) (lit 1 1) (lit 1 1) (lit 1 1) : Vec4 F32).divide bk
      (Vec4.init (lit 3 1) (lit 3 1) (lit 3 1) (lit 3 1))) 2) (1 / 3) := by
  have d : Divisor bk (lit 3 1) := by
    cases bk <;> simp only [Divisor, lit3_is.2.val] <;> first | exact absurd rfl h | norm_num
  have := (C109_divide bk).2.2 (Vec4.init (lit 1 1) (lit 1 1) (lit 1 1) (lit 1 1))
    (Vec4.init (lit 3 1) (lit 3 1) (lit 3 1) (lit 3 1)) 2 d lit3_is.1.fin lit3_is.2.fin
    (by change |(lit 1 1 : F32).val / (lit 3 1 : F32).val| ≤ _
        rw [lit3_is.1.val, lit3_is.2.val, fltMax]; norm_num)
  change Nearest _ ((lit 1 1 : F32).val / (lit 3 1 : F32).val) at this
  rwa [lit3_is.1.val, lit3_is.2.val] at this

/-- the sums of the columns of a matrix of threes and ones -/
example : |(vec (Simd4x4f.sum (⟨⟨lit 1 1, lit 3 1, lit 1 1, lit 3 1⟩, ⟨lit 1 1, lit 3 1, lit 1 1, lit 3 1⟩,
    ⟨lit 1 1, lit 3 1, lit 1 1, lit 3 1⟩, ⟨lit 3 1, lit 1 1, lit 1 1, lit 3 1⟩⟩ : M4 F32)) 0).val - 6| ≤ 6 / 2 ^ 22 := by
  have h := (C109_sum (⟨⟨lit 1 1, lit 3 1, lit 1 1, lit 3 1⟩, ⟨lit 1 1, lit 3 1, lit 1 1, lit 3 1⟩,
    ⟨lit 1 1, lit 3 1, lit 1 1, lit 3 1⟩, ⟨lit 3 1, lit 1 1, lit 1 1, lit 3 1⟩⟩ : M4 F32) 0 (by
      intro i; fin_cases i <;> first | exact lit3_is.1.fin | exact lit3_is.2.fin) (by
      rw [Fin.sum_univ_four]
      change |(lit 1 1 : F32).val| + |(lit 1 1 : F32).val| + |(lit 1 1 : F32).val| + |(lit 3 1 : F32).val| ≤ _
      rw [lit3_is.1.val, lit3_is.2.val]; norm_num)).2
  rw [Fin.sum_univ_four, Fin.sum_univ_four] at h
  change |_ - ((lit 1 1 : F32).val + (lit 1 1 : F32).val + (lit 1 1 : F32).val + (lit 3 1 : F32).val)| ≤
    (|(lit 1 1 : F32).val| + |(lit 1 1 : F32).val| + |(lit 1 1 : F32).val| + |(lit 3 1 : F32).val|) / 2 ^ 22 at h
  rw [lit3_is.1.val, lit3_is.2.val] at h
  norm_num at h ⊢; exact h

end Graphene
