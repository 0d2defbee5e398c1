/-
  C146: lengths and normalization on the GCC vector and scalar backends (exact square roots and divisions) under every permitted compilation.
-/
import Verif.Props.Unsafe3
import Verif.Props.Float20

namespace Graphene
open Fp
open FExpr

variable [Libm binary32]

/-- The squared length by any emitted code. -/
theorem C146_squared_length {bk : Backend} {v : Vec3 F32} (hv : ∀ x ∈ comps3 v, x.isFin = true) (h1 : 1 / 2 ^ 32 ≤ sqLen v) (h2 : sqLen v ≤ 2 ^ 32)
    {code : FExpr} (hd : Emits (Vec3.dot bk (arg3 0) (arg3 3)) code) (hn : ops code ≤ 1024) :
    let d := eval (inputs (comps3 v ++ comps3 v)) code
    d.isFin = true ∧ |d.val - sqLen v| ≤ (ops code / 2 ^ 23 + 1 / 2 ^ 80) * sqLen v := by
  intro d
  have D0 : 0 < sqLen v := lt_of_lt_of_le (by norm_num) h1
  have q0 := sq_nonneg v.value.x.val
  have q1 := sq_nonneg v.value.y.val
  have q2 := sq_nonneg v.value.z.val
  have cb : ∀ a : F32, a.val ^ 2 ≤ sqLen v → Spec.big a * Spec.big a ≤ 1 + sqLen v := by
    intro a ha
    unfold Spec.big
    rcases max_cases 1 |a.val| with ⟨e, -⟩ | ⟨e, -⟩ <;> rw [e]
    · linarith
    · rw [_root_.abs_mul_abs_self]; nlinarith
  have bx := cb v.value.x (by unfold sqLen; linarith)
  have b1 := cb v.value.y (by unfold sqLen; linarith)
  have b2 := cb v.value.z (by unfold sqLen; linarith)
  have hd2 := C142_dot3_accurate (a := v) (b := v) (by simpa using hv) hd hn (by norm_num at *; linarith)
  refine ⟨hd2.1, ?_⟩
  have hc : ((ops code : ℕ) : ℝ) ≤ 1024 := by exact_mod_cast hn
  have hc0 : (0 : ℝ) ≤ (ops code : ℕ) := Nat.cast_nonneg _
  have e := hd2.2
  simp only [_root_.abs_mul_abs_self] at e
  rw [show v.value.x.val * v.value.x.val + v.value.y.val * v.value.y.val + v.value.z.val * v.value.z.val = sqLen v by unfold sqLen; ring] at e
  refine e.trans ?_
  have t2 : (ops code : ℝ) / 2 ^ 147 * (Spec.big v.value.x * Spec.big v.value.x + Spec.big v.value.y * Spec.big v.value.y +
      Spec.big v.value.z * Spec.big v.value.z + 1) ≤ 1024 / 2 ^ 147 * (4 + 3 * sqLen v) := by
    refine mul_le_mul (by gcongr) (by linarith) ?_ (by positivity)
    have := mul_self_nonneg (Spec.big v.value.x); have := mul_self_nonneg (Spec.big v.value.y); have := mul_self_nonneg (Spec.big v.value.z)
    linarith
  rw [add_mul]
  refine add_le_add le_rfl (t2.trans ?_)
  norm_num at *; linarith

/-- The rounded square root of a number near `S`. -/
theorem FExpr.root_near {d : F32} {S ρ : ℝ} (hd : d.isFin = true) (hS : 0 < S) (hρ0 : 0 ≤ ρ) (hρ : ρ ≤ 1 / 2 ^ 12) (h : |d.val - S| ≤ ρ * S) :
    (Fp.sqrt d).isFin = true ∧ |(Fp.sqrt d).val - √S| ≤ (ρ + 1 / 2 ^ 23) * √S := by
  have hb := abs_le.1 h
  have dpos : 0 < d.val := by nlinarith
  have σ0 : 0 < √S := Real.sqrt_pos.2 hS
  have τ0 : 0 < √d.val := Real.sqrt_pos.2 dpos
  have eσ : √S ^ 2 = S := Real.sq_sqrt hS.le
  have eτ : √d.val ^ 2 = d.val := Real.sq_sqrt dpos.le
  obtain ⟨qf, qe⟩ := sqrt_err hs32 ht32 hd dpos.le
  rw [u32] at qe
  refine ⟨qf, ?_⟩
  have k : |√d.val - √S| ≤ ρ * √S := by
    have f : (√d.val - √S) * (√d.val + √S) = d.val - S := by linear_combination eτ - eσ
    have g : |√d.val - √S| * |√d.val + √S| ≤ ρ * S := by rw [← _root_.abs_mul, f]; exact h
    rw [abs_of_pos (by linarith : 0 < √d.val + √S)] at g
    have g3 : |√d.val - √S| * √S ≤ ρ * √S * √S := by
      have : |√d.val - √S| * √S ≤ |√d.val - √S| * (√d.val + √S) := mul_le_mul_of_nonneg_left (by linarith) (abs_nonneg _)
      nlinarith
    exact le_of_mul_le_mul_right g3 σ0
  have kb := abs_le.1 k
  have r1 : ρ * √S ≤ 1 / 2 ^ 12 * √S := mul_le_mul_of_nonneg_right hρ σ0.le
  have t := abs_sub_le (Fp.sqrt d).val √d.val √S
  refine t.trans ?_
  rw [add_mul]
  norm_num at *
  linarith

/-- C146: the length, on every backend with a square root instruction or function (all but NEON), by any emitted code. -/
theorem C146_length {bk : Backend} (hbk : bk ≠ .neon) {v : Vec3 F32} (hv : ∀ x ∈ comps3 v, x.isFin = true) (h1 : 1 / 2 ^ 32 ≤ sqLen v) (h2 : sqLen v ≤ 2 ^ 32)
    {code : FExpr} (hd : Emits (Vec3.dot bk (arg3 0) (arg3 3)) code) (hn : ops code ≤ 1024) :
    let l := Simd4f.sqrt1 bk (eval (inputs (comps3 v ++ comps3 v)) code)
    l.isFin = true ∧ |l.val - √(sqLen v)| ≤ (ops code + 2) / 2 ^ 23 * √(sqLen v) := by
  intro l
  have D0 : 0 < sqLen v := lt_of_lt_of_le (by norm_num) h1
  obtain ⟨a, b⟩ := C146_squared_length hv h1 h2 hd hn
  have hc : ((ops code : ℕ) : ℝ) ≤ 1024 := by exact_mod_cast hn
  have hc0 : (0 : ℝ) ≤ (ops code : ℕ) := Nat.cast_nonneg _
  have r := root_near a D0 (by positivity) (by norm_num; linarith) b
  have e : ∀ d : F32, Simd4f.sqrt1 bk d = Fp.sqrt d := by
    clear hd r b a l
    cases bk <;> first | exact absurd rfl hbk | (intro; rfl)
  rw [show l = Fp.sqrt (eval (inputs (comps3 v ++ comps3 v)) code) from e _]
  refine ⟨r.1, r.2.trans ?_⟩
  refine mul_le_mul_of_nonneg_right ?_ (Real.sqrt_nonneg _)
  rw [add_div]
  norm_num; linarith

section Generic
variable {α : Type} [Scalar α]

/-- The test of the length in `graphene_vec3_normalize` (vectors.c:940); GCC turns `sqrt (d) > c` into `d > c * c` if allowed to. -/
def FExpr.longEnough (bk : Backend) (squared : Bool) (d : α) : Bool :=
  if squared then d >. Scalar.lit 1 (2 ^ 46) else Scalar.abs (Simd4f.sqrt1 bk d) >. fltEps

/-- The test inside `graphene_simd4f_rsqrt` (GCC: simd4f.h:990; scalar: simd4f.c:1266). -/
def FExpr.rsqrtTest (bk : Backend) (d : α) : Bool :=
  match bk with
  | .gcc => !Scalar.feq d f0
  | _ => Scalar.abs d >. fltEps

/-- One component of `graphene_vec3_normalize` on GCC vectors and scalars (vectors.c:936-944, simd4f.h:986-998, simd4f.c:1262-1272): `dl` and `d` are
the squared length, by the code emitted for the test and for the division; `quotient`: `v * (1 / s)` turned into `v / s`. -/
def FExpr.normalizeBy (bk : Backend) (squared quotient : Bool) (dl d x : α) : α :=
  if longEnough bk squared dl then
    if rsqrtTest bk d then (if quotient then x /. Scalar.sqrt d else x *. (f1 /. Scalar.sqrt d)) else x *. f0
  else f0

theorem FExpr.normalizeBy_eq {bk : Backend} (hbk : bk = .gcc ∨ ∃ b, bk = .scalar b) (v : Vec3 α) {i : Nat} (hi : i < 3) :
    normalizeBy bk false false (Vec3.dot bk v v) (Vec3.dot bk v v) (Simd4f.get v.value i) = Simd4f.get (Vec3.normalize bk v).value i := by
  have g : ∀ d x : α, (if rsqrtTest bk d = true then x *. (f1 /. Scalar.sqrt d) else x *. f0) = x *. Simd4f.rsqrt1 bk d := by
    intro d x
    rcases hbk with rfl | ⟨b, rfl⟩
    · have t : rsqrtTest .gcc d = !Scalar.feq d f0 := rfl
      rw [t]
      unfold Simd4f.rsqrt1
      cases Scalar.feq d f0 <;> rfl
    · have t : rsqrtTest (.scalar b) d = (Scalar.abs d >. fltEps) := rfl
      rw [t]
      unfold Simd4f.rsqrt1
      cases (Scalar.abs d >. fltEps) <;> rfl
  have k : Simd4f.get (Simd4f.normalize3 bk v.value) i = Simd4f.get v.value i *. Simd4f.rsqrt1 bk (Simd4f.get (Simd4f.dot3 bk v.value v.value) i) := by
    interval_cases i <;> rfl
  have l : ∀ x, Simd4f.get (Simd4f.dot3 bk v.value v.value) x = Vec3.dot bk v v ∨ ¬ x < 3 := by
    intro x
    by_cases hx : x < 3
    · left
      rcases hbk with rfl | ⟨b, rfl⟩ <;> interval_cases x <;> rfl
    · exact Or.inr hx
  have l' : Simd4f.get (Simd4f.dot3 bk v.value v.value) i = Vec3.dot bk v v := (l i).resolve_right (by simpa using hi)
  have m : Vec3.length bk v = Simd4f.sqrt1 bk (Vec3.dot bk v v) := by
    rcases hbk with rfl | ⟨b, rfl⟩ <;> rfl
  unfold normalizeBy longEnough
  simp only [Bool.false_eq_true, if_false, g]
  unfold Vec3.normalize
  rw [m]
  split
  · rw [k, l']
  · interval_cases i <;> rfl
end Generic

/-- With nothing rewritten, it is the function. -/
theorem C146_source {bk : Backend} (hbk : bk = .gcc ∨ ∃ b, bk = .scalar b) (v : Vec3 F32) {i : Nat} (hi : i < 3) :
    normalizeBy bk false false (Vec3.dot bk v v) (Vec3.dot bk v v) (Simd4f.get v.value i) = Simd4f.get (Vec3.normalize bk v).value i :=
  normalizeBy_eq hbk v hi

/-- C146: the tests pass for lengths from 2^-11, in either form. -/
theorem C146_tests {bk : Backend} (hbk : bk ≠ .neon) {v : Vec3 F32} (hv : ∀ x ∈ comps3 v, x.isFin = true) (h1 : 1 / 2 ^ 22 ≤ sqLen v) (h2 : sqLen v ≤ 2 ^ 32)
    {code : FExpr} (hd : Emits (Vec3.dot bk (arg3 0) (arg3 3)) code) (hn : ops code ≤ 1024) (squared : Bool) :
    let d := eval (inputs (comps3 v ++ comps3 v)) code
    longEnough bk squared d = true ∧ rsqrtTest bk d = true := by
  show longEnough bk squared (eval (inputs (comps3 v ++ comps3 v)) code) = true ∧ rsqrtTest bk (eval (inputs (comps3 v ++ comps3 v)) code) = true
  have h1' : 1 / 2 ^ 32 ≤ sqLen v := _root_.le_trans (by norm_num) h1
  obtain ⟨a, b⟩ := C146_squared_length hv h1' h2 hd hn
  obtain ⟨l1, l2⟩ := C146_length hbk hv h1' h2 hd hn
  generalize eval (inputs (comps3 v ++ comps3 v)) code = d at *
  have hc : ((ops code : ℕ) : ℝ) ≤ 1024 := by exact_mod_cast hn
  have σ : 1 / 2 ^ 11 ≤ √(sqLen v) := Real.le_sqrt_of_sq_le (by norm_num at h1 ⊢; linarith)
  have db : 1 / 2 * sqLen v ≤ d.val := by
    have b' := (abs_le.1 b).1
    have : ((ops code : ℝ) / 2 ^ 23 + 1 / 2 ^ 80) * sqLen v ≤ 1 / 2 * sqLen v := by
      refine mul_le_mul_of_nonneg_right ?_ (by norm_num at h1; linarith)
      norm_num; linarith
    linarith
  have dpos : 1 / 2 ^ 23 ≤ d.val := by norm_num at *; linarith
  constructor
  · unfold longEnough
    cases squared
    · simp only [Bool.false_eq_true, if_false]
      refine Newton.abs_gt_eps l1 ?_
      refine lt_of_lt_of_le ?_ (le_abs_self _)
      have l := (abs_le.1 l2).1
      have : ((ops code : ℝ) + 2) / 2 ^ 23 * √(sqLen v) ≤ 1 / 2 * √(sqLen v) := by
        refine mul_le_mul_of_nonneg_right ?_ (Real.sqrt_nonneg _)
        norm_num; linarith
      norm_num at *; linarith
    · simp only [if_true]
      have q := lit_dyadic 1 46 (by decide) (by decide)
      change Fp.lt (Fp.lit 1 (2 ^ 46)) d = true
      generalize (Fp.lit 1 (2 ^ 46) : F32) = w at q ⊢
      refine (lt_iff_val (isNaN_of_isFin q.1) (isNaN_of_isFin a)).2 ?_
      have q2 := q.2
      norm_num at *; linarith
  · match bk, hbk with
    | .gcc, _ =>
      have : Scalar.feq d (f0 : F32) = false := by
        rw [Bool.eq_false_iff]; intro hc
        have hc' : d.feq (zero false) = true := by rw [f0_eq] at hc; exact hc
        have := (feq_iff_val (isNaN_of_isFin a) rfl).1 hc'
        rw [val_zero] at this; norm_num at dpos; linarith
      show (!Scalar.feq d (f0 : F32)) = true
      rw [this]; rfl
    | .sse _ _, _ | .scalar _, _ =>
      refine Newton.abs_gt_eps a (lt_of_lt_of_le ?_ (le_abs_self _))
      have : sqLen v * (1 - 1 / 2 ^ 10) ≤ d.val := by
        have b' := (abs_le.1 b).1
        have : ((ops code : ℝ) / 2 ^ 23 + 1 / 2 ^ 80) * sqLen v ≤ 1 / 2 ^ 10 * sqLen v := by
          refine mul_le_mul_of_nonneg_right ?_ (by norm_num at h1; linarith)
          norm_num; linarith
        linarith
      norm_num at *; linarith

/-- A component divided by a length that is off by a relative `δ`, as a quotient or as a product with the reciprocal. -/
theorem FExpr.unit_near {x w : F32} {σ δ : ℝ} (hx : x.isFin = true) (hw : w.isFin = true) (hσ : 1 / 2 ^ 11 ≤ σ) (hσ2 : σ ≤ 2 ^ 16) (hxσ : |x.val| ≤ σ)
    (hδ0 : 0 ≤ δ) (hδ : δ ≤ 1 / 2 ^ 12) (h : |w.val - σ| ≤ δ * σ) :
    ((Fp.div x w).isFin = true ∧ |(Fp.div x w).val - x.val / σ| ≤ (δ * (1 + 1 / 2 ^ 10) + 1 / 2 ^ 23) * |x.val / σ| + 1 / 2 ^ 149) ∧
    ((Fp.mul x (Fp.div (Fp.lit 1 1) w)).isFin = true ∧
      |(Fp.mul x (Fp.div (Fp.lit 1 1) w)).val - x.val / σ| ≤ (δ * (1 + 1 / 2 ^ 10) + 1 / 2 ^ 22) * |x.val / σ| + 1 / 2 ^ 149) := by
  have σ0 : 0 < σ := lt_of_lt_of_le (by norm_num) hσ
  have hb := abs_le.1 h
  have ds : δ * σ ≤ 1 / 2 ^ 12 * σ := mul_le_mul_of_nonneg_right hδ σ0.le
  have w1 : (1 - 1 / 2 ^ 12) * σ ≤ w.val := by linarith [hb.1]
  have w0 : 0 < w.val := lt_of_lt_of_le (by norm_num; linarith) w1
  -- the ratio of the lengths
  have r0 : |σ / w.val - 1| ≤ δ * (1 + 1 / 2 ^ 11) := by
    rw [show σ / w.val - 1 = (σ - w.val) / w.val by field_simp, abs_div, abs_of_pos w0, div_le_iff₀ w0, _root_.abs_sub_comm]
    refine h.trans ?_
    have : δ * σ ≤ δ * (1 + 1 / 2 ^ 11) * ((1 - 1 / 2 ^ 12) * σ) := by
      have : 0 ≤ δ * σ := mul_nonneg hδ0 σ0.le
      norm_num; nlinarith
    exact this.trans (mul_le_mul_of_nonneg_left w1 (by positivity))
  have dd : δ * (1 + 1 / 2 ^ 11) ≤ 1 / 2 ^ 11 := by norm_num at *; linarith
  have rr := abs_le.1 (r0.trans dd)
  set y := x.val / σ with hy
  have y1 : |y| ≤ 1 := by rw [hy, abs_div, abs_of_pos σ0, div_le_one σ0]; exact hxσ
  have y0 := abs_nonneg y
  have xw : x.val / w.val = y * (σ / w.val) := by rw [hy]; field_simp
  have e1 : |x.val / w.val - y| ≤ δ * (1 + 1 / 2 ^ 11) * |y| := by
    rw [xw, show y * (σ / w.val) - y = (σ / w.val - 1) * y by ring, _root_.abs_mul]
    exact mul_le_mul_of_nonneg_right r0 y0
  have e2 : |x.val / w.val| ≤ (1 + 1 / 2 ^ 11) * |y| := by
    rw [xw, _root_.abs_mul, _root_.mul_comm]
    refine mul_le_mul_of_nonneg_right ?_ y0
    rw [abs_le]; norm_num at rr ⊢; constructor <;> linarith
  have dy0 : 0 ≤ δ * |y| := mul_nonneg hδ0 y0
  have dy1 : δ * |y| ≤ 1 / 2 ^ 12 * |y| := mul_le_mul_of_nonneg_right hδ y0
  constructor
  · have hr := rnd_div hx hw w0.ne'
    have hf := hr.isFin hp32 (_root_.le_trans (b := (2 : ℝ)) (by norm_num at *; linarith) (_root_.le_trans (by norm_num) le_max32))
    refine ⟨hf, ?_⟩
    have er := hr.err_add hf
    rw [u32, eta32] at er
    have t := abs_sub_le (Fp.div x w).val (x.val / w.val) y
    norm_num [-_root_.abs_mul, -abs_div] at *
    linarith
  · obtain ⟨of, ov⟩ := (⟨rfl, by simpa using (lit_int 1 (by decide)).2⟩ : (Fp.lit 1 1 : F32).isFin = true ∧ (Fp.lit 1 1 : F32).val = 1)
    have hd := rnd_div of hw w0.ne'
    rw [ov] at hd
    have w2 : w.val ≤ 2 ^ 17 := by norm_num at *; linarith [hb.2]
    have a1 : |1 / w.val| = 1 / w.val := abs_of_pos (by positivity)
    have k1 : 1 / 2 ^ 17 ≤ 1 / w.val := one_div_le_one_div_of_le w0 w2
    have k2 : 1 / w.val ≤ 1 / (1 / 2 ^ 12) := one_div_le_one_div_of_le (by positivity) (by norm_num at *; linarith)
    obtain ⟨qf, qe⟩ := Newton.rel hd (by rw [a1]; norm_num at k1 ⊢; linarith) (by rw [a1]; norm_num at k2 ⊢; linarith)
    generalize Fp.div (Fp.lit 1 1) w = q at *
    have e3 : |x.val * q.val - x.val / w.val| ≤ 1 / 2 ^ 24 * |x.val / w.val| := by
      rw [show x.val * q.val - x.val / w.val = x.val * (q.val - 1 / w.val) by field_simp, show x.val / w.val = x.val * (1 / w.val) by ring,
        _root_.abs_mul, _root_.abs_mul x.val (1 / w.val)]
      have := mul_le_mul_of_nonneg_left qe (abs_nonneg x.val)
      linarith
    have e4 : |x.val * q.val| ≤ (1 + 1 / 2 ^ 24) * |x.val / w.val| := by
      have := abs_add_le (x.val * q.val - x.val / w.val) (x.val / w.val)
      rw [sub_add_cancel] at this
      linarith
    have hr := rnd_mul hx qf
    have hf := hr.isFin hp32 (_root_.le_trans (b := (2 : ℝ)) (by norm_num [-_root_.abs_mul, -abs_div] at *; linarith) (_root_.le_trans (by norm_num) le_max32))
    refine ⟨hf, ?_⟩
    have er := hr.err_add hf
    rw [u32, eta32] at er
    have t := abs_sub_le (Fp.mul x q).val (x.val / w.val) y
    have t2 := abs_sub_le (Fp.mul x q).val (x.val * q.val) (x.val / w.val)
    norm_num [-_root_.abs_mul, -abs_div] at *
    linarith

/-- C146: `graphene_vec3_normalize` on GCC vectors and scalars, whatever code is emitted for the squared length (in the test and in the
division), whichever form the test and the division take: finite, and within `(n + 5) / 2^23` of the exact unit vector's component. -/
theorem C146_normalize {bk : Backend} (hbk : bk = .gcc ∨ ∃ b, bk = .scalar b) {v : Vec3 F32} (hv : ∀ x ∈ comps3 v, x.isFin = true)
    (h1 : 1 / 2 ^ 22 ≤ sqLen v) (h2 : sqLen v ≤ 2 ^ 32) {test code : FExpr} (ht : Emits (Vec3.dot bk (arg3 0) (arg3 3)) test) (htn : ops test ≤ 1024)
    (hd : Emits (Vec3.dot bk (arg3 0) (arg3 3)) code) (hn : ops code ≤ 1024) (squared quotient : Bool) {i : Nat} (hi : i < 3) :
    let ev := eval (inputs (comps3 v ++ comps3 v))
    let r := normalizeBy bk squared quotient (ev test) (ev code) (Simd4f.get v.value i)
    let u := (Simd4f.get v.value i).val / √(sqLen v)
    r.isFin = true ∧ |r.val - u| ≤ (ops code + 5) / 2 ^ 23 * |u| + 1 / 2 ^ 149 := by
  intro ev r u
  have hbk' : bk ≠ .neon := by rcases hbk with rfl | ⟨b, rfl⟩ <;> simp
  have h1' : 1 / 2 ^ 32 ≤ sqLen v := _root_.le_trans (by norm_num) h1
  have D0 : 0 < sqLen v := lt_of_lt_of_le (by norm_num) h1
  obtain ⟨g1, -⟩ := C146_tests hbk' hv h1 h2 ht htn squared
  obtain ⟨-, g2⟩ := C146_tests hbk' hv h1 h2 hd hn squared
  obtain ⟨a, b⟩ := C146_squared_length hv h1' h2 hd hn
  have hc : ((ops code : ℕ) : ℝ) ≤ 1024 := by exact_mod_cast hn
  have hc0 : (0 : ℝ) ≤ (ops code : ℕ) := Nat.cast_nonneg _
  obtain ⟨qf, qe⟩ := root_near a D0 (by positivity) (by norm_num; linarith) b
  have σ1 : 1 / 2 ^ 11 ≤ √(sqLen v) := Real.le_sqrt_of_sq_le (by norm_num at h1 ⊢; linarith)
  have σ2 : √(sqLen v) ≤ 2 ^ 16 := by
    rw [show (2 : ℝ) ^ 16 = √(2 ^ 32) by rw [show (2 : ℝ) ^ 32 = (2 ^ 16) ^ 2 by norm_num, Real.sqrt_sq (by norm_num)]]
    exact Real.sqrt_le_sqrt h2
  have q0 := sq_nonneg v.value.x.val
  have q1 := sq_nonneg v.value.y.val
  have q2 := sq_nonneg v.value.z.val
  have xf : (Simd4f.get v.value i).isFin = true := by interval_cases i <;> exact hv _ (by simp [comps3, Simd4f.get])
  have xs : |(Simd4f.get v.value i).val| ≤ √(sqLen v) := by
    rw [← Real.sqrt_sq_eq_abs]
    refine Real.sqrt_le_sqrt ?_
    interval_cases i <;> simp only [sqLen, Simd4f.get] <;> linarith
  have n := unit_near (x := Simd4f.get v.value i) xf qf σ1 σ2 xs (δ := ops code / 2 ^ 23 + 1 / 2 ^ 80 + 1 / 2 ^ 23) (by positivity) (by norm_num; linarith) qe
  have e : r = if quotient then Fp.div (Simd4f.get v.value i) (Fp.sqrt (ev code)) else Fp.mul (Simd4f.get v.value i) (Fp.div (Fp.lit 1 1) (Fp.sqrt (ev code))) := by
    change normalizeBy bk squared quotient (ev test) (ev code) (Simd4f.get v.value i) = _
    unfold normalizeBy
    rw [if_pos g1, if_pos g2]
    rfl
  have u0 := abs_nonneg u
  have fin : ∀ k : ℝ, k ≤ 1 / 2 ^ 22 → ((ops code / 2 ^ 23 + 1 / 2 ^ 80 + 1 / 2 ^ 23) * (1 + 1 / 2 ^ 10) + k) * |u| + 1 / 2 ^ 149 ≤
      (ops code + 5) / 2 ^ 23 * |u| + 1 / 2 ^ 149 := by
    intro k hk
    refine add_le_add (mul_le_mul_of_nonneg_right ?_ u0) le_rfl
    norm_num at hk ⊢; linarith
  rw [e]
  cases quotient
  · exact ⟨n.2.1, n.2.2.trans (fin _ le_rfl)⟩
  · exact ⟨n.1.1, n.1.2.trans (fin _ (by norm_num))⟩

/-- A concrete vector meets the hypotheses, whatever is emitted. -/
example {test code : FExpr} (ht : Emits (Vec3.dot .gcc (arg3 0) (arg3 3)) test) (htn : ops test ≤ 1024)
    (hd : Emits (Vec3.dot .gcc (arg3 0) (arg3 3)) code) (hn : ops code ≤ 27) (squared quotient : Bool) :
    let v : Vec3 F32 := Vec3.init (Scalar.lit 3 1) (Scalar.lit 4 1) (Scalar.lit 12 1)
    let ev := eval (inputs (comps3 v ++ comps3 v))
    |(normalizeBy .gcc squared quotient (ev test) (ev code) v.value.y).val - 4 / 13| ≤ 1 / 2 ^ 19 := by
  intro v ev
  have e3 := lit_int 3 (by decide)
  have e4 := lit_int 4 (by decide)
  have e5 := lit_int 12 (by decide)
  have q : sqLen v = 13 ^ 2 := by
    change (Fp.lit 3 1 : F32).val ^ 2 + (Fp.lit 4 1 : F32).val ^ 2 + (Fp.lit 12 1 : F32).val ^ 2 = 13 ^ 2
    rw [e3.2, e4.2, e5.2]; norm_num
  have r := (C146_normalize (.inl rfl) (v := v) (by
    intro x hx
    rcases List.mem_cons.1 hx with h | hx
    · rw [h]; exact e3.1
    rcases List.mem_cons.1 hx with h | hx
    · rw [h]; exact e4.1
    rcases List.mem_cons.1 hx with h | hx
    · rw [h]; exact e5.1
    · simp at hx) (by rw [q]; norm_num) (by rw [q]; norm_num) ht htn hd (by omega) squared quotient (i := 1) (by decide)).2
  rw [q, Real.sqrt_sq (by norm_num), show (Simd4f.get v.value 1).val = 4 by change (Fp.lit 4 1 : F32).val = 4; rw [e4.2]; norm_num] at r
  have hc : ((ops code : ℕ) : ℝ) ≤ 27 := by exact_mod_cast hn
  rw [abs_of_pos (by norm_num : (0 : ℝ) < 4 / 13)] at r
  refine _root_.le_trans r ?_
  norm_num
  linarith

end Graphene
