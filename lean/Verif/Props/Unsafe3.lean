/-
  C144: normalization on SSE (hardware estimate and one Newton step) under every permitted compilation.
-/
import Verif.Props.Unsafe1
import Verif.Proofs.Newton

namespace Graphene
open Fp
open FExpr

/-- Lane `i` of `graphene_simd4f_normalize3` on SSE (simd4f.h:2183-2188, 314-322) as an expression in the three components (variables 0-2)
and the hardware's estimate (variable 3; `_mm_rsqrt_ps` is opaque to the compiler).  `C144_source` ties it to the model. -/
def FExpr.normSource (bk : Backend) (i : Nat) : FExpr :=
  mul (var i) (mul (mul (var 3) (lit 1 2)) (sub (lit 3 1) (mul (var 3) (mul (Vec3.dot bk (arg3 0) (arg3 0)) (var 3)))))

namespace FExpr
/-- squared length -/
noncomputable def sqLen (v : Vec3 F32) : ℝ := v.value.x.val ^ 2 + v.value.y.val ^ 2 + v.value.z.val ^ 2

theorem newton_real {x s D : ℝ} (hD : 0 < D) (h : |s * √D - 1| ≤ 1 / 2 ^ 11) :
    |x * ((s * (1 / 2)) * (3 - s * (D * s))) - x / √D| ≤ 1 / 2 ^ 21 * |x / √D| := by
  have σ0 : 0 < √D := Real.sqrt_pos.2 hD
  have e : D = √D * √D := (Real.mul_self_sqrt hD.le).symm
  generalize √D = σ at *
  subst e
  have k : x * ((s * (1 / 2)) * (3 - s * (σ * σ * s))) - x / σ = x / σ * ((s * σ) * (3 - (s * σ) ^ 2) / 2 - 1) := by
    field_simp
  rw [k, _root_.abs_mul, _root_.mul_comm]
  refine mul_le_mul_of_nonneg_right ?_ (abs_nonneg _)
  generalize s * σ = ρ at *
  rw [show ρ * (3 - ρ ^ 2) / 2 - 1 = -((ρ - 1) ^ 2 * (2 + ρ) / 2) by ring, _root_.abs_neg]
  have h1 := abs_le.1 h
  have h2 : (ρ - 1) ^ 2 ≤ (1 / 2 ^ 11) ^ 2 := sq_le_sq' h1.1 h1.2
  have h3 : 0 ≤ 2 + ρ := by norm_num at h1; linarith
  rw [abs_of_nonneg (by positivity)]
  have h4 : 2 + ρ ≤ 4 := by norm_num at h1; linarith
  have := mul_le_mul h2 h4 h3 (by positivity)
  norm_num at this ⊢
  linarith

theorem newton_terms {x s D : ℝ} (hD : 0 < D) (h : |s * √D - 1| ≤ 1 / 2 ^ 11) :
    |x| * ((|s| * (1 / 2)) * (3 + |s| * (D * |s|))) ≤ 4 * |x / √D| := by
  have σ0 : 0 < √D := Real.sqrt_pos.2 hD
  have e : D = √D * √D := (Real.mul_self_sqrt hD.le).symm
  generalize √D = σ at *
  subst e
  have k : |x| * ((|s| * (1 / 2)) * (3 + |s| * (σ * σ * |s|))) = |x / σ| * ((|s| * σ) * (3 + (|s| * σ) ^ 2) / 2) := by
    rw [abs_div, abs_of_pos σ0]; field_simp
  have a : |s| * σ = |s * σ| := by rw [_root_.abs_mul, abs_of_pos σ0]
  rw [k, a, _root_.mul_comm]
  refine mul_le_mul_of_nonneg_right ?_ (abs_nonneg _)
  have h1 := abs_le.1 h
  have p : 0 ≤ s * σ := by norm_num at h1; linarith
  rw [abs_of_nonneg p]
  generalize s * σ = ρ at *
  have h4 : ρ ≤ 17 / 16 := by norm_num at h1; linarith
  have h5 : ρ ^ 2 ≤ (17 / 16) ^ 2 := pow_le_pow_left₀ p h4 2
  have := mul_le_mul h4 (by linarith : 3 + ρ ^ 2 ≤ 3 + (17 / 16) ^ 2) (by positivity) (by norm_num)
  norm_num at this
  linarith
end FExpr

variable [Libm binary32]

/-- Evaluated as written, with the processor's estimate of the computed squared length, the expression is the function. -/
theorem C144_source (s41 avx : Bool) (v : Vec3 F32) {i : Nat} (hi : i < 3) :
    eval (inputs (comps3 v ++ [Libm.rsqrtEst (Vec3.dot (.sse s41 avx) v v)])) (normSource (.sse s41 avx) i) =
      Simd4f.get (Simd4f.normalize3 (.sse s41 avx) v.value) i := by
  cases s41 <;> interval_cases i <;> rfl

/-- shows the source expression and evaluates a measure of it -/
local macro "norm_syntax" : tactic => `(tactic|
  simp only [normSource, Vec3.dot, Simd4f.dot3Scalar, arg3, FExpr.s_add, FExpr.s_mul, FExpr.s_f0, FExpr.Plain, FExpr.size, FExpr.real,
    terms, terms1])

/-- One Newton step from an estimate `s` within 2^-11 of `1 / |v|`. -/
theorem C144_newton {s41 avx : Bool} {v : Vec3 F32} (hv : ∀ x ∈ comps3 v, x.isFin = true) (h1 : 1 / 2 ^ 32 ≤ sqLen v) (h2 : sqLen v ≤ 2 ^ 32)
    {s : F32} (hs : s.isFin = true) (he : |s.val * √(sqLen v) - 1| ≤ 1 / 2 ^ 11) {i : Nat} (hi : i < 3) {code : FExpr}
    (h : Emits (normSource (.sse s41 avx) i) code) (hn : ops code ≤ 1024) :
    let r := eval (inputs (comps3 v ++ [s])) code
    let x := (Simd4f.get v.value i).val / √(sqLen v)
    r.isFin = true ∧ |r.val - x| ≤ (ops code + 1) / 2 ^ 21 * |x| + ops code / 2 ^ 45 := by
  intro r x
  have D0 : 0 < sqLen v := lt_of_lt_of_le (by norm_num) h1
  have hf : ∀ y ∈ comps3 v ++ [s], y.isFin = true := by
    intro y hy
    rcases List.mem_append.1 hy with h | h
    · exact hv y h
    · simp only [List.mem_singleton] at h; rw [h]; exact hs
  have σ2 : √(sqLen v) ≤ 2 ^ 16 := by
    rw [show (2 : ℝ) ^ 16 = √(2 ^ 32) by rw [show (2 : ℝ) ^ 32 = (2 ^ 16) ^ 2 by norm_num, Real.sqrt_sq (by norm_num)]]
    exact Real.sqrt_le_sqrt h2
  have σ1 : 1 / 2 ^ 16 ≤ √(sqLen v) := by
    rw [show (1 : ℝ) / 2 ^ 16 = √(1 / 2 ^ 32) by rw [show (1 : ℝ) / 2 ^ 32 = (1 / 2 ^ 16) ^ 2 by norm_num, Real.sqrt_sq (by norm_num)]]
    exact Real.sqrt_le_sqrt h1
  have cb : ∀ a : ℝ, a ^ 2 ≤ sqLen v → max 1 |a| ≤ 2 ^ 16 := by
    intro a ha
    refine max_le (by norm_num) (_root_.le_trans ?_ σ2)
    rw [← Real.sqrt_sq_eq_abs]; exact Real.sqrt_le_sqrt ha
  have sb : max 1 |s.val| ≤ 2 ^ 17 := by
    refine max_le (by norm_num) ?_
    have a := (abs_le.1 he)
    have p : |s.val| * √(sqLen v) ≤ 2 := by
      rw [show |s.val| * √(sqLen v) = |s.val * √(sqLen v)| by rw [_root_.abs_mul, abs_of_nonneg (Real.sqrt_nonneg _)]]
      rw [abs_le]; norm_num at a; constructor <;> linarith
    have q : |s.val| * (1 / 2 ^ 16) ≤ |s.val| * √(sqLen v) := mul_le_mul_of_nonneg_left σ1 (abs_nonneg _)
    norm_num at q ⊢; linarith
  have xb : ∀ j, max 1 |(inputs (comps3 v ++ [s]) j).val| ≤ if j = 3 then 2 ^ 17 else 2 ^ 16 := by
    intro j
    have q := sq_nonneg v.value.x.val
    have q' := sq_nonneg v.value.y.val
    have q'' := sq_nonneg v.value.z.val
    match j with
    | 0 => exact cb v.value.x.val (by unfold sqLen; linarith)
    | 1 => exact cb v.value.y.val (by unfold sqLen; linarith)
    | 2 => exact cb v.value.z.val (by unfold sqLen; linarith)
    | 3 => exact sb
    | j + 4 =>
      rw [if_neg (by omega)]
      have : inputs (comps3 v ++ [s]) (j + 4) = Fp.zero false := rfl
      rw [this]; simp [val_zero]; norm_num
  have nr := newton_real (x := (Simd4f.get v.value i).val) D0 he
  have nt := newton_terms (x := (Simd4f.get v.value i).val) D0 he
  have q := accurate_of (x := (Simd4f.get v.value i).val * ((s.val * (1 / 2)) * (3 - s.val * (sqLen v * s.val)))) (T := 4 * |x|) (T1 := 2 ^ 102)
    hf h (by cases s41 <;> norm_syntax <;> simp) hn
    (by cases s41 <;> interval_cases i <;> norm_syntax <;> simp [inputs, comps3, sqLen, Simd4f.get, -mul_eq_mul_left_iff] <;> ring)
    (by
      refine _root_.le_trans (_root_.le_of_eq ?_) nt
      cases s41 <;> interval_cases i <;> norm_syntax <;> simp [inputs, comps3, sqLen, Simd4f.get, absLit, -mul_eq_mul_left_iff] <;> ring)
    (by
      refine (size_mono (terms1Mags _) (L' := oneLit) xb (fun _ _ => le_rfl) _).trans ?_
      cases s41 <;> interval_cases i <;> norm_syntax <;> simp [oneLit] <;> norm_num)
    (by norm_num)
  refine ⟨q.1, ?_⟩
  have t := abs_sub_le r.val ((Simd4f.get v.value i).val * ((s.val * (1 / 2)) * (3 - s.val * (sqLen v * s.val)))) x
  refine t.trans ?_
  have := q.2
  have e : ((ops code : ℝ) + 1) / 2 ^ 21 * |x| + ops code / 2 ^ 45 =
      (ops code / 2 ^ 23 * (4 * |x|) + ops code / 2 ^ 147 * 2 ^ 102) + 1 / 2 ^ 21 * |x| := by
    have : ((ops code : ℝ)) / 2 ^ 147 * 2 ^ 102 = ops code / 2 ^ 45 := by field_simp
    rw [this]; ring
  rw [e]
  exact add_le_add q.2 nr

/-- With the processor's estimate (relative error 1.5·2^-12, Intel's manual) of the squared length, itself computed by any emitted code. -/
theorem C144_normalize {s41 avx : Bool} (hE : Spec.EstAccurate (.sse s41 avx)) {v : Vec3 F32} (hv : ∀ x ∈ comps3 v, x.isFin = true)
    (h1 : 1 / 2 ^ 32 ≤ sqLen v) (h2 : sqLen v ≤ 2 ^ 32) {dotCode : FExpr} (hd : Emits (Vec3.dot (.sse s41 avx) (arg3 0) (arg3 3)) dotCode)
    (hdn : ops dotCode ≤ 128) {i : Nat} (hi : i < 3) {code : FExpr} (h : Emits (normSource (.sse s41 avx) i) code) (hn : ops code ≤ 1024) :
    let s := Libm.rsqrtEst (eval (inputs (comps3 v ++ comps3 v)) dotCode)
    let r := eval (inputs (comps3 v ++ [s])) code
    let x := (Simd4f.get v.value i).val / √(sqLen v)
    r.isFin = true ∧ |r.val - x| ≤ (ops code + 1) / 2 ^ 21 * |x| + ops code / 2 ^ 45 := by
  intro s r x
  have D0 : 0 < sqLen v := lt_of_lt_of_le (by norm_num) h1
  have q0 := sq_nonneg v.value.x.val
  have q1 := sq_nonneg v.value.y.val
  have q2 := sq_nonneg v.value.z.val
  have cb : ∀ a : F32, a.val ^ 2 ≤ sqLen v → Spec.big a * Spec.big a ≤ 1 + sqLen v := by
    intro a ha
    unfold Spec.big
    rcases max_cases 1 |a.val| with ⟨e, -⟩ | ⟨e, -⟩ <;> rw [e]
    · linarith
    · rw [_root_.abs_mul_abs_self]; nlinarith
  have bx := cb v.value.x (by unfold sqLen; linarith)
  have b1 := cb v.value.y (by unfold sqLen; linarith)
  have b2 := cb v.value.z (by unfold sqLen; linarith)
  have hd2 := C142_dot3_accurate (a := v) (b := v) (by simpa using hv) hd (by omega) (by norm_num at *; linarith)
  set d := eval (inputs (comps3 v ++ comps3 v)) dotCode with hdd
  have hc : ((ops dotCode : ℕ) : ℝ) ≤ 128 := by exact_mod_cast hdn
  have hc0 : (0 : ℝ) ≤ (ops dotCode : ℕ) := Nat.cast_nonneg _
  have de : |d.val - sqLen v| ≤ 1 / 2 ^ 15 * sqLen v := by
    have e := hd2.2
    simp only [_root_.abs_mul_abs_self] at e
    rw [show v.value.x.val * v.value.x.val + v.value.y.val * v.value.y.val + v.value.z.val * v.value.z.val = sqLen v by unfold sqLen; ring] at e
    refine e.trans ?_
    have t1 : (ops dotCode : ℝ) / 2 ^ 23 * sqLen v ≤ 128 / 2 ^ 23 * sqLen v := by gcongr
    have t2 : (ops dotCode : ℝ) / 2 ^ 147 * (Spec.big v.value.x * Spec.big v.value.x + Spec.big v.value.y * Spec.big v.value.y +
        Spec.big v.value.z * Spec.big v.value.z + 1) ≤ 128 / 2 ^ 147 * (4 + 3 * sqLen v) := by
      refine mul_le_mul (by gcongr) (by linarith) ?_ (by positivity)
      have := mul_self_nonneg (Spec.big v.value.x); have := mul_self_nonneg (Spec.big v.value.y); have := mul_self_nonneg (Spec.big v.value.z)
      linarith
    norm_num at *
    linarith
  have dr := abs_le.1 de
  have dpos : 0 < d.val := by norm_num at *; linarith
  obtain ⟨sf, se⟩ := hE.2 d hd2.1 (by norm_num at *; linarith) (by norm_num at *; linarith)
  refine C144_newton hv h1 h2 sf ?_ hi h hn
  -- compare the estimate for the computed squared length with the exact one
  have σ0 : 0 < √(sqLen v) := Real.sqrt_pos.2 D0
  have τ0 : 0 < √d.val := Real.sqrt_pos.2 dpos
  have eσ : √(sqLen v) ^ 2 = sqLen v := Real.sq_sqrt D0.le
  have eτ : √d.val ^ 2 = d.val := Real.sq_sqrt dpos.le
  change |s.val * √(sqLen v) - 1| ≤ _
  change |s.val * √d.val - 1| ≤ _ at se
  have k : |√(sqLen v) - √d.val| ≤ 1 / 2 ^ 14 * √d.val := by
    have f : (√(sqLen v) - √d.val) * (√(sqLen v) + √d.val) = sqLen v - d.val := by linear_combination eσ - eτ
    have g : |√(sqLen v) - √d.val| * (√(sqLen v) + √d.val) ≤ 1 / 2 ^ 15 * sqLen v := by
      have g0 : |√(sqLen v) - √d.val| * |√(sqLen v) + √d.val| ≤ 1 / 2 ^ 15 * sqLen v := by
        rw [← _root_.abs_mul, f, _root_.abs_sub_comm]; exact de
      rwa [abs_of_pos (by linarith : 0 < √(sqLen v) + √d.val)] at g0
    have g2 : sqLen v ≤ 2 * d.val := by norm_num at *; linarith
    have st : √(sqLen v) ≤ 2 * √d.val := by
      by_contra hlt
      have hlt := not_le.1 hlt
      nlinarith
    have g3 : |√(sqLen v) - √d.val| * √(sqLen v) ≤ 1 / 2 ^ 15 * √(sqLen v) * √(sqLen v) := by
      have : |√(sqLen v) - √d.val| * √(sqLen v) ≤ |√(sqLen v) - √d.val| * (√(sqLen v) + √d.val) :=
        mul_le_mul_of_nonneg_left (by linarith) (abs_nonneg _)
      nlinarith
    have g4 : |√(sqLen v) - √d.val| ≤ 1 / 2 ^ 15 * √(sqLen v) := le_of_mul_le_mul_right g3 σ0
    norm_num at *; linarith
  have m : s.val * √(sqLen v) - 1 = (s.val * √d.val - 1) + s.val * (√(sqLen v) - √d.val) := by ring
  rw [m]
  refine (abs_add_le _ _).trans ?_
  have sm : |s.val| * √d.val ≤ 2 := by
    rw [show |s.val| * √d.val = |s.val * √d.val| by rw [_root_.abs_mul, abs_of_pos τ0]]
    have := abs_le.1 se
    rw [abs_le]; norm_num at this; constructor <;> linarith
  have p : |s.val * (√(sqLen v) - √d.val)| ≤ 2 / 2 ^ 14 := by
    rw [_root_.abs_mul]
    have := mul_le_mul_of_nonneg_left k (abs_nonneg s.val)
    norm_num at *; linarith
  norm_num at *; linarith

/-- The hypotheses are met: the model's strict evaluation is one admissible compilation; its operations are few. -/
example : ops (normSource (.sse true true) 0) ≤ 1024 ∧ ops (Vec3.dot (.sse false true) (arg3 0) (arg3 3)) ≤ 128 ∧
    (∀ i, Emits (normSource (.sse true true) i) (normSource (.sse true true) i)) := ⟨by decide, by decide, fun _ => .source⟩

/-- A concrete vector meets the hypotheses on the range, for every estimate and all emitted code. -/
example {s41 avx : Bool} (hE : Spec.EstAccurate (.sse s41 avx)) {dotCode code : FExpr}
    (hd : Emits (Vec3.dot (.sse s41 avx) (arg3 0) (arg3 3)) dotCode) (hdn : ops dotCode ≤ 128)
    (h : Emits (normSource (.sse s41 avx) 1) code) (hn : ops code ≤ 31) :
    let v : Vec3 F32 := Vec3.init (Scalar.lit 3 1) (Scalar.lit 4 1) (Scalar.lit 12 1)
    |(eval (inputs (comps3 v ++ [Libm.rsqrtEst (eval (inputs (comps3 v ++ comps3 v)) dotCode)])) code).val - 4 / 13| ≤ 1 / 2 ^ 17 := by
  intro v
  have e3 := lit_int 3 (by decide)
  have e4 := lit_int 4 (by decide)
  have e5 := lit_int 12 (by decide)
  have q : sqLen v = 13 ^ 2 := by
    change (Fp.lit 3 1 : F32).val ^ 2 + (Fp.lit 4 1 : F32).val ^ 2 + (Fp.lit 12 1 : F32).val ^ 2 = 13 ^ 2
    rw [e3.2, e4.2, e5.2]; norm_num
  have r := (C144_normalize hE (v := v) (by
    intro x hx
    rcases List.mem_cons.1 hx with h | hx
    · rw [h]; exact e3.1
    rcases List.mem_cons.1 hx with h | hx
    · rw [h]; exact e4.1
    rcases List.mem_cons.1 hx with h | hx
    · rw [h]; exact e5.1
    · simp at hx) (by rw [q]; norm_num) (by rw [q]; norm_num) hd hdn (i := 1) (by decide) h (by omega)).2
  rw [q, Real.sqrt_sq (by norm_num), show (Simd4f.get v.value 1).val = 4 by change (Fp.lit 4 1 : F32).val = 4; rw [e4.2]; norm_num] at r
  have hc : ((ops code : ℕ) : ℝ) ≤ 31 := by exact_mod_cast hn
  rw [abs_of_pos (by norm_num : (0 : ℝ) < 4 / 13)] at r
  refine r.trans ?_
  norm_num
  linarith

/-- Another: the constants 1/2 and 3 distributed over the difference, `(x s 3)/2 - ...`, starting with a commutation and a reassociation. -/
example : Emits (normSource (.sse true true) 0)
    (mul (mul (mul (lit 1 2) (var 3)) (sub (lit 3 1) (mul (var 3) (mul (Vec3.dot (.sse true true) (arg3 0) (arg3 0)) (var 3))))) (var 0)) :=
  .step (.step .source (.root (.mul_comm _ _))) (.mul_left _ (.mul_left _ (.root (.mul_comm _ _))))

end Graphene
