/-
  C132: spherical interpolation of quaternions in floating point (IEEE binary32), for a C library whose sinf, cosf and acosf
  are accurate.
-/
import Verif.Props.Float19
import Verif.Props.Float20
import Verif.Props.Float10

set_option exponentiation.threshold 3000

namespace Graphene
open Fp Spec
variable [Libm binary32]

/-- `acosf` of the C library: within `2^-22` of the angle, for finite arguments between -1 and 1. -/
def Spec.AcosAccurate : Prop :=
  ∀ v : F32, v.isFin = true → |v.val| ≤ 1 → (Libm.acos v).isFin = true ∧ |(Libm.acos v).val - Real.arccos v.val| ≤ 1 / 2 ^ 22

/-! ## Real analysis -/

omit [Libm binary32] in
/-- two angles with close cosines -/
theorem angle_gap {θ φ δ : ℝ} (h1 : 0 ≤ θ) (h2 : θ ≤ Real.pi) (g1 : 0 ≤ φ) (g2 : φ ≤ Real.pi)
    (h : |Real.cos θ - Real.cos φ| ≤ δ) : |θ - φ| ^ 2 ≤ 5 * δ ∧ |θ - φ| * Real.sin θ ≤ 22 / 7 * δ := by
  have e := Real.cos_sub_cos θ φ
  have pi := Real.pi_pos
  have hpi := Real.pi_lt_d2
  set m := (θ + φ) / 2 with hm
  have sm0 : 0 ≤ Real.sin m := Real.sin_nonneg_of_nonneg_of_le_pi (by linarith) (by linarith)
  -- the half difference
  have key : ∀ x : ℝ, 0 ≤ x → x ≤ Real.pi / 2 → |(θ - φ) / 2| = x → 2 / Real.pi * x ≤ |Real.sin ((θ - φ) / 2)| ∧
      |Real.sin ((θ - φ) / 2)| ≤ Real.sin m := by
    intro x x0 x1 hx
    have sx : |Real.sin ((θ - φ) / 2)| = Real.sin x := by
      have nx : 0 ≤ Real.sin x := Real.sin_nonneg_of_nonneg_of_le_pi x0 (by linarith)
      rcases abs_cases ((θ - φ) / 2) with ⟨g, -⟩ | ⟨g, -⟩
      · rw [← hx, g] at nx ⊢; exact abs_of_nonneg nx
      · rw [← hx, g, Real.sin_neg] at nx ⊢; exact abs_of_nonpos (by linarith)
    rw [sx]
    refine ⟨Real.mul_le_sin x0 x1, ?_⟩
    have q := Real.sin_sub_sin m x
    have b1 : |(θ - φ) / 2| ≤ m := _root_.abs_le.2 ⟨by rw [hm]; linarith, by rw [hm]; linarith⟩
    have b2 : |(θ - φ) / 2| ≤ Real.pi - m := _root_.abs_le.2 ⟨by rw [hm]; linarith, by rw [hm]; linarith⟩
    rw [hx] at b1 b2
    have c1 : 0 ≤ Real.sin ((m - x) / 2) := Real.sin_nonneg_of_nonneg_of_le_pi (by linarith) (by linarith)
    have c2 : 0 ≤ Real.cos ((m + x) / 2) := Real.cos_nonneg_of_neg_pi_div_two_le_of_le (by linarith) (by linarith)
    have := mul_nonneg c1 c2
    linarith
  obtain ⟨k1, k2⟩ := key _ (abs_nonneg _) (_root_.abs_le.2 ⟨by linarith, by linarith⟩) rfl
  have ex : |(θ - φ) / 2| = |θ - φ| / 2 := by rw [abs_div, abs_of_pos (by norm_num : (0:ℝ) < 2)]
  rw [ex] at k1
  have hs : Real.sin θ ≤ 2 * Real.sin m := by
    have g1 : Real.sin θ + Real.sin φ = 2 * Real.sin m * Real.cos ((θ - φ) / 2) := by
      have q : ∀ h : ℝ, Real.sin (m + h) + Real.sin (m - h) = 2 * Real.sin m * Real.cos h := fun h => by
        rw [Real.sin_add, Real.sin_sub]; ring
      have := q ((θ - φ) / 2)
      rwa [show m + (θ - φ) / 2 = θ by rw [hm]; ring, show m - (θ - φ) / 2 = φ by rw [hm]; ring] at this
    have g2 : 0 ≤ Real.sin φ := Real.sin_nonneg_of_nonneg_of_le_pi ‹_› ‹_›
    have := mul_le_mul_of_nonneg_left (Real.cos_le_one ((θ - φ) / 2)) sm0
    linarith
  rw [e, _root_.abs_mul, _root_.abs_mul, abs_of_nonneg sm0] at h
  norm_num at h
  set W := |θ - φ|
  have W0 : 0 ≤ W := abs_nonneg _
  set S := |Real.sin ((θ - φ) / 2)|
  have S0 : 0 ≤ S := abs_nonneg _
  have k3 : W ≤ Real.pi * S := by
    have := mul_le_mul_of_nonneg_left k1 pi.le
    have e2 : Real.pi * (2 / Real.pi * (W / 2)) = W := by field_simp
    rwa [e2] at this
  constructor
  · have a1 : W ^ 2 ≤ (Real.pi * S) ^ 2 := pow_le_pow_left₀ W0 k3 2
    have a2 : S ^ 2 ≤ Real.sin m * S := by nlinarith
    have a3 : Real.pi ^ 2 ≤ 10 := by nlinarith
    have a4 : (Real.pi * S) ^ 2 ≤ 10 * S ^ 2 := by rw [mul_pow]; exact mul_le_mul_of_nonneg_right a3 (sq_nonneg _)
    linarith
  · have a1 : W * Real.sin θ ≤ W * (2 * Real.sin m) := mul_le_mul_of_nonneg_left hs W0
    have a2 : W * (2 * Real.sin m) ≤ Real.pi * S * (2 * Real.sin m) := mul_le_mul_of_nonneg_right k3 (by linarith)
    have a3 : Real.pi * (2 * Real.sin m * S) ≤ Real.pi * δ := mul_le_mul_of_nonneg_left h pi.le
    have d0 : 0 ≤ δ := le_trans (by positivity) h
    have a4 : Real.pi * δ ≤ 22 / 7 * δ := mul_le_mul_of_nonneg_right (by have := Real.pi_lt_d4; linarith) d0
    linarith

/-! ## The reciprocal of the sine -/

/-- `approxVal` against one -/
theorem one_apart {d : F32} (hd : d.isFin = true) (h0 : 0 ≤ d.val) (h1 : d.val ≤ 1) :
    (approxVal d (f1 : F32) = true → 1 - d.val ≤ 1 / 2 ^ 23) ∧
    (approxVal d (f1 : F32) = false → 99 / 100 / 2 ^ 23 ≤ 1 - d.val) := by
  have o := is_f1
  have ng : (d >. (f1 : F32)) = false := by
    change (f1 : F32).lt d = false
    rw [← Bool.not_eq_true, lt_iff_val (isNaN_of_isFin o.fin) (isNaN_of_isFin hd), o.val]
    exact not_lt.2 h1
  have r := rnd_sub o.fin hd
  rw [o.val] at r
  have hf : (Fp.sub (f1 : F32) d).isFin = true := r.isFin hp32 ((abs_of_nonneg (by linarith : 0 ≤ 1 - d.val)).le.trans
    (le_trans (by norm_num; linarith : 1 - d.val ≤ 2 ^ 127) le_max32))
  have e := r.err hf
  rw [abs_of_nonneg (by linarith : 0 ≤ 1 - d.val), u32, eta32] at e
  have key : approxVal d (f1 : F32) = true ↔ (Fp.sub (f1 : F32) d).val < 1 / 2 ^ 23 := by
    unfold approxVal fuzzyEquals
    rw [ng]
    change (Fp.sub (f1 : F32) d).lt (fltEps : F32) = true ↔ _
    rw [lt_iff_val (isNaN_of_isFin hf) (isNaN_of_isFin eps_is.fin), eps_is.val]
  constructor
  · intro h
    have h := key.1 h
    by_contra hc
    push Not at hc
    have ge := r.ge_of (a := (fltEps : F32)) eps_is.fin (by rw [eps_is.val]; exact hc.le)
    rw [le_iff_val (isNaN_of_isFin eps_is.fin) (isNaN_of_isFin hf), eps_is.val] at ge
    linarith
  · intro h
    rw [← Bool.not_eq_true, key, not_lt] at h
    rcases e with e | e
    · have := (_root_.abs_le.1 e).2
      norm_num at *; linarith
    · have := (_root_.abs_le.1 e).2
      norm_num at *; linarith

omit [Libm binary32] in
/-- the real part of `recip_sine`: from the perturbed square of the sine to its reciprocal root -/
theorem recip_real {s Q S r : ℝ} (hs : 31 / 2 ^ 16 ≤ s) (s1 : s ≤ 1) (hq : |Q - s ^ 2| ≤ 1001 / 1000 / 2 ^ 24)
    (hs2 : 197 / 100 / 2 ^ 23 ≤ s ^ 2) (hS : |S - √Q| ≤ √Q / 2 ^ 24) (hr : |r - 1 / S| ≤ 1 / S / 2 ^ 24 + 1 / 2 ^ 150) :
    |r * s - 1| ≤ 1 / 5 ∧ s * |r * s - 1| ≤ 1 / 2 ^ 13 - 1 / 2 ^ 15 := by
  have s0 : 0 < s := lt_of_lt_of_le (by norm_num) hs
  obtain ⟨q1, q2⟩ := _root_.abs_le.1 hq
  have qlo : 74 / 100 * s ^ 2 ≤ Q := by norm_num at *; linarith
  have q0 : 0 ≤ Q := le_trans (by positivity) qlo
  have t2 := Real.sq_sqrt q0
  have t0 := Real.sqrt_nonneg Q
  set t := √Q
  have tlo : 86 / 100 * s ≤ t := by
    by_contra hc
    push Not at hc
    have : t ^ 2 < (86 / 100 * s) ^ 2 := pow_lt_pow_left₀ hc t0 (by norm_num)
    nlinarith
  have c1 : |t - s| * (186 / 100 * s) ≤ 1001 / 1000 / 2 ^ 24 := by
    have e : |t - s| * (t + s) = |Q - s ^ 2| := by
      have : Q - s ^ 2 = (t - s) * (t + s) := by rw [← t2]; ring
      rw [this, _root_.abs_mul, abs_of_nonneg (by linarith : 0 ≤ t + s)]
    have : |t - s| * (186 / 100 * s) ≤ |t - s| * (t + s) := mul_le_mul_of_nonneg_left (by linarith) (abs_nonneg _)
    linarith
  have thi : t ≤ 114 / 100 * s := by
    have a : (t - s) * (186 / 100 * s) ≤ |t - s| * (186 / 100 * s) := mul_le_mul_of_nonneg_right (le_abs_self _) (by positivity)
    have b : (t - s) * s ≤ 14 / 100 * s * s := by norm_num at *; nlinarith
    have := le_of_mul_le_mul_right b s0
    linarith
  obtain ⟨S1, S2⟩ := _root_.abs_le.1 hS
  have Slo : 859 / 1000 * s ≤ S := by norm_num at *; linarith
  have S0 : 0 < S := lt_of_lt_of_le (by positivity) Slo
  have c2 : |S - s| ≤ |t - s| + 114 / 100 * s / 2 ^ 24 := by
    have := abs_sub_le S t s
    norm_num at *; linarith
  -- the distance of the roots, relative and absolute
  have c3 : |t - s| ≤ 14 / 100 * s := by
    have b : |t - s| * s ≤ 14 / 100 * s * s := by norm_num at *; nlinarith
    exact le_of_mul_le_mul_right b s0
  have c4 : |t - s| ≤ 1001 / 1000 / 2 ^ 24 * (100 / 186) * (2 ^ 16 / 31) := by
    have b : |t - s| * (31 / 2 ^ 16) ≤ |t - s| * s := mul_le_mul_of_nonneg_left hs (abs_nonneg _)
    norm_num at *; linarith
  have e : r * s - 1 = (r - 1 / S) * s + (s - S) / S := by field_simp; ring
  have m1 : |r * s - 1| ≤ (1 / S / 2 ^ 24 + 1 / 2 ^ 150) * s + |S - s| / S := by
    rw [e]
    refine (abs_add_le _ _).trans ?_
    rw [_root_.abs_mul, abs_of_pos s0, abs_div, abs_of_pos S0, _root_.abs_sub_comm s S]
    exact add_le_add (mul_le_mul_of_nonneg_right hr s0.le) le_rfl
  have rs : s / S ≤ 1000 / 859 := by rw [div_le_iff₀ S0]; linarith
  have m2 : |S - s| / S ≤ 1000 / 859 * (|S - s| / s) := by
    have : |S - s| / S = s / S * (|S - s| / s) := by field_simp
    rw [this]
    exact mul_le_mul_of_nonneg_right rs (by positivity)
  have m3 : (1 / S / 2 ^ 24 + 1 / 2 ^ 150) * s ≤ 1000 / 859 / 2 ^ 24 + 1 / 2 ^ 150 := by
    have : (1 / S / 2 ^ 24 + 1 / 2 ^ 150) * s = s / S / 2 ^ 24 + s / 2 ^ 150 := by field_simp
    rw [this]
    norm_num at *; linarith
  have m4 : |S - s| / s ≤ 141 / 1000 := by
    rw [div_le_iff₀ s0]; norm_num at *; linarith
  constructor
  · norm_num at *; linarith
  · have n1 := mul_le_mul_of_nonneg_left m1 s0.le
    have n2 : s * (|S - s| / S) ≤ 1000 / 859 * |S - s| := by
      have : s * (|S - s| / S) = s / S * |S - s| := by field_simp
      rw [this]
      exact mul_le_mul_of_nonneg_right rs (abs_nonneg _)
    have n3 : s * ((1 / S / 2 ^ 24 + 1 / 2 ^ 150) * s) ≤ 1000 / 859 / 2 ^ 24 + 1 / 2 ^ 150 :=
      (mul_le_of_le_one_left (by positivity) s1).trans m3
    rw [mul_add] at n1
    norm_num at *; linarith

/-- `1.f / sqrtf (1.f - dot * dot)` times the sine of the angle -/
theorem recip_sine {d : F32} (hd : d.isFin = true) (h0 : 0 ≤ d.val) (h1 : 99 / 100 / 2 ^ 23 ≤ 1 - d.val) :
    let r := Fp.div (f1 : F32) (Fp.sqrt (Fp.sub (f1 : F32) (Fp.mul d d)))
    let s := √(1 - d.val ^ 2)
    r.isFin = true ∧ 31 / 2 ^ 16 ≤ s ∧ s ≤ 1 ∧ |r.val * s - 1| ≤ 1 / 5 ∧ s * |r.val * s - 1| ≤ 1 / 2 ^ 13 - 1 / 2 ^ 15 := by
  intro r s
  have o := is_f1
  have d1 : d.val ≤ 1 := by norm_num at h1; linarith
  have dd : d.val ^ 2 ≤ 1 := by nlinarith
  have hs2 : 197 / 100 / 2 ^ 23 ≤ 1 - d.val ^ 2 := by
    have := mul_nonneg (sub_nonneg.2 h1) (by norm_num; linarith : 0 ≤ 1 + d.val - 99 / 100 / 2 ^ 23)
    norm_num at *; nlinarith
  have e2 : s ^ 2 = 1 - d.val ^ 2 := Real.sq_sqrt (by linarith)
  have hs : 31 / 2 ^ 16 ≤ s := Real.le_sqrt_of_sq_le (by norm_num at *; linarith)
  have s1 : s ≤ 1 := Real.sqrt_le_one.2 (by nlinarith)
  -- the product
  have rp := rnd_mul hd hd
  have ap : |d.val * d.val| = d.val ^ 2 := by rw [abs_of_nonneg (by positivity)]; ring
  have fp := rp.isFin hp32 (by rw [ap]; exact le_trans (by norm_num; linarith : d.val ^ 2 ≤ 2 ^ 127) le_max32)
  have ep := rp.err_add fp
  rw [ap, u32, eta32, ← pow_two] at ep
  set P := Fp.mul d d
  obtain ⟨p1, p2⟩ := _root_.abs_le.1 ep
  -- the difference
  have rq := rnd_sub o.fin fp
  rw [o.val] at rq
  have aq : |1 - P.val| ≤ 1 - d.val ^ 2 + 1 / 2 ^ 23 := _root_.abs_le.2 ⟨by norm_num at *; linarith, by norm_num at *; linarith⟩
  have fq := rq.isFin hp32 (aq.trans (le_trans (by norm_num; nlinarith) le_max32))
  have eq := rq.err_add fq
  rw [u32, eta32] at eq
  set Q := Fp.sub (f1 : F32) P
  have hq : |Q.val - s ^ 2| ≤ 1001 / 1000 / 2 ^ 24 := by
    rw [e2]
    have t := abs_sub_le Q.val (1 - P.val) (1 - d.val ^ 2)
    have u : |1 - P.val - (1 - d.val ^ 2)| = |P.val - d.val ^ 2| := by rw [_root_.abs_sub_comm]; congr 1; ring
    rw [u] at t
    generalize |1 - P.val| = z1 at *
    generalize |P.val - d.val ^ 2| = z2 at *
    generalize |Q.val - (1 - P.val)| = z3 at *
    generalize |Q.val - (1 - d.val ^ 2)| = z4 at *
    norm_num at *; linarith
  have q0 : 0 < Q.val := by
    have := (_root_.abs_le.1 hq).1
    rw [e2] at this
    norm_num at *; linarith
  obtain ⟨fS, eS⟩ := sqrt_err hs32 ht32 fq q0.le
  rw [u32] at eS
  set S := Fp.sqrt Q
  have t0 : 0 < √Q.val := Real.sqrt_pos.2 q0
  have hS : |S.val - √Q.val| ≤ √Q.val / 2 ^ 24 := by norm_num at eS ⊢; linarith
  have S0 : √Q.val / 2 ≤ S.val := by have := (_root_.abs_le.1 hS).1; norm_num at this ⊢; linarith
  have Sp : 0 < S.val := by linarith
  have rr := rnd_div o.fin fS Sp.ne'
  rw [o.val] at rr
  have tlo : 1 / 2 ^ 13 ≤ √Q.val := Real.le_sqrt_of_sq_le (by
    have := (_root_.abs_le.1 hq).1
    rw [e2] at this
    norm_num at *; linarith)
  have ar : |1 / S.val| ≤ 2 ^ 14 := by
    rw [abs_of_pos (div_pos one_pos Sp), div_le_iff₀ Sp]; norm_num at *; linarith
  have fr := rr.isFin hp32 (ar.trans (le_trans (by norm_num) le_max32))
  have er := rr.err_add fr
  rw [u32, eta32, abs_of_pos (div_pos one_pos Sp)] at er
  obtain ⟨z1, z2⟩ := recip_real hs s1 hq (by rw [e2]; exact hs2) hS (er.trans (by ring_nf; exact le_rfl))
  exact ⟨fr, hs, s1, z1, z2⟩

/-! ## The two weights -/

/-- the weights of the two quaternions: `L` and `R` with `R sin φ ≈ sin (t φ)` and `L + cos φ R ≈ cos (t φ)`, where `φ` is the
angle with cosine `d` -/
theorem slerp_weights (hac : AcosAccurate) (ht : TrigAccurate) {d t : F32} (hd : d.isFin = true) (h0 : 0 ≤ d.val)
    (h1 : 99 / 100 / 2 ^ 23 ≤ 1 - d.val) (tf : t.isFin = true) (t0 : 0 ≤ t.val) (t1 : t.val ≤ 1) :
    let r := Fp.div (f1 : F32) (Fp.sqrt (Fp.sub (f1 : F32) (Fp.mul d d)))
    let R := Fp.mul (Libm.sin (Fp.mul t (Libm.acos d))) r
    let L := Fp.sub (Libm.cos (Fp.mul t (Libm.acos d))) (Fp.mul d R)
    let φ := Real.arccos d.val
    R.isFin = true ∧ L.isFin = true ∧ |R.val| ≤ 5 / 4 ∧ |L.val| ≤ 5 / 2 ∧
      |R.val * Real.sin φ - Real.sin (t.val * φ)| ≤ 1 / 2 ^ 13 ∧ |L.val + d.val * R.val - Real.cos (t.val * φ)| ≤ 1 / 2 ^ 20 := by
  intro r R L φ
  obtain ⟨fr, s31, s1, k1, k2⟩ := recip_sine hd h0 h1
  change r.isFin = true at fr
  have d1 : d.val ≤ 1 := by norm_num at h1; linarith
  have sφ : Real.sin φ = √(1 - d.val ^ 2) := Real.sin_arccos _
  rw [← sφ] at s31 s1 k1 k2
  change |r.val * Real.sin φ - 1| ≤ _ at k1
  change Real.sin φ * |r.val * Real.sin φ - 1| ≤ _ at k2
  have φ0 : 0 ≤ φ := Real.arccos_nonneg _
  have φ1 : φ ≤ Real.pi / 2 := Real.arccos_le_pi_div_two.2 h0
  have hpi := Real.pi_lt_d2
  obtain ⟨fa, ea⟩ := hac d hd (_root_.abs_le.2 ⟨by linarith, d1⟩)
  change |_ - φ| ≤ _ at ea
  set A := Libm.acos d
  obtain ⟨a1, a2⟩ := _root_.abs_le.1 ea
  -- the angle
  have rx := rnd_mul tf fa
  have ab : |A.val| ≤ 8 / 5 := _root_.abs_le.2 ⟨by norm_num at *; linarith, by norm_num at *; linarith⟩
  have ax : |t.val * A.val| ≤ 8 / 5 := by
    rw [_root_.abs_mul, abs_of_nonneg t0]
    exact (mul_le_of_le_one_left (abs_nonneg _) t1).trans ab
  have fx := rx.isFin hp32 (ax.trans (le_trans (by norm_num) le_max32))
  have ex := rx.err_add fx
  rw [u32, eta32] at ex
  set x := Fp.mul t A
  have exφ : |x.val - t.val * φ| ≤ 3 / 2 ^ 23 := by
    have q := abs_sub_le x.val (t.val * A.val) (t.val * φ)
    rw [← mul_sub, _root_.abs_mul, abs_of_nonneg t0] at q
    have := mul_le_of_le_one_left (abs_nonneg (A.val - φ)) t1
    generalize |x.val - t.val * φ| = z1 at *
    generalize |A.val - φ| = z2 at *
    generalize |t.val * A.val| = z3 at *
    norm_num at *; linarith
  have xb : |x.val| ≤ 2 ^ 16 := by
    have q := abs_sub_le x.val (t.val * A.val) 0
    rw [sub_zero, sub_zero] at q
    generalize |x.val| = z1 at *
    generalize |t.val * A.val| = z3 at *
    norm_num at *; linarith
  obtain ⟨⟨fs, es⟩, ⟨fc, ec⟩⟩ := ht x fx xb
  set sn := Libm.sin x
  set cs := Libm.cos x
  have es' : |sn.val - Real.sin (t.val * φ)| ≤ 1 / 2 ^ 21 := by
    have := Real.abs_sin_sub_sin_le x.val (t.val * φ)
    have := abs_sub_le sn.val (Real.sin x.val) (Real.sin (t.val * φ))
    norm_num at *; linarith
  have ec' : |cs.val - Real.cos (t.val * φ)| ≤ 1 / 2 ^ 21 := by
    have := Real.abs_cos_sub_cos_le x.val (t.val * φ)
    have := abs_sub_le cs.val (Real.cos x.val) (Real.cos (t.val * φ))
    norm_num at *; linarith
  set s := Real.sin φ
  set k := r.val * s
  set σ := Real.sin (t.val * φ)
  have s0 : 0 < s := lt_of_lt_of_le (by norm_num) s31
  have tφ : t.val * φ ≤ φ := mul_le_of_le_one_left φ0 t1
  have tφ0 : 0 ≤ t.val * φ := mul_nonneg t0 φ0
  have σ0 : 0 ≤ σ := Real.sin_nonneg_of_nonneg_of_le_pi tφ0 (by linarith)
  have σs : σ ≤ s := Real.sin_le_sin_of_le_of_le_pi_div_two (by linarith) φ1 tφ
  obtain ⟨k3, k4⟩ := _root_.abs_le.1 k1
  have rp : 0 ≤ r.val := by
    by_contra hc
    have : k ≤ 0 := mul_nonpos_of_nonpos_of_nonneg (not_le.1 hc).le s0.le
    linarith
  have rb : r.val ≤ 6 / 5 * (2 ^ 16 / 31) := by
    have : r.val * (31 / 2 ^ 16) ≤ k := mul_le_mul_of_nonneg_left s31 rp
    norm_num at *; linarith
  -- the exact product of the two factors
  have pr : |sn.val * r.val| ≤ 5 / 4 - 1 / 50 := by
    have e : |sn.val| ≤ s + 1 / 2 ^ 21 := by
      have := abs_add_le (sn.val - σ) σ
      rw [sub_add_cancel, abs_of_nonneg σ0] at this
      linarith
    rw [_root_.abs_mul, abs_of_nonneg rp]
    have := mul_le_mul_of_nonneg_right e rp
    have e2 : (s + 1 / 2 ^ 21) * r.val = k + r.val / 2 ^ 21 := by simp only [k]; ring
    rw [e2] at this
    norm_num at *; linarith
  have rR := rnd_mul fs fr
  have fR : R.isFin = true := rR.isFin hp32 (pr.trans (le_trans (by norm_num) le_max32))
  have eR := rR.err_add fR
  change |R.val - _| ≤ _ at eR
  rw [u32, eta32] at eR
  have Rb : |R.val| ≤ 5 / 4 := by
    have := abs_sub_le R.val (sn.val * r.val) 0
    rw [sub_zero, sub_zero] at this
    generalize |sn.val * r.val| = z1 at *
    generalize |R.val| = z2 at *
    norm_num at *; linarith
  have G1 : |R.val * s - σ| ≤ 1 / 2 ^ 13 := by
    have e : R.val * s - σ = (R.val - sn.val * r.val) * s + (sn.val - σ) * k + σ * (k - 1) := by simp only [k]; ring
    rw [e]
    refine (abs_add_le _ _).trans ((add_le_add (abs_add_le _ _) le_rfl).trans ?_)
    rw [_root_.abs_mul _ s, _root_.abs_mul (sn.val - σ) k, _root_.abs_mul σ (k - 1), abs_of_pos s0, abs_of_nonneg σ0,
      abs_of_nonneg (by linarith : 0 ≤ k)]
    have b1 : |R.val - sn.val * r.val| * s ≤ |R.val - sn.val * r.val| := mul_le_of_le_one_right (abs_nonneg _) s1
    have b2 : |sn.val - σ| * k ≤ 1 / 2 ^ 21 * (6 / 5) := mul_le_mul es' (by linarith) (by linarith) (by norm_num)
    have b3 : σ * |k - 1| ≤ s * |k - 1| := mul_le_mul_of_nonneg_right σs (abs_nonneg _)
    generalize |sn.val * r.val| = z1 at *
    generalize |R.val - sn.val * r.val| = z2 at *
    norm_num at *; linarith
  -- the left weight
  have rd := rnd_mul hd fR
  have dR : |d.val * R.val| ≤ 5 / 4 := by
    rw [_root_.abs_mul, abs_of_nonneg h0]; exact (mul_le_of_le_one_left (abs_nonneg _) d1).trans Rb
  have fd := rd.isFin hp32 (dR.trans (le_trans (by norm_num) le_max32))
  have ed := rd.err_add fd
  rw [u32, eta32] at ed
  set D := Fp.mul d R
  have cb : |cs.val| ≤ 1 + 1 / 2 ^ 21 := by
    have := abs_sub_le cs.val (Real.cos (t.val * φ)) 0
    rw [sub_zero, sub_zero] at this
    have := Real.abs_cos_le_one (t.val * φ)
    linarith
  have rL := rnd_sub fc fd
  have Db : |D.val| ≤ 5 / 4 + 1 / 2 ^ 22 := by
    have := abs_sub_le D.val (d.val * R.val) 0
    rw [sub_zero, sub_zero] at this
    generalize |d.val * R.val| = z1 at *
    generalize |D.val| = z2 at *
    norm_num at *; linarith
  have Lb0 : |cs.val - D.val| ≤ 19 / 8 := by
    have := abs_sub_le cs.val 0 D.val
    rw [sub_zero, zero_sub, _root_.abs_neg] at this
    norm_num at *; linarith
  have fL : L.isFin = true := rL.isFin hp32 (Lb0.trans (le_trans (by norm_num) le_max32))
  have eL := rL.err_add fL
  change |L.val - _| ≤ _ at eL
  rw [u32, eta32] at eL
  refine ⟨fR, fL, Rb, ?_, G1, ?_⟩
  · have := abs_sub_le L.val (cs.val - D.val) 0
    rw [sub_zero, sub_zero] at this
    generalize |cs.val - D.val| = z1 at *
    generalize |L.val| = z2 at *
    norm_num at *; linarith
  · have e : L.val + d.val * R.val - Real.cos (t.val * φ) =
        (L.val - (cs.val - D.val)) + (cs.val - Real.cos (t.val * φ)) + -(D.val - d.val * R.val) := by ring
    rw [e]
    refine (abs_add_le _ _).trans ((add_le_add (abs_add_le _ _) le_rfl).trans ?_)
    rw [_root_.abs_neg]
    generalize |cs.val - D.val| = z1 at *
    generalize |d.val * R.val| = z2 at *
    norm_num at *; linarith

/-! ## The combination -/

/-- the point a fraction `t` of the way along the arc that leaves `a` in the direction `u` and has the angle `θ` -/
noncomputable def Spec.arc (a u : Quaternion ℝ) (θ t : ℝ) : Quaternion ℝ := Real.cos (t * θ) • a + Real.sin (t * θ) • u

omit [Libm binary32] in
theorem slerp_combine {a' b' a u : Quaternion ℝ} {L R d t θ φ ε δ : ℝ} (ha : ‖a' - a‖ ≤ ε)
    (hb : ‖b' - arc a u θ 1‖ ≤ ε) (na : ‖a‖ = 1) (nu : ‖u‖ = 1) (na' : ‖a'‖ ≤ 2) (d0 : 0 ≤ d) (d1 : d ≤ 1) (t0 : 0 ≤ t) (t1 : t ≤ 1)
    (hd : |Real.cos θ - d| ≤ δ) (hR : |R| ≤ 5 / 4) (h1 : |R * Real.sin φ - Real.sin (t * φ)| ≤ 1 / 2 ^ 13)
    (h2 : |L + d * R - Real.cos (t * φ)| ≤ 1 / 2 ^ 20) :
    ‖L • a' + R • b' - arc a u θ t‖ ≤ 7 / 2 * ε + 5 / 4 * δ + 13 / 4 * |θ - φ| + 1 / 2 ^ 13 + 1 / 2 ^ 19 := by
  have tw : |t * θ - t * φ| ≤ |θ - φ| := by
    rw [← mul_sub, _root_.abs_mul, abs_of_nonneg t0]; exact mul_le_of_le_one_left (abs_nonneg _) t1
  have c1 := (Real.abs_cos_sub_cos_le (t * θ) (t * φ)).trans tw
  have c2 := (Real.abs_sin_sub_sin_le (t * θ) (t * φ)).trans tw
  have c3 := Real.abs_sin_sub_sin_le θ φ
  have e : L • a' + R • b' - arc a u θ t =
      (L + d * R - Real.cos (t * φ)) • a' + Real.cos (t * φ) • (a' - a) + (Real.cos (t * φ) - Real.cos (t * θ)) • a +
      R • (b' - arc a u θ 1) + (-(R * d)) • (a' - a) + (R * (Real.cos θ - d)) • a + (R * Real.sin θ - Real.sin (t * θ)) • u := by
    simp only [arc, one_mul]; module
  rw [e]
  have n : ∀ (k : ℝ) (q : Quaternion ℝ), ‖k • q‖ = |k| * ‖q‖ := fun k q => by rw [norm_smul, Real.norm_eq_abs]
  refine (norm_add_le _ _).trans ((add_le_add_left (norm_add_le _ _) _).trans ((add_le_add_left (add_le_add_left (norm_add_le _ _) _) _).trans
    ((add_le_add_left (add_le_add_left (add_le_add_left (norm_add_le _ _) _) _) _).trans
    ((add_le_add_left (add_le_add_left (add_le_add_left (add_le_add_left (norm_add_le _ _) _) _) _) _).trans
    ((add_le_add_left (add_le_add_left (add_le_add_left (add_le_add_left (add_le_add_left (norm_add_le _ _) _) _) _) _) _).trans ?_)))))
  rw [n, n, n, n, n, n, n, na, nu, mul_one, mul_one, mul_one]
  have b1 : |L + d * R - Real.cos (t * φ)| * ‖a'‖ ≤ 1 / 2 ^ 20 * 2 := mul_le_mul h2 na' (norm_nonneg _) (by norm_num)
  have b2 : |Real.cos (t * φ)| * ‖a' - a‖ ≤ 1 * ε := mul_le_mul (Real.abs_cos_le_one _) ha (norm_nonneg _) (by norm_num)
  have b4 : |R| * ‖b' - arc a u θ 1‖ ≤ 5 / 4 * ε := mul_le_mul hR hb (norm_nonneg _) (by norm_num)
  have b5 : |-(R * d)| * ‖a' - a‖ ≤ 5 / 4 * ε := by
    refine mul_le_mul ?_ ha (norm_nonneg _) (by norm_num)
    rw [_root_.abs_neg, _root_.abs_mul, abs_of_nonneg d0]
    exact (mul_le_of_le_one_right (abs_nonneg _) d1).trans hR
  have b6 : |R * (Real.cos θ - d)| ≤ 5 / 4 * δ := by
    rw [_root_.abs_mul]; exact mul_le_mul hR hd (abs_nonneg _) (by norm_num)
  have b7 : |R * Real.sin θ - Real.sin (t * θ)| ≤ 5 / 4 * |θ - φ| + 1 / 2 ^ 13 + |θ - φ| := by
    have e : R * Real.sin θ - Real.sin (t * θ) = R * (Real.sin θ - Real.sin φ) + (R * Real.sin φ - Real.sin (t * φ)) +
        -(Real.sin (t * θ) - Real.sin (t * φ)) := by ring
    rw [e]
    refine (abs_add_le _ _).trans (add_le_add ((abs_add_le _ _).trans (add_le_add ?_ h1)) (by rwa [_root_.abs_neg]))
    rw [_root_.abs_mul]; exact mul_le_mul hR c3 (abs_nonneg _) (by norm_num)
  rw [_root_.abs_sub_comm] at c1
  norm_num at *; linarith

/-- how far the result of `quaternion_slerp` may be from the arc, for quaternions within `ε` of its ends -/
def Spec.SlerpBound (ε θ e : ℝ) : Prop :=
  e ≤ 8 * ε + 8 * √(3 * ε + 1 / 2 ^ 20) + 1 / 2 ^ 12 ∧
    (0 < Real.sin θ → e ≤ 8 * ε + 12 * (3 * ε + 1 / 2 ^ 20) / Real.sin θ + 1 / 2 ^ 12)

omit [Libm binary32] in
theorem slerpBound_of {ε θ e W δ : ℝ} (hδ : δ = 3 * ε + 1 / 2 ^ 20) (e0 : 0 ≤ ε) (h : e ≤ 8 * ε + 13 / 4 * W + 1 / 2 ^ 12)
    (W0 : 0 ≤ W) (h1 : W ^ 2 ≤ 45 / 8 * δ) (h2 : W * Real.sin θ ≤ 22 / 7 * (9 / 8 * δ)) : SlerpBound ε θ e := by
  have δ0 : 0 ≤ δ := by rw [hδ]; positivity
  constructor
  · rw [← hδ]
    have : 13 / 4 * W ≤ 8 * √δ := by
      have s2 := Real.sq_sqrt δ0
      refine (sq_le_sq₀ (by positivity) (by positivity)).1 ?_
      nlinarith
    linarith
  · intro hs
    rw [← hδ]
    have : 13 / 4 * W ≤ 12 * δ / Real.sin θ := by
      rw [le_div_iff₀ hs]; linarith
    linarith

omit [Libm binary32] in
theorem inner_ham (a b : Quat F32) : inner ℝ (ham a) (ham b) =
    a.x.val * b.x.val + a.y.val * b.y.val + a.z.val * b.z.val + a.w.val * b.w.val := by
  rw [Quaternion.inner_def]
  rw [Quaternion.re_mul, Quaternion.re_star, Quaternion.imI_star, Quaternion.imJ_star, Quaternion.imK_star]
  simp only [ham, quat, exactQ]
  ring

/-- the computed dot product -/
theorem slerp_dot (a b : Quat F32) (ha : FiniteQ a) (hb : FiniteQ b) {A B : Quaternion ℝ} {ε : ℝ} (hA : ‖ham a - A‖ ≤ ε)
    (hB : ‖ham b - B‖ ≤ ε) (nA : ‖A‖ = 1) (nB : ‖B‖ = 1) (hε : ε ≤ 1 / 16) :
    let c := cClamp (Simd4f.dot4 a.vec b.vec).x (Scalar.lit (-1) 1) (f1 : F32)
    c.isFin = true ∧ |c.val| ≤ 1 ∧ |inner ℝ A B - c.val| ≤ 3 * ε + 1 / 2 ^ 20 := by
  intro c
  have lm := lit_int (-1) (by decide)
  have o := is_f1
  have e0 : 0 ≤ ε := (norm_nonneg _).trans hA
  have na : ‖ham a‖ ≤ 17 / 16 := by
    have := norm_sub_norm_le (ham a) A; linarith
  have nb : ‖ham b‖ ≤ 17 / 16 := by
    have := norm_sub_norm_le (ham b) B; linarith
  have cs := abs4_le a.x.val a.y.val a.z.val a.w.val b.x.val b.y.val b.z.val b.w.val (norm_nonneg (ham a)) (norm_nonneg (ham b))
    (ham_norm_sq a) (ham_norm_sq b)
  have pb : ‖ham a‖ * ‖ham b‖ ≤ 17 / 16 * (17 / 16) := mul_le_mul na nb (norm_nonneg _) (by norm_num)
  obtain ⟨fd, ed⟩ := C85_dot4 ⟨a.vec⟩ ⟨b.vec⟩ ⟨ha.1, ha.2.1, ha.2.2.1, ha.2.2.2, hb.1, hb.2.1, hb.2.2.1, hb.2.2.2⟩
    ((cs.trans pb).trans (by norm_num))
  set D := (Simd4f.dot4 a.vec b.vec).x
  change D.isFin = true at fd
  change |D.val - (a.x.val * b.x.val + a.y.val * b.y.val + a.z.val * b.z.val + a.w.val * b.w.val)| ≤
    dotErr (|a.x.val * b.x.val| + |a.y.val * b.y.val| + |a.z.val * b.z.val| + |a.w.val * b.w.val|) at ed
  rw [← inner_ham] at ed
  unfold dotErr at ed
  have ei : |inner ℝ (ham a) (ham b) - inner ℝ A B| ≤ 17 / 16 * ε + ε := by
    have : inner ℝ (ham a) (ham b) - inner ℝ A B = inner ℝ (ham a - A) (ham b) + inner ℝ A (ham b - B) := by
      rw [inner_sub_left, inner_sub_right]; ring
    rw [this]
    refine (abs_add_le _ _).trans (add_le_add ((abs_real_inner_le_norm _ _).trans ?_) ((abs_real_inner_le_norm _ _).trans ?_))
    · have := mul_le_mul hA nb (norm_nonneg _) e0
      linarith
    · rw [nA, one_mul]; exact hB
  have dd : |inner ℝ A B - D.val| ≤ 3 * ε + 1 / 2 ^ 20 := by
    have := abs_sub_le D.val (inner ℝ (ham a) (ham b)) (inner ℝ A B)
    rw [_root_.abs_sub_comm]
    have := cs.trans pb
    generalize |a.x.val * b.x.val| + |a.y.val * b.y.val| + |a.z.val * b.z.val| + |a.w.val * b.w.val| = z at *
    norm_num at *; linarith
  have hi : |inner ℝ A B| ≤ 1 := by
    have := abs_real_inner_le_norm A B; rwa [nA, nB, one_mul] at this
  obtain ⟨i1, i2⟩ := _root_.abs_le.1 hi
  obtain ⟨j1, j2⟩ := _root_.abs_le.1 dd
  have hc : c = if D.lt (Fp.lit (-1) 1) then Fp.lit (-1) 1 else if (f1 : F32).lt D then f1 else D := rfl
  rw [hc]
  split
  · rename_i h
    rw [lt_iff_val (isNaN_of_isFin fd) (isNaN_of_isFin lm.1), lm.2] at h
    push_cast at h
    refine ⟨lm.1, by rw [lm.2]; norm_num, ?_⟩
    rw [lm.2]; push_cast
    exact _root_.abs_le.2 ⟨by linarith, by linarith⟩
  · rename_i h
    rw [lt_iff_val (isNaN_of_isFin fd) (isNaN_of_isFin lm.1), lm.2] at h
    push_cast at h
    split
    · rename_i g
      rw [lt_iff_val (isNaN_of_isFin o.fin) (isNaN_of_isFin fd), o.val] at g
      refine ⟨o.fin, by rw [o.val]; norm_num, ?_⟩
      rw [o.val]
      exact _root_.abs_le.2 ⟨by linarith, by linarith⟩
    · rename_i g
      rw [lt_iff_val (isNaN_of_isFin o.fin) (isNaN_of_isFin fd), o.val] at g
      exact ⟨fd, _root_.abs_le.2 ⟨by linarith, by linarith⟩, dd⟩

/-- one component of the sum -/
theorem slerp_comp {a b L R : F32} (ha : a.isFin = true) (hb : b.isFin = true) (hL : L.isFin = true) (hR : R.isFin = true)
    (a1 : |a.val| ≤ 17 / 16) (b1 : |b.val| ≤ 17 / 16) (L1 : |L.val| ≤ 5 / 2) (R1 : |R.val| ≤ 5 / 4) :
    let c := Fp.add (Fp.mul a L) (Fp.mul b R)
    c.isFin = true ∧ |c.val - (a.val * L.val + b.val * R.val)| ≤ 1 / 2 ^ 21 := by
  intro c
  have x1 : |a.val * L.val| ≤ 17 / 16 * (5 / 2) := by rw [_root_.abs_mul]; exact mul_le_mul a1 L1 (abs_nonneg _) (by norm_num)
  have x2 : |b.val * R.val| ≤ 17 / 16 * (5 / 4) := by rw [_root_.abs_mul]; exact mul_le_mul b1 R1 (abs_nonneg _) (by norm_num)
  have p1 := prod_approx ha hL (x1.trans (by norm_num))
  have p2 := prod_approx hb hR (x2.trans (by norm_num))
  have s := sum2_approx p1 p2 (by generalize |a.val * L.val| = z at *; generalize |b.val * R.val| = w at *; norm_num at *; linarith)
  refine ⟨s.fin, s.err.trans ?_⟩
  generalize |a.val * L.val| = z at *; generalize |b.val * R.val| = w at *
  norm_num at *; linarith

theorem comp_le_ham (q : Quat F32) : |q.x.val| ≤ ‖ham q‖ ∧ |q.y.val| ≤ ‖ham q‖ ∧ |q.z.val| ≤ ‖ham q‖ ∧ |q.w.val| ≤ ‖ham q‖ := by
  have h := ham_norm_sq q
  refine ⟨?_, ?_, ?_, ?_⟩ <;>
  · apply abs_le_of_sq_le_sq _ (norm_nonneg _)
    rw [h]; nlinarith [sq_nonneg q.x.val, sq_nonneg q.y.val, sq_nonneg q.z.val, sq_nonneg q.w.val]

omit [Libm binary32] in
theorem ham_near {r a b : Quat F32} {l k e : ℝ} (hx : |r.x.val - (a.x.val * l + b.x.val * k)| ≤ e)
    (hy : |r.y.val - (a.y.val * l + b.y.val * k)| ≤ e) (hz : |r.z.val - (a.z.val * l + b.z.val * k)| ≤ e)
    (hw : |r.w.val - (a.w.val * l + b.w.val * k)| ≤ e) : ‖ham r - (l • ham a + k • ham b)‖ ≤ 2 * e := by
  have mul_comm := fun x y : ℝ => _root_.mul_comm x y
  apply norm_le_of_comp
  · rw [Quaternion.re_sub, Quaternion.re_add, Quaternion.re_smul, Quaternion.re_smul, smul_eq_mul, smul_eq_mul, mul_comm l, mul_comm k]
    exact hw
  · rw [Quaternion.imI_sub, Quaternion.imI_add, Quaternion.imI_smul, Quaternion.imI_smul, smul_eq_mul, smul_eq_mul, mul_comm l, mul_comm k]
    exact hx
  · rw [Quaternion.imJ_sub, Quaternion.imJ_add, Quaternion.imJ_smul, Quaternion.imJ_smul, smul_eq_mul, smul_eq_mul, mul_comm l, mul_comm k]
    exact hy
  · rw [Quaternion.imK_sub, Quaternion.imK_add, Quaternion.imK_smul, Quaternion.imK_smul, smul_eq_mul, smul_eq_mul, mul_comm l, mul_comm k]
    exact hz

/-- `quaternion_slerp` once the dot product `d ≥ 0` and the sign are known -/
def slerpTail (a b : Quat F32) (d sg t : F32) : Quat F32 :=
  if approxVal d f1 then a
  else
    let theta := Scalar.acos d
    let rSinTheta := f1 /. Scalar.sqrt (f1 -. d *. d)
    let rightV := Scalar.sin (t *. theta) *. rSinTheta
    let leftV := Scalar.cos (t *. theta) -. d *. rightV
    let left := Simd4f.mul a.vec (Simd4f.splat (leftV *. sg))
    let right := Simd4f.mul b.vec (Simd4f.splat rightV)
    Quat.initFromSimd4f (Simd4f.add left right)

theorem slerp_eq (a b : Quat F32) (t : F32) : Quat.slerp a b t =
    let c := cClamp (Simd4f.dot4 a.vec b.vec).x (Scalar.lit (-1) 1) (f1 : F32)
    slerpTail a b (if c <. (f0 : F32) then Scalar.neg c else c) (if c <. (f0 : F32) then Scalar.lit (-1) 1 else f1) t := rfl

theorem slerp_tail (hac : AcosAccurate) (ht : TrigAccurate) (a b : Quat F32) (ha : FiniteQ a) (hb : FiniteQ b)
    {A u : Quaternion ℝ} {θ ε v : ℝ} {sg d t : F32} (hsg : Is sg v) (hv : v = 1 ∨ v = -1)
    (hA : ‖v • ham a - A‖ ≤ ε) (hB : ‖ham b - arc A u θ 1‖ ≤ ε) (nA : ‖A‖ = 1) (nu : ‖u‖ = 1) (nB : ‖arc A u θ 1‖ = 1)
    (hε : ε ≤ 1 / 16) (θ0 : 0 ≤ θ) (θ1 : θ ≤ Real.pi) (hd : d.isFin = true) (d0 : 0 ≤ d.val) (d1 : d.val ≤ 1)
    (hδ : |Real.cos θ - d.val| ≤ 3 * ε + 1 / 2 ^ 20) (tf : t.isFin = true) (t0 : 0 ≤ t.val) (t1 : t.val ≤ 1) :
    let r := slerpTail a b d sg t
    FiniteQ r ∧ (SlerpBound ε θ ‖ham r - arc A u θ t.val‖ ∨
      (r = a ∧ 1 - (3 * ε + 1 / 2 ^ 20) - 1 / 2 ^ 23 ≤ Real.cos θ ∧ SlerpBound ε θ ‖v • ham r - arc A u θ t.val‖)) := by
  intro r
  have e0 : 0 ≤ ε := (norm_nonneg _).trans hA
  obtain ⟨m1, m2⟩ := one_apart hd d0 d1
  have va : |v| = 1 := by rcases hv with rfl | rfl <;> norm_num
  have na : ‖ham a‖ ≤ 17 / 16 := by
    have := norm_sub_norm_le (v • ham a) A
    rw [norm_smul, Real.norm_eq_abs, va, one_mul] at this; linarith
  have nb : ‖ham b‖ ≤ 17 / 16 := by
    have := norm_sub_norm_le (ham b) (arc A u θ 1); linarith
  rcases hap : approxVal d (f1 : F32) with _ | _
  · obtain ⟨fR, fL, R1, L1, w1, w2⟩ := slerp_weights hac ht hd d0 (m2 hap) tf t0 t1
    set R := Fp.mul (Libm.sin (Fp.mul t (Libm.acos d))) (Fp.div (f1 : F32) (Fp.sqrt (Fp.sub (f1 : F32) (Fp.mul d d))))
    set L := Fp.sub (Libm.cos (Fp.mul t (Libm.acos d))) (Fp.mul d R)
    have hL : Is (Fp.mul L sg) (v * L.val) := by
      rcases hv with rfl | rfl
      · rw [one_mul]; exact Is.mul_one (Is.self fL) hsg
      · have := Is.mul_of (Is.self fL) hsg (c := Fp.neg L) ((Is.neg (Is.self fL)).congr (by ring))
        exact this.congr (by ring)
    have L1' : |(Fp.mul L sg).val| ≤ 5 / 2 := by rw [hL.val, _root_.abs_mul, va, one_mul]; exact L1
    have er : r = ⟨Fp.add (Fp.mul a.x (Fp.mul L sg)) (Fp.mul b.x R), Fp.add (Fp.mul a.y (Fp.mul L sg)) (Fp.mul b.y R),
        Fp.add (Fp.mul a.z (Fp.mul L sg)) (Fp.mul b.z R), Fp.add (Fp.mul a.w (Fp.mul L sg)) (Fp.mul b.w R)⟩ := by
      simp only [r, slerpTail, hap]; rfl
    obtain ⟨ax, ay, az, aw⟩ := comp_le_ham a
    obtain ⟨bx, bY, bz, bw⟩ := comp_le_ham b
    have cx := slerp_comp ha.1 hb.1 hL.fin fR (ax.trans na) (bx.trans nb) L1' R1
    have cy := slerp_comp ha.2.1 hb.2.1 hL.fin fR (ay.trans na) (bY.trans nb) L1' R1
    have cz := slerp_comp ha.2.2.1 hb.2.2.1 hL.fin fR (az.trans na) (bz.trans nb) L1' R1
    have cw := slerp_comp ha.2.2.2 hb.2.2.2 hL.fin fR (aw.trans na) (bw.trans nb) L1' R1
    rw [hL.val] at cx cy cz cw
    refine ⟨by rw [er]; exact ⟨cx.1, cy.1, cz.1, cw.1⟩, Or.inl ?_⟩
    have mul_comm := fun x y : ℝ => _root_.mul_comm x y
    have n1 : ‖ham r - (L.val • (v • ham a) + R.val • ham b)‖ ≤ 2 * (1 / 2 ^ 21) := by
      rw [er, smul_smul, mul_comm L.val v]
      exact ham_near cx.2 cy.2 cz.2 cw.2
    have na' : ‖v • ham a‖ ≤ 2 := by rw [norm_smul, Real.norm_eq_abs, va, one_mul]; linarith
    have n2 := slerp_combine hA hB nA nu na' d0 d1 t0 t1 hδ R1 w1 w2
    have n3 := norm_sub_le_norm_sub_add_norm_sub (ham r) (L.val • (v • ham a) + R.val • ham b) (arc A u θ t.val)
    obtain ⟨g1, g2⟩ := angle_gap (δ := 3 * ε + 1 / 2 ^ 20) θ0 θ1 (Real.arccos_nonneg d.val) (Real.arccos_le_pi _)
      (by rw [Real.cos_arccos (by linarith) d1]; exact hδ)
    refine slerpBound_of rfl e0 ?_ (abs_nonneg (θ - Real.arccos d.val)) ?_ ?_
    · generalize |θ - Real.arccos d.val| = W at *
      norm_num at *; linarith
    · norm_num at *; linarith
    · norm_num at *; linarith
  · have er : r = a := by simp only [r, slerpTail, hap]; rfl
    have hc := m1 hap
    obtain ⟨j1, j2⟩ := _root_.abs_le.1 hδ
    refine ⟨by rw [er]; exact ha, Or.inr ⟨er, by linarith, ?_⟩⟩
    have h1 : |Real.cos θ - Real.cos 0| ≤ 3 * ε + 1 / 2 ^ 20 + 1 / 2 ^ 23 := by
      rw [Real.cos_zero, _root_.abs_le]; exact ⟨by linarith, by linarith [Real.cos_le_one θ]⟩
    obtain ⟨g1, g2⟩ := angle_gap θ0 θ1 le_rfl Real.pi_pos.le h1
    rw [sub_zero, abs_of_nonneg θ0] at g1 g2
    refine slerpBound_of rfl e0 ?_ θ0 ?_ ?_
    · rw [er]
      have e : v • ham a - arc A u θ t.val = (v • ham a - A) + (1 - Real.cos (t.val * θ)) • A + -(Real.sin (t.val * θ) • u) := by
        simp only [arc]; module
      rw [e]
      refine (norm_add_le _ _).trans ((add_le_add_left (norm_add_le _ _) _).trans ?_)
      rw [norm_neg, norm_smul, norm_smul, nA, nu, Real.norm_eq_abs, Real.norm_eq_abs, mul_one, mul_one]
      have tw : |t.val * θ| ≤ θ := by
        rw [abs_of_nonneg (mul_nonneg t0 θ0)]; exact mul_le_of_le_one_left θ0 t1
      have c1 := Real.abs_cos_sub_cos_le 0 (t.val * θ)
      have c2 := Real.abs_sin_sub_sin_le (t.val * θ) 0
      rw [Real.cos_zero, zero_sub, _root_.abs_neg] at c1
      rw [Real.sin_zero, sub_zero, sub_zero] at c2
      norm_num at *; linarith
    · norm_num at *; linarith
    · norm_num at *; linarith

omit [Libm binary32] in
theorem arc_unit {a u : Quaternion ℝ} (ha : ‖a‖ = 1) (hu : ‖u‖ = 1) (ho : inner ℝ a u = 0) (θ t : ℝ) : ‖arc a u θ t‖ = 1 ∧
    inner ℝ a (arc a u θ t) = Real.cos (t * θ) := by
  have e : ‖arc a u θ t‖ ^ 2 = 1 := by
    rw [arc, norm_add_sq_real, norm_smul, norm_smul, inner_smul_left, inner_smul_right, ho, ha, hu]
    simp [Real.cos_sq_add_sin_sq]
  refine ⟨(sq_eq_sq₀ (norm_nonneg _) (by norm_num)).1 (by rw [e]; norm_num), ?_⟩
  rw [arc, inner_add_right, inner_smul_right, inner_smul_right, ho, real_inner_self_eq_norm_sq, ha]; ring

/-- C132: `quaternion_slerp`, for a factor between 0 and 1 and finite quaternions within `ε` of the ends `a` and `b` of the arc of
angle `θ` that leaves `a` in the orthogonal direction `u`.  The result is finite, and close to the point a fraction `t` of the
way: along this arc when the rounded dot product is not negative (as it is whenever `cos θ > 3ε + 2^-20`), or else along the
complementary arc from `-a`; when `b` is so close to `-a` that the dot product rounds to -1, up to the sign of the result
(which does not change the rotation).  The error stays below `8ε + 8√(3ε + 2^-20) + 2^-12` for all arcs, and
below `8ε + 12 (3ε + 2^-20) / sin θ + 2^-12` for proper ones. -/
theorem C132_slerp (hac : AcosAccurate) (ht : TrigAccurate) (p q : Quat F32) (hp : FiniteQ p) (hq : FiniteQ q)
    (a u : Quaternion ℝ) (ha : ‖a‖ = 1) (hu : ‖u‖ = 1) (ho : inner ℝ a u = 0) (θ : ℝ) (θ0 : 0 ≤ θ) (θ1 : θ ≤ Real.pi)
    (ε : ℝ) (hε : ε ≤ 1 / 16) (ea : ‖ham p - a‖ ≤ ε) (eb : ‖ham q - arc a u θ 1‖ ≤ ε)
    (t : F32) (tf : t.isFin = true) (t0 : 0 ≤ t.val) (t1 : t.val ≤ 1) :
    let r := Quat.slerp p q t
    let δ := 3 * ε + 1 / 2 ^ 20
    FiniteQ r ∧
    ((-δ ≤ Real.cos θ ∧ SlerpBound ε θ ‖ham r - arc a u θ t.val‖) ∨
     (Real.cos θ ≤ δ ∧ (SlerpBound ε θ ‖ham r - arc (-a) u (Real.pi - θ) t.val‖ ∨
        (r = p ∧ Real.cos θ ≤ -1 + δ + 1 / 2 ^ 23 ∧ SlerpBound ε θ ‖-ham r - arc (-a) u (Real.pi - θ) t.val‖)))) := by
  intro r δ
  obtain ⟨nB, iB⟩ := arc_unit ha hu ho θ 1
  rw [one_mul] at iB
  obtain ⟨fc, c1, dc⟩ := slerp_dot p q hp hq ea eb ha nB hε
  rw [iB] at dc
  set c := cClamp (Simd4f.dot4 p.vec q.vec).x (Scalar.lit (-1) 1) (f1 : F32)
  obtain ⟨c2, c3⟩ := _root_.abs_le.1 c1
  obtain ⟨j1, j2⟩ := _root_.abs_le.1 dc
  have z := is_f0
  have lm := lit_int (-1) (by decide)
  rcases hneg : (c <. (f0 : F32)) with _ | _
  · have er : r = slerpTail p q c f1 t := by
      simp only [r]
      have h := slerp_eq p q t
      change _ = slerpTail p q (if c <. (f0 : F32) then Scalar.neg c else c) (if c <. (f0 : F32) then Scalar.lit (-1) 1 else f1) t at h
      rw [h, hneg, if_neg (by simp), if_neg (by simp)]
    have nn : 0 ≤ c.val := by
      change c.lt (f0 : F32) = false at hneg
      rw [← Bool.not_eq_true, lt_iff_val (isNaN_of_isFin fc) (isNaN_of_isFin z.fin), z.val, not_lt] at hneg
      exact hneg
    have h := slerp_tail hac ht p q hp hq is_f1 (Or.inl rfl) (by rwa [one_smul]) eb ha hu nB hε θ0 θ1 fc nn c3 dc tf t0 t1
    rw [← er] at h
    refine ⟨h.1, Or.inl ⟨by simp only [δ]; linarith, ?_⟩⟩
    rcases h.2 with h | ⟨-, -, h⟩
    · exact h
    · rwa [one_smul] at h
  · have er : r = slerpTail p q (Fp.neg c) (Fp.lit (-1) 1) t := by
      simp only [r]
      have h := slerp_eq p q t
      change _ = slerpTail p q (if c <. (f0 : F32) then Scalar.neg c else c) (if c <. (f0 : F32) then Scalar.lit (-1) 1 else f1) t at h
      rw [h, hneg, if_pos rfl, if_pos rfl]
      rfl
    have nn : c.val < 0 := by
      change c.lt (f0 : F32) = true at hneg
      rwa [lt_iff_val (isNaN_of_isFin fc) (isNaN_of_isFin z.fin), z.val] at hneg
    have earc : arc (-a) u (Real.pi - θ) 1 = arc a u θ 1 := by
      simp only [arc, one_mul, Real.cos_pi_sub, Real.sin_pi_sub, neg_smul, smul_neg, _root_.neg_neg]
    have h := slerp_tail hac ht p q hp hq (A := -a) (u := u) (θ := Real.pi - θ) (ε := ε) (v := -1) (sg := Fp.lit (-1) 1) (d := Fp.neg c) (t := t)
      ⟨lm.1, by rw [lm.2]; norm_num⟩ (Or.inr rfl) (by
        rw [show (-1 : ℝ) • ham p - -a = -(ham p - a) by module, norm_neg]; exact ea) (by rw [earc]; exact eb) (by rw [norm_neg]; exact ha) hu
      (by rw [earc]; exact nB) hε (by linarith) (by linarith) (by simpa using fc) (by rw [val_neg]; linarith) (by rw [val_neg]; linarith)
      (by rw [val_neg, Real.cos_pi_sub, show -Real.cos θ - -c.val = -(Real.cos θ - c.val) by ring, _root_.abs_neg]; exact dc) tf t0 t1
    rw [← er] at h
    have sb : ∀ e, SlerpBound ε (Real.pi - θ) e → SlerpBound ε θ e := by
      intro e he; unfold SlerpBound at *; rwa [Real.sin_pi_sub] at he
    refine ⟨h.1, Or.inr ⟨by simp only [δ]; linarith, ?_⟩⟩
    rcases h.2 with h | ⟨h1, h2, h3⟩
    · exact Or.inl (sb _ h)
    · rw [Real.cos_pi_sub] at h2
      rw [neg_smul, one_smul] at h3
      exact Or.inr ⟨h1, by simp only [δ]; linarith, sb _ h3⟩

omit [Libm binary32] in
/-- C132: every pair of unit quaternions is joined by an arc as `C132_slerp` wants it. -/
theorem C132_arcs (a b : Quaternion ℝ) (ha : ‖a‖ = 1) (hb : ‖b‖ = 1) :
    ∃ (u : Quaternion ℝ) (θ : ℝ), ‖u‖ = 1 ∧ inner ℝ a u = 0 ∧ 0 ≤ θ ∧ θ ≤ Real.pi ∧ arc a u θ 0 = a ∧ arc a u θ 1 = b := by
  have hc := abs_real_inner_le_norm a b
  rw [ha, hb, one_mul] at hc
  obtain ⟨c1, c2⟩ := _root_.abs_le.1 hc
  set c := inner ℝ a b with hcdef
  have h0 : ∀ (u : Quaternion ℝ) θ, arc a u θ 0 = a := fun u θ => by simp [arc]
  have aa : inner ℝ a a = (1 : ℝ) := by rw [real_inner_self_eq_norm_sq, ha]; norm_num
  have nn : ‖b - c • a‖ ^ 2 = 1 - c ^ 2 := by
    rw [norm_sub_sq_real, inner_smul_right, real_inner_comm, ← hcdef, norm_smul, ha, hb, Real.norm_eq_abs, mul_one, sq_abs]; ring
  by_cases hs : c ^ 2 = 1
  · -- the ends agree up to sign: any orthogonal direction
    have hz : b = c • a := by
      have : ‖b - c • a‖ = 0 := by rw [hs, sub_self] at nn; exact pow_eq_zero_iff (by norm_num) |>.1 nn
      exact sub_eq_zero.1 (norm_eq_zero.1 this)
    refine ⟨a * quat ⟨1, 0, 0, 0⟩, Real.arccos c, ?_, ?_, Real.arccos_nonneg _, Real.arccos_le_pi _, h0 _ _, ?_⟩
    · rw [norm_mul, ha, one_mul]
      have : ‖quat ⟨1, 0, 0, 0⟩‖ ^ 2 = 1 := by
        rw [pow_two, ← Quaternion.normSq_eq_norm_mul_self, Quaternion.normSq_def', quat_re, quat_i, quat_j, quat_k]; norm_num
      exact (sq_eq_sq₀ (norm_nonneg _) (by norm_num)).1 (by rw [this]; norm_num)
    · rw [Quaternion.inner_def, Quaternion.re_mul, Quaternion.re_star, Quaternion.imI_star, Quaternion.imJ_star, Quaternion.imK_star,
        Quaternion.re_mul, Quaternion.imI_mul, Quaternion.imJ_mul, Quaternion.imK_mul, quat_re, quat_i, quat_j, quat_k]
      ring
    · rw [arc, one_mul, Real.cos_arccos c1 c2, Real.sin_arccos, hs, sub_self, Real.sqrt_zero, zero_smul, add_zero, hz]
  · have hp : 0 < 1 - c ^ 2 := by
      have : c ^ 2 ≤ 1 := by nlinarith
      exact sub_pos.2 (lt_of_le_of_ne this hs)
    have sp := Real.sqrt_pos.2 hp
    have nb : ‖b - c • a‖ = √(1 - c ^ 2) := by rw [← nn, Real.sqrt_sq (norm_nonneg _)]
    refine ⟨(√(1 - c ^ 2))⁻¹ • (b - c • a), Real.arccos c, ?_, ?_, Real.arccos_nonneg _, Real.arccos_le_pi _, h0 _ _, ?_⟩
    · rw [norm_smul, nb, norm_inv, Real.norm_eq_abs, abs_of_pos sp, inv_mul_cancel₀ sp.ne']
    · rw [inner_smul_right, inner_sub_right, inner_smul_right, aa, ← hcdef, mul_one, sub_self, mul_zero]
    · rw [arc, one_mul, Real.cos_arccos c1 c2, Real.sin_arccos, smul_smul, mul_inv_cancel₀ sp.ne', one_smul]
      module

/-- C132: the ends.  At factor 0 and 1 the result is, up to the same error, one of the ends of the arc or its opposite. -/
theorem C132_ends (hac : AcosAccurate) (ht : TrigAccurate) (p q : Quat F32) (hp : FiniteQ p) (hq : FiniteQ q)
    (a b : Quaternion ℝ) (ha : ‖a‖ = 1) (hb : ‖b‖ = 1) (ε : ℝ) (hε : ε ≤ 1 / 16) (ea : ‖ham p - a‖ ≤ ε) (eb : ‖ham q - b‖ ≤ ε) :
    let E := 8 * ε + 8 * √(3 * ε + 1 / 2 ^ 20) + 1 / 2 ^ 12
    (‖ham (Quat.slerp p q f0) - a‖ ≤ E ∨ ‖-ham (Quat.slerp p q f0) - a‖ ≤ E) ∧
    (‖ham (Quat.slerp p q f1) - b‖ ≤ E ∨ ‖-ham (Quat.slerp p q f1) - b‖ ≤ E) := by
  intro E
  obtain ⟨u, θ, hu, ho, θ0, θ1, e0, e1⟩ := C132_arcs a b ha hb
  have z := is_f0
  have o := is_f1
  have n0 : arc (-a) u (Real.pi - θ) 0 = -a := by simp [arc]
  have n1 : arc (-a) u (Real.pi - θ) 1 = b := by
    rw [← e1]; simp only [arc, one_mul, Real.cos_pi_sub, Real.sin_pi_sub, neg_smul, smul_neg, _root_.neg_neg]
  have sw : ∀ x : Quaternion ℝ, ‖x - -a‖ = ‖-x - a‖ := fun x => by rw [← norm_neg]; congr 1; abel
  have sw' : ∀ x : Quaternion ℝ, ‖-x - -a‖ = ‖x - a‖ := fun x => by rw [← norm_neg]; congr 1; abel
  have h0 := (C132_slerp hac ht p q hp hq a u ha hu ho θ θ0 θ1 ε hε ea (by rwa [e1]) f0 z.fin (by rw [z.val]) (by rw [z.val]; norm_num)).2
  have h1 := (C132_slerp hac ht p q hp hq a u ha hu ho θ θ0 θ1 ε hε ea (by rwa [e1]) f1 o.fin (by rw [o.val]; norm_num) (by rw [o.val])).2
  rw [z.val, e0, n0, sw, sw'] at h0
  rw [o.val, e1, n1] at h1
  constructor
  · rcases h0 with ⟨-, h⟩ | ⟨-, h | ⟨-, -, h⟩⟩
    · exact Or.inl h.1
    · exact Or.inr h.1
    · exact Or.inl h.1
  · rcases h1 with ⟨-, h⟩ | ⟨-, h | ⟨-, -, h⟩⟩
    · exact Or.inl h.1
    · exact Or.inl h.1
    · exact Or.inr h.1

/-! ## The hypotheses are met -/

omit [Libm binary32] in
theorem acos_grid (v : F32) : ∃ r : F32, r.isFin = true ∧ |r.val - Real.arccos v.val| ≤ 1 / 2 ^ 22 := by
  have hpi := Real.pi_lt_d2
  have l := Real.arccos_nonneg v.val
  have u := Real.arccos_le_pi v.val
  generalize Real.arccos v.val = φ at *
  have hr := abs_sub_round (φ * 2 ^ 22)
  obtain ⟨r1, r2⟩ := _root_.abs_le.1 hr
  generalize round (φ * 2 ^ 22) = n at *
  have b1 : n < (2 ^ 24 : ℤ) := by
    have : ((n : ℤ) : ℝ) < ((2 ^ 24 : ℤ) : ℝ) := by push_cast; norm_num at r1 r2 ⊢; linarith
    exact_mod_cast this
  have b2 : (-(2 ^ 24) : ℤ) < n := by
    have : ((-(2 ^ 24) : ℤ) : ℝ) < ((n : ℤ) : ℝ) := by push_cast; norm_num at r1 r2 ⊢; linarith
    exact_mod_cast this
  obtain ⟨f, v⟩ := lit_dyadic n 22 (by omega) (by norm_num)
  refine ⟨lit n (2 ^ 22), f, ?_⟩
  rw [v, _root_.abs_le]
  constructor
  · rw [le_sub_iff_add_le, le_div_iff₀ (by positivity)]; norm_num at r1 r2 ⊢; linarith
  · rw [sub_le_iff_le_add, div_le_iff₀ (by positivity)]; norm_num at r1 r2 ⊢; linarith

omit [Libm binary32] in
/-- A C library satisfying `AcosAccurate` (and any assumption on the remaining functions) exists. -/
theorem acos_exists (L : Libm binary32) :
    @Spec.AcosAccurate { L with acos := fun a => by classical exact Classical.choose (acos_grid a) } :=
  fun a _ _ => Classical.choose_spec (acos_grid a)

/-- halfway between the identity and the turn by a third about the diagonal, `(1/2, 1/2, 1/2, 1/2)` (both exactly
representable): the turn by a sixth, with real part `cos (π/6)`, to within `2^-10` -/
example (hac : AcosAccurate) (ht : TrigAccurate) :
    let r := Quat.slerp (Quat.identity : Quat F32) ⟨Fp.lit 1 2, Fp.lit 1 2, Fp.lit 1 2, Fp.lit 1 2⟩ (Fp.lit 1 2)
    |r.w.val - Real.cos (Real.pi / 6)| ≤ 1 / 2 ^ 10 := by
  intro r
  have hh := lit_dyadic 1 1 (by decide) (by decide)
  have hv : (Fp.lit 1 2 : F32).val = 1 / 2 := by simpa using hh.2
  have hf : (Fp.lit 1 2 : F32).isFin = true := hh.1
  have z := is_f0
  have o := is_f1
  have s3 := Real.sq_sqrt (show (0 : ℝ) ≤ 3 by norm_num)
  have p3 := Real.sqrt_pos.2 (show (0 : ℝ) < 3 by norm_num)
  have hI : ham (Quat.identity : Quat F32) = quat ⟨0, 0, 0, 1⟩ := by
    rw [ham]; congr 1; simp [exactQ, Quat.identity, z.val, o.val]
  have hq : ham (⟨Fp.lit 1 2, Fp.lit 1 2, Fp.lit 1 2, Fp.lit 1 2⟩ : Quat F32) = quat ⟨1 / 2, 1 / 2, 1 / 2, 1 / 2⟩ := by
    rw [ham, exactQ, hv]
  have n1 : ‖quat ⟨0, 0, 0, 1⟩‖ = 1 := by
    have := quat_norm_sq ⟨0, 0, 0, 1⟩
    exact (sq_eq_sq₀ (norm_nonneg _) (by norm_num)).1 (by rw [this]; norm_num)
  have nu : ‖quat ⟨1 / √3, 1 / √3, 1 / √3, 0⟩‖ = 1 := by
    have : ‖quat ⟨1 / √3, 1 / √3, 1 / √3, 0⟩‖ ^ 2 = 1 := by
      rw [pow_two, ← Quaternion.normSq_eq_norm_mul_self, Quaternion.normSq_def', quat_re, quat_i, quat_j, quat_k]
      simp only [div_pow, s3]; norm_num
    exact (sq_eq_sq₀ (norm_nonneg _) (by norm_num)).1 (by rw [this]; norm_num)
  have earc : arc (quat ⟨0, 0, 0, 1⟩) (quat ⟨1 / √3, 1 / √3, 1 / √3, 0⟩) (Real.pi / 3) 1 = quat ⟨1 / 2, 1 / 2, 1 / 2, 1 / 2⟩ := by
    rw [arc, one_mul, Real.cos_pi_div_three, Real.sin_pi_div_three]
    apply Quaternion.ext <;> simp [quat_re, quat_i, quat_j, quat_k] <;> field_simp
  have h := (C132_slerp hac ht Quat.identity ⟨Fp.lit 1 2, Fp.lit 1 2, Fp.lit 1 2, Fp.lit 1 2⟩ ⟨z.fin, z.fin, z.fin, o.fin⟩ ⟨hf, hf, hf, hf⟩
    (quat ⟨0, 0, 0, 1⟩) (quat ⟨1 / √3, 1 / √3, 1 / √3, 0⟩) n1 nu (by rw [Quaternion.inner_def]; simp [quat_re, quat_i, quat_j, quat_k]) (Real.pi / 3) (by positivity) (by linarith [Real.pi_pos])
    0 (by norm_num) (by rw [hI, sub_self, norm_zero]) (by rw [hq, earc, sub_self, norm_zero]) (Fp.lit 1 2) hf (by rw [hv]; norm_num) (by rw [hv]; norm_num)).2
  rw [Real.cos_pi_div_three, hv] at h
  rcases h with ⟨-, h⟩ | ⟨h, -⟩
  · have h := h.2 (by rw [Real.sin_pi_div_three]; positivity)
    rw [Real.sin_pi_div_three] at h
    have hc : |(ham r - arc (quat ⟨0, 0, 0, 1⟩) (quat ⟨1 / √3, 1 / √3, 1 / √3, 0⟩) (Real.pi / 3) (1 / 2)).re| ≤
        ‖ham r - arc (quat ⟨0, 0, 0, 1⟩) (quat ⟨1 / √3, 1 / √3, 1 / √3, 0⟩) (Real.pi / 3) (1 / 2)‖ := by
      apply abs_le_of_sq_le_sq _ (norm_nonneg _)
      rw [pow_two ‖_‖, ← Quaternion.normSq_eq_norm_mul_self, Quaternion.normSq_def']
      nlinarith [sq_nonneg (ham r - arc (quat ⟨0, 0, 0, 1⟩) (quat ⟨1 / √3, 1 / √3, 1 / √3, 0⟩) (Real.pi / 3) (1 / 2)).imI,
        sq_nonneg (ham r - arc (quat ⟨0, 0, 0, 1⟩) (quat ⟨1 / √3, 1 / √3, 1 / √3, 0⟩) (Real.pi / 3) (1 / 2)).imJ,
        sq_nonneg (ham r - arc (quat ⟨0, 0, 0, 1⟩) (quat ⟨1 / √3, 1 / √3, 1 / √3, 0⟩) (Real.pi / 3) (1 / 2)).imK]
    have er : (ham r - arc (quat ⟨0, 0, 0, 1⟩) (quat ⟨1 / √3, 1 / √3, 1 / √3, 0⟩) (Real.pi / 3) (1 / 2)).re = r.w.val - Real.cos (Real.pi / 6) := by
      rw [Quaternion.re_sub, arc, Quaternion.re_add, Quaternion.re_smul, Quaternion.re_smul]
      rw [show (1 / 2 * (Real.pi / 3) : ℝ) = Real.pi / 6 by ring, quat_re, quat_re]
      simp [ham, quat_re, exactQ]
    rw [er] at hc
    refine hc.trans (h.trans ?_)
    have l3 : (1 : ℝ) ≤ √3 := Real.one_le_sqrt.2 (by norm_num)
    have : 12 * (3 * 0 + 1 / 2 ^ 20) / (√3 / 2) ≤ (24 / 2 ^ 20 : ℝ) := by
      rw [div_le_iff₀ (by positivity)]; norm_num; linarith
    norm_num at this ⊢; linarith
  · norm_num at h

end Graphene
