/-
  C134: the Euler angles of a quaternion in floating point (IEEE binary32), for a C library whose atan2f and asinf are accurate.
-/
import Verif.Props.Float38
import Verif.Props.Float40

set_option exponentiation.threshold 3000

namespace Graphene
open Fp Spec Matrix
variable [Libm binary32]

/-- `asinf` of the C library: within `2^-22` of the angle, for finite arguments between -1 and 1. -/
def Spec.AsinAccurate : Prop :=
  ∀ v : F32, v.isFin = true → |v.val| ≤ 1 → (Libm.asin v).isFin = true ∧ |(Libm.asin v).val - Real.arcsin v.val| ≤ 1 / 2 ^ 22

/-! ## The five expressions -/

/-- the five expressions `to_radians` evaluates, exactly -/
noncomputable def radForms (p : Quaternion ℝ) (i : Fin 5) : ℝ :=
  ![2 * (p.imI * p.re - p.imJ * p.imK), p.re * p.re - p.imI * p.imI - p.imJ * p.imJ + p.imK * p.imK,
    2 * (p.imI * p.imK + p.imJ * p.re),
    2 * (p.imK * p.re - p.imI * p.imJ), p.re * p.re + p.imI * p.imI - p.imJ * p.imJ - p.imK * p.imK] i

omit [Libm binary32] in
theorem four_cs {a b c d e f g h A B : ℝ} (hA : 0 ≤ A) (hB : 0 ≤ B) (h1 : A ^ 2 = a ^ 2 + b ^ 2 + c ^ 2 + d ^ 2)
    (h2 : B ^ 2 = e ^ 2 + f ^ 2 + g ^ 2 + h ^ 2) : |a * e + b * f + c * g + d * h| ≤ A * B := by
  apply abs_le_of_sq_le_sq _ (by positivity)
  rw [mul_pow, h1, h2]
  nlinarith [sq_nonneg (a * f - b * e), sq_nonneg (a * g - c * e), sq_nonneg (a * h - d * e), sq_nonneg (b * g - c * f),
    sq_nonneg (b * h - d * f), sq_nonneg (c * h - d * g)]

omit [Libm binary32] in
theorem radForms_lip (p t : Quaternion ℝ) (i : Fin 5) : |radForms p i - radForms t i| ≤ ‖p - t‖ * ‖p + t‖ := by
  have h1 : ‖p - t‖ ^ 2 = (p.re - t.re) ^ 2 + (p.imI - t.imI) ^ 2 + (p.imJ - t.imJ) ^ 2 + (p.imK - t.imK) ^ 2 := by
    rw [pow_two, ← Quaternion.normSq_eq_norm_mul_self, Quaternion.normSq_def']; simp
  have h2 : ‖p + t‖ ^ 2 = (p.re + t.re) ^ 2 + (p.imI + t.imI) ^ 2 + (p.imJ + t.imJ) ^ 2 + (p.imK + t.imK) ^ 2 := by
    rw [pow_two, ← Quaternion.normSq_eq_norm_mul_self, Quaternion.normSq_def']; simp
  have n1 := norm_nonneg (p - t)
  have n2 := norm_nonneg (p + t)
  generalize ‖p - t‖ = A at *
  generalize ‖p + t‖ = B at *
  fin_cases i
  · have := four_cs (e := p.imI + t.imI) (f := p.re + t.re) (g := -(p.imK + t.imK)) (h := -(p.imJ + t.imJ)) n1 n2 h1 (by rw [h2]; ring)
    simp only [radForms, Matrix.cons_val_zero, Fin.zero_eta]
    convert this using 2; ring
  · have := four_cs (e := p.re + t.re) (f := -(p.imI + t.imI)) (g := -(p.imJ + t.imJ)) (h := (p.imK + t.imK)) n1 n2 h1 (by rw [h2]; ring)
    simp only [radForms, Fin.mk_one, Matrix.cons_val_one, Matrix.cons_val_zero]
    convert this using 2; ring
  · have := four_cs (e := p.imJ + t.imJ) (f := p.imK + t.imK) (g := (p.re + t.re)) (h := (p.imI + t.imI)) n1 n2 h1 (by rw [h2]; ring)
    show |2 * (p.imI * p.imK + p.imJ * p.re) - 2 * (t.imI * t.imK + t.imJ * t.re)| ≤ _
    convert this using 2; ring
  · have := four_cs (e := p.imK + t.imK) (f := -(p.imJ + t.imJ)) (g := -(p.imI + t.imI)) (h := (p.re + t.re)) n1 n2 h1 (by rw [h2]; ring)
    show |2 * (p.imK * p.re - p.imI * p.imJ) - 2 * (t.imK * t.re - t.imI * t.imJ)| ≤ _
    convert this using 2; ring
  · have := four_cs (e := p.re + t.re) (f := p.imI + t.imI) (g := -(p.imJ + t.imJ)) (h := -(p.imK + t.imK)) n1 n2 h1 (by rw [h2]; ring)
    show |p.re * p.re + p.imI * p.imI - p.imJ * p.imJ - p.imK * p.imK - (t.re * t.re + t.imI * t.imI - t.imJ * t.imJ - t.imK * t.imK)| ≤ _
    convert this using 2; ring

/-- the same, rounded -/
def radF (q : Quat F32) (i : Fin 5) : F32 :=
  let sx := Fp.mul q.x q.x
  let sy := Fp.mul q.y q.y
  let sz := Fp.mul q.z q.z
  let sw := Fp.mul q.w q.w
  ![Fp.mul f2 (Fp.sub (Fp.mul q.x q.w) (Fp.mul q.y q.z)), Fp.add (Fp.sub (Fp.sub sw sx) sy) sz,
    Fp.mul f2 (Fp.add (Fp.mul q.x q.z) (Fp.mul q.y q.w)),
    Fp.mul f2 (Fp.sub (Fp.mul q.z q.w) (Fp.mul q.x q.y)), Fp.sub (Fp.sub (Fp.add sw sx) sy) sz] i

theorem toRadians_eq (q : Quat F32) : Quat.toRadians q =
    (Libm.atan2 (radF q 0) (radF q 1), Libm.asin (cClamp (radF q 2) (Fp.lit (-1) 1) f1), Libm.atan2 (radF q 3) (radF q 4)) := rfl

theorem two_prods {a b c d : F32} (ha : a.isFin = true) (hb : b.isFin = true) (hc : c.isFin = true) (hd : d.isFin = true)
    {N : ℝ} (hN : N ≤ 2) (h : a.val ^ 2 + b.val ^ 2 + c.val ^ 2 + d.val ^ 2 ≤ N) :
    ((Fp.mul f2 (Fp.sub (Fp.mul a b) (Fp.mul c d))).isFin = true ∧
      |(Fp.mul f2 (Fp.sub (Fp.mul a b) (Fp.mul c d))).val - 2 * (a.val * b.val - c.val * d.val)| ≤ 7 / 2 ^ 24) ∧
    ((Fp.mul f2 (Fp.add (Fp.mul a b) (Fp.mul c d))).isFin = true ∧
      |(Fp.mul f2 (Fp.add (Fp.mul a b) (Fp.mul c d))).val - 2 * (a.val * b.val + c.val * d.val)| ≤ 7 / 2 ^ 24) := by
  have ab : 2 * |a.val * b.val| ≤ a.val ^ 2 + b.val ^ 2 := by
    rw [_root_.abs_mul]; nlinarith [sq_nonneg (|a.val| - |b.val|), sq_abs a.val, sq_abs b.val]
  have cd : 2 * |c.val * d.val| ≤ c.val ^ 2 + d.val ^ 2 := by
    rw [_root_.abs_mul]; nlinarith [sq_nonneg (|c.val| - |d.val|), sq_abs c.val, sq_abs d.val]
  have p0 := abs_nonneg (a.val * b.val)
  have q0 := abs_nonneg (c.val * d.val)
  have S := sq_nonneg c.val
  have S' := sq_nonneg d.val
  have T := sq_nonneg a.val
  have T' := sq_nonneg b.val
  have p := prod_approx ha hb (by linarith [show (1 : ℝ) ≤ 2 ^ 126 by norm_num])
  have q := prod_approx hc hd (by linarith [show (1 : ℝ) ≤ 2 ^ 126 by norm_num])
  have two : Approx (f2 : F32) 2 2 2 := ⟨two_is.fin, by norm_num, by rw [two_is.val]; norm_num⟩
  have xy : |a.val * b.val| + |c.val * d.val| ≤ 1 := by linarith
  generalize |a.val * b.val| = X at *
  generalize |c.val * d.val| = Y at *
  have hl : (1 + 1 / 16777216) * X + 1 / 2 ^ 150 + ((1 + 1 / 16777216) * Y + 1 / 2 ^ 150) ≤ 2 := by
    norm_num; linarith
  have s := sub2_approx p q (hl.trans (by norm_num))
  have r := sum2_approx p q (hl.trans (by norm_num))
  have hl2 : 2 * ((1 + 1 / 16777216) * ((1 + 1 / 16777216) * X + 1 / 2 ^ 150 + ((1 + 1 / 16777216) * Y + 1 / 2 ^ 150))) ≤ 2 ^ 127 := by
    norm_num at hl ⊢; linarith
  have s2 := mul2_approx two s hl2
  have r2 := mul2_approx two r hl2
  refine ⟨⟨s2.fin, s2.err.trans ?_⟩, ⟨r2.fin, r2.err.trans ?_⟩⟩ <;> norm_num <;> linarith

theorem four_squares {a b c d : F32} (ha : a.isFin = true) (hb : b.isFin = true) (hc : c.isFin = true) (hd : d.isFin = true)
    (h : a.val ^ 2 + b.val ^ 2 + c.val ^ 2 + d.val ^ 2 ≤ 2) :
    let w := Fp.mul a a
    let x := Fp.mul b b
    let y := Fp.mul c c
    let z := Fp.mul d d
    ((Fp.add (Fp.sub (Fp.sub w x) y) z).isFin = true ∧
      |(Fp.add (Fp.sub (Fp.sub w x) y) z).val - (a.val * a.val - b.val * b.val - c.val * c.val + d.val * d.val)| ≤ 9 / 2 ^ 24) ∧
    ((Fp.sub (Fp.sub (Fp.add w x) y) z).isFin = true ∧
      |(Fp.sub (Fp.sub (Fp.add w x) y) z).val - (a.val * a.val + b.val * b.val - c.val * c.val - d.val * d.val)| ≤ 9 / 2 ^ 24) := by
  intro w x y z
  have sq : ∀ t : ℝ, |t * t| = t ^ 2 := fun t => by rw [abs_of_nonneg (mul_self_nonneg t)]; ring
  have A := sq_nonneg a.val
  have B := sq_nonneg b.val
  have C := sq_nonneg c.val
  have D := sq_nonneg d.val
  have big : (2 : ℝ) ≤ 2 ^ 126 := by norm_num
  have pa := prod_approx ha ha (by rw [sq]; linarith)
  have pb := prod_approx hb hb (by rw [sq]; linarith)
  have pc := prod_approx hc hc (by rw [sq]; linarith)
  have pd := prod_approx hd hd (by rw [sq]; linarith)
  rw [sq] at pa pb pc pd
  generalize a.val ^ 2 = p at *
  generalize b.val ^ 2 = q at *
  generalize c.val ^ 2 = r at *
  generalize d.val ^ 2 = s at *
  have b1 := sub2_approx pa pb (by norm_num; linarith)
  have b2 := sub2_approx b1 pc (by norm_num; linarith)
  have b3 := sum2_approx b2 pd (by norm_num; linarith)
  have c1 := sum2_approx pa pb (by norm_num; linarith)
  have c2 := sub2_approx c1 pc (by norm_num; linarith)
  have c3 := sub2_approx c2 pd (by norm_num; linarith)
  refine ⟨⟨b3.fin, b3.err.trans ?_⟩, ⟨c3.fin, c3.err.trans ?_⟩⟩ <;> norm_num <;> linarith

theorem radF_near (q : Quat F32) (hq : FiniteQ q) (h : ‖ham q‖ ^ 2 ≤ 2) (i : Fin 5) :
    (radF q i).isFin = true ∧ |(radF q i).val - radForms (ham q) i| ≤ 9 / 2 ^ 24 := by
  obtain ⟨fx, fy, fz, fw⟩ := hq
  rw [ham_norm_sq] at h
  have w : (7 : ℝ) / 2 ^ 24 ≤ 9 / 2 ^ 24 := by norm_num
  have e : ∀ i, radForms (ham q) i =
    ![2 * (q.x.val * q.w.val - q.y.val * q.z.val), q.w.val * q.w.val - q.x.val * q.x.val - q.y.val * q.y.val + q.z.val * q.z.val,
      2 * (q.x.val * q.z.val + q.y.val * q.w.val),
      2 * (q.z.val * q.w.val - q.x.val * q.y.val), q.w.val * q.w.val + q.x.val * q.x.val - q.y.val * q.y.val - q.z.val * q.z.val] i := by
    intro i
    simp only [radForms, ham, quat_re, quat_i, quat_j, quat_k, exactQ]
  rw [e]
  fin_cases i
  · obtain ⟨⟨f, g⟩, -⟩ := two_prods fx fw fy fz le_rfl (by linarith)
    exact ⟨f, g.trans w⟩
  · obtain ⟨⟨f, g⟩, -⟩ := four_squares fw fx fy fz (by linarith)
    exact ⟨f, g⟩
  · obtain ⟨-, ⟨f, g⟩⟩ := two_prods fx fz fy fw le_rfl (by linarith)
    exact ⟨f, g.trans w⟩
  · obtain ⟨⟨f, g⟩, -⟩ := two_prods fz fw fx fy le_rfl (by linarith)
    exact ⟨f, g.trans w⟩
  · obtain ⟨-, ⟨f, g⟩⟩ := four_squares fw fx fy fz (by linarith)
    exact ⟨f, g⟩

omit [Libm binary32] in
/-- clamping to `[-1, 1]` -/
theorem clamp_unit {D : F32} (fd : D.isFin = true) {T δ : ℝ} (hT : |T| ≤ 1) (h : |D.val - T| ≤ δ) :
    let c := if D.lt (Fp.lit (-1) 1) then (Fp.lit (-1) 1 : F32) else if (Fp.lit 1 1 : F32).lt D then Fp.lit 1 1 else D
    c.isFin = true ∧ |c.val| ≤ 1 ∧ |c.val - T| ≤ δ := by
  intro c
  have lm := lit_int (-1) (by decide)
  have o := lit_int 1 (by decide)
  have o2 : (Fp.lit 1 1 : F32).val = 1 := by rw [o.2]; norm_num
  have m2 : (Fp.lit (-1) 1 : F32).val = -1 := by rw [lm.2]; norm_num
  obtain ⟨i1, i2⟩ := _root_.abs_le.1 hT
  obtain ⟨j1, j2⟩ := _root_.abs_le.1 h
  show (if D.lt (Fp.lit (-1) 1) then (Fp.lit (-1) 1 : F32) else if (Fp.lit 1 1 : F32).lt D then Fp.lit 1 1 else D).isFin = true ∧
    |(if D.lt (Fp.lit (-1) 1) then (Fp.lit (-1) 1 : F32) else if (Fp.lit 1 1 : F32).lt D then Fp.lit 1 1 else D).val| ≤ 1 ∧
    |(if D.lt (Fp.lit (-1) 1) then (Fp.lit (-1) 1 : F32) else if (Fp.lit 1 1 : F32).lt D then Fp.lit 1 1 else D).val - T| ≤ δ
  split
  · rename_i g
    rw [lt_iff_val (isNaN_of_isFin fd) (isNaN_of_isFin lm.1), m2] at g
    exact ⟨lm.1, by rw [m2]; norm_num, by rw [m2]; exact _root_.abs_le.2 ⟨by linarith, by linarith⟩⟩
  · rename_i g
    rw [lt_iff_val (isNaN_of_isFin fd) (isNaN_of_isFin lm.1), m2] at g
    split
    · rename_i k
      rw [lt_iff_val (isNaN_of_isFin o.1) (isNaN_of_isFin fd), o2] at k
      exact ⟨o.1, by rw [o2]; norm_num, by rw [o2]; exact _root_.abs_le.2 ⟨by linarith, by linarith⟩⟩
    · rename_i k
      rw [lt_iff_val (isNaN_of_isFin o.1) (isNaN_of_isFin fd), o2] at k
      exact ⟨fd, _root_.abs_le.2 ⟨by linarith, by linarith⟩, h⟩

omit [Libm binary32] in
theorem radForms_neg (p : Quaternion ℝ) (i : Fin 5) : radForms (-p) i = radForms p i := by
  simp only [radForms, Quaternion.re_neg, Quaternion.imI_neg, Quaternion.imJ_neg, Quaternion.imK_neg, neg_mul_neg]

omit [Libm binary32] in
theorem radForms_angles (x y z : ℝ) : radForms (rotX x * rotY y * rotZ z) =
    ![Real.cos y * Real.sin x, Real.cos y * Real.cos x, Real.sin y, Real.cos y * Real.sin z, Real.cos y * Real.cos z] := by
  obtain ⟨t1, t2, t3, t4, t5⟩ := radians_terms x y z
  rw [← (C73_from_radians x y z).1]
  funext i
  simp only [radForms, quat_re, quat_i, quat_j, quat_k, t1, t2, t3, t4, t5]

/-! ## The angles -/

/-- the error of the three angles: `δ` is the error of the five expressions -/
theorem toRadians_near (hat : Atan2Accurate) (has : AsinAccurate) (q : Quat F32) (hq : FiniteQ q) (x y z : ℝ)
    (hy : |y| ≤ Real.pi / 2) {ε : ℝ} (hε : ε ≤ 1 / 16)
    (h : ‖ham q - rotX x * rotY y * rotZ z‖ ≤ ε ∨ ‖ham q + rotX x * rotY y * rotZ z‖ ≤ ε) :
    let r := Quat.toRadians q
    let δ := 9 / 4 * ε + 1 / 2 ^ 20
    (FinWithin 4 r.1 ∧ FinWithin 2 r.2.1 ∧ FinWithin 4 r.2.2) ∧
    (0 < Real.cos y →
      |Real.cos r.1.val - Real.cos x| ≤ 5 / 2 * δ / Real.cos y + 1 / 2 ^ 22 ∧
      |Real.sin r.1.val - Real.sin x| ≤ 5 / 2 * δ / Real.cos y + 1 / 2 ^ 22 ∧
      |Real.cos r.2.2.val - Real.cos z| ≤ 5 / 2 * δ / Real.cos y + 1 / 2 ^ 22 ∧
      |Real.sin r.2.2.val - Real.sin z| ≤ 5 / 2 * δ / Real.cos y + 1 / 2 ^ 22 ∧
      |r.2.1.val - y| ≤ 22 / 7 * δ / Real.cos y + 1 / 2 ^ 22) ∧
    |r.2.1.val - y| ≤ √(5 * δ) + 1 / 2 ^ 22 ∧ |Real.sin r.2.1.val - Real.sin y| ≤ δ + 1 / 2 ^ 22 := by
  intro r δ
  have hr : r = _ := toRadians_eq q
  set t := rotX x * rotY y * rotZ z with ht
  have nt : ‖t‖ = 1 := by
    rw [ht, ← (C73_from_radians x y z).1]
    have := quat_norm_sq (Quat.initFromRadians x y z)
    exact (sq_eq_sq₀ (norm_nonneg _) (by norm_num)).1 (by rw [this, (C73_from_radians x y z).2]; norm_num)
  have e0 : 0 ≤ ε := by rcases h with h | h <;> exact (norm_nonneg _).trans h
  have nq : ‖ham q‖ ≤ 1 + ε := by
    rcases h with h | h
    · have := norm_sub_norm_le (ham q) t
      linarith
    · have := norm_sub_norm_le (ham q) (-t)
      rw [sub_neg_eq_add, norm_neg] at this
      linarith
  have n0 := norm_nonneg (ham q)
  have lip : ∀ i, |radForms (ham q) i - radForms t i| ≤ 33 / 16 * ε := by
    intro i
    have key : ∀ s : Quaternion ℝ, ‖s‖ = 1 → ‖ham q - s‖ ≤ ε → |radForms (ham q) i - radForms s i| ≤ 33 / 16 * ε := by
      intro s ns hs
      refine (radForms_lip (ham q) s i).trans ?_
      have := norm_add_le (ham q) s
      have : ‖ham q + s‖ ≤ 33 / 16 := by linarith
      have := mul_le_mul hs this (norm_nonneg _) e0
      linarith
    rcases h with h | h
    · exact key t nt h
    · have := key (-t) (by rw [norm_neg, nt]) (by rw [sub_neg_eq_add]; exact h)
      rwa [radForms_neg] at this
  have near : ∀ i, (radF q i).isFin = true ∧ |(radF q i).val - radForms t i| ≤ δ := by
    intro i
    obtain ⟨f, g⟩ := radF_near q hq (by nlinarith) i
    refine ⟨f, (abs_sub_le _ (radForms (ham q) i) _).trans ((add_le_add g (lip i)).trans ?_)⟩
    show _ ≤ 9 / 4 * ε + 1 / 2 ^ 20
    norm_num; linarith
  have hf := radForms_angles x y z
  rw [← ht] at hf
  have n0' := near 0
  have n1 := near 1
  have n2 := near 2
  have n3 := near 3
  have n4 := near 4
  rw [hf] at n0' n1 n2 n3 n4
  change _ ∧ |_ - Real.cos y * Real.sin x| ≤ δ at n0'
  change _ ∧ |_ - Real.cos y * Real.cos x| ≤ δ at n1
  change _ ∧ |_ - Real.sin y| ≤ δ at n2
  change _ ∧ |_ - Real.cos y * Real.sin z| ≤ δ at n3
  change _ ∧ |_ - Real.cos y * Real.cos z| ≤ δ at n4
  -- pitch
  obtain ⟨cf, c1, ce⟩ := clamp_unit n2.1 (Real.abs_sin_le_one y) n2.2
  set c := if (radF q 2).lt (Fp.lit (-1) 1) then (Fp.lit (-1) 1 : F32) else if (Fp.lit 1 1 : F32).lt (radF q 2) then Fp.lit 1 1 else radF q 2
  have hc : cClamp (radF q 2) (Fp.lit (-1) 1) f1 = c := rfl
  rw [hc] at hr
  obtain ⟨af, ae⟩ := has c cf c1
  obtain ⟨c2, c3⟩ := _root_.abs_le.1 c1
  obtain ⟨y1, y2⟩ := _root_.abs_le.1 hy
  have pi0 := Real.pi_pos
  have pi2 := Real.pi_lt_d2
  have b1 := Real.neg_pi_div_two_le_arcsin c.val
  have b2 := Real.arcsin_le_pi_div_two c.val
  have gap := angle_gap (θ := Real.pi / 2 - y) (φ := Real.pi / 2 - Real.arcsin c.val) (δ := δ) (by linarith) (by linarith) (by linarith) (by linarith)
    (by rw [Real.cos_pi_div_two_sub, Real.cos_pi_div_two_sub, Real.sin_arcsin c2 c3, _root_.abs_sub_comm]; exact ce)
  rw [Real.sin_pi_div_two_sub, show Real.pi / 2 - y - (Real.pi / 2 - Real.arcsin c.val) = Real.arcsin c.val - y by ring] at gap
  have tri := abs_sub_le (Libm.asin c).val (Real.arcsin c.val) y
  obtain ⟨f1, g1, -⟩ := hat _ _ n0'.1 n1.1
  obtain ⟨f3, g3, -⟩ := hat _ _ n3.1 n4.1
  rw [hr]
  refine ⟨⟨⟨f1, g1⟩, ⟨af, ?_⟩, ⟨f3, g3⟩⟩, fun cy => ?_, ?_, ?_⟩
  · have := _root_.abs_le.1 ae
    exact _root_.abs_le.2 ⟨by norm_num at *; linarith [this.1], by norm_num at *; linarith [this.2]⟩
  · have k1 := atan2_near hat n0'.1 n1.1 cy n1.2 n0'.2
    have k3 := atan2_near hat n3.1 n4.1 cy n4.2 n3.2
    refine ⟨k1.1, k1.2, k3.1, k3.2, ?_⟩
    have : |Real.arcsin c.val - y| ≤ 22 / 7 * δ / Real.cos y := by rw [le_div_iff₀ cy]; exact gap.2
    show |(Libm.asin c).val - y| ≤ _
    linarith
  · have : |Real.arcsin c.val - y| ≤ √(5 * δ) := Real.le_sqrt_of_sq_le gap.1
    show |(Libm.asin c).val - y| ≤ _
    linarith
  · show |Real.sin (Libm.asin c).val - Real.sin y| ≤ _
    have t1 := abs_sub_le (Real.sin (Libm.asin c).val) (Real.sin (Real.arcsin c.val)) (Real.sin y)
    have l := Real.abs_sin_sub_sin_le (Libm.asin c).val (Real.arcsin c.val)
    rw [Real.sin_arcsin c2 c3] at t1 l
    linarith

omit [Libm binary32] in
/-- the distance of two angles whose cosines and sines are close, up to full turns -/
theorem turn_near {a b e : ℝ} (hc : |Real.cos a - Real.cos b| ≤ e) (hs : |Real.sin a - Real.sin b| ≤ e) :
    ∃ k : ℤ, |a - b - k * (2 * Real.pi)| ≤ 9 / 4 * e := by
  have pi0 := Real.pi_pos
  have pi2 := Real.pi_lt_d2
  have e0 : 0 ≤ e := (abs_nonneg _).trans hc
  refine ⟨round ((a - b) / (2 * Real.pi)), ?_⟩
  set k := round ((a - b) / (2 * Real.pi))
  have hk := abs_sub_round ((a - b) / (2 * Real.pi))
  set d := a - b - k * (2 * Real.pi) with hd
  have dp : |d| ≤ Real.pi := by
    have : d = ((a - b) / (2 * Real.pi) - k) * (2 * Real.pi) := by rw [hd]; field_simp
    rw [this, _root_.abs_mul, abs_of_pos (by positivity : 0 < 2 * Real.pi)]
    nlinarith
  have cd : Real.cos d = Real.cos a * Real.cos b + Real.sin a * Real.sin b := by
    rw [hd, Real.cos_sub_int_mul_two_pi, Real.cos_sub]
  have h2 : Real.cos d = 1 - 2 * Real.sin (d / 2) ^ 2 := by
    have := Real.cos_two_mul (d / 2)
    have s := Real.sin_sq_add_cos_sq (d / 2)
    rw [show 2 * (d / 2) = d by ring] at this
    linarith
  have q1 : (Real.cos a - Real.cos b) ^ 2 ≤ e ^ 2 := sq_le_sq' (by linarith [(_root_.abs_le.1 hc).1]) (_root_.abs_le.1 hc).2
  have q2 : (Real.sin a - Real.sin b) ^ 2 ≤ e ^ 2 := sq_le_sq' (by linarith [(_root_.abs_le.1 hs).1]) (_root_.abs_le.1 hs).2
  have sa := Real.sin_sq_add_cos_sq a
  have sb := Real.sin_sq_add_cos_sq b
  have s4 : 4 * Real.sin (d / 2) ^ 2 ≤ 2 * e ^ 2 := by nlinarith
  have m : |d| / Real.pi ≤ |Real.sin (d / 2)| := by
    have := Real.mul_abs_le_abs_sin (x := d / 2) (by rw [abs_div, abs_of_pos (by norm_num : (0 : ℝ) < 2)]; linarith)
    rw [abs_div, abs_of_pos (by norm_num : (0 : ℝ) < 2)] at this
    refine le_trans (le_of_eq ?_) this
    field_simp
  have m2 : |d| ≤ 315 / 100 * |Real.sin (d / 2)| := by
    rw [div_le_iff₀ pi0] at m
    have := abs_nonneg (Real.sin (d / 2))
    nlinarith
  apply le_of_sq_le_sq _ (by positivity)
  have n := abs_nonneg d
  have := mul_le_mul m2 m2 n (by positivity)
  nlinarith [sq_abs (Real.sin (d / 2)), sq_nonneg e]

/-- two angles in radians differ by at most `e`, up to full turns -/
def Spec.TurnNear (a b e : ℝ) : Prop := ∃ k : ℤ, |a - b - k * (2 * Real.pi)| ≤ e

/-- C134: the three angles `quaternion_to_radians` reports for a quaternion within `ε` of the unit quaternion of the rotation by `x`,
`y` and `z` about the three axes, or of its negative: they are finite; away from gimbal lock each is within `(13 ε + 2^-17) / cos y`
(for x and z up to full turns); in any case the pitch `y` is within `√(12 ε + 2^-17)`. -/
theorem C134_radians (hat : Atan2Accurate) (has : AsinAccurate) (q : Quat F32) (hq : FiniteQ q) (x y z : ℝ)
    (hy : |y| ≤ Real.pi / 2) (ε : ℝ) (hε : ε ≤ 1 / 16)
    (h : ‖ham q - rotX x * rotY y * rotZ z‖ ≤ ε ∨ ‖ham q + rotX x * rotY y * rotZ z‖ ≤ ε) :
    let r := Quat.toRadians q
    (FinWithin 4 r.1 ∧ FinWithin 2 r.2.1 ∧ FinWithin 4 r.2.2) ∧
    (0 < Real.cos y →
      TurnNear r.1.val x ((13 * ε + 1 / 2 ^ 17) / Real.cos y) ∧
      |r.2.1.val - y| ≤ (13 * ε + 1 / 2 ^ 17) / Real.cos y ∧
      TurnNear r.2.2.val z ((13 * ε + 1 / 2 ^ 17) / Real.cos y)) ∧
    |r.2.1.val - y| ≤ √(12 * ε + 1 / 2 ^ 17) := by
  intro r
  obtain ⟨f, g, p, -⟩ := toRadians_near hat has q hq x y z hy hε h
  have e0 : 0 ≤ ε := by rcases h with h | h <;> exact (norm_nonneg _).trans h
  refine ⟨f, fun cy => ?_, ?_⟩
  · obtain ⟨g1, g2, g3, g4, g5⟩ := g cy
    have c1 := Real.cos_le_one y
    have up : ∀ {A B t : ℝ}, 0 ≤ t → A + t ≤ B → A / Real.cos y + t ≤ B / Real.cos y := by
      intro A B t t0 hh
      have : t ≤ t / Real.cos y := by rw [le_div_iff₀ cy]; exact mul_le_of_le_one_right t0 c1
      refine (add_le_add_right this _).trans ?_
      rw [← add_div]; exact div_le_div_of_nonneg_right hh cy.le
    have w : ∀ {a b : ℝ}, |Real.cos a - Real.cos b| ≤ 5 / 2 * (9 / 4 * ε + 1 / 2 ^ 20) / Real.cos y + 1 / 2 ^ 22 →
        |Real.sin a - Real.sin b| ≤ 5 / 2 * (9 / 4 * ε + 1 / 2 ^ 20) / Real.cos y + 1 / 2 ^ 22 →
        TurnNear a b ((13 * ε + 1 / 2 ^ 17) / Real.cos y) := by
      intro a b h1 h2
      obtain ⟨k, hk⟩ := turn_near h1 h2
      refine ⟨k, hk.trans ?_⟩
      rw [_root_.mul_add, ← mul_div_assoc]
      apply up (by positivity)
      norm_num; linarith
    refine ⟨w g1 g2, g5.trans (up (by positivity) ?_), w g3 g4⟩
    norm_num; linarith
  · refine p.trans ?_
    apply Real.le_sqrt_of_sq_le
    have s := Real.sq_sqrt (by positivity : 0 ≤ 5 * (9 / 4 * ε + 1 / 2 ^ 20))
    have s1 : √(5 * (9 / 4 * ε + 1 / 2 ^ 20)) ≤ 1 := by
      rw [Real.sqrt_le_one]; norm_num; linarith
    rw [add_sq, s]
    norm_num at *; linarith

/-- two angles in degrees differ by at most `e`, up to full turns -/
def Spec.DegreesNear (a b e : ℝ) : Prop := ∃ k : ℤ, |a - b - k * 360| ≤ e

/-- one angle in degrees -/
theorem degrees_near {r : F32} {B x e : ℝ} (hB : B ≤ 4) (hr : FinWithin B r) (k : ℤ) (h : |r.val - x - k * (2 * Real.pi)| ≤ e) :
    FinWithin 256 (radToDeg r) ∧ |(radToDeg r).val - x * (180 / Real.pi) - k * 360| ≤ 575 / 10 * e + 1 / 2 ^ 15 := by
  have hb := hr.2.trans hB
  obtain ⟨f, g⟩ := C130_to_degrees r hr.1 (hb.trans (by norm_num))
  have pi0 := Real.pi_pos
  have pi1 := Real.pi_gt_d2
  have k1 : 180 / Real.pi ≤ 575 / 10 := by rw [div_le_iff₀ pi0]; norm_num at *; linarith
  have k0 : 0 < 180 / Real.pi := by positivity
  have e1 : (k : ℝ) * 360 = k * (2 * Real.pi) * (180 / Real.pi) := by field_simp; ring
  have t := abs_sub_le (radToDeg r).val (r.val * (180 / Real.pi)) (x * (180 / Real.pi) + k * (2 * Real.pi) * (180 / Real.pi))
  have e2 : |r.val * (180 / Real.pi) - (x * (180 / Real.pi) + k * (2 * Real.pi) * (180 / Real.pi))| ≤ 575 / 10 * e := by
    rw [show r.val * (180 / Real.pi) - (x * (180 / Real.pi) + k * (2 * Real.pi) * (180 / Real.pi)) =
      (r.val - x - k * (2 * Real.pi)) * (180 / Real.pi) by ring, _root_.abs_mul, abs_of_pos k0]
    have := mul_le_mul h k1 k0.le ((abs_nonneg _).trans h)
    linarith
  have n := abs_nonneg r.val
  refine ⟨⟨f, ?_⟩, ?_⟩
  · have s := abs_sub_abs_le_abs_sub (radToDeg r).val (r.val * (180 / Real.pi))
    have : |r.val * (180 / Real.pi)| ≤ 4 * (575 / 10) := by
      rw [_root_.abs_mul, abs_of_pos k0]; exact mul_le_mul hb k1 k0.le (by norm_num)
    norm_num at *; linarith
  · rw [e1, sub_sub]
    norm_num at *; linarith

/-- C134: the same in degrees, `quaternion_to_angles`: away from gimbal lock each angle is within `(750 ε + 2^-11) / cos y` degrees of
the exact one, x and z up to full turns. -/
theorem C134_angles (hat : Atan2Accurate) (has : AsinAccurate) (q : Quat F32) (hq : FiniteQ q) (x y z : ℝ)
    (hy : |y| ≤ Real.pi / 2) (ε : ℝ) (hε : ε ≤ 1 / 16)
    (h : ‖ham q - rotX x * rotY y * rotZ z‖ ≤ ε ∨ ‖ham q + rotX x * rotY y * rotZ z‖ ≤ ε) (cy : 0 < Real.cos y) :
    let r := Quat.toAngles q
    let e := (750 * ε + 1 / 2 ^ 11) / Real.cos y
    (FinWithin 256 r.1 ∧ FinWithin 256 r.2.1 ∧ FinWithin 256 r.2.2) ∧
    DegreesNear r.1.val (x * (180 / Real.pi)) e ∧ |r.2.1.val - y * (180 / Real.pi)| ≤ e ∧
    DegreesNear r.2.2.val (z * (180 / Real.pi)) e := by
  intro r e
  have e0 : 0 ≤ ε := by rcases h with h | h <;> exact (norm_nonneg _).trans h
  obtain ⟨⟨f1, f2', f3⟩, g, -⟩ := C134_radians hat has q hq x y z hy ε hε h
  obtain ⟨⟨k1, h1⟩, h2, ⟨k3, h3⟩⟩ := g cy
  have c1 := Real.cos_le_one y
  have up : 575 / 10 * ((13 * ε + 1 / 2 ^ 17) / Real.cos y) + 1 / 2 ^ 15 ≤ e := by
    have : (1 : ℝ) / 2 ^ 15 ≤ 1 / 2 ^ 15 / Real.cos y := by rw [le_div_iff₀ cy]; exact mul_le_of_le_one_right (by norm_num) c1
    refine (add_le_add_right this _).trans ?_
    rw [← mul_div_assoc, ← add_div]
    apply div_le_div_of_nonneg_right _ cy.le
    norm_num; linarith
  obtain ⟨a1, b1⟩ := degrees_near le_rfl f1 k1 h1
  obtain ⟨a2, b2⟩ := degrees_near (by norm_num) f2' 0 (x := y) (e := (13 * ε + 1 / 2 ^ 17) / Real.cos y) (by rw [Int.cast_zero, MulZeroClass.zero_mul, _root_.sub_zero]; exact h2)
  obtain ⟨a3, b3⟩ := degrees_near le_rfl f3 k3 h3
  rw [Int.cast_zero, MulZeroClass.zero_mul, _root_.sub_zero] at b2
  exact ⟨⟨a1, a2, a3⟩, ⟨k1, b1.trans up⟩, b2.trans up, ⟨k3, b3.trans up⟩⟩

/-- C134: angles in degrees through `quaternion_init_from_angles` and `quaternion_to_angles`: with the pitch between -90 and 90 degrees
all three come back to within `2^-8 / cos y` degrees, x and z up to full turns. -/
theorem C134_round_trip (hat : Atan2Accurate) (has : AsinAccurate) (ht : TrigAccurate) (x y z : F32) (hx : FinWithin 360 x)
    (hy : FinWithin 90 y) (hz : FinWithin 360 z) (cy : 0 < Real.cos (y.val * (Real.pi / 180))) :
    let r := Quat.toAngles (Quat.initFromAngles x y z)
    let e := 1 / 2 ^ 8 / Real.cos (y.val * (Real.pi / 180))
    (FinWithin 256 r.1 ∧ FinWithin 256 r.2.1 ∧ FinWithin 256 r.2.2) ∧
    DegreesNear r.1.val x.val e ∧ |r.2.1.val - y.val| ≤ e ∧ DegreesNear r.2.2.val z.val e := by
  intro r e
  have pi0 := Real.pi_pos
  obtain ⟨fq, eq⟩ := C108_from_angles ht x y z hx.1 hy.1 hz.1 (hx.2.trans (by norm_num)) (hy.2.trans (by norm_num)) (hz.2.trans (by norm_num))
  have bx := hx.2
  have by' := hy.2
  have bz := hz.2
  have b : 5 / 2 ^ 21 + (|x.val| + |y.val| + |z.val|) / 2 ^ 29 + 1 / 2 ^ 148 ≤ (9 : ℝ) / 2 ^ 21 := by
    generalize |x.val| = X at *
    generalize |y.val| = Y at *
    generalize |z.val| = Z at *
    norm_num at *; linarith
  have yb : |y.val * (Real.pi / 180)| ≤ Real.pi / 2 := by
    rw [_root_.abs_mul, abs_of_pos (by positivity : 0 < Real.pi / 180)]
    nlinarith
  have key := C134_angles hat has _ fq _ _ _ yb (9 / 2 ^ 21) (by norm_num) (Or.inl (eq.trans b)) cy
  have back : ∀ t : ℝ, t * (Real.pi / 180) * (180 / Real.pi) = t := fun t => by field_simp
  simp only [back] at key
  have le : (750 * (9 / 2 ^ 21) + 1 / 2 ^ 11) / Real.cos (y.val * (Real.pi / 180)) ≤ e :=
    div_le_div_of_nonneg_right (by norm_num) cy.le
  obtain ⟨f, ⟨k1, h1⟩, h2, ⟨k3, h3⟩⟩ := key
  exact ⟨f, ⟨k1, h1.trans le⟩, h2.trans le, ⟨k3, h3.trans le⟩⟩

/-! ## The rotation is rebuilt, except in gimbal lock -/

omit [Libm binary32] in
/-- the matrix of the rotations about the three axes -/
theorem radians_matrix (x y z : ℝ) :
    mat (Quat.initFromRadians x y z).toMatrix = axisMat .Z z * axisMat .Y y * axisMat .X x := by
  rw [toMatrix_real]
  have hx : x = 2 * (x * (1 / 2)) := by ring
  have hy : y = 2 * (y * (1 / 2)) := by ring
  have hz : z = 2 * (z * (1 / 2)) := by ring
  have cx := Real.sin_sq_add_cos_sq (x * (1 / 2))
  have cy := Real.sin_sq_add_cos_sq (y * (1 / 2))
  have cz := Real.sin_sq_add_cos_sq (z * (1 / 2))
  have ex : Real.sin x = 2 * Real.sin (x * (1 / 2)) * Real.cos (x * (1 / 2)) := by rw [← Real.sin_two_mul, ← hx]
  have ex' : Real.cos x = 2 * Real.cos (x * (1 / 2)) ^ 2 - 1 := by rw [← Real.cos_two_mul, ← hx]
  have ey : Real.sin y = 2 * Real.sin (y * (1 / 2)) * Real.cos (y * (1 / 2)) := by rw [← Real.sin_two_mul, ← hy]
  have ey' : Real.cos y = 2 * Real.cos (y * (1 / 2)) ^ 2 - 1 := by rw [← Real.cos_two_mul, ← hy]
  have ez : Real.sin z = 2 * Real.sin (z * (1 / 2)) * Real.cos (z * (1 / 2)) := by rw [← Real.sin_two_mul, ← hz]
  have ez' : Real.cos z = 2 * Real.cos (z * (1 / 2)) ^ 2 - 1 := by rw [← Real.cos_two_mul, ← hz]
  have e : axisMat .Z z * axisMat .Y y * axisMat .X x =
      !![Real.cos z * Real.cos y, Real.sin z * Real.cos x + Real.cos z * Real.sin y * Real.sin x, Real.sin z * Real.sin x - Real.cos z * Real.sin y * Real.cos x, 0;
        -(Real.sin z * Real.cos y), Real.cos z * Real.cos x - Real.sin z * Real.sin y * Real.sin x, Real.cos z * Real.sin x + Real.sin z * Real.sin y * Real.cos x, 0;
        Real.sin y, -(Real.cos y * Real.sin x), Real.cos y * Real.cos x, 0; 0, 0, 0, 1] := by
    ext i j
    fin_cases i <;> fin_cases j <;> simp [axisMat, Matrix.mul_apply, Fin.sum_univ_succ] <;> ring
  rw [e, ex, ex', ey, ey', ez, ez']
  simp only [Quat.initFromRadians, RealScalar.mul_eq, RealScalar.add_eq, RealScalar.sub_eq, RealScalar.sin_eq, RealScalar.cos_eq,
    RealScalar.lit_eq, Int.cast_one, Nat.cast_ofNat]
  generalize Real.sin (x * (1 / 2)) = a at *
  generalize Real.cos (x * (1 / 2)) = b at *
  generalize Real.sin (y * (1 / 2)) = c at *
  generalize Real.cos (y * (1 / 2)) = d at *
  generalize Real.sin (z * (1 / 2)) = e at *
  generalize Real.cos (z * (1 / 2)) = f at *
  have ha : a ^ 2 = 1 - b ^ 2 := by linarith
  have hc : c ^ 2 = 1 - d ^ 2 := by linarith
  have he : e ^ 2 = 1 - f ^ 2 := by linarith
  ext i j
  fin_cases i <;> fin_cases j <;>
    simp only [Fin.zero_eta, Fin.mk_one, Fin.reduceFinMk, Matrix.of_apply, Matrix.cons_val] <;>
    (try ring_nf) <;> (try simp only [ha, hc, he]) <;> (try ring)

omit [Libm binary32] in
theorem zyx_near {x y z x' y' z' d e : ℝ} (cx : |Real.cos x' - Real.cos x| ≤ d) (sx : |Real.sin x' - Real.sin x| ≤ d)
    (cy : |Real.cos y' - Real.cos y| ≤ e) (sy : |Real.sin y' - Real.sin y| ≤ e)
    (cz : |Real.cos z' - Real.cos z| ≤ d) (sz : |Real.sin z' - Real.sin z| ≤ d) (i j : Fin 4) :
    |(axisMat .Z z' * axisMat .Y y' * axisMat .X x') i j - (axisMat .Z z * axisMat .Y y * axisMat .X x) i j| ≤ 4 * d + e := by
  have tr : ∀ (a : Axis) (t : ℝ), (axisMat a (-t))ᵀ = axisMat a t := by
    intro a t
    cases a <;> ext i j <;> fin_cases i <;> fin_cases j <;> simp [axisMat]
  have e1 : ∀ x y z : ℝ, axisMat .Z z * axisMat .Y y * axisMat .X x = (axisMat .X (-x) * axisMat .Y (-y) * axisMat .Z (-z))ᵀ := by
    intro x y z
    rw [Matrix.transpose_mul, Matrix.transpose_mul, tr, tr, tr, Matrix.mul_assoc]
  have ng : ∀ {a b e : ℝ}, |Real.sin a - Real.sin b| ≤ e → |Real.sin (-a) - Real.sin (-b)| ≤ e := by
    intro a b e h
    rw [Real.sin_neg, Real.sin_neg, neg_sub_neg, _root_.abs_sub_comm]; exact h
  rw [e1, e1, Matrix.transpose_apply, Matrix.transpose_apply]
  exact xyz_near (by rwa [Real.cos_neg, Real.cos_neg]) (ng sx) (by rwa [Real.cos_neg, Real.cos_neg]) (ng sy) (by rwa [Real.cos_neg, Real.cos_neg]) (ng sz) j i

/-- C134: away from gimbal lock the angles rebuild the rotation: for a quaternion within `ε` of a unit quaternion `T` or its negative,
whose pitch has sine `S`, the rotation by the three reported angles and the rotation of `T` have matrices whose entries differ by at
most `(30 ε + 2^-16) / √(1 - S²)`. -/
theorem C134_rebuild (hat : Atan2Accurate) (has : AsinAccurate) (q : Quat F32) (hq : FiniteQ q) (T : Quat ℝ) (hT : UnitQuat T)
    (ε : ℝ) (hε : ε ≤ 1 / 16) (h : ‖ham q - quat T‖ ≤ ε ∨ ‖ham q + quat T‖ ≤ ε) (hS : (2 * (T.x * T.z + T.y * T.w)) ^ 2 < 1)
    (i j : Fin 4) :
    let r := Quat.toRadians q
    |mat (Quat.initFromRadians r.1.val r.2.1.val r.2.2.val).toMatrix i j - mat T.toMatrix i j| ≤
      (30 * ε + 1 / 2 ^ 16) / √(1 - (2 * (T.x * T.z + T.y * T.w)) ^ 2) := by
  intro r
  have e0 : 0 ≤ ε := by rcases h with h | h <;> exact (norm_nonneg _).trans h
  obtain ⟨hp, hm⟩ := C73_radians_rotation T hT hS
  set S := 2 * (T.x * T.z + T.y * T.w) with hSd
  set x := (Quat.toRadians T).1
  set y := (Quat.toRadians T).2.1 with hyd
  set z := (Quat.toRadians T).2.2
  have S1 : -1 ≤ S := by nlinarith
  have S2 : S ≤ 1 := by nlinarith
  have hcl : cClamp S (((-1 : ℤ) : ℝ) / ((1 : ℕ) : ℝ)) 1 = S := by
    simp only [cClamp, RealScalar.lt_eq]
    rw [if_neg (by push_cast; norm_num; exact S1), if_neg (not_lt.mpr S2)]
  have r2 : y = Real.arcsin S := by
    simp only [hyd, Quat.toRadians, RealScalar.mul_eq, RealScalar.add_eq, RealScalar.asin_eq, RealScalar.f1_eq, RealScalar.f2_eq, RealScalar.lit_eq]
    rw [← hSd, hcl]
  have hy : |y| ≤ Real.pi / 2 := by
    rw [r2]; exact _root_.abs_le.2 ⟨Real.neg_pi_div_two_le_arcsin _, Real.arcsin_le_pi_div_two _⟩
  have hc : Real.cos y = √(1 - S ^ 2) := by rw [r2, Real.cos_arcsin]
  have cp : 0 < Real.cos y := by rw [hc]; exact Real.sqrt_pos.2 (by linarith)
  have c1 := Real.cos_le_one y
  have hh : ‖ham q - rotX x * rotY y * rotZ z‖ ≤ ε ∨ ‖ham q + rotX x * rotY y * rotZ z‖ ≤ ε := by
    rw [← (C73_from_radians x y z).1]
    rcases hp with hp | hp
    · rw [hp]; exact h
    · have : quat (opp T) = -quat T := by
        apply Quaternion.ext <;> simp [opp, quat_re, quat_i, quat_j, quat_k]
      rw [hp, this, sub_neg_eq_add, ← sub_eq_add_neg]; exact h.symm
  obtain ⟨-, g, -, gs⟩ := toRadians_near hat has q hq x y z hy hε hh
  obtain ⟨g1, g2, g3, g4, g5⟩ := g cp
  have gc := (Real.abs_cos_sub_cos_le r.2.1.val y).trans g5
  have gs' := (Real.abs_sin_sub_sin_le r.2.1.val y).trans g5
  have key := zyx_near g1 g2 gc gs' g3 g4 i j
  rw [← radians_matrix, ← radians_matrix, hm] at key
  refine key.trans ?_
  rw [← hc]
  have : ∀ t : ℝ, 0 ≤ t → t ≤ t / Real.cos y := fun t t0 => by rw [le_div_iff₀ cp]; exact mul_le_of_le_one_right t0 c1
  have t1 := this (1 / 2 ^ 22) (by positivity)
  refine (add_le_add (mul_le_mul_of_nonneg_left (add_le_add_right t1 _) (by norm_num)) (add_le_add_right t1 _)).trans ?_
  rw [← add_div, ← add_div, ← mul_div_assoc, ← add_div]
  apply div_le_div_of_nonneg_right _ cp.le
  norm_num; linarith

omit [Libm binary32] in
/-- C134, the limit of the guarantee: in gimbal lock both `atan2f` see two zeros, and the angles about x and z are lost, even in exact
arithmetic: whatever they were, `to_radians` reports `(0, ±π/2, 0)`. -/
theorem C134_gimbal_lock (x z : ℝ) :
    Quat.toRadians (Quat.initFromRadians x (Real.pi / 2) z) = (0, Real.pi / 2, 0) ∧
    Quat.toRadians (Quat.initFromRadians x (-(Real.pi / 2)) z) = (0, -(Real.pi / 2), 0) ∧
    (¬ (∃ k : ℤ, x + z = k * (2 * Real.pi)) →
      (Quat.initFromRadians 0 (Real.pi / 2) 0).toMatrix ≠ (Quat.initFromRadians x (Real.pi / 2) z).toMatrix) := by
  have z0 : Complex.arg ⟨0, 0⟩ = 0 := Complex.arg_zero
  have cl : ∀ s : ℝ, -1 ≤ s → s ≤ 1 → cClamp s (((-1 : ℤ) : ℝ) / ((1 : ℕ) : ℝ)) 1 = s := by
    intro s h1 h2
    simp only [cClamp, RealScalar.lt_eq]
    rw [if_neg (by push_cast; norm_num; exact h1), if_neg (not_lt.mpr h2)]
  have key : ∀ y : ℝ, Real.cos y = 0 → Quat.toRadians (Quat.initFromRadians x y z) = (0, Real.arcsin (Real.sin y), 0) := by
    intro y hy
    obtain ⟨t1, t2, t3, t4, t5⟩ := radians_terms x y z
    simp only [hy, MulZeroClass.zero_mul] at t1 t2 t4 t5
    simp only [Quat.toRadians, RealScalar.mul_eq, RealScalar.add_eq, RealScalar.sub_eq, RealScalar.f2_eq, RealScalar.atan2_eq,
      RealScalar.asin_eq, RealScalar.f1_eq, RealScalar.lit_eq, t1, t2, t3, t4, t5, z0, cl _ (Real.neg_one_le_sin y) (Real.sin_le_one y)]
  refine ⟨?_, ?_, fun hk he => ?_⟩
  · rw [key _ Real.cos_pi_div_two, Real.arcsin_sin (by linarith [Real.pi_pos]) le_rfl]
  · rw [key _ (by rw [Real.cos_neg, Real.cos_pi_div_two]), Real.arcsin_sin le_rfl (by linarith [Real.pi_pos])]
  · have hm := congrArg mat he
    rw [radians_matrix, radians_matrix] at hm
    have h11 := congrFun (congrFun hm 1) 1
    simp [axisMat, Matrix.mul_apply, Fin.sum_univ_succ] at h11
    have : Real.cos (x + z) = 1 := by rw [Real.cos_add]; linarith
    obtain ⟨k, hk'⟩ := (Real.cos_eq_one_iff _).1 this
    exact hk ⟨k, hk'.symm⟩

/-! ### The hypotheses are met -/

omit [Libm binary32] in
theorem asin_grid (v : F32) : ∃ r : F32, r.isFin = true ∧ |r.val - Real.arcsin v.val| ≤ 1 / 2 ^ 22 := by
  have hpi := Real.pi_lt_d2
  have l := Real.neg_pi_div_two_le_arcsin v.val
  have u := Real.arcsin_le_pi_div_two v.val
  generalize Real.arcsin v.val = φ at *
  have hr := abs_sub_round (φ * 2 ^ 22)
  obtain ⟨r1, r2⟩ := _root_.abs_le.1 hr
  generalize round (φ * 2 ^ 22) = n at *
  have b1 : n < (2 ^ 24 : ℤ) := by
    have : ((n : ℤ) : ℝ) < ((2 ^ 24 : ℤ) : ℝ) := by push_cast; norm_num at r1 r2 ⊢; linarith
    exact_mod_cast this
  have b2 : (-(2 ^ 24) : ℤ) < n := by
    have : ((-(2 ^ 24) : ℤ) : ℝ) < ((n : ℤ) : ℝ) := by push_cast; norm_num at r1 r2 ⊢; linarith
    exact_mod_cast this
  obtain ⟨f, v⟩ := lit_dyadic n 22 (by omega) (by norm_num)
  refine ⟨lit n (2 ^ 22), f, ?_⟩
  rw [v, _root_.abs_le]
  constructor
  · rw [le_sub_iff_add_le, le_div_iff₀ (by positivity)]; norm_num at r1 r2 ⊢; linarith
  · rw [sub_le_iff_le_add, div_le_iff₀ (by positivity)]; norm_num at r1 r2 ⊢; linarith

omit [Libm binary32] in
/-- A C library satisfying `AsinAccurate` (and any assumption on the remaining functions) exists. -/
theorem asin_exists (L : Libm binary32) :
    @Spec.AsinAccurate { L with asin := fun a => by classical exact Classical.choose (asin_grid a) } :=
  fun a _ _ => Classical.choose_spec (asin_grid a)

/-- 30, 60 and -45 degrees come back to within a hundredth of a degree -/
example (hat : Atan2Accurate) (has : AsinAccurate) (ht : TrigAccurate) :
    let r := Quat.toAngles (Quat.initFromAngles (Fp.lit 30 1 : F32) (Fp.lit 60 1) (Fp.lit (-45) 1))
    DegreesNear r.1.val 30 (1 / 100) ∧ |r.2.1.val - 60| ≤ 1 / 100 ∧ DegreesNear r.2.2.val (-45) (1 / 100) := by
  intro r
  obtain ⟨fx, vx⟩ := lit_int 30 (by decide)
  obtain ⟨fy, vy⟩ := lit_int 60 (by decide)
  obtain ⟨fz, vz⟩ := lit_int (-45) (by decide)
  have c : Real.cos ((Fp.lit 60 1 : F32).val * (Real.pi / 180)) = 1 / 2 := by
    rw [vy, ← Real.cos_pi_div_three]; congr 1; push_cast; ring
  have k := (C134_round_trip hat has ht (Fp.lit 30 1) (Fp.lit 60 1) (Fp.lit (-45) 1) ⟨fx, by rw [vx]; norm_num⟩ ⟨fy, by rw [vy]; norm_num⟩
    ⟨fz, by rw [vz]; norm_num⟩ (by rw [c]; norm_num)).2
  rw [c, vx, vy, vz] at k
  obtain ⟨⟨k1, h1⟩, h2, ⟨k3, h3⟩⟩ := k
  push_cast at h1 h2 h3
  exact ⟨⟨k1, h1.trans (by norm_num)⟩, h2.trans (by norm_num), ⟨k3, h3.trans (by norm_num)⟩⟩

/-- the half turn about z, an exact quaternion that is not in gimbal lock -/
example (hat : Atan2Accurate) (has : AsinAccurate) (i j : Fin 4) :
    let r := Quat.toRadians (⟨f0, f0, f1, f0⟩ : Quat F32)
    |mat (Quat.initFromRadians r.1.val r.2.1.val r.2.2.val).toMatrix i j - mat (⟨0, 0, 1, 0⟩ : Quat ℝ).toMatrix i j| ≤ 1 / 2 ^ 16 := by
  intro r
  have z := is_f0
  have o := is_f1
  have e : ham (⟨f0, f0, f1, f0⟩ : Quat F32) = quat ⟨0, 0, 1, 0⟩ := by rw [ham, exactQ, z.val, o.val]
  have k := C134_rebuild hat has (⟨f0, f0, f1, f0⟩ : Quat F32) ⟨z.fin, z.fin, o.fin, z.fin⟩ ⟨0, 0, 1, 0⟩ (by norm_num [UnitQuat]) 0 (by norm_num)
    (Or.inl (by rw [e, sub_self, norm_zero])) (by norm_num) i j
  refine k.trans (le_of_eq ?_)
  norm_num

end Graphene
