/-
  C130: Euler angles in floating point (IEEE binary32): the matrix and the quaternion of the angles, and degrees.
-/
import Verif.Props.Float19
import Verif.Props.Float36
import Verif.Props.Float10
import Verif.Props.Euler5

set_option exponentiation.threshold 3000

namespace Graphene
open Fp Spec
variable [Libm binary32]

/-- the sine and the cosine computed for `a` approximate those of `x` -/
def TrigOf (a : F32) (x ε : ℝ) : Prop :=
  Approx (Libm.sin a) (Real.sin x) 1 (1 + ε) ∧ Approx (Libm.cos a) (Real.cos x) 1 (1 + ε)

theorem trigOf (ht : TrigAccurate) {a : F32} {x d : ℝ} (ha : a.isFin = true) (hb : |a.val| ≤ 2 ^ 16) (hd : |a.val - x| ≤ d) :
    TrigOf a x (1 / 2 ^ 23 + d) := by
  obtain ⟨⟨sf, se⟩, cf, ce⟩ := ht a ha hb
  have hs := Real.abs_sin_sub_sin_le a.val x
  have hc := Real.abs_cos_sub_cos_le a.val x
  refine ⟨⟨sf, Real.abs_sin_le_one _, ?_⟩, ⟨cf, Real.abs_cos_le_one _, ?_⟩⟩
  · have := abs_sub_le (Libm.sin a).val (Real.sin a.val) (Real.sin x); linarith
  · have := abs_sub_le (Libm.cos a).val (Real.cos a.val) (Real.cos x); linarith

theorem trigOf_neg (ht : TrigAccurate) {a : F32} {x d : ℝ} (ha : a.isFin = true) (hb : |a.val| ≤ 2 ^ 16) (hd : |a.val - x| ≤ d) :
    TrigOf (Fp.mul a (Fp.lit (-1) 1)) (-x) (1 / 2 ^ 23 + d) := by
  obtain ⟨f, v⟩ := mul_m1 ha
  refine trigOf ht f ?_ ?_
  · rw [v, _root_.abs_neg]; exact hb
  · rw [v, neg_sub_neg, _root_.abs_sub_comm]; exact hd

/-- two arrays agree up to `K` -/
def CloseM (K : ℝ) (m : Nat → Nat → F32) (n : Nat → Nat → ℝ) : Prop := ∀ r c, (m r c).isFin = true ∧ |(m r c).val - n r c| ≤ K

omit [Libm binary32] in
theorem CloseM.set {K : ℝ} {m : Nat → Nat → F32} {n : Nat → Nat → ℝ} (h : CloseM K m n) {v : F32} {x A E : ℝ} (hv : Approx v x A E)
    (hE : E - A ≤ K) (r c : Nat) : CloseM K (Euler.setM m r c v) (Euler.setM n r c x) := by
  intro r' c'
  simp only [Euler.setM]
  split
  · exact ⟨hv.fin, hv.err.trans hE⟩
  · exact h r' c'

omit [Libm binary32] in
theorem CloseM.of {K : ℝ} {m : Nat → Nat → F32} {n : Nat → Nat → ℝ} (h : CloseM K m n) (i j : Fin 4) :
    (mat (Euler.ofM m) i j).isFin = true ∧ |(mat (Euler.ofM m) i j).val - mat (Euler.ofM n) i j| ≤ K := by
  fin_cases i <;> fin_cases j <;> exact h _ _

/-- what the angles given to `euler_to_matrix` are off by, for each entry of the matrix -/
theorem angleMatrix_close (ht : TrigAccurate) (p : AxisParam) (d : ℝ) (hd : d ≤ 1 / 2 ^ 11) {ai aj ak : F32} {xi xj xk : ℝ}
    (fi : ai.isFin = true) (fj : aj.isFin = true) (fk : ak.isFin = true)
    (bi : |ai.val| ≤ 2 ^ 16) (bj : |aj.val| ≤ 2 ^ 16) (bk : |ak.val| ≤ 2 ^ 16)
    (ei : |ai.val - xi| ≤ d) (ej : |aj.val - xj| ≤ d) (ek : |ak.val - xk| ≤ d) (i j : Fin 4) :
    (mat (Euler.angleMatrix ai aj ak p) i j).isFin = true ∧
      |(mat (Euler.angleMatrix ai aj ak p) i j).val - mat (Euler.angleMatrix xi xj xk p) i j| ≤ 6 * d + 5 / 2 ^ 22 := by
  have d0 : 0 ≤ d := (abs_nonneg _).trans ei
  have neg1 : ∀ x : ℝ, x *. (Scalar.lit (-1) 1) = -x := fun x => by simp
  set ε := 1 / 2 ^ 23 + d with hε
  have e0 : 1 / 2 ^ 23 ≤ ε := by linarith
  have e1 : ε ≤ 1 / 2 ^ 10 := by rw [hε]; norm_num at hd ⊢; linarith
  have key : ∀ {a : F32} {x : ℝ}, a.isFin = true → |a.val| ≤ 2 ^ 16 → |a.val - x| ≤ d →
      TrigOf (if p.parity then a *. Scalar.lit (-1) 1 else a) (if p.parity then x *. Scalar.lit (-1) 1 else x) ε := by
    intro a x fa ba ea
    split
    · rw [neg1]; exact trigOf_neg ht fa ba ea
    · exact trigOf ht fa ba ea
  have k1 : TrigOf (if p.parity then (if p.frame then ak else ai) *. Scalar.lit (-1) 1 else (if p.frame then ak else ai))
      (if p.parity then (if p.frame then xk else xi) *. Scalar.lit (-1) 1 else (if p.frame then xk else xi)) ε := by
    cases p.frame
    · exact key fi bi ei
    · exact key fk bk ek
  have k2 := key fj bj ej
  have k3 : TrigOf (if p.parity then (if p.frame then ai else ak) *. Scalar.lit (-1) 1 else (if p.frame then ai else ak))
      (if p.parity then (if p.frame then xi else xk) *. Scalar.lit (-1) 1 else (if p.frame then xi else xk)) ε := by
    cases p.frame
    · exact key fk bk ek
    · exact key fi bi ei
  obtain ⟨hsi, hci⟩ := k1
  obtain ⟨hsj, hcj⟩ := k2
  obtain ⟨hsk, hck⟩ := k3
  -- the arithmetic
  have m2 : ∀ {a b : F32} {x y : ℝ}, Approx a x 1 (1 + ε) → Approx b y 1 (1 + ε) →
      Approx (a *. b) (x *. y) 1 (1 + (201 / 100 * ε + 1 / 2 ^ 23)) := by
    intro a b x y h g
    have := mul2_approx h g (by nlinarith)
    rw [one_mul] at this
    refine this.mono ?_
    have : ε * ε ≤ 1 / 2 ^ 10 * ε := mul_le_mul_of_nonneg_right e1 (by linarith)
    generalize ε = q at *
    norm_num at *; nlinarith
  have m3 : ∀ {a b : F32} {x y : ℝ}, Approx a x 1 (1 + ε) → Approx b y 1 (1 + (201 / 100 * ε + 1 / 2 ^ 23)) →
      Approx (a *. b) (x *. y) 1 (1 + (302 / 100 * ε + 1 / 2 ^ 22)) := by
    intro a b x y h g
    have := mul2_approx h g (by nlinarith)
    rw [one_mul] at this
    refine this.mono ?_
    have : ε * ε ≤ 1 / 2 ^ 10 * ε := mul_le_mul_of_nonneg_right e1 (by linarith)
    generalize ε = q at *
    norm_num at *; nlinarith
  have lin : (1 + 1 / 16777216) * (1 + (302 / 100 * ε + 1 / 2 ^ 22) + (1 + (201 / 100 * ε + 1 / 2 ^ 23))) - (1 + 1) ≤ 6 * ε + 1 / 2 ^ 21 := by
    generalize ε = q at *
    norm_num at *; linarith
  have sA := fun {a b : F32} {x y : ℝ} (h : Approx a x 1 (1 + (302 / 100 * ε + 1 / 2 ^ 22))) (g : Approx b y 1 (1 + (201 / 100 * ε + 1 / 2 ^ 23))) =>
    sum2_approx h g (by norm_num at *; linarith)
  have sS := fun {a b : F32} {x y : ℝ} (h : Approx a x 1 (1 + (302 / 100 * ε + 1 / 2 ^ 22))) (g : Approx b y 1 (1 + (201 / 100 * ε + 1 / 2 ^ 23))) =>
    sub2_approx h g (by norm_num at *; linarith)
  have l1 : 1 + ε - 1 ≤ 6 * ε + 1 / 2 ^ 21 := by norm_num at *; linarith
  have l2 : 1 + (201 / 100 * ε + 1 / 2 ^ 23) - 1 ≤ 6 * ε + 1 / 2 ^ 21 := by norm_num at *; linarith
  have base : CloseM (6 * ε + 1 / 2 ^ 21) (fun r c => if r = 3 ∧ c = 3 then (f1 : F32) else f0) (fun r c => if r = 3 ∧ c = 3 then (f1 : ℝ) else f0) := by
    intro r c
    have z : 0 ≤ 6 * ε + 1 / 2 ^ 21 := by norm_num at *; linarith
    dsimp only
    split
    · exact ⟨is_f1.fin, by rw [is_f1.val]; simpa using z⟩
    · exact ⟨is_f0.fin, by rw [is_f0.val]; simpa using z⟩
  have fin : 6 * ε + 1 / 2 ^ 21 = 6 * d + 5 / 2 ^ 22 := by rw [hε]; norm_num; ring
  rw [← fin]
  unfold Euler.angleMatrix
  have Esin : ∀ a : F32, Scalar.sin a = Libm.sin a := fun _ => rfl
  have Ecos : ∀ a : F32, Scalar.cos a = Libm.cos a := fun _ => rfl
  have Rsin : ∀ a : ℝ, Scalar.sin a = Real.sin a := fun _ => rfl
  have Rcos : ∀ a : ℝ, Scalar.cos a = Real.cos a := fun _ => rfl
  dsimp only
  simp only [Esin, Ecos, Rsin, Rcos]
  generalize Libm.sin (if p.parity = true then (if p.frame = true then ak else ai) *. Scalar.lit (-1) 1 else (if p.frame = true then ak else ai)) = si at *
  generalize Libm.cos (if p.parity = true then (if p.frame = true then ak else ai) *. Scalar.lit (-1) 1 else (if p.frame = true then ak else ai)) = ci at *
  generalize Libm.sin (if p.parity = true then (if p.frame = true then ai else ak) *. Scalar.lit (-1) 1 else (if p.frame = true then ai else ak)) = sk at *
  generalize Libm.cos (if p.parity = true then (if p.frame = true then ai else ak) *. Scalar.lit (-1) 1 else (if p.frame = true then ai else ak)) = ck at *
  generalize Libm.sin (if p.parity = true then aj *. Scalar.lit (-1) 1 else aj) = sj at *
  generalize Libm.cos (if p.parity = true then aj *. Scalar.lit (-1) 1 else aj) = cj at *
  generalize Real.sin (if p.parity = true then (if p.frame = true then xk else xi) *. Scalar.lit (-1) 1 else (if p.frame = true then xk else xi)) = Si at *
  generalize Real.cos (if p.parity = true then (if p.frame = true then xk else xi) *. Scalar.lit (-1) 1 else (if p.frame = true then xk else xi)) = Ci at *
  generalize Real.sin (if p.parity = true then (if p.frame = true then xi else xk) *. Scalar.lit (-1) 1 else (if p.frame = true then xi else xk)) = Sk at *
  generalize Real.cos (if p.parity = true then (if p.frame = true then xi else xk) *. Scalar.lit (-1) 1 else (if p.frame = true then xi else xk)) = Ck at *
  generalize Real.sin (if p.parity = true then xj *. Scalar.lit (-1) 1 else xj) = Sj at *
  generalize Real.cos (if p.parity = true then xj *. Scalar.lit (-1) 1 else xj) = Cj at *
  have cc := m2 hci hck
  have cs := m2 hci hsk
  have sc := m2 hsi hck
  have ss := m2 hsi hsk
  cases p.repetition
  · exact ((((((((((base.set (m2 hcj hck) l2 _ _).set (sS (m3 hsj sc) cs) lin _ _).set (sA (m3 hsj cc) ss) lin _ _).set (m2 hcj hsk) l2 _ _).set
      (sA (m3 hsj ss) cc) lin _ _).set (sS (m3 hsj cs) sc) lin _ _).set hsj.neg l1 _ _).set (m2 hcj hsi) l2 _ _).set (m2 hcj hci) l2 _ _)).of i j
  · exact ((((((((((base.set hcj l1 _ _).set (m2 hsj hsi) l2 _ _).set (m2 hsj hci) l2 _ _).set (m2 hsj hsk) l2 _ _).set
      (sA (m3 hcj.neg ss) cc) lin _ _).set (sS (m3 hcj.neg cs) sc) lin _ _).set (m2 hsj.neg hck) l2 _ _).set (sA (m3 hcj sc) cs) lin _ _).set (sS (m3 hcj cc) ss) lin _ _)).of i j

/-- the product of the rotations about the axes named by an order: a static order turns about its first axis first, a
relative order about its last axis first -/
noncomputable def Spec.eulerMat (o : EulerOrder) (x y z : ℝ) : Matrix (Fin 4) (Fin 4) ℝ :=
  let a := axesOf o.realOrder
  let r1 := axisMat a.1 (angleOf x y z a.1)
  let r2 := axisMat a.2.1 (angleOf x y z a.2.1)
  let r3 := axisMat a.2.2 (angleOf x y z a.2.2)
  if isStatic o.realOrder then r1 * r2 * r3 else r3 * r2 * r1

/-- a finite number of magnitude at most `B` -/
def Spec.FinWithin (B : ℝ) (a : F32) : Prop := a.isFin = true ∧ |a.val| ≤ B

/-- angles within `d` of exact angles -/
theorem toMatrix_close (ht : TrigAccurate) (o : EulerOrder) (d : ℝ) (hd : d ≤ 1 / 2 ^ 11) {x y z : F32} {X Y Z : ℝ}
    (hx : FinWithin (2 ^ 16) x) (hy : FinWithin (2 ^ 16) y) (hz : FinWithin (2 ^ 16) z)
    (ex : |x.val - X| ≤ d) (ey : |y.val - Y| ≤ d) (ez : |z.val - Z| ≤ d) (i j : Fin 4) :
    (mat (Euler.initFromRadians x y z o).toMatrix i j).isFin = true ∧
      |(mat (Euler.initFromRadians x y z o).toMatrix i j).val - eulerMat o X Y Z i j| ≤ 6 * d + 5 / 2 ^ 22 := by
  have e : eulerMat o X Y Z = mat (Euler.initFromRadians X Y Z o).toMatrix := (C77_to_matrix X Y Z o).symm
  rw [e]
  unfold Euler.toMatrix
  obtain ⟨a1, b1, c1⟩ := C76_alpha_beta_gamma x y z o
  obtain ⟨a2, b2, c2⟩ := C76_alpha_beta_gamma X Y Z o
  rw [a1, b1, c1, a2, b2, c2]
  have f : ∀ a : Axis, (angleOf x y z a).isFin = true := by intro a; cases a; exacts [hx.1, hy.1, hz.1]
  have g : ∀ a : Axis, |(angleOf x y z a).val| ≤ 2 ^ 16 := by intro a; cases a; exacts [hx.2, hy.2, hz.2]
  have k : ∀ a : Axis, |(angleOf x y z a).val - angleOf X Y Z a| ≤ d := by intro a; cases a; exacts [ex, ey, ez]
  exact angleMatrix_close ht _ d hd (f _) (f _) (f _) (g _) (g _) (g _) (k _) (k _) (k _) i j

/-- C130: `euler_to_matrix` for angles in radians, every order: finite entries, each within `5·2^-22` of the product of the
exact rotations about the axes named by the order. -/
theorem C130_matrix (ht : TrigAccurate) (o : EulerOrder) (x y z : F32) (hx : FinWithin (2 ^ 16) x) (hy : FinWithin (2 ^ 16) y)
    (hz : FinWithin (2 ^ 16) z) (i j : Fin 4) :
    (mat (Euler.initFromRadians x y z o).toMatrix i j).isFin = true ∧
      |(mat (Euler.initFromRadians x y z o).toMatrix i j).val - eulerMat o x.val y.val z.val i j| ≤ 5 / 2 ^ 22 := by
  have z0 : ∀ t : ℝ, |t - t| ≤ 0 := fun t => by simp
  have := toMatrix_close ht o 0 (by norm_num) hx hy hz (z0 _) (z0 _) (z0 _) i j
  rwa [mul_zero, zero_add] at this

/-- C130: the same for angles in degrees, of magnitude at most `B`. -/
theorem C130_matrix_degrees (ht : TrigAccurate) (o : EulerOrder) (B : ℝ) (hB : B ≤ 2 ^ 17) (x y z : F32) (hx : FinWithin B x)
    (hy : FinWithin B y) (hz : FinWithin B z) (i j : Fin 4) :
    let t := Real.pi / 180
    (mat (Euler.initWithOrder x y z o).toMatrix i j).isFin = true ∧
      |(mat (Euler.initWithOrder x y z o).toMatrix i j).val - eulerMat o (x.val * t) (y.val * t) (z.val * t) i j| ≤ B / 2 ^ 26 + 3 / 2 ^ 21 := by
  intro t
  have lo := Real.pi_gt_d20
  have hi := Real.pi_lt_d20
  have k : ∀ {a : F32}, FinWithin B a → FinWithin (2 ^ 16) (degToRad a) ∧ |(degToRad a).val - a.val * t| ≤ B / 2 ^ 29 + 1 / 2 ^ 150 := by
    intro a ha
    obtain ⟨f, e⟩ := C108_radians a ha.1 (ha.2.trans (hB.trans (by norm_num)))
    have e' : |(degToRad a).val - a.val * t| ≤ B / 2 ^ 29 + 1 / 2 ^ 150 := e.trans (by have := ha.2; norm_num; linarith)
    refine ⟨⟨f, ?_⟩, e'⟩
    have b1 : |a.val * t| ≤ 2 ^ 17 * (4 / 180) := by
      rw [_root_.abs_mul]
      refine mul_le_mul (ha.2.trans hB) ?_ (abs_nonneg _) (by norm_num)
      have tp : 0 ≤ t := by positivity
      rw [abs_of_nonneg tp]
      simp only [t]; norm_num at hi; linarith
    have b2 := abs_add_le ((degToRad a).val - a.val * t) (a.val * t)
    rw [sub_add_cancel] at b2
    refine b2.trans ((add_le_add e' b1).trans ?_)
    norm_num at hB ⊢; linarith
  have B0 : 0 ≤ B := (abs_nonneg _).trans hx.2
  obtain ⟨x1, x2⟩ := k hx
  obtain ⟨y1, y2⟩ := k hy
  obtain ⟨z1, z2⟩ := k hz
  obtain ⟨f, e⟩ := toMatrix_close ht o _ (by norm_num at hB ⊢; linarith) x1 y1 z1 x2 y2 z2 i j
  refine ⟨f, e.trans ?_⟩
  norm_num; linarith

/-! ## Degrees -/

/-- the constant `180.f / PI` -/
theorem rad_const : (Fp.div (Scalar.lit 180 1) (Scalar.pi : F32)) = Fp.lit 15019744 (2 ^ 18) := by kdecide

/-- C130: radians to degrees: off by at most `7·2^-20·|angle|`, two units in the last place. -/
theorem C130_to_degrees (r : F32) (h : r.isFin = true) (hb : |r.val| ≤ 2 ^ 100) :
    (radToDeg r).isFin = true ∧ |(radToDeg r).val - r.val * (180 / Real.pi)| ≤ |r.val| * (7 / 2 ^ 20) + 1 / 2 ^ 150 := by
  have lo := Real.pi_gt_d20
  have hi := Real.pi_lt_d20
  obtain ⟨kf, kv⟩ := lit_dyadic 15019744 18 (by norm_num) (by norm_num)
  have e : radToDeg r = Fp.mul r (Fp.lit 15019744 (2 ^ 18)) := by
    rw [← rad_const]; rfl
  rw [e]
  have kv' : (Fp.lit 15019744 (2 ^ 18) : F32).val = 15019744 / 2 ^ 18 := by rw [kv]; norm_num
  have ab : |r.val * (Fp.lit 15019744 (2 ^ 18) : F32).val| = |r.val| * (15019744 / 2 ^ 18) := by
    rw [_root_.abs_mul, kv', abs_of_nonneg (by norm_num : (0 : ℝ) ≤ 15019744 / 2 ^ 18)]
  have p := prod_approx h kf (by rw [ab]; norm_num at hb ⊢; linarith)
  refine ⟨p.fin, ?_⟩
  have er := p.err
  rw [ab] at er
  have t := abs_add_le ((Fp.mul r (Fp.lit 15019744 (2 ^ 18))).val - r.val * (Fp.lit 15019744 (2 ^ 18) : F32).val)
    (r.val * (Fp.lit 15019744 (2 ^ 18) : F32).val - r.val * (180 / Real.pi))
  rw [sub_add_sub_cancel, ← mul_sub, _root_.abs_mul r.val, kv'] at t
  have d : |(15019744 / 2 ^ 18 : ℝ) - 180 / Real.pi| ≤ 33 / 40 / 2 ^ 18 := by
    have pp := Real.pi_pos
    have q1 : 180 / Real.pi ≤ (15019744 + 33 / 40) / 2 ^ 18 := by rw [div_le_iff₀ pp]; norm_num at *; linarith
    have q2 : 15019744 / 2 ^ 18 ≤ 180 / Real.pi := by rw [le_div_iff₀ pp]; norm_num at *; linarith
    rw [_root_.abs_le]; constructor <;> norm_num at * <;> linarith
  have d' := mul_le_mul_of_nonneg_left d (abs_nonneg r.val)
  rw [kv'] at er
  refine t.trans ((add_le_add er d').trans ?_)
  have := abs_nonneg r.val
  generalize |r.val| = q at *
  norm_num at *; linarith

/-- degrees to radians and back -/
theorem degrees_back (x : F32) (h : FinWithin (2 ^ 99) x) :
    (radToDeg (degToRad x)).isFin = true ∧ |(radToDeg (degToRad x)).val - x.val| ≤ |x.val| / 2 ^ 22 + 1 / 2 ^ 143 := by
  have lo := Real.pi_gt_d20
  have hi := Real.pi_lt_d20
  have pp := Real.pi_pos
  obtain ⟨f, e⟩ := C108_radians x h.1 (h.2.trans (by norm_num))
  set r := degToRad x
  have t0 : Real.pi / 180 ≤ 1745330 / 100000000 := by norm_num at *; linarith
  have k0 : 180 / Real.pi ≤ 15019745 / 2 ^ 18 := by rw [div_le_iff₀ pp]; norm_num at *; linarith
  have k1 : 0 ≤ 180 / Real.pi := by positivity
  have rb : |r.val| ≤ |x.val| * (1745331 / 100000000) + 1 / 2 ^ 150 := by
    have b2 := abs_add_le (r.val - x.val * (Real.pi / 180)) (x.val * (Real.pi / 180))
    rw [sub_add_cancel, _root_.abs_mul x.val, abs_of_nonneg (by positivity : 0 ≤ Real.pi / 180)] at b2
    have := mul_le_mul_of_nonneg_left t0 (abs_nonneg x.val)
    have := abs_nonneg x.val
    generalize |x.val| = q at *
    generalize |r.val - x.val * (Real.pi / 180)| = q' at *
    norm_num at *; linarith
  obtain ⟨f', e'⟩ := C130_to_degrees r f (rb.trans (by have := h.2; norm_num at this ⊢; linarith))
  refine ⟨f', ?_⟩
  have s := abs_add_le ((radToDeg r).val - r.val * (180 / Real.pi)) (r.val * (180 / Real.pi) - x.val)
  rw [sub_add_sub_cancel] at s
  have s2 : r.val * (180 / Real.pi) - x.val = (r.val - x.val * (Real.pi / 180)) * (180 / Real.pi) := by field_simp
  rw [s2, _root_.abs_mul, abs_of_nonneg k1] at s
  have s3 := mul_le_mul e k0 k1 (by positivity)
  have := abs_nonneg x.val
  generalize |x.val| = q at *
  generalize |r.val| = q'' at *
  refine s.trans ((add_le_add e' s3).trans ?_)
  norm_num at *; linarith

/-- C130: angles given in degrees are read back within `|angle|/2^22`, about two units in the last place. -/
theorem C130_degrees (x y z : F32) (o : EulerOrder) (hx : FinWithin (2 ^ 99) x) (hy : FinWithin (2 ^ 99) y) (hz : FinWithin (2 ^ 99) z) :
    let e := Euler.initWithOrder x y z o
    (e.getX.isFin = true ∧ |e.getX.val - x.val| ≤ |x.val| / 2 ^ 22 + 1 / 2 ^ 143) ∧
    (e.getY.isFin = true ∧ |e.getY.val - y.val| ≤ |y.val| / 2 ^ 22 + 1 / 2 ^ 143) ∧
    (e.getZ.isFin = true ∧ |e.getZ.val - z.val| ≤ |z.val| / 2 ^ 22 + 1 / 2 ^ 143) :=
  ⟨degrees_back x hx, degrees_back y hy, degrees_back z hz⟩

/-- C130: for every float, special or not: the vector of the angles holds exactly what the three accessors return, and
giving the angles as a vector is exactly giving them one by one. -/
theorem C130_vector (e : Euler F32) (x y z : F32) (o : EulerOrder) :
    (e.toVec3.getX = e.getX ∧ e.toVec3.getY = e.getY ∧ e.toVec3.getZ = e.getZ) ∧
    Euler.initFromVec3 (some (Vec3.init x y z)) o = Euler.initWithOrder x y z o := by
  refine ⟨⟨rfl, rfl, rfl⟩, ?_⟩
  have h0 : Fp.mul (f0 : F32) (Fp.div (Scalar.pi : F32) (Scalar.lit 180 1)) = f0 := by kdecide
  show (⟨⟨⟨_, _, _, Fp.mul (f0 : F32) (Fp.div (Scalar.pi : F32) (Scalar.lit 180 1))⟩⟩, _⟩ : Euler F32) = _
  rw [h0]
  rfl

/-! ## The quaternion -/

/-- the quaternion `euler_to_quaternion` computes, against its formula evaluated exactly -/
theorem toQuaternion_close (ht : TrigAccurate) (o : EulerOrder) (x y z : F32) (hx : FinWithin (2 ^ 16) x) (hy : FinWithin (2 ^ 16) y)
    (hz : FinWithin (2 ^ 16) z) :
    let q := (Euler.initFromRadians x y z o).toQuaternion
    FiniteQ q ∧ ‖ham q - quat (Euler.initFromRadians x.val y.val z.val o).toQuaternion‖ ≤ 3 / 2 ^ 20 := by
  have hr : ∀ {a : F32}, a.isFin = true → Rnd (a.val / 2) (Fp.mul a (Scalar.lit 1 2)) := by
    intro a ha
    have := rnd_mul ha Newton.half.1
    rwa [Newton.half.2, mul_one_div] at this
  obtain ⟨si, ci⟩ := half_trig ht hx.1 hx.2 (hr hx.1)
  obtain ⟨sj, cj⟩ := half_trig ht hy.1 hy.2 (hr hy.1)
  obtain ⟨sk, ck⟩ := half_trig ht hz.1 hz.2 (hr hz.1)
  have m2 : ∀ {a b : F32} {u v : ℝ}, Approx a u 1 (1 + 9 / 2 ^ 26) → Approx b v 1 (1 + 9 / 2 ^ 26) →
      Approx (Fp.mul a b) (u * v) 1 (1 + 23 / 2 ^ 26) := by
    intro a b u v h g
    have := mul2_approx h g (by norm_num)
    rw [_root_.one_mul] at this
    exact this.mono (by norm_num)
  have m3 : ∀ {a b : F32} {u v : ℝ}, Approx a u 1 (1 + 9 / 2 ^ 26) → Approx b v 1 (1 + 23 / 2 ^ 26) →
      Approx (Fp.mul a b) (u * v) 1 (1 + 37 / 2 ^ 26) := by
    intro a b u v h g
    have := mul2_approx h g (by norm_num)
    rw [_root_.one_mul] at this
    exact this.mono (by norm_num)
  have cc := m2 ci ck
  have cs := m2 ci sk
  have sc := m2 si ck
  have ss := m2 si sk
  have A : ∀ {a b : F32} {u v : ℝ}, Approx a u 1 (1 + 37 / 2 ^ 26) → Approx b v 1 (1 + 37 / 2 ^ 26) →
      Approx (Fp.add a b) (u + v) 2 (2 + 3 / 2 ^ 21) := by
    intro a b u v h g
    exact ((sum2_approx h g (by norm_num)).congr rfl (by norm_num)).mono (by norm_num)
  have S : ∀ {a b : F32} {u v : ℝ}, Approx a u 1 (1 + 37 / 2 ^ 26) → Approx b v 1 (1 + 37 / 2 ^ 26) →
      Approx (Fp.sub a b) (u - v) 2 (2 + 3 / 2 ^ 21) := by
    intro a b u v h g
    exact ((sub2_approx h g (by norm_num)).congr rfl (by norm_num)).mono (by norm_num)
  have A' : ∀ {c a b : F32} {w u v : ℝ}, Approx c w 1 (1 + 9 / 2 ^ 26) → Approx a u 1 (1 + 23 / 2 ^ 26) → Approx b v 1 (1 + 23 / 2 ^ 26) →
      Approx (Fp.mul c (Fp.add a b)) (w * (u + v)) 2 (2 + 3 / 2 ^ 21) := by
    intro c a b w u v k h g
    exact ((mul2_approx k (sum2_approx h g (by norm_num)) (by norm_num)).congr rfl (by norm_num)).mono (by norm_num)
  have S' : ∀ {c a b : F32} {w u v : ℝ}, Approx c w 1 (1 + 9 / 2 ^ 26) → Approx a u 1 (1 + 23 / 2 ^ 26) → Approx b v 1 (1 + 23 / 2 ^ 26) →
      Approx (Fp.mul c (Fp.sub a b)) (w * (u - v)) 2 (2 + 3 / 2 ^ 21) := by
    intro c a b w u v k h g
    exact ((mul2_approx k (sub2_approx h g (by norm_num)) (by norm_num)).congr rfl (by norm_num)).mono (by norm_num)
  have N : ∀ {a : F32} {u : ℝ}, Approx a u 2 (2 + 3 / 2 ^ 21) → Approx (Fp.mul a (Fp.lit (-1) 1)) (-u) 2 (2 + 3 / 2 ^ 21) := by
    intro a u h
    rw [mul_negOne32]; exact h.neg
  -- the formula in the reals
  have hh : ∀ t : ℝ, t *. Scalar.lit 1 2 = t / 2 := fun t => by simp [div_eq_mul_inv]
  have hm : ∀ t : ℝ, t *. Scalar.lit (-1) 1 = -t := fun t => by simp
  intro q
  obtain ⟨wx, wy, wz, ww⟩ : Approx q.x (Euler.initFromRadians x.val y.val z.val o).toQuaternion.x 2 (2 + 3 / 2 ^ 21) ∧
      Approx q.y (Euler.initFromRadians x.val y.val z.val o).toQuaternion.y 2 (2 + 3 / 2 ^ 21) ∧
      Approx q.z (Euler.initFromRadians x.val y.val z.val o).toQuaternion.z 2 (2 + 3 / 2 ^ 21) ∧
      Approx q.w (Euler.initFromRadians x.val y.val z.val o).toQuaternion.w 2 (2 + 3 / 2 ^ 21) := by
    have e1 : (Euler.initFromRadians x.val y.val z.val o).order = .real o.realOrder := rfl
    have e2 : (Euler.initFromRadians x y z o).order = .real o.realOrder := rfl
    have x1 : (Euler.initFromRadians x.val y.val z.val o).angles = Vec3.init x.val y.val z.val := rfl
    have x2 : (Euler.initFromRadians x y z o).angles = Vec3.init x y z := rfl
    have gx : (Vec3.init x.val y.val z.val).getX = x.val := rfl
    have gy : (Vec3.init x.val y.val z.val).getY = y.val := rfl
    have gz : (Vec3.init x.val y.val z.val).getZ = z.val := rfl
    have fx : (Vec3.init x y z).getX = x := rfl
    have fy : (Vec3.init x y z).getY = y := rfl
    have fz : (Vec3.init x y z).getZ = z := rfl
    have e3 : (EulerOrder.real o.realOrder).realOrder = o.realOrder := rfl
    simp only [q, Euler.toQuaternion, e1, e2, e3, x1, x2, gx, gy, gz, fx, fy, fz, hh, hm]
    cases o.realOrder.params.repetition <;> cases o.realOrder.params.parity
    · exact ⟨S (m3 cj sc) (m3 sj cs), A (m3 cj ss) (m3 sj cc), S (m3 cj cs) (m3 sj sc), A (m3 cj cc) (m3 sj ss)⟩
    · exact ⟨S (m3 cj sc) (m3 sj cs), N (A (m3 cj ss) (m3 sj cc)), S (m3 cj cs) (m3 sj sc), A (m3 cj cc) (m3 sj ss)⟩
    · exact ⟨A' cj cs cc, A' sj cc ss, S' sj cs sc, S' cj cc ss⟩
    · exact ⟨A' cj cs cc, N (A' sj cc ss), S' sj cs sc, S' cj cc ss⟩
  have k : ∀ {a : F32} {u : ℝ}, Approx a u 2 (2 + 3 / 2 ^ 21) → |a.val - u| ≤ 3 / 2 ^ 21 := fun h => by have := h.err; linarith
  refine ⟨⟨wx.fin, wy.fin, wz.fin, ww.fin⟩, ?_⟩
  refine (norm_le_of_comp (e := 3 / 2 ^ 21) ?_ ?_ ?_ ?_).trans (by norm_num)
  · rw [Quaternion.re_sub]; exact k ww
  · rw [Quaternion.imI_sub]; exact k wx
  · rw [Quaternion.imJ_sub]; exact k wy
  · rw [Quaternion.imK_sub]; exact k wz

/-- C130: `euler_to_quaternion` (and `quaternion_init_from_euler`) for the orders for which it is right, SXYZ (the default)
and RZYX: the quaternion is finite, its length is within `3·2^-20` of 1, and the matrix computed from it has finite entries,
each within `15·2^-20` of the product of the exact rotations about the axes named by the order.  (For the other orders the
formula is wrong also in exact arithmetic, C78.) -/
theorem C130_quaternion (ht : TrigAccurate) (o : EulerOrder) (ho : QuatOrder o) (x y z : F32) (hx : FinWithin (2 ^ 16) x)
    (hy : FinWithin (2 ^ 16) y) (hz : FinWithin (2 ^ 16) z) :
    let q := Quat.initFromEuler (Euler.initFromRadians x y z o)
    FiniteQ q ∧ |‖ham q‖ - 1| ≤ 3 / 2 ^ 20 ∧
    ∀ i j, (mat q.toMatrix i j).isFin = true ∧ |(mat q.toMatrix i j).val - eulerMat o x.val y.val z.val i j| ≤ 15 / 2 ^ 20 := by
  intro q
  obtain ⟨hf, hn⟩ := toQuaternion_close ht o x y z hx hy hz
  obtain ⟨hu, hm, -⟩ := C78_quaternion_partial x.val y.val z.val o ho (GMatrix.initIdentity)
  set Q := (Euler.initFromRadians x.val y.val z.val o).toQuaternion with hQ
  have e : eulerMat o x.val y.val z.val = mat Q.toMatrix := by
    rw [hm]; exact (C77_to_matrix x.val y.val z.val o).symm
  have n1 : ‖quat Q‖ = 1 := by
    have h := quat_norm_sq Q
    have u : Q.x ^ 2 + Q.y ^ 2 + Q.z ^ 2 + Q.w ^ 2 = 1 := hu
    rw [u] at h
    nlinarith [norm_nonneg (quat Q)]
  have n2 : |‖ham q‖ - 1| ≤ 3 / 2 ^ 20 := by
    rw [← n1]; exact (abs_norm_sub_norm_le _ _).trans hn
  refine ⟨hf, n2, fun i j => ?_⟩
  have n3 := _root_.abs_le.1 n2
  obtain ⟨f, c⟩ := (C107_to_matrix q hf (by norm_num at n3 ⊢; nlinarith)).1 i j
  refine ⟨f, ?_⟩
  rw [e]
  have l := matrix_lip (exactQ q) Q i j
  have l2 : (‖quat (exactQ q)‖ + ‖quat Q‖) * ‖quat (exactQ q) - quat Q‖ ≤ (1 + 3 / 2 ^ 20 + 1) * (3 / 2 ^ 20) := by
    refine mul_le_mul ?_ hn (norm_nonneg _) (by norm_num)
    rw [n1]
    have : ‖quat (exactQ q)‖ ≤ 1 + 3 / 2 ^ 20 := by change ‖ham q‖ ≤ _; linarith [n3.2]
    linarith
  have := abs_sub_le (mat q.toMatrix i j).val (mat (exactQ q).toMatrix i j) (mat Q.toMatrix i j)
  norm_num at *; linarith

/-- C130: `matrix_rotate_euler` for those orders: a finite matrix whose entries are at most `B` is multiplied by the exact
rotation, up to `B/2^14` per entry. -/
theorem C130_rotate (ht : TrigAccurate) (o : EulerOrder) (ho : QuatOrder o) (x y z : F32) (hx : FinWithin (2 ^ 16) x)
    (hy : FinWithin (2 ^ 16) y) (hz : FinWithin (2 ^ 16) z) (m : M4 F32) (B : ℝ) (hB : B ≤ 2 ^ 120) (hm : ∀ i j, FinWithin B (mat m i j)) (i j : Fin 4) :
    (mat (GMatrix.rotateEuler m (Euler.initFromRadians x y z o)) i j).isFin = true ∧
      |(mat (GMatrix.rotateEuler m (Euler.initFromRadians x y z o)) i j).val - (rmat m * eulerMat o x.val y.val z.val) i j| ≤
        B / 2 ^ 14 + 1 / 2 ^ 140 := by
  obtain ⟨-, -, hq⟩ := C130_quaternion ht o ho x y z hx hy hz
  set R := (Quat.initFromEuler (Euler.initFromRadians x y z o)).toMatrix with hR
  set X := eulerMat o x.val y.val z.val with hX
  have B0 : 0 ≤ B := (abs_nonneg _).trans (hm 0 0).2
  have xb : ∀ k, |X k j| ≤ 1 := fun k => by
    have e : X = mat (Euler.initFromRadians x.val y.val z.val o).toMatrix := (C77_to_matrix x.val y.val z.val o).symm
    have r := congrFun (congrFun (C77_rotation x.val y.val z.val o).1 k) k
    rw [← e, Matrix.mul_apply, Matrix.one_apply_eq] at r
    simp only [Matrix.transpose_apply] at r
    have : X k j * X k j ≤ 1 := by
      rw [← r]; exact Finset.single_le_sum (f := fun l => X k l * X k l) (fun l _ => mul_self_nonneg _) (Finset.mem_univ j)
    rw [← abs_mul_abs_self] at this
    nlinarith [abs_nonneg (X k j)]
  have rb : ∀ k, |rmat R k j| ≤ 1 + 15 / 2 ^ 20 := fun k => by
    have t := abs_add_le ((mat R k j).val - X k j) (X k j)
    rw [sub_add_cancel] at t
    exact t.trans (by linarith [xb k, (hq k j).2])
  have pr : ∀ k, |rmat m i k * rmat R k j| ≤ B * (1 + 15 / 2 ^ 20) := fun k => by
    rw [_root_.abs_mul]; exact mul_le_mul (hm i k).2 (rb k) (abs_nonneg _) B0
  have sum : ∑ k, |rmat m i k * rmat R k j| ≤ 4 * (B * (1 + 15 / 2 ^ 20)) := by
    refine (Finset.sum_le_sum fun k _ => pr k).trans ?_
    simp
  obtain ⟨f, e⟩ := C87_multiply m R (fun i j => (hm i j).1) (fun i j => (hq i j).1) i j (sum.trans (by norm_num at hB ⊢; linarith))
  refine ⟨f, ?_⟩
  change |rmat (GMatrix.multiply m R) i j - _| ≤ _
  have d : |(rmat m * rmat R) i j - (rmat m * X) i j| ≤ 4 * (B * (15 / 2 ^ 20)) := by
    rw [Matrix.mul_apply, Matrix.mul_apply, ← Finset.sum_sub_distrib]
    refine (Finset.abs_sum_le_sum_abs _ _).trans ((Finset.sum_le_sum (g := fun _ => B * (15 / 2 ^ 20)) fun k _ => ?_).trans (by simp))
    rw [← mul_sub, _root_.abs_mul]
    exact mul_le_mul (hm i k).2 (hq k j).2 (abs_nonneg _) B0
  have t := abs_sub_le (rmat (GMatrix.multiply m R) i j) ((rmat m * rmat R) i j) ((rmat m * X) i j)
  refine t.trans ((add_le_add e d).trans ?_)
  unfold dotErr
  norm_num at sum ⊢; linarith

/-! ## The hypotheses are met -/

theorem int_within (n : ℤ) (hn : n.natAbs ≤ 2 ^ 24) {B : ℝ} (hb : |(n : ℝ)| ≤ B) : FinWithin B (Fp.lit n 1 : F32) :=
  ⟨(lit_int n hn).1, by rw [(lit_int n hn).2]; exact hb⟩

/-- the angles -10, 20 and 100 radians in the order RXZY -/
example (ht : TrigAccurate) (i j : Fin 4) :
    |(mat (Euler.initFromRadians (Fp.lit (-10) 1 : F32) (Fp.lit 20 1) (Fp.lit 100 1) (.real .RXZY)).toMatrix i j).val -
      (axisMat .Y ((20 : ℤ) : ℝ) * axisMat .Z ((100 : ℤ) : ℝ) * axisMat .X ((-10 : ℤ) : ℝ)) i j| ≤ 5 / 2 ^ 22 := by
  have h := (C130_matrix ht (.real .RXZY) (Fp.lit (-10) 1) (Fp.lit 20 1) (Fp.lit 100 1) (int_within _ (by decide) (by norm_num))
    (int_within _ (by decide) (by norm_num)) (int_within _ (by decide) (by norm_num)) i j).2
  rw [(lit_int (-10) (by decide)).2, (lit_int 20 (by decide)).2, (lit_int 100 (by decide)).2] at h
  exact h

/-- a full turn about x and a quarter turn about z, in degrees -/
example (ht : TrigAccurate) (i j : Fin 4) :
    (mat (Euler.init (Fp.lit 360 1 : F32) (Fp.lit 0 1) (Fp.lit 90 1)).toMatrix i j).isFin = true :=
  (C130_matrix_degrees ht .default 360 (by norm_num) (Fp.lit 360 1) (Fp.lit 0 1) (Fp.lit 90 1) (int_within _ (by decide) (by norm_num))
    (int_within _ (by decide) (by norm_num)) (int_within _ (by decide) (by norm_num)) i j).1

/-- 90 degrees come back as 90 degrees -/
example : Euler.getX (Euler.init (Fp.lit 90 1 : F32) f0 f0) = Fp.lit 90 1 := by kdecide

/-- but not every angle comes back exactly: 1 degree does not -/
example : Euler.getY (Euler.init f0 (Fp.lit 1 1 : F32) f0) ≠ Fp.lit 1 1 := by kdecide

/-- the default order has a right quaternion -/
example (ht : TrigAccurate) : FiniteQ (Quat.initFromEuler (Euler.initFromRadians (Fp.lit 1 1 : F32) (Fp.lit 2 1) (Fp.lit 3 1) .default)) :=
  (C130_quaternion ht .default (Or.inl rfl) (Fp.lit 1 1) (Fp.lit 2 1) (Fp.lit 3 1) (int_within _ (by decide) (by norm_num))
    (int_within _ (by decide) (by norm_num)) (int_within _ (by decide) (by norm_num))).1

end Graphene
