/-
  C131: Euler angles recovered from a matrix in floating point (IEEE binary32), for a C library whose atan2f is accurate.
-/
import Verif.Props.Float37
import Verif.Props.Float4
import Verif.Props.Float20

set_option exponentiation.threshold 3000

namespace Graphene
open Fp Spec
variable [Libm binary32]

/-- `atan2f` of the C library, for finite arguments: a finite angle of magnitude at most 4, within `2^-22` of an angle of the
direction of the point `(b, a)` (any angle, when both are zero).  (glibc, musl and the others stay below one unit in the last
place, at most `2^-22`; signed zeros choose between `π` and `-π`.) -/
def Spec.Atan2Accurate : Prop :=
  ∀ a b : F32, a.isFin = true → b.isFin = true →
    (Libm.atan2 a b).isFin = true ∧ |(Libm.atan2 a b).val| ≤ 4 ∧
    ∃ φ : ℝ, √(a.val ^ 2 + b.val ^ 2) * Real.cos φ = b.val ∧ √(a.val ^ 2 + b.val ^ 2) * Real.sin φ = a.val ∧
      |(Libm.atan2 a b).val - φ| ≤ 1 / 2 ^ 22

omit [Libm binary32] in
/-- the distance of two lengths -/
theorem hyp_near {a b A B ε : ℝ} (ha : |a - A| ≤ ε) (hb : |b - B| ≤ ε) : |√(a ^ 2 + b ^ 2) - √(A ^ 2 + B ^ 2)| ≤ 3 / 2 * ε := by
  have e0 : 0 ≤ ε := (abs_nonneg _).trans ha
  have p : 0 ≤ a ^ 2 + b ^ 2 := by positivity
  have P : 0 ≤ A ^ 2 + B ^ 2 := by positivity
  have s := Real.sq_sqrt p
  have S := Real.sq_sqrt P
  have s0 := Real.sqrt_nonneg (a ^ 2 + b ^ 2)
  have S0 := Real.sqrt_nonneg (A ^ 2 + B ^ 2)
  set r := √(a ^ 2 + b ^ 2)
  set R := √(A ^ 2 + B ^ 2)
  have cs : a * A + b * B ≤ r * R := by
    refine (le_abs_self _).trans (abs_le_of_sq_le_sq ?_ (by positivity))
    rw [mul_pow, s, S]; nlinarith [sq_nonneg (a * B - b * A)]
  have q1 : (a - A) ^ 2 ≤ ε ^ 2 := sq_le_sq' (by linarith [(_root_.abs_le.1 ha).1]) (_root_.abs_le.1 ha).2
  have q2 : (b - B) ^ 2 ≤ ε ^ 2 := sq_le_sq' (by linarith [(_root_.abs_le.1 hb).1]) (_root_.abs_le.1 hb).2
  apply abs_le_of_sq_le_sq ?_ (by positivity)
  nlinarith

omit [Libm binary32] in
/-- the direction of a point near another point at distance `ρ` from the origin -/
theorem dir_near {a b θ φ ρ ε : ℝ} (hρ : 0 < ρ) (hc : |b - ρ * Real.cos θ| ≤ ε) (hs : |a - ρ * Real.sin θ| ≤ ε)
    (h1 : √(a ^ 2 + b ^ 2) * Real.cos φ = b) (h2 : √(a ^ 2 + b ^ 2) * Real.sin φ = a) :
    |Real.cos φ - Real.cos θ| ≤ 5 / 2 * ε / ρ ∧ |Real.sin φ - Real.sin θ| ≤ 5 / 2 * ε / ρ := by
  have l := hyp_near hs hc
  have e : √((ρ * Real.sin θ) ^ 2 + (ρ * Real.cos θ) ^ 2) = ρ := by
    rw [mul_pow, mul_pow, ← mul_add, Real.sin_sq_add_cos_sq, mul_one, Real.sqrt_sq hρ.le]
  rw [e] at l
  set r := √(a ^ 2 + b ^ 2)
  have k : ∀ {u v w : ℝ}, |u| ≤ 1 → r * u = w → |w - ρ * v| ≤ ε → |u - v| ≤ 5 / 2 * ε / ρ := by
    intro u v w hu hw h
    have : (u - v) * ρ = (ρ - r) * u + (w - ρ * v) := by rw [← hw]; ring
    have e : |u - v| * ρ = |(u - v) * ρ| := by rw [_root_.abs_mul, abs_of_pos hρ]
    rw [le_div_iff₀ hρ, e, this]
    refine (abs_add_le _ _).trans ?_
    rw [_root_.abs_mul, _root_.abs_sub_comm ρ r]
    have := mul_le_mul l hu (abs_nonneg _) ((abs_nonneg _).trans l)
    linarith
  exact ⟨k (Real.abs_cos_le_one _) h1 hc, k (Real.abs_sin_le_one _) h2 hs⟩

/-- the angle computed from two entries near `ρ (cos θ, sin θ)` -/
theorem atan2_near (hat : Atan2Accurate) {a b : F32} {θ ρ ε : ℝ} (fa : a.isFin = true) (fb : b.isFin = true) (hρ : 0 < ρ)
    (hc : |b.val - ρ * Real.cos θ| ≤ ε) (hs : |a.val - ρ * Real.sin θ| ≤ ε) :
    |Real.cos (Libm.atan2 a b).val - Real.cos θ| ≤ 5 / 2 * ε / ρ + 1 / 2 ^ 22 ∧
    |Real.sin (Libm.atan2 a b).val - Real.sin θ| ≤ 5 / 2 * ε / ρ + 1 / 2 ^ 22 := by
  obtain ⟨-, -, φ, h1, h2, h3⟩ := hat a b fa fb
  obtain ⟨c, s⟩ := dir_near hρ hc hs h1 h2
  have c' := Real.abs_cos_sub_cos_le (Libm.atan2 a b).val φ
  have s' := Real.abs_sin_sub_sin_le (Libm.atan2 a b).val φ
  constructor
  · have := abs_sub_le (Real.cos (Libm.atan2 a b).val) (Real.cos φ) (Real.cos θ); linarith
  · have := abs_sub_le (Real.sin (Libm.atan2 a b).val) (Real.sin φ) (Real.sin θ); linarith

/-- the length of two entries -/
theorem cy_near {a b : F32} {A B ε : ℝ} (fa : a.isFin = true) (fb : b.isFin = true) (ha : |a.val - A| ≤ ε) (hb : |b.val - B| ≤ ε)
    (hε : ε ≤ 1 / 16) (h1 : A ^ 2 + B ^ 2 ≤ 1) :
    let r := Fp.sqrt (Fp.add (Fp.mul a a) (Fp.mul b b))
    r.isFin = true ∧ |r.val - √(A ^ 2 + B ^ 2)| ≤ 3 / 2 * ε + 3 / 2 ^ 22 := by
  intro r
  have l := hyp_near ha hb
  have L1 : √(A ^ 2 + B ^ 2) ≤ 1 := Real.sqrt_le_one.2 h1
  have lb := (_root_.abs_le.1 l).2
  have hl : √(a.val ^ 2 + b.val ^ 2) ≤ 5 / 4 := by linarith
  have hq : a.val ^ 2 + b.val ^ 2 ≤ 25 / 16 := by
    rw [Real.sqrt_le_left (by norm_num)] at hl; linarith
  obtain ⟨f, e⟩ := C85_length2 .gcc (by decide) (Vec2.init a b) ⟨fa, fb⟩ (hq.trans (by norm_num))
  refine ⟨f, ?_⟩
  have t := abs_sub_le r.val (√(a.val ^ 2 + b.val ^ 2)) (√(A ^ 2 + B ^ 2))
  have e' : |r.val - √(a.val ^ 2 + b.val ^ 2)| ≤ lengthErr √(a.val ^ 2 + b.val ^ 2) := e
  unfold lengthErr at e'
  norm_num at *; linarith

/-! ## The canonical order -/

omit [Libm binary32] in
/-- the entries of a product of rotations about x, y and z -/
theorem xyz_entries (x y z : ℝ) : axisMat .X x * axisMat .Y y * axisMat .Z z =
    !![Real.cos y * Real.cos z, Real.cos y * Real.sin z, -Real.sin y, 0;
       Real.sin x * Real.sin y * Real.cos z - Real.cos x * Real.sin z, Real.sin x * Real.sin y * Real.sin z + Real.cos x * Real.cos z,
         Real.sin x * Real.cos y, 0;
       Real.cos x * Real.sin y * Real.cos z + Real.sin x * Real.sin z, Real.cos x * Real.sin y * Real.sin z - Real.sin x * Real.cos z,
         Real.cos x * Real.cos y, 0; 0, 0, 0, 1] := by
  ext i j
  fin_cases i <;> fin_cases j <;> simp [axisMat, Matrix.mul_apply, Fin.sum_univ_succ] <;> ring

omit [Libm binary32] in
/-- the angles of a rotation that is not in gimbal lock -/
theorem sxyz_param {m : M4 ℝ} (h : Rotation m) (hg : m.x.z ^ 2 < 1) :
    ∃ x y z : ℝ, let c := √(1 - m.x.z ^ 2)
      axisMat .X x * axisMat .Y y * axisMat .Z z = mat m ∧ Real.cos y = c ∧ Real.sin y = -m.x.z ∧
      c * Real.cos x = m.z.z ∧ c * Real.sin x = m.y.z ∧ c * Real.cos z = m.x.x ∧ c * Real.sin z = m.x.y := by
  obtain ⟨⟨n1, n2, n3, n4, n5, n6⟩, k1, k2, k3, k4, k5, k6, k7, k8, k9⟩ := h.entries
  have hA := h.affine
  have hF := h.fixed
  obtain ⟨⟨m00, m01, m02, m03⟩, ⟨m10, m11, m12, m13⟩, ⟨m20, m21, m22, m23⟩, ⟨m30, m31, m32, m33⟩⟩ := m
  simp only [V4.mk.injEq, Affine] at hA hF
  obtain ⟨rfl, rfl, rfl, rfl⟩ := hF
  obtain ⟨rfl, rfl, rfl, -⟩ := hA
  dsimp only at *
  set cy := √(1 - m02 ^ 2) with hcy'
  have cpos : 0 < cy := Real.sqrt_pos.mpr (by linarith)
  have csq : cy ^ 2 = 1 - m02 ^ 2 := Real.sq_sqrt (by linarith)
  obtain ⟨c1, s1⟩ := cos_sin_arg (a := m22) (b := m12) cpos (by linarith)
  obtain ⟨c2, s2⟩ := cos_sin_arg (a := cy) (b := -m02) one_pos (by linarith)
  obtain ⟨c3, s3⟩ := cos_sin_arg (a := m00) (b := m01) cpos (by linarith)
  rw [one_mul] at c2 s2
  refine ⟨Complex.arg ⟨m22, m12⟩, Complex.arg ⟨cy, -m02⟩, Complex.arg ⟨m00, m01⟩, ?_, c2, s2, c1, s1, c3, s3⟩
  rw [xyz_entries]
  generalize Complex.arg ⟨m22, m12⟩ = x at *
  generalize Complex.arg ⟨cy, -m02⟩ = y at *
  generalize Complex.arg ⟨m00, m01⟩ = z at *
  have hne : cy ^ 2 ≠ 0 := by positivity
  have e10 : Real.sin x * Real.sin y * Real.cos z - Real.cos x * Real.sin z = m10 := by
    apply mul_left_cancel₀ hne
    have : cy ^ 2 * m10 = -m12 * m02 * m00 - m22 * m01 := by
      rw [csq]; linear_combination k4 + m02 * (k8 : m21 = _)
    rw [s2, this, ← s1, ← c3, ← c1, ← s3]; ring
  have e11 : Real.sin x * Real.sin y * Real.sin z + Real.cos x * Real.cos z = m11 := by
    apply mul_left_cancel₀ hne
    have : cy ^ 2 * m11 = -m12 * m02 * m01 + m22 * m00 := by
      rw [csq]; linear_combination k5 - m02 * (k7 : m20 = _)
    rw [s2, this, ← s1, ← c3, ← c1, ← s3]; ring
  have e20 : Real.cos x * Real.sin y * Real.cos z + Real.sin x * Real.sin z = m20 := by
    apply mul_left_cancel₀ hne
    have : cy ^ 2 * m20 = -m22 * m02 * m00 + m12 * m01 := by
      rw [csq]; linear_combination k7 - m02 * (k5 : m11 = _)
    rw [s2, this, ← s1, ← c3, ← c1, ← s3]; ring
  have e21 : Real.cos x * Real.sin y * Real.sin z - Real.sin x * Real.cos z = m21 := by
    apply mul_left_cancel₀ hne
    have : cy ^ 2 * m21 = -m22 * m02 * m01 - m12 * m00 := by
      rw [csq]; linear_combination k8 + m02 * (k4 : m10 = _)
    rw [s2, this, ← s1, ← c3, ← c1, ← s3]; ring
  rw [e10, e11, e20, e21, c2, c3, s3, s2, mul_comm _ cy, s1, mul_comm _ cy, c1, _root_.neg_neg]
  ext i j
  fin_cases i <;> fin_cases j <;> rfl

omit [Libm binary32] in
/-- rotations by nearby angles -/
theorem xyz_near {x y z x' y' z' d e : ℝ} (cx : |Real.cos x' - Real.cos x| ≤ d) (sx : |Real.sin x' - Real.sin x| ≤ d)
    (cy : |Real.cos y' - Real.cos y| ≤ e) (sy : |Real.sin y' - Real.sin y| ≤ e)
    (cz : |Real.cos z' - Real.cos z| ≤ d) (sz : |Real.sin z' - Real.sin z| ≤ d) (i j : Fin 4) :
    |(axisMat .X x' * axisMat .Y y' * axisMat .Z z') i j - (axisMat .X x * axisMat .Y y * axisMat .Z z) i j| ≤ 4 * d + e := by
  have d0 : 0 ≤ d := (abs_nonneg _).trans cx
  have e0 : 0 ≤ e := (abs_nonneg _).trans cy
  have two : ∀ {a b a' b' p q : ℝ}, |a'| ≤ 1 → |b| ≤ 1 → |a' - a| ≤ p → |b' - b| ≤ q → |a' * b' - a * b| ≤ p + q := by
    intro a b a' b' p q h1 h2 h3 h4
    have : a' * b' - a * b = a' * (b' - b) + (a' - a) * b := by ring
    rw [this]
    refine (abs_add_le _ _).trans ?_
    rw [_root_.abs_mul, _root_.abs_mul]
    have u := mul_le_mul h1 h4 (abs_nonneg _) (by norm_num)
    have v := mul_le_mul h3 h2 (abs_nonneg _) ((abs_nonneg _).trans h3)
    linarith
  have C := Real.abs_cos_le_one
  have S := Real.abs_sin_le_one
  have P : ∀ {a b : ℝ}, |a| ≤ 1 → |b| ≤ 1 → |a * b| ≤ 1 := by
    intro a b h g
    rw [_root_.abs_mul]; nlinarith [abs_nonneg a, abs_nonneg b]
  have add : ∀ {a b a' b' p q : ℝ}, |a' - a| ≤ p → |b' - b| ≤ q → |a' + b' - (a + b)| ≤ p + q := by
    intro a b a' b' p q h g
    rw [add_sub_add_comm]; exact (abs_add_le _ _).trans (add_le_add h g)
  have sub : ∀ {a b a' b' p q : ℝ}, |a' - a| ≤ p → |b' - b| ≤ q → |a' - b' - (a - b)| ≤ p + q := by
    intro a b a' b' p q h g
    rw [sub_sub_sub_comm]; exact (abs_sub _ _).trans (add_le_add h g)
  have k0 : |(0 : ℝ) - 0| ≤ 4 * d + e := by rw [sub_self, abs_zero]; positivity
  have k1 : |(1 : ℝ) - 1| ≤ 4 * d + e := by rw [sub_self, abs_zero]; positivity
  rw [xyz_entries, xyz_entries]
  fin_cases i <;> fin_cases j
  · exact (two (C _) (C _) cy cz).trans (by linarith)
  · exact (two (C _) (S _) cy sz).trans (by linarith)
  · show |-Real.sin y' - -Real.sin y| ≤ _
    rw [neg_sub_neg, _root_.abs_sub_comm]; linarith
  · exact k0
  · exact (sub (two (P (S _) (S _)) (C _) (two (S _) (S _) sx sy) cz) (two (C _) (S _) cx sz)).trans (by linarith)
  · exact (add (two (P (S _) (S _)) (S _) (two (S _) (S _) sx sy) sz) (two (C _) (C _) cx cz)).trans (by linarith)
  · exact (two (S _) (C _) sx cy).trans (by linarith)
  · exact k0
  · exact (add (two (P (C _) (S _)) (C _) (two (C _) (S _) cx sy) cz) (two (S _) (S _) sx sz)).trans (by linarith)
  · exact (sub (two (P (C _) (S _)) (S _) (two (C _) (S _) cx sy) sz) (two (S _) (C _) sx cz)).trans (by linarith)
  · exact (two (C _) (C _) cx cy).trans (by linarith)
  · exact k0
  · exact k0
  · exact k0
  · exact k0
  · exact k1

omit [Libm binary32] in
theorem abs_le_of_sum {t u c : ℝ} (h : t ^ 2 + u ^ 2 = c ^ 2) (c0 : 0 ≤ c) : |t| ≤ c :=
  abs_le_of_sq_le_sq (by linarith [sq_nonneg u]) c0

omit [Libm binary32] in
theorem rho_bound {ρ t c : ℝ} (ρ0 : 0 ≤ ρ) (h : ρ ^ 2 = 1 - t ^ 2) (ht : t ^ 2 ≤ c ^ 2) : |ρ - 1| ≤ c ^ 2 := by
  have q : ρ ≤ 1 := by nlinarith [sq_nonneg t]
  rw [_root_.abs_le]
  constructor <;> nlinarith [sq_nonneg c]

omit [Libm binary32] in
theorem sq_le_part {c B : ℝ} (c0 : 0 ≤ c) (h : c ≤ B) : c ^ 2 ≤ B * c := by
  rw [sq]; exact mul_le_mul_of_nonneg_right h c0

omit [Libm binary32] in
/-- close to gimbal lock, a rotation is close to one with no third angle -/
theorem lock_near {R : M4 ℝ} (hR : Rotation R) {c x y ρ θ d e : ℝ} (csq : c ^ 2 = 1 - R.x.z ^ 2) (c0 : 0 ≤ c) (c1 : c ≤ 1 / 16)
    (ρ0 : 0 ≤ ρ) (ρsq : ρ ^ 2 = 1 - R.x.y ^ 2) (h1 : ρ * Real.cos θ = R.y.y) (h2 : ρ * Real.sin θ = -R.z.y)
    (cx : |Real.cos x - Real.cos θ| ≤ d) (sx : |Real.sin x - Real.sin θ| ≤ d)
    (cy : |Real.cos y - c| ≤ e) (sy : |Real.sin y - -R.x.z| ≤ e) (i j : Fin 4) :
    |(axisMat .X x * axisMat .Y y * axisMat .Z 0) i j - mat R i j| ≤ 2 * c + d + e := by
  obtain ⟨⟨n1, n2, n3, n4, n5, n6⟩, k1, k2, k3, k4, k5, k6, k7, k8, k9⟩ := hR.entries
  have hA := hR.affine
  have hF := hR.fixed
  clear hR
  obtain ⟨⟨m00, m01, m02, m03⟩, ⟨m10, m11, m12, m13⟩, ⟨m20, m21, m22, m23⟩, ⟨m30, m31, m32, m33⟩⟩ := R
  simp only [V4.mk.injEq, Affine] at hA hF
  obtain ⟨rfl, rfl, rfl, rfl⟩ := hF
  obtain ⟨rfl, rfl, rfl, -⟩ := hA
  dsimp only at *
  have d0 : 0 ≤ d := (abs_nonneg _).trans cx
  have e0 : 0 ≤ e := (abs_nonneg _).trans cy
  have small : ∀ t u : ℝ, t ^ 2 + u ^ 2 = c ^ 2 → |t| ≤ c := fun t u h => abs_le_of_sum h c0
  have b00 := small m00 m01 (by linarith)
  have b01 := small m01 m00 (by linarith)
  have b12 := small m12 m22 (by linarith)
  have b22 := small m22 m12 (by linarith)
  have cc := sq_le_part c0 c1
  have ρb : |ρ - 1| ≤ c ^ 2 := rho_bound ρ0 ρsq (by linarith [sq_nonneg m00])
  have one : ∀ {t u : ℝ}, t ^ 2 + u ^ 2 = 1 → |t| ≤ 1 := fun {t u} h => abs_le_of_sum (u := u) (by linarith) zero_le_one
  have near : ∀ {t u w : ℝ}, |u| ≤ 1 → ρ * u = w → |t - u| ≤ d → |t - w| ≤ d + c ^ 2 := by
    intro t u w hu hw h
    have : t - w = (t - u) - (ρ - 1) * u := by rw [← hw]; ring
    rw [this]
    refine (abs_sub _ _).trans ?_
    rw [_root_.abs_mul]
    have := mul_le_mul ρb hu (abs_nonneg _) (sq_nonneg c)
    linarith
  have x1 := near (Real.abs_cos_le_one _) h1 cx
  have x2 := near (Real.abs_sin_le_one _) h2 sx
  have two : ∀ {a b a' b' p q : ℝ}, |a'| ≤ 1 → |b| ≤ 1 → |a' - a| ≤ p → |b' - b| ≤ q → |a' * b' - a * b| ≤ p + q := by
    intro a b a' b' p q h1 h2 h3 h4
    have : a' * b' - a * b = a' * (b' - b) + (a' - a) * b := by ring
    rw [this]
    refine (abs_add_le _ _).trans ?_
    rw [_root_.abs_mul, _root_.abs_mul]
    have u := mul_le_mul h1 h4 (abs_nonneg _) (by norm_num)
    have v := mul_le_mul h3 h2 (abs_nonneg _) ((abs_nonneg _).trans h3)
    linarith
  have m02b : |-m02| ≤ 1 := by rw [_root_.abs_neg]; exact one (u := c) (by linarith)
  have pr : ∀ {t u : ℝ}, |t| ≤ c → |u| ≤ c → |t * u| ≤ c ^ 2 := by
    intro t u h g
    rw [_root_.abs_mul, sq]; exact mul_le_mul h g (abs_nonneg _) c0
  have ycos : |Real.cos y| ≤ c + e := by
    have := abs_add_le (Real.cos y - c) c
    rw [sub_add_cancel, abs_of_nonneg c0] at this; linarith
  have tiny : ∀ {t u : ℝ}, |t| ≤ 1 → |u| ≤ c → |t * Real.cos y - u| ≤ 2 * c + d + e := by
    intro t u h g
    refine (abs_sub _ _).trans ?_
    rw [_root_.abs_mul]
    have := mul_le_mul h ycos (abs_nonneg _) (by norm_num)
    linarith
  have C := Real.abs_cos_le_one
  have S := Real.abs_sin_le_one
  have k0' : |(0 : ℝ) - 0| ≤ 2 * c + d + e := by rw [sub_self, abs_zero]; positivity
  have k1' : |(1 : ℝ) - 1| ≤ 2 * c + d + e := by rw [sub_self, abs_zero]; positivity
  have p10 := two (S x) m02b x2 sy
  have p20 := two (C x) m02b x1 sy
  have q10 := pr b22 b01
  have q20 := pr b01 b12
  rw [xyz_entries, Real.cos_zero, Real.sin_zero]
  simp only [mul_one, mul_zero, sub_zero, zero_add, add_zero, zero_sub]
  clear k1 k2 k3 k5 k6 k8 k9 n1 n2 n3 n4 n5 n6 h1 h2 ρsq near two pr small one
  fin_cases i <;> fin_cases j
  · show |Real.cos y - m00| ≤ _
    have := tiny (t := 1) (u := m00) (by simp) b00
    rwa [one_mul] at this
  · show |0 - m01| ≤ _
    rw [zero_sub, _root_.abs_neg]; linarith
  · show |-Real.sin y - m02| ≤ _
    rw [← _root_.abs_neg, show -(-Real.sin y - m02) = Real.sin y - -m02 by ring]; linarith
  · exact k0'
  · show |Real.sin x * Real.sin y - m10| ≤ _
    have : Real.sin x * Real.sin y - m10 = (Real.sin x * Real.sin y - -m21 * -m02) + m22 * m01 := by rw [k4]; ring
    rw [this]
    refine (abs_add_le _ _).trans ?_
    linarith
  · show |Real.cos x - m11| ≤ _
    linarith
  · exact tiny (S x) b12
  · exact k0'
  · show |Real.cos x * Real.sin y - m20| ≤ _
    have : Real.cos x * Real.sin y - m20 = (Real.cos x * Real.sin y - m11 * -m02) - m01 * m12 := by rw [k7]; ring
    rw [this]
    refine (abs_sub _ _).trans ?_
    linarith
  · show |-Real.sin x - m21| ≤ _
    rw [← _root_.abs_neg, show -(-Real.sin x - m21) = Real.sin x - -m21 by ring]; linarith
  · exact tiny (C x) b22
  · exact k0'
  · exact k0'
  · exact k0'
  · exact k0'
  · exact k1'

/-- `matrix_to_euler` for the order SXYZ, on an array of entries -/
def anglesF (N : Fin 4 → Fin 4 → F32) : F32 × F32 × F32 :=
  let cy := Fp.sqrt (Fp.add (Fp.mul (N 0 0) (N 0 0)) (Fp.mul (N 0 1) (N 0 1)))
  if (Fp.mul (Fp.lit 16 1) fltEps).le cy then
    (Libm.atan2 (N 1 2) (N 2 2), Libm.atan2 (Fp.mul (N 0 2) (Fp.lit (-1) 1)) cy, Libm.atan2 (N 0 1) (N 0 0))
  else
    (Libm.atan2 (Fp.mul (N 2 1) (Fp.lit (-1) 1)) (N 1 1), Libm.atan2 (Fp.mul (N 0 2) (Fp.lit (-1) 1)) cy, f0)

/-- the threshold of `matrix_to_euler` -/
theorem thr_val : (Fp.mul (Fp.lit 16 1) (fltEps : F32)).isFin = true ∧ (Fp.mul (Fp.lit 16 1) (fltEps : F32)).val = 1 / 2 ^ 19 := by
  have e : Fp.mul (Fp.lit 16 1) (fltEps : F32) = Fp.lit 1 (2 ^ 19) := by kdecide
  rw [e]
  simpa using lit_dyadic 1 19 (by norm_num) (by norm_num)

/-- the entries of the array are finite and within `ε` of those of a rotation -/
def Spec.EntriesNear (N : Fin 4 → Fin 4 → F32) (R : M4 ℝ) (ε : ℝ) : Prop :=
  ∀ i j : Fin 4, i ≠ 3 → j ≠ 3 → (N i j).isFin = true ∧ |(N i j).val - mat R i j| ≤ ε

set_option maxHeartbeats 1000000 in
theorem anglesF_close (hat : Atan2Accurate) {N : Fin 4 → Fin 4 → F32} {R : M4 ℝ} {ε : ℝ} (hR : Rotation R) (hN : EntriesNear N R ε)
    (hε : ε ≤ 1 / 32) :
    let c := √(1 - R.x.z ^ 2)
    let a := anglesF N
    (FinWithin 4 a.1 ∧ FinWithin 4 a.2.1 ∧ FinWithin 4 a.2.2) ∧
    ∀ i j, (0 < c → |(axisMat .X a.1.val * axisMat .Y a.2.1.val * axisMat .Z a.2.2.val) i j - mat R i j| ≤ 10 * ε / c + 4 * ε + 1 / 2 ^ 17) ∧
      (c + 3 / 2 * ε ≤ 1 / 2 ^ 20 → |(axisMat .X a.1.val * axisMat .Y a.2.1.val * axisMat .Z a.2.2.val) i j - mat R i j| ≤ 10 * ε + 1 / 2 ^ 17) := by
  intro c a
  have e0 : 0 ≤ ε := (abs_nonneg _).trans (hN 0 0 (by decide) (by decide)).2
  obtain ⟨⟨n1, n2, n3, n4, n5, n6⟩, k1, k2, k3, k4, k5, k6, k7, k8, k9⟩ := hR.entries
  have f : ∀ i j : Fin 4, i ≠ 3 → j ≠ 3 → (N i j).isFin = true := fun i j h g => (hN i j h g).1
  have f00 := f 0 0 (by decide) (by decide)
  have f01 := f 0 1 (by decide) (by decide)
  have f02 := f 0 2 (by decide) (by decide)
  have f11 := f 1 1 (by decide) (by decide)
  have f12 := f 1 2 (by decide) (by decide)
  have f21 := f 2 1 (by decide) (by decide)
  have f22 := f 2 2 (by decide) (by decide)
  have v00 : |(N 0 0).val - R.x.x| ≤ ε := (hN 0 0 (by decide) (by decide)).2
  have v01 : |(N 0 1).val - R.x.y| ≤ ε := (hN 0 1 (by decide) (by decide)).2
  have v02 : |(N 0 2).val - R.x.z| ≤ ε := (hN 0 2 (by decide) (by decide)).2
  have v11 : |(N 1 1).val - R.y.y| ≤ ε := (hN 1 1 (by decide) (by decide)).2
  have v12 : |(N 1 2).val - R.y.z| ≤ ε := (hN 1 2 (by decide) (by decide)).2
  have v21 : |(N 2 1).val - R.z.y| ≤ ε := (hN 2 1 (by decide) (by decide)).2
  have v22 : |(N 2 2).val - R.z.z| ≤ ε := (hN 2 2 (by decide) (by decide)).2
  obtain ⟨g02, w02⟩ := mul_m1 f02
  obtain ⟨g21, w21⟩ := mul_m1 f21
  have u02 : |(Fp.mul (N 0 2) (Fp.lit (-1) 1)).val - -R.x.z| ≤ ε := by rw [w02, neg_sub_neg, _root_.abs_sub_comm]; exact v02
  have u21 : |(Fp.mul (N 2 1) (Fp.lit (-1) 1)).val - -R.z.y| ≤ ε := by rw [w21, neg_sub_neg, _root_.abs_sub_comm]; exact v21
  have cc : R.x.x ^ 2 + R.x.y ^ 2 = 1 - R.x.z ^ 2 := by linarith
  have c0 : 0 ≤ c := Real.sqrt_nonneg _
  have csq : c ^ 2 = 1 - R.x.z ^ 2 := Real.sq_sqrt (by rw [← cc]; positivity)
  have c1 : c ≤ 1 := Real.sqrt_le_one.2 (by linarith [sq_nonneg R.x.z])
  obtain ⟨cf, ce⟩ := cy_near f00 f01 v00 v01 (by linarith) (by rw [cc]; linarith [sq_nonneg R.x.z])
  rw [cc] at ce
  change |_ - c| ≤ _ at ce
  set cy := Fp.sqrt (Fp.add (Fp.mul (N 0 0) (N 0 0)) (Fp.mul (N 0 1) (N 0 1))) with hcy
  obtain ⟨tf, tv⟩ := thr_val
  -- the second angle
  obtain ⟨Y, cY, sY⟩ : ∃ Y, Real.cos Y = c ∧ Real.sin Y = -R.x.z := by
    obtain ⟨p, q⟩ := cos_sin_arg (a := c) (b := -R.x.z) one_pos (by linarith)
    exact ⟨_, by simpa using p, by simpa using q⟩
  have ay := atan2_near hat (ε := 3 / 2 * ε + 3 / 2 ^ 22) g02 cf one_pos (θ := Y) (by rw [cY, one_mul]; exact ce)
    (by rw [sY, one_mul]; exact u02.trans (by norm_num; linarith))
  rw [div_one] at ay
  have hw : ∀ {p q : F32}, p.isFin = true → q.isFin = true → FinWithin 4 (Libm.atan2 p q) := fun h g => ⟨(hat _ _ h g).1, (hat _ _ h g).2.1⟩
  by_cases hb : (Fp.mul (Fp.lit 16 1) (fltEps : F32)).le cy = true
  · have ha : a = (Libm.atan2 (N 1 2) (N 2 2), Libm.atan2 (Fp.mul (N 0 2) (Fp.lit (-1) 1)) cy, Libm.atan2 (N 0 1) (N 0 0)) := by
      simp only [a, anglesF]; rw [if_pos hb]
    rw [ha]
    refine ⟨⟨hw f12 f22, hw g02 cf, hw f01 f00⟩, fun i j => ?_⟩
    rw [le_iff_val (isNaN_of_isFin tf) (isNaN_of_isFin cf), tv] at hb
    have hc2 := (_root_.abs_le.1 ce).2
    have main : 0 < c → |(axisMat .X (Libm.atan2 (N 1 2) (N 2 2)).val * axisMat .Y (Libm.atan2 (Fp.mul (N 0 2) (Fp.lit (-1) 1)) cy).val *
        axisMat .Z (Libm.atan2 (N 0 1) (N 0 0)).val) i j - mat R i j| ≤ 10 * ε / c + 4 * ε + 1 / 2 ^ 17 := by
      intro hc
      obtain ⟨x, y, z, hm, hy1, hy2, hx1, hx2, hz1, hz2⟩ := sxyz_param hR (by linarith [pow_pos hc 2])
      change Real.cos y = c at hy1
      change c * _ = _ at hx1 hx2 hz1 hz2
      have ax := atan2_near hat (ε := ε) f12 f22 hc (θ := x) (by rw [hx1]; exact v22) (by rw [hx2]; exact v12)
      have az := atan2_near hat (ε := ε) f01 f00 hc (θ := z) (by rw [hz1]; exact v00) (by rw [hz2]; exact v01)
      rw [← hm]
      rw [cY, sY, ← hy1, ← hy2] at ay
      refine (xyz_near ax.1 ax.2 ay.1 ay.2 az.1 az.2 i j).trans ?_
      have : 4 * (5 / 2 * ε / c) = 10 * ε / c := by ring
      rw [mul_add, this]
      generalize 10 * ε / c = q
      norm_num; linarith
    refine ⟨main, fun hl => ?_⟩
    exfalso
    norm_num at hb hc2 hl; linarith
  · have ha : a = (Libm.atan2 (Fp.mul (N 2 1) (Fp.lit (-1) 1)) (N 1 1), Libm.atan2 (Fp.mul (N 0 2) (Fp.lit (-1) 1)) cy, f0) := by
      simp only [a, anglesF]; rw [if_neg hb]
    rw [ha]
    refine ⟨⟨hw g21 f11, hw g02 cf, is_f0.fin, by rw [is_f0.val]; norm_num⟩, fun i j => ?_⟩
    rw [le_iff_val (isNaN_of_isFin tf) (isNaN_of_isFin cf), tv, not_le] at hb
    have hc2 := (_root_.abs_le.1 ce).1
    have cs : c ≤ 11 / 2 ^ 22 + 3 / 2 * ε := by norm_num at hb hc2 ⊢; linarith
    have c16 : c ≤ 1 / 16 := by norm_num at cs ⊢; linarith
    have main : |(axisMat .X (Libm.atan2 (Fp.mul (N 2 1) (Fp.lit (-1) 1)) (N 1 1)).val *
        axisMat .Y (Libm.atan2 (Fp.mul (N 0 2) (Fp.lit (-1) 1)) cy).val * axisMat .Z (f0 : F32).val) i j - mat R i j| ≤ 10 * ε + 1 / 2 ^ 17 := by
      have ρs : 0 ≤ 1 - R.x.y ^ 2 := by linarith [sq_nonneg R.y.y, sq_nonneg R.z.y]
      have ρsq := Real.sq_sqrt ρs
      have ρ0 := Real.sqrt_nonneg (1 - R.x.y ^ 2)
      set ρ := √(1 - R.x.y ^ 2)
      have ρ1 : 99 / 100 ≤ ρ := by
        have hc := sq_le_part c0 c16
        have b := rho_bound ρ0 ρsq (c := c) (by linarith [sq_nonneg R.x.x])
        have := (_root_.abs_le.1 b).1
        linarith
      have ρp : 0 < ρ := by linarith
      obtain ⟨p, q⟩ := cos_sin_arg (a := R.y.y) (b := -R.z.y) ρp (by linarith)
      have ax := atan2_near hat (ε := ε) g21 f11 ρp (θ := Complex.arg ⟨R.y.y, -R.z.y⟩) (by rw [p]; exact v11) (by rw [q]; exact u21)
      rw [cY, sY] at ay
      rw [is_f0.val]
      refine (lock_near hR csq c0 c16 ρ0 ρsq p q ax.1 ax.2 ay.1 ay.2 i j).trans ?_
      have : 5 / 2 * ε / ρ ≤ 26 / 10 * ε := by
        rw [div_le_iff₀ ρp]
        have := mul_le_mul_of_nonneg_left ρ1 e0
        linarith
      generalize 5 / 2 * ε / ρ = q' at *
      norm_num at cs ⊢; linarith
    refine ⟨fun hc => main.trans ?_, fun _ => main⟩
    have : 10 * ε ≤ 10 * ε / c := by
      rw [le_div_iff₀ hc]
      have := mul_le_mul_of_nonneg_left c1 e0
      linarith
    linarith

/-! ## All orders of three different axes -/

/-- the axes of an order, as rows and columns -/
def axesFin (p : AxisParam) (u : Fin 4) : Fin 4 := ![(axisOrd p).1, (axisOrd p).2.1, (axisOrd p).2.2, 3] u

/-- the angles in the orientation and order of a rotation order -/
def adjustF (p : AxisParam) (a : F32 × F32 × F32) : F32 × F32 × F32 :=
  let m := fun t : F32 => Fp.mul t (Fp.lit (-1) 1)
  let b : F32 × F32 × F32 := if p.parity then (m a.1, m a.2.1, m a.2.2) else a
  if p.frame then (b.2.2, b.2.1, b.1) else b

theorem anglesOf_float (r : RealOrder) (hr : r.params.repetition = false) (m : M4 F32) :
    Euler.anglesOf m r.params = adjustF r.params (anglesF (fun u v => mat m (axesFin r.params u) (axesFin r.params v))) := by
  cases r <;> first | (exact absurd hr (by decide)) | rfl

omit [Libm binary32] in
theorem adjustF_val (p : AxisParam) {a : F32 × F32 × F32} (h : FinWithin 4 a.1 ∧ FinWithin 4 a.2.1 ∧ FinWithin 4 a.2.2) :
    (FinWithin 4 (adjustF p a).1 ∧ FinWithin 4 (adjustF p a).2.1 ∧ FinWithin 4 (adjustF p a).2.2) ∧
    ((adjustF p a).1.val, (adjustF p a).2.1.val, (adjustF p a).2.2.val) = adjust p (a.1.val, a.2.1.val, a.2.2.val) := by
  obtain ⟨h1, h2, h3⟩ := h
  have n : ∀ {t : F32}, FinWithin 4 t → FinWithin 4 (Fp.mul t (Fp.lit (-1) 1)) ∧ (Fp.mul t (Fp.lit (-1) 1)).val = -t.val := by
    intro t ht
    obtain ⟨f, v⟩ := mul_m1 ht.1
    exact ⟨⟨f, by rw [v, _root_.abs_neg]; exact ht.2⟩, v⟩
  obtain ⟨fi, pa, re, fr⟩ := p
  cases pa <;> cases fr <;> simp only [adjustF, adjust, if_true, Bool.false_eq_true, if_false]
  · exact ⟨⟨h1, h2, h3⟩, trivial⟩
  · exact ⟨⟨h3, h2, h1⟩, trivial⟩
  · exact ⟨⟨(n h1).1, (n h2).1, (n h3).1⟩, by rw [(n h1).2, (n h2).2, (n h3).2]⟩
  · exact ⟨⟨(n h3).1, (n h2).1, (n h1).1⟩, by rw [(n h1).2, (n h2).2, (n h3).2]⟩

omit [Libm binary32] in
/-- the axes of an order of three different axes are a renaming of x, y, z -/
theorem axes_equiv (r : RealOrder) (hr : r.params.repetition = false) :
    ∃ e : Fin 4 ≃ Fin 4, e 3 = 3 ∧ axisOrd r.params = (e 0, e 1, e 2) ∧ ∀ u, axesFin r.params u = e u := by
  have f : ∀ e : Fin 4 ≃ Fin 4, (e 3 = 3 ∧ axisOrd r.params = (e 0, e 1, e 2)) →
      e 3 = 3 ∧ axisOrd r.params = (e 0, e 1, e 2) ∧ ∀ u, axesFin r.params u = e u := by
    intro e ⟨h, g⟩
    refine ⟨h, g, fun u => ?_⟩
    simp only [axesFin, g]
    fin_cases u
    · rfl
    · rfl
    · rfl
    · exact h.symm
  cases r
  case SXYX | SXZX | SYZY | SYXY | SZXZ | SZYZ | RXYX | RXZX | RYZY | RYXY | RZXZ | RZYZ => exact absurd hr (by decide)
  case SXYZ | RZYX => exact ⟨Equiv.refl _, f _ (by decide)⟩
  case SXZY | RYZX => exact ⟨Equiv.swap 1 2, f _ (by decide)⟩
  case SYZX | RXZY => exact ⟨(Equiv.swap 0 1).trans (Equiv.swap 0 2), f _ (by decide)⟩
  case SYXZ | RZXY => exact ⟨Equiv.swap 0 1, f _ (by decide)⟩
  case SZXY | RYXZ => exact ⟨(Equiv.swap 0 2).trans (Equiv.swap 0 1), f _ (by decide)⟩
  case SZYX | RXYZ => exact ⟨Equiv.swap 0 2, f _ (by decide)⟩

omit [Libm binary32] in
/-- the product of rotations by three angles is a rotation -/
theorem xyz_rotation (x y z : ℝ) : ∃ Q : M4 ℝ, Rotation Q ∧ mat Q = axisMat .X x * axisMat .Y y * axisMat .Z z := by
  obtain ⟨hu, hm, -⟩ := C78_quaternion_partial x y z .default (Or.inl rfl) GMatrix.initIdentity
  obtain ⟨q1, -, q2, q3, q4⟩ := C71_rotation _ hu
  refine ⟨(Euler.initFromRadians x y z .default).toMatrix, ?_, ?_⟩
  · rw [← hm]; exact ⟨q1, q2, q4, q3⟩
  · rw [C77_to_matrix]; simp [EulerOrder.realOrder, isStatic, axesOf, angleOf]

omit [Libm binary32] in
/-- a product of rotations about x, y, z near the renamed matrix gives a product near the matrix for the order -/
theorem byName_near (r : RealOrder) (hr : r.params.repetition = false) {R : M4 ℝ} (hR : Rotation R) (a : ℝ × ℝ × ℝ) {K : ℝ}
    (h : ∀ l m, |(axisMat .X a.1 * axisMat .Y a.2.1 * axisMat .Z a.2.2) l m -
      mat (renamed (axisOrd r.params).1 (axisOrd r.params).2.1 (axisOrd r.params).2.2 R) l m| ≤ K) (i j : Fin 4) :
    |byName r (adjust r.params a).1 (adjust r.params a).2.1 (adjust r.params a).2.2 i j - mat R i j| ≤ K := by
  obtain ⟨e, e3, ho, -⟩ := axes_equiv r hr
  obtain ⟨Q, hQ, eQ⟩ := xyz_rotation a.1 a.2.1 a.2.2
  rw [← eQ, ho] at h
  dsimp only at h
  rw [renamed_submatrix hR e e3] at h
  have e3' : e.symm 3 = 3 := by rw [Equiv.symm_apply_eq, e3]
  have hN := renamed_rotation hQ e.symm e3'
  have sN := renamed_submatrix hQ e.symm e3'
  have back : mat (renamed (e 0) (e 1) (e 2) (renamed (e.symm 0) (e.symm 1) (e.symm 2) Q)) = mat Q := by
    rw [renamed_submatrix hN e e3, sN]
    ext u v; simp
  have hb := byName_renamed r hN a (by rw [hr, ho]; dsimp only; rw [back, eQ]; simp)
  rw [hb, sN]
  have := h (e.symm i) (e.symm j)
  simpa using this

/-! ## The property -/

/-- how far a rotation is from gimbal lock for an order of three different axes: the cosine of its second angle, zero in
gimbal lock and at most one -/
noncomputable def Spec.lockDistance (r : RealOrder) (R : M4 ℝ) : ℝ :=
  let i := axisIdx (axesOf r).1
  let k := axisIdx (axesOf r).2.2
  √(1 - (if isStatic r then mat R i k else mat R k i) ^ 2)

/-- three different axes -/
def Spec.Distinct (o : EulerOrder) : Prop := (axesOf o.realOrder).1 ≠ (axesOf o.realOrder).2.2

/-- the nine entries of `m` that describe a rotation are finite and within `ε` of those of the rotation `R` -/
def Spec.NearMatrix (m : M4 F32) (R : M4 ℝ) (ε : ℝ) : Prop := Rotation R ∧ EntriesNear (mat m) R ε

omit [Libm binary32] in
theorem distinct_params {o : EulerOrder} (h : Distinct o) : o.realOrder.params.repetition = false := by
  unfold Distinct at h
  generalize o.realOrder = r at *
  cases r <;> first | rfl | exact absurd rfl h

omit [Libm binary32] in
theorem lockDistance_eq (r : RealOrder) (hr : r.params.repetition = false) (R : M4 ℝ) :
    lockDistance r R = √(1 - (renamed (axisOrd r.params).1 (axisOrd r.params).2.1 (axisOrd r.params).2.2 R).x.z ^ 2) := by
  cases r <;> first | exact absurd hr (by decide) | rfl

/-- what passes for equal in the comparison with the identity -/
theorem eq1_close (bk : Backend) {a b : F32} (ha : FinWithin 2 a) (hb : FinWithin 1 b) (h : Simd4f.eq1 bk a b = true) :
    |a.val - b.val| ≤ 1 / 2 ^ 21 := by
  by_cases hv : Vectorised bk
  · exact (eq1_val hv h).le.trans (by norm_num)
  · have hk : ∃ d, bk = .scalar d := by unfold Vectorised at hv; push Not at hv; exact hv
    obtain ⟨d, rfl⟩ := hk
    have d := sub2_approx (Approx.exact ha.1) (Approx.exact hb.1) (by have := ha.2; have := hb.2; norm_num; linarith)
    have df := d.fin
    have de : |(Fp.sub a b).val - (a.val - b.val)| ≤ 3 / 2 ^ 24 := d.err.trans (by have := ha.2; have := hb.2; norm_num; linarith)
    have dn : (Fp.abs (Fp.sub a b)).isFin = true := by simpa using df
    have dv : (Fp.abs (Fp.sub a b)).val = |(Fp.sub a b).val| := val_abs _
    have tri : |a.val - b.val| ≤ |(Fp.sub a b).val| + 3 / 2 ^ 24 := by
      have t := abs_add_le (a.val - b.val - (Fp.sub a b).val) (Fp.sub a b).val
      rw [sub_add_cancel, _root_.abs_sub_comm _ (Fp.sub a b).val] at t
      linarith
    have ni : Fp.isInf a = false := by have := ha.1; cases a <;> simp [isFin, Fp.isInf] at this ⊢
    have h' : (if (Fp.isInf a && Fp.isInf b) = true then true
      else if (Fp.abs (Fp.sub a b)).isNaN = true then true
      else if (Fp.abs (Fp.sub a b)).le (fltEps : F32) = true then true
      else (Fp.abs (Fp.sub a b)).le (Fp.mul (if (Fp.abs a).lt (Fp.abs b) = true then Fp.abs b else Fp.abs a) (fltEps : F32))) = true := h
    rw [ni, isNaN_of_isFin dn] at h'
    simp only [Bool.false_and, Bool.false_eq_true, if_false] at h'
    split at h'
    · rename_i hl
      rw [le_iff_val (isNaN_of_isFin dn) (isNaN_of_isFin eps_is.fin), dv, eps_is.val] at hl
      norm_num at *; linarith
    · have lw : ∃ l : F32, (if (Fp.abs a).lt (Fp.abs b) = true then Fp.abs b else Fp.abs a) = l ∧ l.isFin = true ∧ |l.val| ≤ 2 := by
        split
        · exact ⟨_, rfl, by simpa using hb.1, by rw [val_abs, _root_.abs_abs]; linarith [hb.2]⟩
        · exact ⟨_, rfl, by simpa using ha.1, by rw [val_abs, _root_.abs_abs]; exact ha.2⟩
      obtain ⟨l, hl, lf, lb⟩ := lw
      rw [hl] at h'
      have pb : |l.val * (fltEps : F32).val| ≤ 2 / 2 ^ 23 := by
        rw [eps_is.val, _root_.abs_mul, abs_of_pos (by norm_num : (0 : ℝ) < 1 / 2 ^ 23)]
        norm_num; linarith
      have p := prod_approx lf eps_is.fin (pb.trans (by norm_num))
      rw [le_iff_val (isNaN_of_isFin dn) (isNaN_of_isFin p.fin), dv] at h'
      have pe := p.err
      have t1 := (_root_.abs_le.1 pe).2
      have t2 := (_root_.abs_le.1 pb).2
      have t3 := abs_nonneg (l.val * (fltEps : F32).val)
      generalize |l.val * (fltEps : F32).val| = q at *
      norm_num at *; linarith

/-- the entries of a matrix that passes for the identity -/
theorem isIdentity_close (bk : Backend) {m : M4 F32} (h : GMatrix.isIdentity bk m = true) (i j : Fin 4) (hf : FinWithin 2 (mat m i j)) :
    |(mat m i j).val - (1 : Matrix (Fin 4) (Fin 4) ℝ) i j| ≤ 1 / 2 ^ 21 := by
  have h0 : FinWithin 1 (f0 : F32) := ⟨is_f0.fin, by rw [is_f0.val]; norm_num⟩
  have h1 : FinWithin 1 (f1 : F32) := ⟨is_f1.fin, by rw [is_f1.val]; norm_num⟩
  have v0 := is_f0.val
  have v1 := is_f1.val
  simp only [GMatrix.isIdentity, Simd4x4f.isIdentity, Simd4f.cmpEq, Bool.and_eq_true, Simd4f.init] at h
  obtain ⟨⟨⟨⟨⟨⟨a1, a2⟩, a3⟩, a4⟩, ⟨⟨b1, b2⟩, b3⟩, b4⟩, ⟨⟨c1, c2⟩, c3⟩, c4⟩, ⟨⟨d1, d2⟩, d3⟩, d4⟩ := h
  have k0 : ∀ {a : F32}, FinWithin 2 a → Simd4f.eq1 bk a (f0 : F32) = true → |a.val - 0| ≤ 1 / 2 ^ 21 := fun ha he => by
    have := eq1_close bk ha h0 he; rwa [v0] at this
  have k1 : ∀ {a : F32}, FinWithin 2 a → Simd4f.eq1 bk a (f1 : F32) = true → |a.val - 1| ≤ 1 / 2 ^ 21 := fun ha he => by
    have := eq1_close bk ha h1 he; rwa [v1] at this
  fin_cases i <;> fin_cases j
  · exact k1 hf a1
  · exact k0 hf a2
  · exact k0 hf a3
  · exact k0 hf a4
  · exact k0 hf b1
  · exact k1 hf b2
  · exact k0 hf b3
  · exact k0 hf b4
  · exact k0 hf c1
  · exact k0 hf c2
  · exact k1 hf c3
  · exact k0 hf c4
  · exact k0 hf d1
  · exact k0 hf d2
  · exact k0 hf d3
  · exact k1 hf d4

omit [Libm binary32] in
/-- the entries of a rotation are at most one, and its last row and column are those of the identity -/
theorem rotation_entry {R : M4 ℝ} (h : Rotation R) (i j : Fin 4) :
    |mat R i j| ≤ 1 ∧ (i = 3 ∨ j = 3 → mat R i j = (1 : Matrix (Fin 4) (Fin 4) ℝ) i j) := by
  constructor
  · have r := congrFun (congrFun h.orthogonal i) i
    rw [Matrix.mul_apply, Matrix.one_apply_eq] at r
    simp only [Matrix.transpose_apply] at r
    have : mat R i j * mat R i j ≤ 1 := by
      rw [← r]; exact Finset.single_le_sum (f := fun l => mat R i l * mat R i l) (fun l _ => mul_self_nonneg _) (Finset.mem_univ j)
    rw [← abs_mul_abs_self] at this
    nlinarith [abs_nonneg (mat R i j)]
  · obtain ⟨a1, a2, a3, a4⟩ := h.affine
    have f := h.fixed
    have w : ∀ k, mat R 3 k = (1 : Matrix (Fin 4) (Fin 4) ℝ) 3 k := by
      intro k
      change vec R.w k = _
      rw [f]; fin_cases k <;> rfl
    rintro (rfl | rfl)
    · exact w j
    · fin_cases i
      · exact a1
      · exact a2
      · exact a3
      · exact w 3

/-- the angles found in a matrix near a rotation -/
theorem recovered (bk : Backend) (hat : Atan2Accurate) (o : EulerOrder) (ho : Distinct o) (m : M4 F32) (R : M4 ℝ) (ε : ℝ)
    (hm : NearMatrix m R ε) (hε : ε ≤ 1 / 32) :
    let e := Euler.initFromMatrix bk (some m) o
    let c := lockDistance o.realOrder R
    (FinWithin 4 e.angles.getX ∧ FinWithin 4 e.angles.getY ∧ FinWithin 4 e.angles.getZ) ∧
    ∀ i j, (0 < c → |byName o.realOrder e.angles.getX.val e.angles.getY.val e.angles.getZ.val i j - mat R i j| ≤ 10 * ε / c + 4 * ε + 1 / 2 ^ 17) ∧
      (c + 3 / 2 * ε ≤ 1 / 2 ^ 20 → |byName o.realOrder e.angles.getX.val e.angles.getY.val e.angles.getZ.val i j - mat R i j| ≤ 10 * ε + 1 / 2 ^ 17) := by
  obtain ⟨hR, hN⟩ := hm
  have hr := distinct_params ho
  intro e c
  by_cases hi : GMatrix.isIdentity bk m = true
  · have he : e = Euler.initWithOrder f0 f0 f0 o := by
      simp only [e, Euler.initFromMatrix]; rw [if_pos hi]
    have z : degToRad (f0 : F32) = f0 := by kdecide
    have gx : e.angles.getX = (f0 : F32) := by rw [he]; exact z
    have gy : e.angles.getY = (f0 : F32) := by rw [he]; exact z
    have gz : e.angles.getZ = (f0 : F32) := by rw [he]; exact z
    rw [gx, gy, gz]
    have w0 : FinWithin 4 (f0 : F32) := ⟨is_f0.fin, by rw [is_f0.val]; norm_num⟩
    have e0 : 0 ≤ ε := (abs_nonneg _).trans (hN 0 0 (by decide) (by decide)).2
    have z1 : ∀ a, axisMat a 0 = 1 := by
      intro a
      cases a <;> ext i j <;> fin_cases i <;> fin_cases j <;> simp [axisMat]
    have b1 : byName o.realOrder (f0 : F32).val (f0 : F32).val (f0 : F32).val = 1 := by
      rw [is_f0.val]; simp only [byName, z1, mul_one, ite_self]
    rw [b1]
    have main : ∀ i j, |(1 : Matrix (Fin 4) (Fin 4) ℝ) i j - mat R i j| ≤ 10 * ε + 1 / 2 ^ 17 := by
      intro i j
      obtain ⟨r1, r2⟩ := rotation_entry hR i j
      by_cases hij : i = 3 ∨ j = 3
      · rw [r2 hij, sub_self, abs_zero]; positivity
      · push Not at hij
        obtain ⟨hf, hv⟩ := hN i j hij.1 hij.2
        have t := abs_add_le ((mat m i j).val - mat R i j) (mat R i j)
        rw [sub_add_cancel] at t
        have k := isIdentity_close bk hi i j ⟨hf, by linarith⟩
        have t2 := abs_sub_le ((1 : Matrix (Fin 4) (Fin 4) ℝ) i j) (mat m i j).val (mat R i j)
        rw [_root_.abs_sub_comm _ (mat m i j).val] at t2
        norm_num at *; linarith
    refine ⟨⟨w0, w0, w0⟩, fun i j => ⟨fun hc => (main i j).trans ?_, fun _ => main i j⟩⟩
    have c1 : c ≤ 1 := Real.sqrt_le_one.2 (by linarith [sq_nonneg (if isStatic o.realOrder = true then
      mat R (axisIdx (axesOf o.realOrder).1) (axisIdx (axesOf o.realOrder).2.2) else mat R (axisIdx (axesOf o.realOrder).2.2) (axisIdx (axesOf o.realOrder).1))])
    have : 10 * ε ≤ 10 * ε / c := by
      rw [le_div_iff₀ hc]
      have := mul_le_mul_of_nonneg_left c1 e0
      linarith
    linarith
  · have he : e = Euler.initFromRadians (Euler.anglesOf m o.realOrder.params).1 (Euler.anglesOf m o.realOrder.params).2.1
        (Euler.anglesOf m o.realOrder.params).2.2 (.real o.realOrder) := by
      simp only [e, Euler.initFromMatrix]; rw [if_neg hi]
    obtain ⟨σ, s3, hs, hu⟩ := axes_equiv o.realOrder hr
    have hA : Euler.anglesOf m o.realOrder.params = adjustF o.realOrder.params (anglesF (fun u v => mat m (σ u) (σ v))) := by
      rw [anglesOf_float _ hr]; simp only [hu]
    have hR' := renamed_rotation hR σ s3
    have sub := renamed_submatrix hR σ s3
    have hN' : EntriesNear (fun u v => mat m (σ u) (σ v)) (renamed (σ 0) (σ 1) (σ 2) R) ε := by
      intro u v hu hv
      rw [sub]
      exact hN (σ u) (σ v) (fun h => hu (σ.injective (h.trans s3.symm))) (fun h => hv (σ.injective (h.trans s3.symm)))
    obtain ⟨hw, hc⟩ := anglesF_close hat hR' hN' hε
    have cl : c = √(1 - (renamed (σ 0) (σ 1) (σ 2) R).x.z ^ 2) := by simp only [c]; rw [lockDistance_eq _ hr, hs]
    rw [← cl] at hc
    obtain ⟨aw, av⟩ := adjustF_val o.realOrder.params hw
    rw [← hA] at aw av
    have gx : e.angles.getX = (Euler.anglesOf m o.realOrder.params).1 := by rw [he]; rfl
    have gy : e.angles.getY = (Euler.anglesOf m o.realOrder.params).2.1 := by rw [he]; rfl
    have gz : e.angles.getZ = (Euler.anglesOf m o.realOrder.params).2.2 := by rw [he]; rfl
    rw [gx, gy, gz]
    refine ⟨aw, fun i j => ?_⟩
    have v1 := congrArg Prod.fst av
    have v2 := congrArg (fun t => t.2.1) av
    have v3 := congrArg (fun t => t.2.2) av
    dsimp only at v1 v2 v3
    rw [v1, v2, v3]
    constructor
    · intro h0
      exact byName_near o.realOrder hr hR _ (fun l k => by rw [hs]; exact (hc l k).1 h0) i j
    · intro h0
      exact byName_near o.realOrder hr hR _ (fun l k => by rw [hs]; exact (hc l k).2 h0) i j

/-- C131: the angles that `euler_init_from_matrix` finds in a matrix whose entries are within `ε` of those of a rotation, for
any order of three different axes and every back end: they are finite, at most 4 in magnitude, and the exact rotations by
them about the first, second and third axis named by the order rebuild the rotation, each entry within
`10ε/c + 4ε + 2^-17`, where `c` is the distance of the rotation from gimbal lock. -/
theorem C131_angles (bk : Backend) (hat : Atan2Accurate) (o : EulerOrder) (ho : Distinct o) (m : M4 F32) (R : M4 ℝ) (ε : ℝ)
    (hm : NearMatrix m R ε) (hε : ε ≤ 1 / 32) (hc : 0 < lockDistance o.realOrder R) :
    let e := Euler.initFromMatrix bk (some m) o
    (FinWithin 4 e.angles.getX ∧ FinWithin 4 e.angles.getY ∧ FinWithin 4 e.angles.getZ) ∧
    ∀ i j, |byName o.realOrder e.angles.getX.val e.angles.getY.val e.angles.getZ.val i j - mat R i j| ≤
      10 * ε / lockDistance o.realOrder R + 4 * ε + 1 / 2 ^ 17 :=
  ⟨(recovered bk hat o ho m R ε hm hε).1, fun i j => ((recovered bk hat o ho m R ε hm hε).2 i j).1 hc⟩

/-- C131: in gimbal lock, or so close to it that the code takes it for gimbal lock, the angles still rebuild the rotation:
each entry within `10ε + 2^-17`. -/
theorem C131_lock (bk : Backend) (hat : Atan2Accurate) (o : EulerOrder) (ho : Distinct o) (m : M4 F32) (R : M4 ℝ) (ε : ℝ)
    (hm : NearMatrix m R ε) (hε : ε ≤ 1 / 32) (hc : lockDistance o.realOrder R + 3 / 2 * ε ≤ 1 / 2 ^ 20) :
    let e := Euler.initFromMatrix bk (some m) o
    (FinWithin 4 e.angles.getX ∧ FinWithin 4 e.angles.getY ∧ FinWithin 4 e.angles.getZ) ∧
    ∀ i j, |byName o.realOrder e.angles.getX.val e.angles.getY.val e.angles.getZ.val i j - mat R i j| ≤ 10 * ε + 1 / 2 ^ 17 :=
  ⟨(recovered bk hat o ho m R ε hm hε).1, fun i j => ((recovered bk hat o ho m R ε hm hε).2 i j).2 hc⟩

/-- what `euler_to_matrix` makes of the recovered angles, for the orders that name the axes x, y, z in this order -/
theorem toMatrix_recovered (bk : Backend) (ht : TrigAccurate) (o : EulerOrder) (ho : o.realOrder = .SXYZ ∨ o.realOrder = .RXYZ) (m : M4 F32)
    (hw : let e := Euler.initFromMatrix bk (some m) o
      FinWithin 4 e.angles.getX ∧ FinWithin 4 e.angles.getY ∧ FinWithin 4 e.angles.getZ) (i j : Fin 4) :
    let e := Euler.initFromMatrix bk (some m) o
    (mat e.toMatrix i j).isFin = true ∧
      |(mat e.toMatrix i j).val - byName o.realOrder e.angles.getX.val e.angles.getY.val e.angles.getZ.val i j| ≤ 5 / 2 ^ 22 := by
  intro e
  have he : e = Euler.initFromRadians e.angles.getX e.angles.getY e.angles.getZ o := by
    simp only [e, Euler.initFromMatrix]
    split <;> rfl
  have big : ∀ {a : F32}, FinWithin 4 a → FinWithin (2 ^ 16) a := fun h => ⟨h.1, h.2.trans (by norm_num)⟩
  obtain ⟨f, v⟩ := C130_matrix ht o e.angles.getX e.angles.getY e.angles.getZ (big hw.1) (big hw.2.1) (big hw.2.2) i j
  rw [← he] at f v
  refine ⟨f, ?_⟩
  have : eulerMat o e.angles.getX.val e.angles.getY.val e.angles.getZ.val =
      byName o.realOrder e.angles.getX.val e.angles.getY.val e.angles.getZ.val := by
    rcases ho with h | h <;> simp [eulerMat, byName, h, axesOf, isStatic, angleOf]
  rwa [this] at v

/-- C131: the round trip: for the orders SXYZ (the default) and RXYZ, the matrix of the angles found in a matrix near a rotation
is finite and near that rotation.  (For the other orders the accessors read the angles in another order than they were
stored, C79.) -/
theorem C131_round_trip (bk : Backend) (hat : Atan2Accurate) (ht : TrigAccurate) (o : EulerOrder)
    (ho : o.realOrder = .SXYZ ∨ o.realOrder = .RXYZ) (m : M4 F32) (R : M4 ℝ) (ε : ℝ) (hm : NearMatrix m R ε) (hε : ε ≤ 1 / 32)
    (hc : 0 < lockDistance o.realOrder R) (i j : Fin 4) :
    let n := (Euler.initFromMatrix bk (some m) o).toMatrix
    (mat n i j).isFin = true ∧ |(mat n i j).val - mat R i j| ≤ 10 * ε / lockDistance o.realOrder R + 4 * ε + 1 / 2 ^ 16 := by
  have hd : Distinct o := by unfold Distinct; rcases ho with h | h <;> rw [h] <;> decide
  obtain ⟨hw, hb⟩ := C131_angles bk hat o hd m R ε hm hε hc
  obtain ⟨f, v⟩ := toMatrix_recovered bk ht o ho m hw i j
  refine ⟨f, (abs_sub_le _ _ _).trans ((add_le_add v (hb i j)).trans ?_)⟩
  generalize 10 * ε / lockDistance o.realOrder R = q
  norm_num; linarith

/-- C131: the same from a finite quaternion whose length is within `η` of 1: the angles rebuild the rotation of the
quaternion. -/
theorem C131_quaternion (bk : Backend) (hat : Atan2Accurate) (o : EulerOrder) (ho : Distinct o) (q : Quat F32) (hq : FiniteQ q) (η : ℝ)
    (hn : |‖ham q‖ - 1| ≤ η) (hη : η ≤ 1 / 2 ^ 8) (hc : 0 < lockDistance o.realOrder (direction (ham q)).toMatrix) :
    let e := Euler.initFromQuaternion bk (some q) o
    let ε := 5 * η + 1 / 2 ^ 20
    ∀ i j, |byName o.realOrder e.angles.getX.val e.angles.getY.val e.angles.getZ.val i j - mat (direction (ham q)).toMatrix i j| ≤
      10 * ε / lockDistance o.realOrder (direction (ham q)).toMatrix + 4 * ε + 1 / 2 ^ 17 := by
  intro e ε
  have near := near_of_quat q hq η hn (hη.trans (by norm_num))
  obtain ⟨h1, -, h2, h3, h4⟩ := C71_rotation _ near.unit
  exact (C131_angles bk hat (.real o.realOrder) ho q.toMatrix _ ε ⟨⟨h1, h2, h4, h3⟩, near.entry⟩ (by simp only [ε]; norm_num at hη ⊢; linarith) hc).2

/-- C131: `euler_reorder` from an order with a right quaternion (SXYZ, RZYX; C78) to any order of three different axes: the
new angles rebuild the rotation by the old ones. -/
theorem C131_reorder (bk : Backend) (hat : Atan2Accurate) (ht : TrigAccurate) (o o' : EulerOrder) (ho : QuatOrder o) (ho' : Distinct o')
    (x y z : F32) (hx : FinWithin (2 ^ 16) x) (hy : FinWithin (2 ^ 16) y) (hz : FinWithin (2 ^ 16) z) :
    let R := (Euler.initFromRadians x.val y.val z.val o).toMatrix
    0 < lockDistance o'.realOrder R →
    let e := Euler.reorder bk (Euler.initFromRadians x y z o) o'
    e.order = .real o'.realOrder ∧
    ∀ i j, |byName o'.realOrder e.angles.getX.val e.angles.getY.val e.angles.getZ.val i j - eulerMat o x.val y.val z.val i j| ≤
      150 / 2 ^ 20 / lockDistance o'.realOrder R + 1 / 2 ^ 13 := by
  intro R hc e
  obtain ⟨hf, -, hq⟩ := C130_quaternion ht o ho x y z hx hy hz
  obtain ⟨hu, hm, -⟩ := C78_quaternion_partial x.val y.val z.val o ho GMatrix.initIdentity
  obtain ⟨h1, -, h2, h3, h4⟩ := C71_rotation _ hu
  have hR : Rotation R := by simp only [R]; rw [← hm]; exact ⟨h1, h2, h4, h3⟩
  have eR : eulerMat o x.val y.val z.val = mat R := (C77_to_matrix x.val y.val z.val o).symm
  rw [eR] at hq ⊢
  refine ⟨?_, fun i j => ?_⟩
  · simp only [e, Euler.reorder, Euler.initFromQuaternion, Euler.initFromMatrix]
    split <;> rfl
  · have := (C131_angles bk hat (.real o'.realOrder) ho' _ R (15 / 2 ^ 20) ⟨hR, fun i j _ _ => hq i j⟩ (by norm_num) hc).2 i j
    refine this.trans ?_
    have e1 : 10 * (15 / 2 ^ 20) / lockDistance o'.realOrder R = 150 / 2 ^ 20 / lockDistance o'.realOrder R := by norm_num
    change 10 * (15 / 2 ^ 20) / lockDistance o'.realOrder R + _ + _ ≤ _
    rw [e1]
    generalize 150 / 2 ^ 20 / lockDistance o'.realOrder R = q
    norm_num; linarith

/-! ## The hypotheses are met -/

omit [Libm binary32] in
/-- an angle of the direction of every point, rounded to a multiple of `2^-22` -/
theorem angle_grid (a b : F32) : ∃ r : F32, r.isFin = true ∧ |r.val| ≤ 4 ∧
    ∃ φ : ℝ, √(a.val ^ 2 + b.val ^ 2) * Real.cos φ = b.val ∧ √(a.val ^ 2 + b.val ^ 2) * Real.sin φ = a.val ∧
      |r.val - φ| ≤ 1 / 2 ^ 22 := by
  have hφ : ∃ φ : ℝ, |φ| ≤ Real.pi ∧ √(a.val ^ 2 + b.val ^ 2) * Real.cos φ = b.val ∧ √(a.val ^ 2 + b.val ^ 2) * Real.sin φ = a.val := by
    have p : 0 ≤ a.val ^ 2 + b.val ^ 2 := by positivity
    rcases p.eq_or_lt with h | h
    · have ha : a.val = 0 := by nlinarith [sq_nonneg a.val, sq_nonneg b.val]
      have hb : b.val = 0 := by nlinarith [sq_nonneg a.val, sq_nonneg b.val]
      exact ⟨0, by simpa using Real.pi_pos.le, by simp [ha, hb], by simp [ha]⟩
    · obtain ⟨h1, h2⟩ := cos_sin_arg (a := b.val) (b := a.val) (Real.sqrt_pos.2 h) (by rw [Real.sq_sqrt p]; ring)
      exact ⟨_, Complex.abs_arg_le_pi _, h1, h2⟩
  obtain ⟨φ, hp, h1, h2⟩ := hφ
  have hpi := Real.pi_lt_d2
  obtain ⟨l, u⟩ := _root_.abs_le.1 hp
  have hr := abs_sub_round (φ * 2 ^ 22)
  obtain ⟨r1, r2⟩ := _root_.abs_le.1 hr
  generalize round (φ * 2 ^ 22) = n at *
  have b1 : n < (2 ^ 24 : ℤ) := by
    have : ((n : ℤ) : ℝ) < ((2 ^ 24 : ℤ) : ℝ) := by push_cast; norm_num at r1 r2 ⊢; linarith
    exact_mod_cast this
  have b2 : (-(2 ^ 24) : ℤ) < n := by
    have : ((-(2 ^ 24) : ℤ) : ℝ) < ((n : ℤ) : ℝ) := by push_cast; norm_num at r1 r2 ⊢; linarith
    exact_mod_cast this
  obtain ⟨f, v⟩ := lit_dyadic n 22 (by omega) (by norm_num)
  have c1 : ((n : ℤ) : ℝ) ≤ 2 ^ 24 := by exact_mod_cast b1.le
  have c2 : (-(2 ^ 24) : ℝ) ≤ ((n : ℤ) : ℝ) := by exact_mod_cast b2.le
  refine ⟨lit n (2 ^ 22), f, ?_, φ, h1, h2, ?_⟩ <;> rw [v, _root_.abs_le] <;> constructor
  · rw [le_div_iff₀ (by positivity)]; norm_num at c2 ⊢; linarith
  · rw [div_le_iff₀ (by positivity)]; norm_num at c1 ⊢; linarith
  · rw [le_sub_iff_add_le, le_div_iff₀ (by positivity)]; norm_num at r1 r2 ⊢; linarith
  · rw [sub_le_iff_le_add, div_le_iff₀ (by positivity)]; norm_num at r1 r2 ⊢; linarith

omit [Libm binary32] in
/-- A C library satisfying `Atan2Accurate` (and any assumption on the remaining functions) exists. -/
theorem atan2_exists (L : Libm binary32) :
    @Spec.Atan2Accurate { L with atan2 := fun a b => by classical exact Classical.choose (angle_grid a b) } :=
  fun a b _ _ => Classical.choose_spec (angle_grid a b)

/-- a turn about the z axis with sine 4/5 and cosine 3/5, rounded to binary32 -/
def example345 : M4 F32 :=
  ⟨⟨Fp.lit 3 5, Fp.lit 4 5, f0, f0⟩, ⟨Fp.lit (-4) 5, Fp.lit 3 5, f0, f0⟩, ⟨f0, f0, f1, f0⟩, ⟨f0, f0, f0, f1⟩⟩

/-- the same, exactly -/
noncomputable def exact345 : M4 ℝ := ⟨⟨3 / 5, 4 / 5, 0, 0⟩, ⟨-4 / 5, 3 / 5, 0, 0⟩, ⟨0, 0, 1, 0⟩, ⟨0, 0, 0, 1⟩⟩

omit [Libm binary32] in
theorem exact345_rotation : Rotation exact345 := by
  refine ⟨?_, ?_, ?_, rfl⟩
  · ext i j; fin_cases i <;> fin_cases j <;> simp [exact345, mat, vec, Matrix.mul_apply, Fin.sum_univ_succ] <;> norm_num
  · simp [exact345, mat, vec, Matrix.det_succ_row_zero, Fin.sum_univ_succ]
    rw [show (Fin.succAbove (1 : Fin 4) (2 : Fin 3)) = 3 from rfl]; norm_num [Matrix.cons_val_three]
  · exact ⟨rfl, rfl, rfl, rfl⟩

theorem example345_near : NearMatrix example345 exact345 (1 / 2 ^ 23) := by
  refine ⟨exact345_rotation, ?_⟩
  have k : ∀ n : ℤ, (Fp.lit n 5 : F32).isFin = true → |(n : ℝ)| ≤ 5 → |(Fp.lit n 5 : F32).val - (n : ℝ) / 5| ≤ 1 / 2 ^ 23 := by
    intro n f hn
    have h := (rnd_lit (f := binary32) n (d := 5) (by norm_num)).err_add f
    have : |(n : ℝ) / 5| ≤ 1 := by rw [abs_div, abs_of_pos (by norm_num : (0:ℝ) < 5)]; linarith
    rw [u32, eta32] at h
    push_cast at h
    refine h.trans ?_
    norm_num at this ⊢; linarith
  have k3 := k 3 (by decide +kernel) (by norm_num)
  have k4 := k 4 (by decide +kernel) (by norm_num)
  have k5 := k (-4) (by decide +kernel) (by norm_num)
  have z0 : (f0 : F32).isFin = true ∧ |(f0 : F32).val - 0| ≤ 1 / 2 ^ 23 := ⟨is_f0.1, by rw [is_f0.2]; norm_num⟩
  have z1 : (f1 : F32).isFin = true ∧ |(f1 : F32).val - 1| ≤ 1 / 2 ^ 23 := ⟨is_f1.1, by rw [is_f1.2]; norm_num⟩
  have w3 : (Fp.lit 3 5 : F32).isFin = true ∧ |(Fp.lit 3 5 : F32).val - 3 / 5| ≤ 1 / 2 ^ 23 := ⟨by decide +kernel, by simpa using k3⟩
  have w4 : (Fp.lit 4 5 : F32).isFin = true ∧ |(Fp.lit 4 5 : F32).val - 4 / 5| ≤ 1 / 2 ^ 23 := ⟨by decide +kernel, by simpa using k4⟩
  have w5 : (Fp.lit (-4) 5 : F32).isFin = true ∧ |(Fp.lit (-4) 5 : F32).val - -4 / 5| ≤ 1 / 2 ^ 23 :=
    ⟨by decide +kernel, by simpa using k5⟩
  intro i j hi hj
  fin_cases i <;> fin_cases j <;> first | exact absurd rfl hi | exact absurd rfl hj | exact z0 | exact z1 | exact w3 | exact w4 | exact w5

/-- a turn about z is as far from gimbal lock as possible in the order SXYZ, so `C131_angles` and `C131_round_trip` apply: the
matrix comes back within `2^-15` -/
example (bk : Backend) (hat : Atan2Accurate) (ht : TrigAccurate) (i j : Fin 4) :
    |(mat (Euler.initFromMatrix bk (some example345) (.real .SXYZ)).toMatrix i j).val - mat exact345 i j| ≤ 1 / 2 ^ 15 := by
  have hl : lockDistance .SXYZ exact345 = 1 := by
    simp [lockDistance, axesOf, isStatic, axisIdx, mat, vec, exact345]
  have h := (C131_round_trip bk hat ht (.real .SXYZ) (Or.inl rfl) example345 exact345 _ example345_near (by norm_num)
    (by show 0 < lockDistance .SXYZ exact345; rw [hl]; norm_num) i j).2
  change _ ≤ 10 * (1 / 2 ^ 23) / lockDistance .SXYZ exact345 + _ + _ at h
  rw [hl] at h
  refine h.trans ?_
  norm_num

/-- and it is in gimbal lock in an order with z in the middle, where `C131_lock` needs a quarter turn: the quarter turn about z,
exactly representable, in the order SXZY -/
example : Distinct (.real .SXZY) ∧ NearMatrix ⟨⟨f0, f1, f0, f0⟩, ⟨Fp.lit (-1) 1, f0, f0, f0⟩, ⟨f0, f0, f1, f0⟩, ⟨f0, f0, f0, f1⟩⟩ (quarter .Z) 0 ∧
    lockDistance .SXZY (quarter .Z) + 3 / 2 * 0 ≤ 1 / 2 ^ 20 := by
  refine ⟨by unfold Distinct; decide, ⟨quarter_rotation .Z, ?_⟩, ?_⟩
  · have z0 : (f0 : F32).isFin = true ∧ |(f0 : F32).val - 0| ≤ 0 := ⟨is_f0.1, by rw [is_f0.2]; norm_num⟩
    have z1 : (f1 : F32).isFin = true ∧ |(f1 : F32).val - 1| ≤ 0 := ⟨is_f1.1, by rw [is_f1.2]; norm_num⟩
    have z2 : (Fp.lit (-1) 1 : F32).isFin = true ∧ |(Fp.lit (-1) 1 : F32).val - -1| ≤ 0 :=
      ⟨(lit_int (-1) (by decide)).1, by rw [(lit_int (-1) (by decide)).2]; norm_num⟩
    intro i j hi hj
    fin_cases i <;> fin_cases j <;> first | exact absurd rfl hi | exact absurd rfl hj | exact z0 | exact z1 | exact z2
  · simp [lockDistance, axesOf, isStatic, axisIdx, mat, vec, quarter]

end Graphene
