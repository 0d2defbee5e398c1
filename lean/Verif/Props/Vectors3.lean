/-
  Properties C03–C06: Euclidean meaning of the vector functions, over ℝ.
-/
import Verif.Proofs.RealLemmas
import Mathlib.LinearAlgebra.CrossProduct

namespace Graphene
open Simd4f

/-! ## C03 dot product and length -/

/-- components of a vec3 as a coordinate vector -/
noncomputable def Spec.v3 (v : Vec3 ℝ) : Fin 3 → ℝ := ![v.getX, v.getY, v.getZ]

theorem vec2_length (bk : Backend) (v : Vec2 ℝ) :
    v.length bk = √(v.getX * v.getX + v.getY * v.getY) := by
  simp [Vec2.length, length2_real, Vec2.getX, Vec2.getY, Simd4f.get, splat]
theorem vec3_length (bk : Backend) (v : Vec3 ℝ) :
    v.length bk = √(v.getX * v.getX + v.getY * v.getY + v.getZ * v.getZ) := by
  simp [Vec3.length, length3_real, Vec3.getX, Vec3.getY, Vec3.getZ, Simd4f.get, splat]
theorem vec4_length (bk : Backend) (v : Vec4 ℝ) :
    v.length bk = √(v.getX * v.getX + v.getY * v.getY + (v.getZ * v.getZ + v.getW * v.getW)) := by
  simp [Vec4.length, length4_real, Vec4.getX, Vec4.getY, Vec4.getZ, Vec4.getW, Simd4f.get, splat]

/-- C03 (vec2): dot is the sum of products, length the square root of the self product, zero
exactly for the zero vector, and Cauchy–Schwarz holds. -/
theorem C03_vec2 (bk : Backend) (a b : Vec2 ℝ) :
    a.dot b = a.getX * b.getX + a.getY * b.getY ∧
    a.length bk = √(a.dot a) ∧
    (a.length bk = 0 ↔ a.getX = 0 ∧ a.getY = 0) ∧
    |a.dot b| ≤ a.length bk * b.length bk := by
  obtain ⟨⟨x, y, _, _⟩⟩ := a
  obtain ⟨⟨p, q, _, _⟩⟩ := b
  have hd : ∀ x y z w p q r t : ℝ, Vec2.dot ⟨⟨x, y, z, w⟩⟩ ⟨⟨p, q, r, t⟩⟩ = x * p + y * q := by
    intros; simp [greal]
  simp only [vec2_length, hd, Vec2.getX, Vec2.getY, Simd4f.get]
  refine ⟨trivial, trivial, ?_, ?_⟩
  · rw [Real.sqrt_eq_zero (by nlinarith [mul_self_nonneg x, mul_self_nonneg y])]
    constructor
    · intro h; constructor <;> nlinarith [mul_self_nonneg x, mul_self_nonneg y]
    · rintro ⟨rfl, rfl⟩; simp
  · rw [← Real.sqrt_mul (by nlinarith [mul_self_nonneg x, mul_self_nonneg y])]
    apply Real.le_sqrt_of_sq_le
    rw [sq_abs]; nlinarith [mul_self_nonneg (x * q - y * p)]

/-- C03 (vec3). -/
theorem C03_vec3 (bk : Backend) (a b : Vec3 ℝ) :
    a.dot bk b = a.getX * b.getX + a.getY * b.getY + a.getZ * b.getZ ∧
    a.length bk = √(a.dot bk a) ∧
    (a.length bk = 0 ↔ a.getX = 0 ∧ a.getY = 0 ∧ a.getZ = 0) ∧
    |a.dot bk b| ≤ a.length bk * b.length bk := by
  obtain ⟨⟨x, y, z, _⟩⟩ := a
  obtain ⟨⟨p, q, r, _⟩⟩ := b
  have hd : ∀ x y z w p q r t : ℝ, Vec3.dot bk ⟨⟨x, y, z, w⟩⟩ ⟨⟨p, q, r, t⟩⟩ = x * p + y * q + z * r := by
    intros; simp [greal]
  simp only [vec3_length, hd, Vec3.getX, Vec3.getY, Vec3.getZ, Simd4f.get]
  have hx := mul_self_nonneg x
  have hy := mul_self_nonneg y
  have hz := mul_self_nonneg z
  refine ⟨trivial, trivial, ?_, ?_⟩
  · rw [Real.sqrt_eq_zero (by nlinarith)]
    constructor
    · intro h; refine ⟨?_, ?_, ?_⟩ <;> nlinarith
    · rintro ⟨rfl, rfl, rfl⟩; simp
  · rw [← Real.sqrt_mul (by nlinarith)]
    apply Real.le_sqrt_of_sq_le
    rw [sq_abs]
    nlinarith [mul_self_nonneg (x * q - y * p), mul_self_nonneg (x * r - z * p),
      mul_self_nonneg (y * r - z * q)]

/-- C03 (vec4). -/
theorem C03_vec4 (bk : Backend) (a b : Vec4 ℝ) :
    a.dot b = a.getX * b.getX + a.getY * b.getY + a.getZ * b.getZ + a.getW * b.getW ∧
    a.length bk = √(a.dot a) ∧
    (a.length bk = 0 ↔ a.getX = 0 ∧ a.getY = 0 ∧ a.getZ = 0 ∧ a.getW = 0) ∧
    |a.dot b| ≤ a.length bk * b.length bk := by
  obtain ⟨⟨x, y, z, w⟩⟩ := a
  obtain ⟨⟨p, q, r, t⟩⟩ := b
  have hd : ∀ x y z w p q r t : ℝ, Vec4.dot ⟨⟨x, y, z, w⟩⟩ ⟨⟨p, q, r, t⟩⟩ = x * p + y * q + (z * r + w * t) := by
    intros; simp [greal]
  simp only [vec4_length, hd, Vec4.getX, Vec4.getY, Vec4.getZ, Vec4.getW, Simd4f.get]
  have hx := mul_self_nonneg x
  have hy := mul_self_nonneg y
  have hz := mul_self_nonneg z
  have hw := mul_self_nonneg w
  refine ⟨by ring, trivial, ?_, ?_⟩
  · rw [Real.sqrt_eq_zero (by nlinarith)]
    constructor
    · intro h; refine ⟨?_, ?_, ?_, ?_⟩ <;> nlinarith
    · rintro ⟨rfl, rfl, rfl, rfl⟩; simp
  · rw [← Real.sqrt_mul (by nlinarith)]
    apply Real.le_sqrt_of_sq_le
    rw [sq_abs]
    nlinarith [mul_self_nonneg (x * q - y * p), mul_self_nonneg (x * r - z * p),
      mul_self_nonneg (y * r - z * q), mul_self_nonneg (x * t - w * p),
      mul_self_nonneg (y * t - w * q), mul_self_nonneg (z * t - w * r)]

/-! ## C04 normalisation -/

/-- `u` is the unit vector in the direction of `v` (as coordinate lists of the same length) -/
def Spec.UnitOf {n : ℕ} (u v : Fin n → ℝ) : Prop :=
  ∑ i, u i ^ 2 = 1 ∧ ∃ k > 0, ∀ i, u i = k * v i

/-- The guard under which the backend's reciprocal square root of a squared length is
meaningful: no guard on SSE, GCC and NEON, `FLT_EPSILON` on the scalar backend. -/
def rsqrtOk (bk : Backend) (sq : ℝ) : Prop := (∀ d, bk ≠ .scalar d) ∨ eps < sq

theorem rsqrt1_ok {bk : Backend} {v : ℝ} (h0 : 0 < v) (h : rsqrtOk bk v) : rsqrt1 bk v = (√v)⁻¹ := by
  rcases h with h | h
  · exact rsqrt1_real' bk h0 h
  · exact rsqrt1_real bk h

theorem inv_sqrt_sq {s : ℝ} (h : 0 < s) : (√s)⁻¹ ^ 2 = s⁻¹ := by
  rw [inv_pow, Real.sq_sqrt h.le]

/-- C04 (vec2): unit vector in the same direction when the length exceeds
`FLT_EPSILON` (and, on the scalar backend, when the squared length does); exactly zero
for a length of at most `FLT_EPSILON`.  The scalar backend between `FLT_EPSILON` and `√FLT_EPSILON`
is the exception stated in the property (`C04_scalar_false`). -/
theorem C04_vec2 (bk : Backend) (v : Vec2 ℝ) :
    (eps < v.length bk → rsqrtOk bk (v.dot v) →
      Spec.UnitOf ![(v.normalize bk).getX, (v.normalize bk).getY] ![v.getX, v.getY]) ∧
    (v.length bk ≤ eps → (v.normalize bk).getX = 0 ∧ (v.normalize bk).getY = 0) := by
  obtain ⟨⟨x, y, z, w⟩⟩ := v
  have hl := vec2_length bk ⟨⟨x, y, z, w⟩⟩
  simp only [Vec2.getX, Vec2.getY, Simd4f.get] at hl
  have hnn : 0 ≤ Vec2.length bk ⟨⟨x, y, z, w⟩⟩ := hl ▸ Real.sqrt_nonneg _
  constructor
  · intro h hok
    have hs : 0 < x * x + y * y := by
      by_contra hc
      rw [hl, Real.sqrt_eq_zero_of_nonpos (not_lt.1 hc)] at h
      exact absurd h (not_lt.2 eps_pos.le)
    have hok' : rsqrtOk bk (x * x + y * y) := by simpa [greal] using hok
    have hr := rsqrt1_ok hs hok'
    have e : Vec2.normalize bk ⟨⟨x, y, z, w⟩⟩ =
        ⟨⟨x * (√(x * x + y * y))⁻¹, y * (√(x * x + y * y))⁻¹, z * (√(x * x + y * y))⁻¹,
          w * (√(x * x + y * y))⁻¹⟩⟩ := by
      simp [Vec2.normalize, abs_of_nonneg hnn, h, normalize2, Simd4f.rsqrt, map1, splat, hr,
        Simd4f.mul, map2]
    rw [e]
    refine ⟨?_, (√(x * x + y * y))⁻¹, by positivity, ?_⟩
    · simp only [Fin.sum_univ_two, Vec2.getX, Vec2.getY, Simd4f.get, Matrix.cons_val_zero,
        Matrix.cons_val_one, mul_pow, inv_sqrt_sq hs]
      rw [← mul_inv_cancel₀ hs.ne']; ring
    · intro i; fin_cases i <;> simp [Vec2.getX, Vec2.getY, Simd4f.get, mul_comm]
  · intro h
    have : Vec2.normalize bk ⟨⟨x, y, z, w⟩⟩ = ⟨Simd4f.initZero⟩ := by
      simp [Vec2.normalize, abs_of_nonneg hnn, not_lt.2 h]
    rw [this]; simp [greal]

/-- C04 (vec3). -/
theorem C04_vec3 (bk : Backend) (v : Vec3 ℝ) :
    (eps < v.length bk → rsqrtOk bk (v.dot bk v) → Spec.UnitOf (Spec.v3 (v.normalize bk)) (Spec.v3 v)) ∧
    (v.length bk ≤ eps → Spec.v3 (v.normalize bk) = ![0, 0, 0]) := by
  obtain ⟨⟨x, y, z, w⟩⟩ := v
  have hl := vec3_length bk ⟨⟨x, y, z, w⟩⟩
  simp only [Vec3.getX, Vec3.getY, Vec3.getZ, Simd4f.get] at hl
  have hnn : 0 ≤ Vec3.length bk ⟨⟨x, y, z, w⟩⟩ := hl ▸ Real.sqrt_nonneg _
  constructor
  · intro h hok
    have hs : 0 < x * x + y * y + z * z := by
      by_contra hc
      rw [hl, Real.sqrt_eq_zero_of_nonpos (not_lt.1 hc)] at h
      exact absurd h (not_lt.2 eps_pos.le)
    have hok' : rsqrtOk bk (x * x + y * y + z * z) := by simpa [greal] using hok
    have hr := rsqrt1_ok hs hok'
    have e : Vec3.normalize bk ⟨⟨x, y, z, w⟩⟩ =
        ⟨⟨x * (√(x * x + y * y + z * z))⁻¹, y * (√(x * x + y * y + z * z))⁻¹,
          z * (√(x * x + y * y + z * z))⁻¹, w * (√(x * x + y * y + z * z))⁻¹⟩⟩ := by
      simp [Vec3.normalize, abs_of_nonneg hnn, h, normalize3, Simd4f.rsqrt, map1, splat, hr,
        Simd4f.mul, map2, Simd4f.dot3]
    rw [e]
    refine ⟨?_, (√(x * x + y * y + z * z))⁻¹, by positivity, ?_⟩
    · simp only [Spec.v3, Fin.sum_univ_three, Vec3.getX, Vec3.getY, Vec3.getZ, Simd4f.get,
        Matrix.cons_val_zero, Matrix.cons_val_one, Matrix.cons_val, mul_pow, inv_sqrt_sq hs]
      rw [← mul_inv_cancel₀ hs.ne']; ring
    · intro i; fin_cases i <;> simp [Spec.v3, Vec3.getX, Vec3.getY, Vec3.getZ, Simd4f.get, mul_comm]
  · intro h
    have : Vec3.normalize bk ⟨⟨x, y, z, w⟩⟩ = ⟨Simd4f.initZero⟩ := by
      simp [Vec3.normalize, abs_of_nonneg hnn, not_lt.2 h]
    rw [this]; simp [greal, Spec.v3]

/-- C04 (vec4). -/
theorem C04_vec4 (bk : Backend) (v : Vec4 ℝ) :
    (eps < v.length bk → rsqrtOk bk (v.dot v) →
      Spec.UnitOf ![(v.normalize bk).getX, (v.normalize bk).getY, (v.normalize bk).getZ,
        (v.normalize bk).getW] ![v.getX, v.getY, v.getZ, v.getW]) ∧
    (v.length bk ≤ eps → (v.normalize bk).getX = 0 ∧ (v.normalize bk).getY = 0 ∧
      (v.normalize bk).getZ = 0 ∧ (v.normalize bk).getW = 0) := by
  obtain ⟨⟨x, y, z, w⟩⟩ := v
  have hl := vec4_length bk ⟨⟨x, y, z, w⟩⟩
  simp only [Vec4.getX, Vec4.getY, Vec4.getZ, Vec4.getW, Simd4f.get] at hl
  have hnn : 0 ≤ Vec4.length bk ⟨⟨x, y, z, w⟩⟩ := hl ▸ Real.sqrt_nonneg _
  constructor
  · intro h hok
    have hs : 0 < x * x + y * y + (z * z + w * w) := by
      by_contra hc
      rw [hl, Real.sqrt_eq_zero_of_nonpos (not_lt.1 hc)] at h
      exact absurd h (not_lt.2 eps_pos.le)
    have hok' : rsqrtOk bk (x * x + y * y + (z * z + w * w)) := by simpa [greal] using hok
    have hr := rsqrt1_ok hs hok'
    have e : Vec4.normalize bk ⟨⟨x, y, z, w⟩⟩ =
        ⟨⟨x * (√(x * x + y * y + (z * z + w * w)))⁻¹, y * (√(x * x + y * y + (z * z + w * w)))⁻¹,
          z * (√(x * x + y * y + (z * z + w * w)))⁻¹, w * (√(x * x + y * y + (z * z + w * w)))⁻¹⟩⟩ := by
      simp [Vec4.normalize, abs_of_nonneg hnn, h, normalize4, Simd4f.rsqrt, map1, splat, hr,
        Simd4f.mul, map2]
    rw [e]
    refine ⟨?_, (√(x * x + y * y + (z * z + w * w)))⁻¹, by positivity, ?_⟩
    · simp only [Fin.sum_univ_four, Vec4.getX, Vec4.getY, Vec4.getZ, Vec4.getW, Simd4f.get,
        Matrix.cons_val_zero, Matrix.cons_val_one, Matrix.cons_val, mul_pow, inv_sqrt_sq hs]
      rw [← mul_inv_cancel₀ hs.ne']; ring
    · intro i; fin_cases i <;> simp [Vec4.getX, Vec4.getY, Vec4.getZ, Vec4.getW, Simd4f.get, mul_comm]
  · intro h
    have : Vec4.normalize bk ⟨⟨x, y, z, w⟩⟩ = ⟨Simd4f.initZero⟩ := by
      simp [Vec4.normalize, abs_of_nonneg hnn, not_lt.2 h]
    rw [this]; simp [greal]

/-- non-vacuity of the normalisation hypotheses, on every backend -/
example (bk : Backend) : eps < (Vec3.init 3 4 (0 : ℝ)).length bk ∧
    rsqrtOk bk ((Vec3.init 3 4 (0 : ℝ)).dot bk (Vec3.init 3 4 0)) := by
  constructor
  · rw [vec3_length]
    have : √((3 : ℝ) * 3 + 4 * 4 + 0 * 0) = 5 := by
      rw [show ((3 : ℝ) * 3 + 4 * 4 + 0 * 0) = 5 ^ 2 by norm_num]; exact Real.sqrt_sq (by norm_num)
    simp only [Vec3.init, Simd4f.init, Vec3.getX, Vec3.getY, Vec3.getZ, Simd4f.get, this]
    unfold eps; norm_num
  · right; simp [greal]; unfold eps; norm_num

/-- C04 is false of the scalar backend: a vector of length 1/10000 (longer than
`FLT_EPSILON`) normalises to the zero vector. -/
theorem C04_scalar_false (d : Bool) :
    ∃ v : Vec3 ℝ, eps < v.length (.scalar d) ∧
      ¬ Spec.UnitOf (Spec.v3 (v.normalize (.scalar d))) (Spec.v3 v) := by
  refine ⟨Vec3.init (1 / 10000) 0 0, ?_, ?_⟩
  · rw [vec3_length]
    simp only [Vec3.init, Simd4f.init, Vec3.getX, Vec3.getY, Vec3.getZ, Simd4f.get]
    rw [show (1 / 10000 * (1 / 10000) + 0 * 0 + 0 * 0 : ℝ) = (1 / 10000) ^ 2 by norm_num,
      Real.sqrt_sq (by norm_num)]
    unfold eps; norm_num
  · rintro ⟨h, -⟩
    have hr : rsqrt1 (.scalar d) ((10000 : ℝ)⁻¹ * 10000⁻¹) = 0 := by
      simp only [rsqrt1, RealScalar.abs_eq, RealScalar.lt_eq, fltEps_real]
      rw [if_neg]; · simp
      unfold eps; rw [abs_of_nonneg (by norm_num)]; norm_num
    have e : Spec.v3 ((Vec3.init (1 / 10000) 0 0 : Vec3 ℝ).normalize (.scalar d)) = ![0, 0, 0] := by
      simp only [Vec3.normalize]
      split
      · simp [Spec.v3, Vec3.getX, Vec3.getY, Vec3.getZ, normalize3, Simd4f.rsqrt, Vec3.init,
          Simd4f.init, Simd4f.get, Simd4f.mul, map2, map1, Simd4f.dot3, splat, hr]
      · simp [greal, Spec.v3]
    rw [e] at h
    simp [Fin.sum_univ_three] at h

end Graphene
