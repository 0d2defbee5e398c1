/- Helper lemmas: the SIMD layer evaluated over ℝ, for every backend. -/
import Verif.Model.RealScalar
import Verif.Model.Simd4x4f
import Verif.Model.Vec
import Verif.Proofs.Attr
import Mathlib.Tactic.Ring
import Mathlib.Tactic.FieldSimp
import Mathlib.Tactic.Linarith
import Mathlib.Tactic.NormNum
import Mathlib.Tactic.Positivity

namespace Graphene

attribute [greal] RealScalar.lit_eq RealScalar.add_eq RealScalar.sub_eq RealScalar.mul_eq
  RealScalar.div_eq RealScalar.fma_eq RealScalar.neg_eq RealScalar.abs_eq RealScalar.sqrt_eq
  RealScalar.floor_eq RealScalar.ceil_eq RealScalar.lt_eq RealScalar.le_eq RealScalar.feq_eq
  RealScalar.lt_eq_false RealScalar.le_eq_false RealScalar.isNaN_eq RealScalar.isInf_eq
  RealScalar.signbit_eq RealScalar.pi_eq RealScalar.sin_eq RealScalar.cos_eq RealScalar.tan_eq
  RealScalar.asin_eq RealScalar.acos_eq RealScalar.atan2_eq RealScalar.rcpEst_eq
  RealScalar.rsqrtEst_eq RealScalar.f0_eq RealScalar.f1_eq RealScalar.f2_eq
  RealScalar.widen_eq RealScalar.narrow_eq

/-- `FLT_EPSILON` as a real number. -/
noncomputable def eps : ℝ := 1 / 8388608

theorem eps_pos : 0 < eps := by unfold eps; norm_num

theorem eps_lt_one : eps < 1 := by unfold eps; norm_num

@[simp, greal] theorem fltEps_real : (fltEps : ℝ) = eps := by
  simp [fltEps, eps]

@[simp, greal] theorem cMin_real (a b : ℝ) : cMin a b = min a b := by
  unfold cMin
  by_cases h : a < b
  · simp [h, min_eq_left h.le]
  · simp [h, min_eq_right (not_lt.1 h)]

@[simp, greal] theorem cMax_real (a b : ℝ) : cMax a b = max a b := by
  unfold cMax
  by_cases h : b < a
  · simp [h, max_eq_left h.le]
  · simp [h, max_eq_right (not_lt.1 h)]

@[simp, greal] theorem fmaxf_real (a b : ℝ) : fmaxf a b = max a b := by
  simp [fmaxf]

@[simp, greal] theorem fuzzyEquals_real (a b e : ℝ) : fuzzyEquals a b e = true ↔ |a - b| < e := by
  unfold fuzzyEquals
  by_cases h : b < a
  · simp [h, abs_of_pos (sub_pos.2 h)]
  · have h' := not_lt.1 h
    simp [h, abs_of_nonpos (sub_nonpos.2 h')]

@[simp, greal] theorem approxVal_real (a b : ℝ) : approxVal a b = true ↔ |a - b| < eps := by
  simp [approxVal]

@[simp, greal] theorem degToRad_real (x : ℝ) : degToRad x = x * (Real.pi / 180) := by
  simp [degToRad]

@[simp, greal] theorem radToDeg_real (x : ℝ) : radToDeg x = x * (180 / Real.pi) := by
  simp [radToDeg]

@[simp, greal] theorem flerpf_real (a b f : ℝ) : flerpf a b f = (1 - f) * a + f * b := by
  simp [flerpf]

namespace Simd4f

attribute [greal] Simd4f.init Simd4f.initZero Simd4f.get Simd4f.splat Simd4f.splatX Simd4f.splatY
  Simd4f.splatZ Simd4f.splatW map1 map2 Simd4f.add Simd4f.sub Simd4f.mul Simd4f.div Simd4f.sqrt
  Simd4f.rsqrt Simd4f.reciprocal Simd4f.dot3 Simd4f.min Simd4f.max shuffleWXYZ shuffleZWXY
  shuffleYZWX zeroW zeroZW mergeW mergeHigh mergeLow flipSign0101 flipSign1010 Simd4f.neg
  Simd4f.ceil Simd4f.floor Simd4f.sum sumScalar dot4 dot2 length4 length3 length2 normalize4
  normalize3 normalize2 Simd4f.interpolate Simd4f.clamp Simd4f.clampScalar minVal maxVal
  cmpLt cmpLe cmpGe cmpGt cmpEq cmpNeq

variable (bk : Backend)

@[simp, greal] theorem vrecps_real (a b : ℝ) : vrecps a b = 2 - a * b := by simp [vrecps]
@[simp, greal] theorem vrsqrts_real (a b : ℝ) : vrsqrts a b = (3 - a * b) / 2 := by simp [vrsqrts]

theorem recip1_real {v : ℝ} (hv : eps < |v|) : recip1 bk v = v⁻¹ := by
  have h0 : v ≠ 0 := by
    intro h; rw [h, abs_zero] at hv; exact absurd hv (not_lt.2 eps_pos.le)
  cases bk with
  | sse a b => simp [recip1, h0]; ring_nf
  | gcc => simp [recip1, hv]
  | neon => simp [recip1, h0]; ring_nf
  | scalar d => cases d <;> simp [recip1, hv]

/-- The reciprocal on the backends without a magnitude guard. -/
theorem recip1_real' {v : ℝ} (hv : v ≠ 0) (hb : (∃ a b, bk = .sse a b) ∨ bk = .neon ∨ bk = .scalar true) :
    recip1 bk v = v⁻¹ := by
  rcases hb with ⟨a, b, rfl⟩ | rfl | rfl <;> simp [recip1, hv] <;> ring_nf

theorem div1_real {a b : ℝ} (hb : eps < |b|) : div1 bk a b = a / b := by
  cases bk with
  | neon => simp only [div1, recip1_real .neon hb]; rfl
  | sse => simp [div1]
  | gcc => simp [div1]
  | scalar d => simp [div1, hb]

theorem rsqrt1_real {v : ℝ} (hv : eps < v) : rsqrt1 bk v = (√v)⁻¹ := by
  have h0 : 0 < v := eps_pos.trans hv
  have hs : √v ≠ 0 := (Real.sqrt_pos.2 h0).ne'
  have hsq : √v * √v = v := Real.mul_self_sqrt h0.le
  have key : (√v)⁻¹ * (v * (√v)⁻¹) = 1 := by
    field_simp; rw [sq, hsq]
  have key' : (√v)⁻¹ * v * (√v)⁻¹ = 1 := by rw [mul_assoc, key]
  cases bk with
  | sse a b => simp [rsqrt1]; rw [key]; ring
  | gcc => simp [rsqrt1, h0.ne']
  | neon =>
    have hi : neonRsqrtIter v (√v)⁻¹ = (√v)⁻¹ := by
      simp only [neonRsqrtIter, vrsqrts_real, RealScalar.mul_eq, key']; ring
    simp [rsqrt1, hi]
  | scalar d => simp [rsqrt1, abs_of_pos h0, hv]

/-- The reciprocal square root on the backends without the magnitude guard. -/
theorem rsqrt1_real' {v : ℝ} (h0 : 0 < v) (hb : ∀ d, bk ≠ .scalar d) : rsqrt1 bk v = (√v)⁻¹ := by
  have hs : √v ≠ 0 := (Real.sqrt_pos.2 h0).ne'
  have hsq : √v * √v = v := Real.mul_self_sqrt h0.le
  have key : (√v)⁻¹ * (v * (√v)⁻¹) = 1 := by
    field_simp; rw [sq, hsq]
  have key' : (√v)⁻¹ * v * (√v)⁻¹ = 1 := by rw [mul_assoc, key]
  cases bk with
  | sse a b => simp [rsqrt1]; rw [key]; ring
  | gcc => simp [rsqrt1, h0.ne']
  | neon =>
    have hi : neonRsqrtIter v (√v)⁻¹ = (√v)⁻¹ := by
      simp only [neonRsqrtIter, vrsqrts_real, RealScalar.mul_eq, key']; ring
    simp [rsqrt1, hi]
  | scalar d => exact absurd rfl (hb d)

theorem sqrt1_real {v : ℝ} (hv : 0 ≤ v) : sqrt1 bk v = √v := by
  cases bk with
  | neon =>
    by_cases h0 : v = 0
    · subst h0; simp [sqrt1]
    · have hp : 0 < v := lt_of_le_of_ne hv (Ne.symm h0)
      have h1 : rsqrt1 .neon v = (√v)⁻¹ := rsqrt1_real' .neon hp (by simp)
      have h2 : recip1 .neon (√v)⁻¹ = √v := by
        rw [recip1_real' .neon (by simpa using (Real.sqrt_pos.2 hp).ne') (by simp), inv_inv]
      have h3 : (Scalar.feq v f0 && !Scalar.signbit v) = false := by
        simp only [Bool.and_eq_false_iff]; left
        rw [← Bool.not_eq_true, RealScalar.feq_eq]; simpa using h0
      rw [sqrt1, h3, h1, h2]; simp
  | _ => simp [sqrt1]

@[simp, greal] theorem neg1_real (a : ℝ) : neg1 bk a = -a := by
  cases bk <;> simp [neg1]

@[simp, greal] theorem min1_real (a b : ℝ) : min1 bk a b = Min.min a b := by
  cases bk <;> simp [min1]
  rintro rfl rfl; simp

@[simp, greal] theorem max1_real (a b : ℝ) : max1 bk a b = Max.max a b := by
  cases bk <;> simp [max1]
  rintro rfl rfl; simp

@[simp, greal] theorem dot3Scalar_real (a b : V4 ℝ) :
    dot3Scalar bk a b = a.x * b.x + a.y * b.y + a.z * b.z := by
  rcases bk with ⟨_ | _, _⟩ | _ | _ | _ <;> simp [dot3Scalar] <;> ring

@[simp, greal] theorem cross3_real (a b : V4 ℝ) :
    cross3 bk a b = ⟨a.y * b.z - a.z * b.y, a.z * b.x - a.x * b.z, a.x * b.y - a.y * b.x, 0⟩ := by
  cases bk <;> simp [cross3] <;> ring_nf <;> trivial

@[simp, greal] theorem madd_real (a b c : V4 ℝ) :
    madd bk a b c = ⟨a.x * b.x + c.x, a.y * b.y + c.y, a.z * b.z + c.z, a.w * b.w + c.w⟩ := by
  rcases bk with ⟨_, _ | _⟩ | _ | _ | _ <;> simp [madd, greal]

@[simp, greal] theorem dot4_real (a b : V4 ℝ) :
    dot4 a b = splat (a.x * b.x + a.y * b.y + (a.z * b.z + a.w * b.w)) := by
  simp [greal]

@[simp, greal] theorem dot2_real (a b : V4 ℝ) : dot2 a b = splat (a.x * b.x + a.y * b.y) := by
  simp [greal]

theorem length4_real (v : V4 ℝ) : length4 bk v = splat (√(v.x * v.x + v.y * v.y + (v.z * v.z + v.w * v.w))) := by
  have h : 0 ≤ v.x * v.x + v.y * v.y + (v.z * v.z + v.w * v.w) := by nlinarith [mul_self_nonneg v.x, mul_self_nonneg v.y, mul_self_nonneg v.z, mul_self_nonneg v.w]
  simp only [length4, dot4_real, Simd4f.sqrt, map1, splat, sqrt1_real bk h]
theorem length3_real (v : V4 ℝ) : length3 bk v = splat (√(v.x * v.x + v.y * v.y + v.z * v.z)) := by
  have h : 0 ≤ v.x * v.x + v.y * v.y + v.z * v.z := by nlinarith [mul_self_nonneg v.x, mul_self_nonneg v.y, mul_self_nonneg v.z]
  simp only [length3, dot3, dot3Scalar_real, Simd4f.sqrt, map1, splat, sqrt1_real bk h]
theorem length2_real (v : V4 ℝ) : length2 bk v = splat (√(v.x * v.x + v.y * v.y)) := by
  have h : 0 ≤ v.x * v.x + v.y * v.y := by nlinarith [mul_self_nonneg v.x, mul_self_nonneg v.y]
  simp only [length2, dot2_real, Simd4f.sqrt, map1, splat, sqrt1_real bk h]

end Simd4f

attribute [greal] Vec2.init Vec2.initFromVec2 Vec2.getX Vec2.getY Vec2.add Vec2.subtract
  Vec2.multiply Vec2.dot Vec2.min Vec2.max Vec2.scale Vec2.negate Vec2.near Vec2.interpolate
  Vec3.init Vec3.initFromVec3 Vec3.getX Vec3.getY Vec3.getZ Vec3.add Vec3.subtract
  Vec3.multiply Vec3.dot Vec3.cross Vec3.min Vec3.max Vec3.scale Vec3.negate Vec3.near
  Vec3.interpolate Vec3.getXY Vec3.getXY0 Vec3.getXYZ0 Vec3.getXYZ1 Vec3.getXYZW Vec3.zero Vec3.xAxis
  Vec4.init Vec4.initFromVec4 Vec4.initFromVec3 Vec4.initFromVec2 Vec4.getX Vec4.getY Vec4.getZ
  Vec4.getW Vec4.add Vec4.subtract Vec4.multiply Vec4.dot Vec4.min Vec4.max Vec4.scale Vec4.negate
  Vec4.near Vec4.interpolate Vec4.getXY Vec4.getXYZ Vec4.zero

attribute [greal] Simd4x4f.init Simd4x4f.identity Simd4x4f.transpose Simd4x4f.sum Simd4x4f.vec4Mul
  Simd4x4f.vec3Mul Simd4x4f.point3Mul Simd4x4f.matrixMul Simd4x4f.translation Simd4x4f.scale

end Graphene
