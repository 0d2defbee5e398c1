/-
  C70, C71, C72: quaternion algebra; quaternions and matrices.
-/
import Verif.Model.Quat
import Verif.Props.Matrix2
import Mathlib.Algebra.Quaternion

namespace Graphene
open Spec Simd4f Matrix

/-- the quaternion a `graphene_quaternion_t` denotes, in Mathlib's algebra of real quaternions -/
def Spec.quat (q : Quat ℝ) : Quaternion ℝ := ⟨q.w, q.x, q.y, q.z⟩

/-- a unit quaternion -/
def Spec.UnitQuat (q : Quat ℝ) : Prop := q.x ^ 2 + q.y ^ 2 + q.z ^ 2 + q.w ^ 2 = 1

/-- the opposite quaternion (the same rotation) -/
def Spec.opp (q : Quat ℝ) : Quat ℝ := ⟨-q.x, -q.y, -q.z, -q.w⟩

theorem quat_re (q : Quat ℝ) : (quat q).re = q.w := rfl
theorem quat_i (q : Quat ℝ) : (quat q).imI = q.x := rfl
theorem quat_j (q : Quat ℝ) : (quat q).imJ = q.y := rfl
theorem quat_k (q : Quat ℝ) : (quat q).imK = q.z := rfl

theorem quat_injective {a b : Quat ℝ} (h : quat a = quat b) : a = b := by
  have h' := QuaternionAlgebra.mk.injEq .. ▸ h
  obtain ⟨h1, h2, h3, h4⟩ := h'
  exact Quat.ext h2 h3 h4 h1

theorem unitQuat_iff (q : Quat ℝ) : UnitQuat q ↔ Quaternion.normSq (quat q) = 1 := by
  rw [Quaternion.normSq_def']
  simp only [UnitQuat, quat]
  constructor <;> intro h <;> linarith

/-! ## C70 -/

/-- C70: the operations are those of Hamilton's quaternions: product, conjugate, sum, scalar multiple,
inner product; the identity is 1; `init_from_vec4`/`to_vec4` keep the components. -/
theorem C70_algebra (a b : Quat ℝ) (k : ℝ) (v : Vec4 ℝ) :
    quat (Quat.multiply a b) = quat a * quat b ∧
    quat (Quat.invert a) = star (quat a) ∧
    quat (Quat.add a b) = quat a + quat b ∧
    quat (Quat.scale a k) = k • quat a ∧
    quat Quat.identity = 1 ∧
    Quat.dot a b = a.x * b.x + a.y * b.y + a.z * b.z + a.w * b.w ∧
    Quat.toVec4 (Quat.initFromVec4 v) = v ∧ Quat.initFromVec4 (Quat.toVec4 a) = a := by
  refine ⟨?_, ?_, ?_, ?_, ?_, ?_, rfl, rfl⟩
  · apply Quaternion.ext <;> simp [quat_re, quat_i, quat_j, quat_k, Quat.multiply] <;> ring
  · apply Quaternion.ext <;> simp [quat_re, quat_i, quat_j, quat_k, Quat.invert]
  · apply Quaternion.ext <;> simp [quat_re, quat_i, quat_j, quat_k, Quat.add, Quat.initFromSimd4f, Quat.vec, Simd4f.add, map2, Simd4f.init]
  · apply Quaternion.ext <;> simp [quat_re, quat_i, quat_j, quat_k, Quat.scale, Quat.initFromSimd4f, Quat.vec, Simd4f.mul, map2, Simd4f.init, splat, mul_comm]
  · simp only [Quat.identity, RealScalar.f0_eq, RealScalar.f1_eq, quat]; rfl
  · simp [Quat.dot, Quat.vec, greal]; ring

/-- C70: consequences, in terms of the API alone: the product is associative, the identity neutral,
lengths multiply, and `invert` gives the two-sided inverse of a unit quaternion, itself unit. -/
theorem C70_group (a b c : Quat ℝ) :
    Quat.multiply (Quat.multiply a b) c = Quat.multiply a (Quat.multiply b c) ∧
    Quat.multiply a Quat.identity = a ∧ Quat.multiply Quat.identity a = a ∧
    Quat.dot (Quat.multiply a b) (Quat.multiply a b) = Quat.dot a a * Quat.dot b b ∧
    (UnitQuat a → UnitQuat b → UnitQuat (Quat.multiply a b)) ∧
    (UnitQuat a → UnitQuat (Quat.invert a) ∧ Quat.multiply a (Quat.invert a) = Quat.identity ∧
      Quat.multiply (Quat.invert a) a = Quat.identity) := by
  have hm : ∀ a b, quat (Quat.multiply a b) = quat a * quat b := fun a b => (C70_algebra a b 0 Vec4.zero).1
  have hs : ∀ a, quat (Quat.invert a) = star (quat a) := fun a => (C70_algebra a a 0 Vec4.zero).2.1
  have h1 : quat Quat.identity = 1 := (C70_algebra a a 0 Vec4.zero).2.2.2.2.1
  have hd : ∀ a : Quat ℝ, Quat.dot a a = Quaternion.normSq (quat a) := by
    intro a
    rw [(C70_algebra a a 0 Vec4.zero).2.2.2.2.2.1, Quaternion.normSq_def']
    simp only [quat]; ring
  refine ⟨?_, ?_, ?_, ?_, ?_, ?_⟩
  · apply quat_injective; rw [hm, hm, hm, hm, mul_assoc]
  · apply quat_injective; rw [hm, h1, mul_one]
  · apply quat_injective; rw [hm, h1, one_mul]
  · rw [hd, hd, hd, hm, map_mul]
  · intro ha hb
    rw [unitQuat_iff] at *
    rw [hm, map_mul, ha, hb, one_mul]
  · intro ha
    rw [unitQuat_iff] at ha
    refine ⟨?_, ?_, ?_⟩
    · rw [unitQuat_iff, hs, Quaternion.normSq_star, ha]
    · apply quat_injective
      rw [hm, hs, h1, Quaternion.self_mul_star, ha]; rfl
    · apply quat_injective
      rw [hm, hs, h1, Quaternion.star_mul_self, ha]; rfl

/-- C70: `normalize` gives the unit quaternion in the same direction, for quaternions longer than what the
backend's reciprocal square root rejects (`rsqrtOk`: on the scalar backend, squared length above
`FLT_EPSILON`). -/
theorem C70_normalize (bk : Backend) (q : Quat ℝ) (h : 0 < Quat.dot q q) (hk : rsqrtOk bk (Quat.dot q q)) :
    UnitQuat (Quat.normalize bk q) ∧ ∃ k > 0, Quat.normalize bk q = Quat.scale q k := by
  have hd : Quat.dot q q = q.x * q.x + q.y * q.y + q.z * q.z + q.w * q.w := (C70_algebra q q 0 Vec4.zero).2.2.2.2.2.1
  have hn : Quat.normalize bk q = Quat.scale q (√(Quat.dot q q))⁻¹ := by
    have hr := rsqrt1_ok h hk
    simp only [Quat.normalize, Quat.scale, normalize4, Simd4f.rsqrt, Simd4f.mul, map2, map1, splat]
    have e : (Simd4f.dot4 q.vec q.vec) = splat (Quat.dot q q) := by
      rfl
    rw [e]; simp only [splat, hr]
  refine ⟨?_, (√(Quat.dot q q))⁻¹, by positivity, hn⟩
  rw [hn]
  have hi := inv_sqrt_sq h
  simp only [UnitQuat, Quat.scale, Quat.initFromSimd4f, Quat.vec, Simd4f.mul, map2, Simd4f.init, splat, RealScalar.mul_eq, mul_pow, hi]
  field_simp
  rw [hd]; ring

/-- non-vacuity: (0, 3, 0, 4) can be normalised on every backend, and (0, 3/5, 0, 4/5) is a unit quaternion -/
example (bk : Backend) : 0 < Quat.dot (⟨0, 3, 0, 4⟩ : Quat ℝ) ⟨0, 3, 0, 4⟩ ∧
    rsqrtOk bk (Quat.dot (⟨0, 3, 0, 4⟩ : Quat ℝ) ⟨0, 3, 0, 4⟩) ∧ UnitQuat ⟨0, 3 / 5, 0, 4 / 5⟩ := by
  have e : Quat.dot (⟨0, 3, 0, 4⟩ : Quat ℝ) ⟨0, 3, 0, 4⟩ = 25 := by
    rw [(C70_algebra _ _ 0 Vec4.zero).2.2.2.2.2.1]; norm_num
  rw [e]
  refine ⟨by norm_num, Or.inr (by linarith [eps_lt_one]), ?_⟩
  simp only [UnitQuat]; norm_num

/-! ## C71 -/

/-- the entries of `quaternion_to_matrix` -/
theorem toMatrix_real (q : Quat ℝ) : mat q.toMatrix =
    !![1 - 2 * (q.y * q.y + q.z * q.z), 2 * (q.x * q.y + q.w * q.z), 2 * (q.x * q.z - q.w * q.y), 0;
       2 * (q.x * q.y - q.w * q.z), 1 - 2 * (q.x * q.x + q.z * q.z), 2 * (q.y * q.z + q.w * q.x), 0;
       2 * (q.x * q.z + q.w * q.y), 2 * (q.y * q.z - q.w * q.x), 1 - 2 * (q.x * q.x + q.y * q.y), 0;
       0, 0, 0, 1] := by
  ext i j
  fin_cases i <;> fin_cases j <;> simp [mat, vec, Quat.toMatrix, Simd4f.init]

/-- C71: the matrix of a unit quaternion is a rotation: orthogonal, determinant one, without translation. -/
theorem C71_rotation (q : Quat ℝ) (h : UnitQuat q) :
    mat q.toMatrix * (mat q.toMatrix)ᵀ = 1 ∧ (mat q.toMatrix)ᵀ * mat q.toMatrix = 1 ∧
    (mat q.toMatrix).det = 1 ∧ q.toMatrix.w = ⟨0, 0, 0, 1⟩ ∧ Affine q.toMatrix := by
  have hw : q.w ^ 2 = 1 - q.x ^ 2 - q.y ^ 2 - q.z ^ 2 := by unfold UnitQuat at h; linarith
  have h1 : mat q.toMatrix * (mat q.toMatrix)ᵀ = 1 := by
    rw [toMatrix_real]
    ext i j
    fin_cases i <;> fin_cases j <;> simp [Matrix.mul_apply, Fin.sum_univ_succ] <;>
      ring_nf <;> (try simp only [hw]) <;> ring
  refine ⟨h1, mul_eq_one_comm.mp h1, ?_, ?_, ?_⟩
  · rw [toMatrix_real]
    simp [Matrix.det_succ_row_zero, Fin.sum_univ_succ, Fin.succAbove]
    ring_nf
    simp only [hw]; ring
  · simp [Quat.toMatrix, Simd4f.init]
  · simp [Affine, Quat.toMatrix, Simd4f.init]

/-- C71: the matrix of a product is the product of the matrices, in the library's row-vector order: `a * b`
rotates by `b` first. -/
theorem C71_product (a b : Quat ℝ) (ha : UnitQuat a) (hb : UnitQuat b) (m : M4 ℝ) :
    (Quat.multiply a b).toMatrix = GMatrix.multiply b.toMatrix a.toMatrix ∧
    Quat.identity.toMatrix = (GMatrix.initIdentity : M4 ℝ) ∧
    GMatrix.rotateQuaternion m a = GMatrix.multiply m a.toMatrix ∧
    GMatrix.rotateQuaternion (GMatrix.rotateQuaternion m b) a = GMatrix.rotateQuaternion m (Quat.multiply a b) := by
  have key : (Quat.multiply a b).toMatrix = GMatrix.multiply b.toMatrix a.toMatrix := by
    apply mat_injective
    rw [GMatrix.multiply, matrixMul_real, toMatrix_real, toMatrix_real, toMatrix_real]
    have hw : a.w ^ 2 = 1 - a.x ^ 2 - a.y ^ 2 - a.z ^ 2 := by unfold UnitQuat at ha; linarith
    have hw' : b.w ^ 2 = 1 - b.x ^ 2 - b.y ^ 2 - b.z ^ 2 := by unfold UnitQuat at hb; linarith
    ext i j
    fin_cases i <;> fin_cases j <;> simp [Matrix.mul_apply, Fin.sum_univ_succ, Quat.multiply] <;>
      ring_nf <;> (try simp only [hw, hw']) <;> ring
  refine ⟨key, ?_, rfl, ?_⟩
  · simp [Quat.toMatrix, Quat.identity, Simd4f.init, GMatrix.initIdentity, greal]
  · apply mat_injective
    simp only [GMatrix.rotateQuaternion, key, GMatrix.multiply, matrixMul_real, Matrix.mul_assoc]

/-- C71: transforming a point by the matrix of a unit quaternion `q` is `p ↦ q p q⁻¹`. -/
theorem C71_conjugation (q : Quat ℝ) (h : UnitQuat q) (p : Point3D ℝ) :
    let r := GMatrix.transformPoint3D q.toMatrix p
    quat ⟨r.x, r.y, r.z, 0⟩ = quat q * quat ⟨p.x, p.y, p.z, 0⟩ * quat (Quat.invert q) := by
  intro r
  have hw : q.w ^ 2 = 1 - q.x ^ 2 - q.y ^ 2 - q.z ^ 2 := by unfold UnitQuat at h; linarith
  have hr : r = ⟨p.x * (1 - 2 * (q.y * q.y + q.z * q.z)) + p.y * (2 * (q.x * q.y - q.w * q.z)) + p.z * (2 * (q.x * q.z + q.w * q.y)),
      p.x * (2 * (q.x * q.y + q.w * q.z)) + p.y * (1 - 2 * (q.x * q.x + q.z * q.z)) + p.z * (2 * (q.y * q.z - q.w * q.x)),
      p.x * (2 * (q.x * q.z - q.w * q.y)) + p.y * (2 * (q.y * q.z + q.w * q.x)) + p.z * (1 - 2 * (q.x * q.x + q.y * q.y))⟩ := by
    simp [r, GMatrix.transformPoint3D, Quat.toMatrix, greal]
    refine ⟨by ring, by ring, by ring⟩
  rw [hr]
  apply Quaternion.ext <;> simp [quat_re, quat_i, quat_j, quat_k, Quat.invert] <;> ring_nf <;> (try simp only [hw]) <;> ring

/-- C71: two unit quaternions have the same matrix exactly when they are equal or opposite. -/
theorem C71_double_cover (a b : Quat ℝ) (ha : UnitQuat a) (hb : UnitQuat b) :
    a.toMatrix = b.toMatrix ↔ a = b ∨ a = opp b := by
  constructor
  · intro h
    have hm : mat a.toMatrix = mat b.toMatrix := by rw [h]
    rw [toMatrix_real, toMatrix_real] at hm
    have e : ∀ i j, _ = _ := fun i j => congrFun (congrFun hm i) j
    have e00 := e 0 0
    have e11 := e 1 1
    have e22 := e 2 2
    have e01 := e 0 1
    have e10 := e 1 0
    have e02 := e 0 2
    have e20 := e 2 0
    have e12 := e 1 2
    have e21 := e 2 1
    simp at e00 e11 e22 e01 e10 e02 e20 e12 e21
    obtain ⟨ax, ay, az, aw⟩ := a
    obtain ⟨bx, by', bz, bw⟩ := b
    simp only [UnitQuat, opp, Quat.mk.injEq] at *
    have sx : ax ^ 2 = bx ^ 2 := by nlinarith
    have sy : ay ^ 2 = by' ^ 2 := by nlinarith
    have sz : az ^ 2 = bz ^ 2 := by nlinarith
    have sw : aw ^ 2 = bw ^ 2 := by nlinarith
    have pxy : ax * ay = bx * by' := by linarith
    have pxz : ax * az = bx * bz := by linarith
    have pyz : ay * az = by' * bz := by linarith
    have pwx : aw * ax = bw * bx := by linarith
    have pwy : aw * ay = bw * by' := by linarith
    have pwz : aw * az = bw * bz := by linarith
    have dot2 : (ax * bx + ay * by' + az * bz + aw * bw) ^ 2 = 1 := by
      have : (ax * bx + ay * by' + az * bz + aw * bw) ^ 2 = (ax ^ 2 + ay ^ 2 + az ^ 2 + aw ^ 2) * (bx ^ 2 + by' ^ 2 + bz ^ 2 + bw ^ 2) := by
        linear_combination 2 * bx * by' * pxy + 2 * bx * bz * pxz + 2 * by' * bz * pyz + 2 * bw * bx * pwx + 2 * bw * by' * pwy + 2 * bw * bz * pwz
           - by' ^ 2 * sx - bz ^ 2 * sx - bw ^ 2 * sx - bx ^ 2 * sy - bz ^ 2 * sy - bw ^ 2 * sy - bx ^ 2 * sz - by' ^ 2 * sz - bw ^ 2 * sz - bx ^ 2 * sw - by' ^ 2 * sw - bz ^ 2 * sw
      rw [this, ha, hb, one_mul]
    clear h hm e e00 e11 e22 e01 e10 e02 e20 e12 e21 sx sy sz sw pxy pxz pyz pwx pwy pwz
    have zero4 : ∀ p q r t : ℝ, p ^ 2 + q ^ 2 + r ^ 2 + t ^ 2 = 0 → p = 0 ∧ q = 0 ∧ r = 0 ∧ t = 0 := by
      intro p q r t h
      refine ⟨?_, ?_, ?_, ?_⟩ <;> apply pow_eq_zero_iff (two_ne_zero) |>.mp <;>
        linarith [sq_nonneg p, sq_nonneg q, sq_nonneg r, sq_nonneg t]
    have d : (ax * bx + ay * by' + az * bz + aw * bw - 1) * (ax * bx + ay * by' + az * bz + aw * bw + 1) = 0 := by
      linear_combination dot2
    rcases mul_eq_zero.mp d with d | d
    · left
      obtain ⟨h1, h2, h3, h4⟩ := zero4 (ax - bx) (ay - by') (az - bz) (aw - bw) (by linear_combination ha + hb - 2 * d)
      exact ⟨by linarith, by linarith, by linarith, by linarith⟩
    · right
      obtain ⟨h1, h2, h3, h4⟩ := zero4 (ax + bx) (ay + by') (az + bz) (aw + bw) (by linear_combination ha + hb + 2 * d)
      exact ⟨by linarith, by linarith, by linarith, by linarith⟩
  · rintro (rfl | rfl)
    · rfl
    · apply mat_injective
      rw [toMatrix_real, toMatrix_real]
      simp [opp]

/-! ## C72 -/

/-- what `init_from_matrix` gives on the matrix of a unit quaternion -/
theorem fromMatrix_toMatrix (q : Quat ℝ) (h : UnitQuat q) :
    Quat.initFromMatrix q.toMatrix =
      ⟨if q.w * q.x < 0 then -|q.x| else |q.x|, if q.w * q.y < 0 then -|q.y| else |q.y|,
       if q.w * q.z < 0 then -|q.z| else |q.z|, |q.w|⟩ := by
  unfold UnitQuat at h
  have key : ∀ a b : ℝ, a = 4 * b ^ 2 → 1 / 2 * √(max a 0) = |b| := by
    rintro a b rfl
    rw [max_eq_left (by positivity), show 4 * b ^ 2 = (2 * b) ^ 2 by ring, Real.sqrt_sq_eq_abs, abs_mul]
    norm_num; ring
  have cm : ∀ a b : ℝ, cMax a b = max a b := by
    intro a b
    simp only [cMax, RealScalar.lt_eq]
    split
    · rw [max_eq_left (by linarith)]
    · rw [max_eq_right (by linarith)]
  have kw := key (1 + (1 - 2 * (q.y * q.y + q.z * q.z)) + (1 - 2 * (q.x * q.x + q.z * q.z)) + (1 - 2 * (q.x * q.x + q.y * q.y))) q.w (by nlinarith)
  have kx := key (1 + (1 - 2 * (q.y * q.y + q.z * q.z)) - (1 - 2 * (q.x * q.x + q.z * q.z)) - (1 - 2 * (q.x * q.x + q.y * q.y))) q.x (by nlinarith)
  have ky := key (1 - (1 - 2 * (q.y * q.y + q.z * q.z)) + (1 - 2 * (q.x * q.x + q.z * q.z)) - (1 - 2 * (q.x * q.x + q.y * q.y))) q.y (by nlinarith)
  have kz := key (1 - (1 - 2 * (q.y * q.y + q.z * q.z)) - (1 - 2 * (q.x * q.x + q.z * q.z)) + (1 - 2 * (q.x * q.x + q.y * q.y))) q.z (by nlinarith)
  have gv : ∀ i j : Fin 4, GMatrix.getValue q.toMatrix i j = mat q.toMatrix i j := (C55_access q.toMatrix (fun _ => Vec4.zero)).1
  have v00 : GMatrix.getValue q.toMatrix 0 0 = 1 - 2 * (q.y * q.y + q.z * q.z) := by have := gv 0 0; rw [toMatrix_real] at this; simpa using this
  have v11 : GMatrix.getValue q.toMatrix 1 1 = 1 - 2 * (q.x * q.x + q.z * q.z) := by have := gv 1 1; rw [toMatrix_real] at this; simpa using this
  have v22 : GMatrix.getValue q.toMatrix 2 2 = 1 - 2 * (q.x * q.x + q.y * q.y) := by have := gv 2 2; rw [toMatrix_real] at this; simpa using this
  have v21 : GMatrix.getValue q.toMatrix 2 1 = 2 * (q.y * q.z - q.w * q.x) := by have := gv 2 1; rw [toMatrix_real] at this; simpa using this
  have v12 : GMatrix.getValue q.toMatrix 1 2 = 2 * (q.y * q.z + q.w * q.x) := by have := gv 1 2; rw [toMatrix_real] at this; simpa using this
  have v02 : GMatrix.getValue q.toMatrix 0 2 = 2 * (q.x * q.z - q.w * q.y) := by have := gv 0 2; rw [toMatrix_real] at this; simpa using this
  have v20 : GMatrix.getValue q.toMatrix 2 0 = 2 * (q.x * q.z + q.w * q.y) := by have := gv 2 0; rw [toMatrix_real] at this; simpa using this
  have v10 : GMatrix.getValue q.toMatrix 1 0 = 2 * (q.x * q.y - q.w * q.z) := by have := gv 1 0; rw [toMatrix_real] at this; simpa using this
  have v01 : GMatrix.getValue q.toMatrix 0 1 = 2 * (q.x * q.y + q.w * q.z) := by have := gv 0 1; rw [toMatrix_real] at this; simpa using this
  simp only [Quat.initFromMatrix, v00, v11, v22, v21, v12, v02, v20, v10, v01, cm, RealScalar.add_eq, RealScalar.sub_eq,
    RealScalar.mul_eq, RealScalar.sqrt_eq, RealScalar.f1_eq, RealScalar.f0_eq, RealScalar.lit_eq, RealScalar.lt_eq,
    RealScalar.neg_eq, Int.cast_one, Nat.cast_ofNat, kw, kx, ky, kz, Quat.mk.injEq, and_true]
  refine ⟨?_, ?_, ?_⟩ <;> congr 1 <;> apply propext <;> constructor <;> intro h <;> linarith

/-- all three components have the same sign (zeros allowed) -/
def Spec.SameSign (x y z : ℝ) : Prop := (0 ≤ x ∧ 0 ≤ y ∧ 0 ≤ z) ∨ (x ≤ 0 ∧ y ≤ 0 ∧ z ≤ 0)

/-- C72, exact extent: `init_from_matrix (to_matrix (q))` is `q` or `-q` exactly when the rotation angle is
not 180° (`w ≠ 0`), or the axis lies in the closed all-positive or all-negative octant.  Missing: the
half-turns about other axes (`C72_half_turn_false`). -/
theorem C72_roundtrip_partial (q : Quat ℝ) (h : UnitQuat q) :
    (Quat.initFromMatrix q.toMatrix = q ∨ Quat.initFromMatrix q.toMatrix = opp q) ↔
      (q.w ≠ 0 ∨ SameSign q.x q.y q.z) := by
  rw [fromMatrix_toMatrix q h]
  obtain ⟨x, y, z, w⟩ := q
  simp only [opp, Quat.mk.injEq, SameSign]
  rcases lt_trichotomy w 0 with hw | rfl | hw
  · have e : ∀ t : ℝ, (if w * t < 0 then -|t| else |t|) = -t := by
      intro t
      rcases lt_trichotomy t 0 with ht | rfl | ht
      · rw [if_neg (by nlinarith), abs_of_neg ht]
      · simp
      · rw [if_pos (by nlinarith), abs_of_pos ht]
    simp [e, abs_of_neg hw, hw.ne]
  · simp only [zero_mul, lt_irrefl, if_false, abs_zero, ne_eq, not_true_eq_false, false_or, neg_zero, and_true]
    simp only [abs_eq_self, abs_eq_neg_self]
  · have e : ∀ t : ℝ, (if w * t < 0 then -|t| else |t|) = t := by
      intro t
      rcases lt_trichotomy t 0 with ht | rfl | ht
      · rw [if_pos (by nlinarith), abs_of_neg ht, neg_neg]
      · simp
      · rw [if_neg (by nlinarith), abs_of_pos ht]
    simp [e, abs_of_pos hw, hw.ne']

/-- C72 is false for half-turns about an axis with mixed signs: (3/5, -4/5, 0, 0) comes back as
(3/5, 4/5, 0, 0), a different rotation. -/
theorem C72_half_turn_false :
    let q : Quat ℝ := ⟨3 / 5, -4 / 5, 0, 0⟩
    UnitQuat q ∧ Quat.initFromMatrix q.toMatrix = ⟨3 / 5, 4 / 5, 0, 0⟩ ∧
    (Quat.initFromMatrix q.toMatrix).toMatrix ≠ q.toMatrix := by
  intro q
  have hu : UnitQuat q := by simp only [UnitQuat, q]; norm_num
  have e : Quat.initFromMatrix q.toMatrix = ⟨3 / 5, 4 / 5, 0, 0⟩ := by
    rw [fromMatrix_toMatrix q hu]
    simp only [q, zero_mul, lt_irrefl, if_false, abs_zero, Quat.mk.injEq, and_true]
    refine ⟨abs_of_pos (by norm_num), ?_⟩
    rw [abs_of_neg (by norm_num)]; norm_num
  refine ⟨hu, e, ?_⟩
  rw [e]
  intro hh
  rw [C71_double_cover _ _ (by simp only [UnitQuat]; norm_num) hu] at hh
  simp only [q, opp, Quat.mk.injEq] at hh
  norm_num at hh

/-- non-vacuity of `C72_roundtrip_partial` -/
example : UnitQuat ⟨0, -3 / 5, 0, -4 / 5⟩ ∧ (⟨0, -3 / 5, 0, -4 / 5⟩ : Quat ℝ).w ≠ 0 := by
  constructor
  · simp only [UnitQuat]; norm_num
  · norm_num

/-- non-vacuity of C71: a product of two different rotations -/
example : UnitQuat ⟨0, 3 / 5, 0, 4 / 5⟩ ∧ UnitQuat ⟨5 / 13, 0, 0, 12 / 13⟩ := by
  constructor <;> (simp only [UnitQuat]; norm_num)

end Graphene
