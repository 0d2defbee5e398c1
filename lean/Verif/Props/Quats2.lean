/-
  C73: quaternions from an axis and an angle, and from three angles.
-/
import Verif.Props.Quats1

namespace Graphene
open Spec Simd4f Matrix

/-! ## angle and axis -/

/-- the components of `init_from_angle_vec3` -/
theorem fromAngle_real {bk : Backend} {axis : Vec3 ℝ} (h : AxisOk bk axis) (θ : ℝ) :
    let u := unitOf axis
    let φ := θ * (Real.pi / 180) / 2
    Quat.initFromAngleVec3 bk θ axis = ⟨u.x * Real.sin φ, u.y * Real.sin φ, u.z * Real.sin φ, Real.cos φ⟩ := by
  obtain ⟨h1, h2, h3⟩ := normalize3_real h
  simp [Quat.initFromAngleVec3, Simd4f.mul, map2, h1, h2, h3, splat, degToRad]

/-- C73: `init_from_angle_vec3 (angle, axis)` is a unit quaternion and its matrix is the rotation by `angle`
degrees about the axis, the same as `matrix_init_rotate`. -/
theorem C73_angle_axis (bk : Backend) (θ : ℝ) (axis : Vec3 ℝ) (h : AxisOk bk axis) (p : Point3D ℝ) :
    let q := Quat.initFromAngleVec3 bk θ axis
    UnitQuat q ∧ q.toMatrix = GMatrix.initRotate bk θ axis ∧
    GMatrix.transformPoint3D q.toMatrix p = rodrigues (unitOf axis) (θ * (Real.pi / 180)) p := by
  have hm : (Quat.initFromAngleVec3 bk θ axis).toMatrix = GMatrix.initRotate bk θ axis := by
    apply mat_injective
    rw [toMatrix_real, fromAngle_real h, GMatrix.initRotate, rotation_real h]
    have hu := unitOf_sq h.1
    have hd : degToRad θ = 2 * (θ * (Real.pi / 180) / 2) := by simp only [degToRad_real]; ring
    rw [hd]
    simp only [Real.cos_two_mul, Real.sin_two_mul]
    have hcs := Real.sin_sq_add_cos_sq (θ * (Real.pi / 180) / 2)
    set u := unitOf axis
    generalize Real.sin (θ * (Real.pi / 180) / 2) = s at *
    generalize Real.cos (θ * (Real.pi / 180) / 2) = c at *
    obtain ⟨ux, uy, uz⟩ := u
    dsimp only at *
    have hz : uz ^ 2 = 1 - ux ^ 2 - uy ^ 2 := by linarith
    have hs : s ^ 2 = 1 - c ^ 2 := by linarith
    ext i j
    fin_cases i <;> fin_cases j <;> simp <;> ring_nf <;> (try simp only [hz, hs]) <;> ring
  refine ⟨?_, hm, ?_⟩
  · rw [fromAngle_real h]
    have hu := unitOf_sq h.1
    have hcs := Real.sin_sq_add_cos_sq (θ * (Real.pi / 180) / 2)
    simp only [UnitQuat]
    linear_combination hcs + (Real.sin (θ * (Real.pi / 180) / 2)) ^ 2 * hu
  · rw [hm]; exact (C56_rotation bk θ axis h Vec3.zero p).2.1

/-- what `to_angle_vec3` computes on a unit quaternion -/
theorem toAngle_unit (bk : Backend) (q : Quat ℝ) (h : UnitQuat q) :
    Quat.toAngleVec3 bk q =
      (Real.arccos q.w * 2 * (180 / Real.pi),
       let s := if √(1 - q.w * q.w) < 5 / 100000 then 1 else √(1 - q.w * q.w)
       Vec3.init (q.x / s) (q.y / s) (q.z / s)) := by
  have hd : Quat.dot q q = 1 := by
    rw [(C70_algebra q q 0 Vec4.zero).2.2.2.2.2.1]; unfold UnitQuat at h; linarith
  have hr : rsqrt1 bk (Quat.dot q q) = 1 := by
    rw [rsqrt1_ok (by rw [hd]; norm_num) (by rw [hd]; exact Or.inr eps_lt_one), hd]; simp
  have e : Simd4f.dot4 q.vec q.vec = splat (Quat.dot q q) := rfl
  have hn : Quat.normalize bk q = q := by
    simp only [Quat.normalize, normalize4, e, Simd4f.rsqrt, map1, splat, hr]
    simp [Simd4f.mul, map2, Quat.initFromSimd4f, Quat.vec, Simd4f.init]
  simp [Quat.toAngleVec3, hn, radToDeg, abs_of_nonneg (Real.sqrt_nonneg _)]

/-- C73: `to_angle_vec3` recovers the angle (in [0°, 360°]) and the unit axis, when the sine of half the
angle is at least 0.00005 (below that the function does not divide by it). -/
theorem C73_to_angle_axis (bk : Backend) (θ : ℝ) (axis : Vec3 ℝ) (h : AxisOk bk axis) (h0 : 0 ≤ θ) (h1 : θ ≤ 360)
    (hs : 5 / 100000 ≤ Real.sin (θ * (Real.pi / 180) / 2)) :
    Quat.toAngleVec3 bk (Quat.initFromAngleVec3 bk θ axis) =
      (θ, Vec3.init (unitOf axis).x (unitOf axis).y (unitOf axis).z) := by
  rw [toAngle_unit bk _ (C73_angle_axis bk θ axis h ⟨0, 0, 0⟩).1, fromAngle_real h]
  have hpi := Real.pi_pos
  set φ := θ * (Real.pi / 180) / 2 with hφ
  have a0 : 0 ≤ φ := by positivity
  have a1 : φ ≤ Real.pi := by
    rw [hφ]
    have : θ * Real.pi ≤ 360 * Real.pi := mul_le_mul_of_nonneg_right h1 hpi.le
    linarith
  have hq : √(1 - Real.cos φ * Real.cos φ) = Real.sin φ := by
    rw [show 1 - Real.cos φ * Real.cos φ = Real.sin φ ^ 2 by rw [Real.sin_sq]; ring]
    exact Real.sqrt_sq (by linarith)
  dsimp only
  rw [hq, if_neg (not_lt.mpr hs), Real.arccos_cos a0 a1]
  have hne : Real.sin φ ≠ 0 := by linarith
  simp only [mul_div_assoc, div_self hne, mul_one, Prod.mk.injEq, and_true]
  rw [hφ]; field_simp

/-- C73: conversely `init_from_angle_vec3` of what `to_angle_vec3` returns is the quaternion itself. -/
theorem C73_from_to_angle_axis (bk : Backend) (q : Quat ℝ) (h : UnitQuat q) (hs : 5 / 100000 ≤ √(1 - q.w ^ 2)) :
    Quat.initFromAngleVec3 bk (Quat.toAngleVec3 bk q).1 (Quat.toAngleVec3 bk q).2 = q := by
  rw [toAngle_unit bk q h]
  dsimp only
  rw [show q.w * q.w = q.w ^ 2 by ring, if_neg (not_lt.mpr hs)]
  set s := √(1 - q.w ^ 2) with hS
  have hpos : 0 < s := by linarith
  have hs2 : s ^ 2 = 1 - q.w ^ 2 := by
    apply Real.sq_sqrt
    by_contra hneg
    rw [hS, Real.sqrt_eq_zero_of_nonpos (by linarith)] at hpos
    exact lt_irrefl _ hpos
  have hq : q.x ^ 2 + q.y ^ 2 + q.z ^ 2 = s ^ 2 := by unfold UnitQuat at h; linarith
  have hone : (Vec3.init (q.x / s) (q.y / s) (q.z / s)).getX ^ 2 + (Vec3.init (q.x / s) (q.y / s) (q.z / s)).getY ^ 2 +
      (Vec3.init (q.x / s) (q.y / s) (q.z / s)).getZ ^ 2 = 1 := by
    simp only [Vec3.init, Vec3.getX, Vec3.getY, Vec3.getZ, Simd4f.init, Simd4f.get, div_pow, ← add_div, hq]
    exact div_self (by positivity)
  have hax : AxisOk bk (Vec3.init (q.x / s) (q.y / s) (q.z / s)) := by
    unfold AxisOk; rw [hone]; exact ⟨by norm_num, Or.inr eps_lt_one⟩
  rw [fromAngle_real hax]
  have hu : unitOf (Vec3.init (q.x / s) (q.y / s) (q.z / s)) = ⟨q.x / s, q.y / s, q.z / s⟩ := by
    unfold unitOf; rw [hone]
    simp [Vec3.init, Vec3.getX, Vec3.getY, Vec3.getZ, Simd4f.init, Simd4f.get]
  have hφ : Real.arccos q.w * 2 * (180 / Real.pi) * (Real.pi / 180) / 2 = Real.arccos q.w := by
    have := Real.pi_ne_zero; field_simp
  rw [hu, hφ, Real.sin_arccos, ← hS, Real.cos_arccos (by nlinarith [sq_nonneg s]) (by nlinarith [sq_nonneg s])]
  ext <;> dsimp only <;> field_simp

/-- non-vacuity: a quarter turn about the x axis -/
example (bk : Backend) : AxisOk bk (Vec3.init 1 0 0) ∧ (5 / 100000 : ℝ) ≤ Real.sin (180 * (Real.pi / 180) / 2) ∧
    UnitQuat ⟨3 / 5, 0, 0, 4 / 5⟩ ∧ (5 / 100000 : ℝ) ≤ √(1 - (4 / 5 : ℝ) ^ 2) := by
  refine ⟨?_, ?_, ?_, ?_⟩
  · simp only [AxisOk, Vec3.init, Vec3.getX, Vec3.getY, Vec3.getZ, Simd4f.init, Simd4f.get]
    exact ⟨by norm_num, Or.inr (by norm_num; exact eps_lt_one)⟩
  · rw [show (180 : ℝ) * (Real.pi / 180) / 2 = Real.pi / 2 by ring, Real.sin_pi_div_two]; norm_num
  · simp only [UnitQuat]; norm_num
  · apply Real.le_sqrt_of_sq_le; norm_num

/-! ## three angles -/

/-- the rotation by an angle (radians) about the x, y, z axis, as a quaternion -/
noncomputable def Spec.rotX (r : ℝ) : Quaternion ℝ := quat ⟨Real.sin (r / 2), 0, 0, Real.cos (r / 2)⟩
noncomputable def Spec.rotY (r : ℝ) : Quaternion ℝ := quat ⟨0, Real.sin (r / 2), 0, Real.cos (r / 2)⟩
noncomputable def Spec.rotZ (r : ℝ) : Quaternion ℝ := quat ⟨0, 0, Real.sin (r / 2), Real.cos (r / 2)⟩

theorem coordAxisOk (bk : Backend) :
    AxisOk bk ⟨Simd4f.init 1 0 0 0⟩ ∧ AxisOk bk ⟨Simd4f.init 0 1 0 0⟩ ∧ AxisOk bk ⟨Simd4f.init 0 0 1 0⟩ := by
  simp only [AxisOk, Vec3.getX, Vec3.getY, Vec3.getZ, Simd4f.init, Simd4f.get]
  norm_num
  exact Or.inr eps_lt_one

/-- C73: `init_from_radians` is the product of the three axis rotations (z first, then y, then x), a unit
quaternion. -/
theorem C73_from_radians (x y z : ℝ) :
    quat (Quat.initFromRadians x y z) = rotX x * rotY y * rotZ z ∧ UnitQuat (Quat.initFromRadians x y z) := by
  have hq : quat (Quat.initFromRadians x y z) = rotX x * rotY y * rotZ z := by
    simp only [rotX, rotY, rotZ, ← fun a b => (C70_algebra a b 0 Vec4.zero).1]
    congr 1
    simp [Quat.multiply, Quat.initFromRadians, div_eq_mul_inv]
    ring
  refine ⟨hq, ?_⟩
  rw [unitQuat_iff, hq, map_mul, map_mul]
  have n : ∀ q : Quat ℝ, Quaternion.normSq (quat q) = q.w ^ 2 + q.x ^ 2 + q.y ^ 2 + q.z ^ 2 := fun q =>
    Quaternion.normSq_def' _
  simp only [rotX, rotY, rotZ, n]
  simp [Real.cos_sq_add_sin_sq]

/-- C73: the matrix of `init_from_angles (x, y, z)` is the rotation by `z` about Z, then `y` about Y, then `x`
about X (all in degrees). -/
theorem C73_from_angles (bk : Backend) (x y z : ℝ) :
    (Quat.initFromAngles x y z).toMatrix =
      GMatrix.rotateX bk (GMatrix.rotateY bk (GMatrix.rotateZ bk GMatrix.initIdentity z) y) x ∧
    Quat.initFromAngles x y z = Quat.initFromRadians (x * (Real.pi / 180)) (y * (Real.pi / 180)) (z * (Real.pi / 180)) := by
  have e : Quat.initFromAngles x y z = Quat.initFromRadians (x * (Real.pi / 180)) (y * (Real.pi / 180)) (z * (Real.pi / 180)) := by
    simp [Quat.initFromAngles, degToRad]
  refine ⟨?_, e⟩
  obtain ⟨ax, ay, az⟩ := coordAxisOk bk
  have qx := C73_angle_axis bk x _ ax ⟨0, 0, 0⟩
  have qy := C73_angle_axis bk y _ ay ⟨0, 0, 0⟩
  have qz := C73_angle_axis bk z _ az ⟨0, 0, 0⟩
  have hx : quat (Quat.initFromAngleVec3 bk x ⟨Simd4f.init 1 0 0 0⟩) = rotX (x * (Real.pi / 180)) := by
    rw [fromAngle_real ax]; simp [unitOf, Vec3.getX, Vec3.getY, Vec3.getZ, Simd4f.init, Simd4f.get, rotX]
  have hy : quat (Quat.initFromAngleVec3 bk y ⟨Simd4f.init 0 1 0 0⟩) = rotY (y * (Real.pi / 180)) := by
    rw [fromAngle_real ay]; simp [unitOf, Vec3.getX, Vec3.getY, Vec3.getZ, Simd4f.init, Simd4f.get, rotY]
  have hz : quat (Quat.initFromAngleVec3 bk z ⟨Simd4f.init 0 0 1 0⟩) = rotZ (z * (Real.pi / 180)) := by
    rw [fromAngle_real az]; simp [unitOf, Vec3.getX, Vec3.getY, Vec3.getZ, Simd4f.init, Simd4f.get, rotZ]
  have hm : ∀ a b, quat (Quat.multiply a b) = quat a * quat b := fun a b => (C70_algebra a b 0 Vec4.zero).1
  have hprod : Quat.initFromAngles x y z = Quat.multiply (Quat.multiply (Quat.initFromAngleVec3 bk x ⟨Simd4f.init 1 0 0 0⟩)
      (Quat.initFromAngleVec3 bk y ⟨Simd4f.init 0 1 0 0⟩)) (Quat.initFromAngleVec3 bk z ⟨Simd4f.init 0 0 1 0⟩) := by
    apply quat_injective
    rw [e, (C73_from_radians _ _ _).1, hm, hm, hx, hy, hz]
  have uxy := (C70_group (Quat.initFromAngleVec3 bk x ⟨Simd4f.init 1 0 0 0⟩) (Quat.initFromAngleVec3 bk y ⟨Simd4f.init 0 1 0 0⟩)
    Quat.identity).2.2.2.2.1 qx.1 qy.1
  rw [hprod, (C71_product _ _ uxy qz.1 GMatrix.initIdentity).1, (C71_product _ _ qx.1 qy.1 GMatrix.initIdentity).1, qx.2.1, qy.2.1, qz.2.1]
  apply mat_injective
  simp only [GMatrix.rotateX, GMatrix.rotateY, GMatrix.rotateZ, GMatrix.rotateInternal, GMatrix.multiply, matrixMul_real,
    initIdentity_real, one_mul, Matrix.mul_assoc, GMatrix.initRotate, RealScalar.f0_eq, RealScalar.f1_eq]

theorem arg_polar {r θ : ℝ} (hr : 0 < r) (h : θ ∈ Set.Ioc (-Real.pi) Real.pi) :
    Complex.arg ⟨r * Real.cos θ, r * Real.sin θ⟩ = θ := by
  have := Complex.arg_mul_cos_add_sin_mul_I hr h
  convert this using 2
  apply Complex.ext <;> simp [Complex.cos_ofReal_re, Complex.sin_ofReal_re, Complex.cos_ofReal_im, Complex.sin_ofReal_im]

/-- the five expressions `to_radians` evaluates, on the quaternion of three angles -/
theorem radians_terms (x y z : ℝ) :
    let q := Quat.initFromRadians x y z
    2 * (q.x * q.w - q.y * q.z) = Real.cos y * Real.sin x ∧
    q.w * q.w - q.x * q.x - q.y * q.y + q.z * q.z = Real.cos y * Real.cos x ∧
    2 * (q.x * q.z + q.y * q.w) = Real.sin y ∧
    2 * (q.z * q.w - q.x * q.y) = Real.cos y * Real.sin z ∧
    q.w * q.w + q.x * q.x - q.y * q.y - q.z * q.z = Real.cos y * Real.cos z := by
  intro q
  have hx : x = 2 * (x * (1 / 2)) := by ring
  have hy : y = 2 * (y * (1 / 2)) := by ring
  have hz : z = 2 * (z * (1 / 2)) := by ring
  have cx := Real.sin_sq_add_cos_sq (x * (1 / 2))
  have cy := Real.sin_sq_add_cos_sq (y * (1 / 2))
  have cz := Real.sin_sq_add_cos_sq (z * (1 / 2))
  have ex : Real.sin x = 2 * Real.sin (x * (1 / 2)) * Real.cos (x * (1 / 2)) := by rw [← Real.sin_two_mul, ← hx]
  have ex' : Real.cos x = 2 * Real.cos (x * (1 / 2)) ^ 2 - 1 := by rw [← Real.cos_two_mul, ← hx]
  have ey : Real.sin y = 2 * Real.sin (y * (1 / 2)) * Real.cos (y * (1 / 2)) := by rw [← Real.sin_two_mul, ← hy]
  have ey' : Real.cos y = 2 * Real.cos (y * (1 / 2)) ^ 2 - 1 := by rw [← Real.cos_two_mul, ← hy]
  have ez : Real.sin z = 2 * Real.sin (z * (1 / 2)) * Real.cos (z * (1 / 2)) := by rw [← Real.sin_two_mul, ← hz]
  have ez' : Real.cos z = 2 * Real.cos (z * (1 / 2)) ^ 2 - 1 := by rw [← Real.cos_two_mul, ← hz]
  rw [ex, ex', ey, ey', ez, ez']
  simp only [q, Quat.initFromRadians, RealScalar.mul_eq, RealScalar.add_eq, RealScalar.sub_eq, RealScalar.sin_eq, RealScalar.cos_eq,
    RealScalar.lit_eq, Int.cast_one, Nat.cast_ofNat]
  generalize Real.sin (x * (1 / 2)) = a at *
  generalize Real.cos (x * (1 / 2)) = b at *
  generalize Real.sin (y * (1 / 2)) = c at *
  generalize Real.cos (y * (1 / 2)) = d at *
  generalize Real.sin (z * (1 / 2)) = e at *
  generalize Real.cos (z * (1 / 2)) = f at *
  have ha : a ^ 2 = 1 - b ^ 2 := by linarith
  have hc : c ^ 2 = 1 - d ^ 2 := by linarith
  have he : e ^ 2 = 1 - f ^ 2 := by linarith
  refine ⟨?_, ?_, ?_, ?_, ?_⟩ <;> ring_nf <;> simp only [ha, hc, he] <;> ring

/-- C73: `to_radians` inverts `init_from_radians` for x and z in (-π, π] and y in (-π/2, π/2). -/
theorem C73_to_radians (x y z : ℝ) (hx : x ∈ Set.Ioc (-Real.pi) Real.pi) (hz : z ∈ Set.Ioc (-Real.pi) Real.pi)
    (hy : y ∈ Set.Ioo (-(Real.pi / 2)) (Real.pi / 2)) :
    Quat.toRadians (Quat.initFromRadians x y z) = (x, y, z) := by
  obtain ⟨t1, t2, t3, t4, t5⟩ := radians_terms x y z
  have hc : 0 < Real.cos y := Real.cos_pos_of_mem_Ioo hy
  simp only [Quat.toRadians, RealScalar.mul_eq, RealScalar.add_eq, RealScalar.sub_eq, RealScalar.f2_eq, RealScalar.atan2_eq,
    RealScalar.asin_eq, RealScalar.f1_eq, RealScalar.lit_eq, t1, t2, t3, t4, t5, arg_polar hc hx, arg_polar hc hz]
  have hcl : cClamp (Real.sin y) (((-1 : ℤ) : ℝ) / ((1 : ℕ) : ℝ)) 1 = Real.sin y := by
    have h1 := Real.neg_one_le_sin y
    have h2 := Real.sin_le_one y
    simp only [cClamp, RealScalar.lt_eq]
    rw [if_neg (by push_cast; norm_num; exact h1), if_neg (not_lt.mpr h2)]
  rw [hcl, Real.arcsin_sin hy.1.le hy.2.le]

/-- C73: `to_angles` inverts `init_from_angles` for x and z in (-180°, 180°] and y in (-90°, 90°). -/
theorem C73_to_angles (x y z : ℝ) (hx : x ∈ Set.Ioc (-180) (180 : ℝ)) (hz : z ∈ Set.Ioc (-180) (180 : ℝ))
    (hy : y ∈ Set.Ioo (-90) (90 : ℝ)) :
    Quat.toAngles (Quat.initFromAngles x y z) = (x, y, z) := by
  have hp := Real.pi_pos
  have s : ∀ t : ℝ, t ∈ Set.Ioc (-180) (180 : ℝ) → t * (Real.pi / 180) ∈ Set.Ioc (-Real.pi) Real.pi := by
    intro t ht
    obtain ⟨h1, h2⟩ := ht
    constructor <;> nlinarith
  have hy' : y * (Real.pi / 180) ∈ Set.Ioo (-(Real.pi / 2)) (Real.pi / 2) := by
    obtain ⟨h1, h2⟩ := hy
    constructor <;> nlinarith
  have r : ∀ t : ℝ, radToDeg (t * (Real.pi / 180)) = t := by
    intro t; simp only [radToDeg, RealScalar.mul_eq, RealScalar.div_eq, RealScalar.pi_eq, RealScalar.lit_eq, Int.cast_ofNat]
    have := hp.ne'
    field_simp; norm_num
  rw [(C73_from_angles (.scalar true) x y z).2]
  simp only [Quat.toAngles, C73_to_radians _ _ _ (s x hx) (s z hz) hy', r]

/-- in the matrix of a unit quaternion, the first column and last row determine the other entries -/
theorem rot_cofactors {x y z w : ℝ} (h : x ^ 2 + y ^ 2 + z ^ 2 + w ^ 2 = 1) :
    (1 - (2 * (x * z + w * y)) ^ 2) * (2 * (x * y + w * z)) =
      -(2 * (x * z + w * y)) * (2 * (y * z - w * x)) * (1 - 2 * (y * y + z * z)) -
        (2 * (x * y - w * z)) * (1 - 2 * (x * x + y * y)) ∧
    (1 - (2 * (x * z + w * y)) ^ 2) * (2 * (x * z - w * y)) =
      (2 * (x * y - w * z)) * (2 * (y * z - w * x)) -
        (2 * (x * z + w * y)) * (1 - 2 * (x * x + y * y)) * (1 - 2 * (y * y + z * z)) ∧
    1 - 2 * (x * x + z * z) = (1 - 2 * (x * x + y * y)) * (1 - 2 * (y * y + z * z)) -
      (2 * (x * z + w * y)) * (2 * (x * z - w * y)) ∧
    2 * (y * z + w * x) = (2 * (x * z + w * y)) * (2 * (x * y + w * z)) -
      (2 * (y * z - w * x)) * (1 - 2 * (y * y + z * z)) := by
  have hw : w ^ 2 = 1 - x ^ 2 - y ^ 2 - z ^ 2 := by linarith
  refine ⟨?_, ?_, ?_, ?_⟩ <;> ring_nf <;>
    simp only [hw, show w ^ 3 = w * w ^ 2 by ring] <;> ring

/-- C73: for any unit quaternion whose pitch is not ±90°, `init_from_radians (to_radians (q))` is the same
rotation as `q`, and the angles are in the range of `C73_to_radians`. -/
theorem C73_radians_rotation (q : Quat ℝ) (h : UnitQuat q) (hp : (2 * (q.x * q.z + q.y * q.w)) ^ 2 < 1) :
    let r := Quat.toRadians q
    (Quat.initFromRadians r.1 r.2.1 r.2.2 = q ∨ Quat.initFromRadians r.1 r.2.1 r.2.2 = opp q) ∧
    (Quat.initFromRadians r.1 r.2.1 r.2.2).toMatrix = q.toMatrix := by
  intro r
  have hu := (C73_from_radians r.1 r.2.1 r.2.2).2
  rw [← C71_double_cover _ _ hu h, and_self]
  obtain ⟨t1, t2, t3, t4, t5⟩ := radians_terms r.1 r.2.1 r.2.2
  set p := Quat.initFromRadians r.1 r.2.1 r.2.2 with hpdef
  -- the five expressions on q
  set S := 2 * (q.x * q.z + q.y * q.w) with hS
  have hS1 : -1 ≤ S := by nlinarith
  have hS2 : S ≤ 1 := by nlinarith
  have hcl : cClamp S (((-1 : ℤ) : ℝ) / ((1 : ℕ) : ℝ)) 1 = S := by
    simp only [cClamp, RealScalar.lt_eq]
    rw [if_neg (by push_cast; norm_num; exact hS1), if_neg (not_lt.mpr hS2)]
  have r1 : r.1 = Complex.arg ⟨q.w * q.w - q.x * q.x - q.y * q.y + q.z * q.z, 2 * (q.x * q.w - q.y * q.z)⟩ := by
    simp [r, Quat.toRadians]
  have r2 : r.2.1 = Real.arcsin S := by
    simp only [r, Quat.toRadians, RealScalar.mul_eq, RealScalar.add_eq, RealScalar.asin_eq, RealScalar.f1_eq, RealScalar.f2_eq, RealScalar.lit_eq]
    rw [← hS, hcl]
  have r3 : r.2.2 = Complex.arg ⟨q.w * q.w + q.x * q.x - q.y * q.y - q.z * q.z, 2 * (q.z * q.w - q.x * q.y)⟩ := by
    simp [r, Quat.toRadians]
  have hsin : Real.sin r.2.1 = S := by rw [r2, Real.sin_arcsin hS1 hS2]
  have hcos : Real.cos r.2.1 = √(1 - S ^ 2) := by rw [r2, Real.cos_arcsin]
  have hcp : 0 < √(1 - S ^ 2) := Real.sqrt_pos.mpr (by linarith)
  unfold UnitQuat at h
  have pol : ∀ a b : ℝ, a ^ 2 + b ^ 2 = 1 - S ^ 2 → √(1 - S ^ 2) * Real.cos (Complex.arg ⟨a, b⟩) = a ∧
      √(1 - S ^ 2) * Real.sin (Complex.arg ⟨a, b⟩) = b := by
    intro a b hab
    have hn : ‖(⟨a, b⟩ : ℂ)‖ = √(1 - S ^ 2) := by
      rw [Complex.norm_def, Complex.normSq_mk, ← hab]; congr 1; ring
    have hne : (⟨a, b⟩ : ℂ) ≠ 0 := by rw [← norm_pos_iff, hn]; exact hcp
    rw [Complex.cos_arg hne, Complex.sin_arg, hn]
    dsimp only
    constructor <;> field_simp
  obtain ⟨c1, s1⟩ := pol (q.w * q.w - q.x * q.x - q.y * q.y + q.z * q.z) (2 * (q.x * q.w - q.y * q.z)) (by
    rw [hS]; linear_combination (1 + q.x ^ 2 + q.y ^ 2 + q.z ^ 2 + q.w ^ 2) * h)
  obtain ⟨c3, s3⟩ := pol (q.w * q.w + q.x * q.x - q.y * q.y - q.z * q.z) (2 * (q.z * q.w - q.x * q.y)) (by
    rw [hS]; linear_combination (1 + q.x ^ 2 + q.y ^ 2 + q.z ^ 2 + q.w ^ 2) * h)
  rw [← r1, ← hcos] at c1 s1
  rw [← r3, ← hcos] at c3 s3
  rw [s1] at t1
  rw [c1] at t2
  rw [hsin, hS] at t3
  rw [s3] at t4
  rw [c3] at t5
  unfold UnitQuat at hu
  clear_value p
  clear r1 r2 r3 c1 s1 c3 s3 hsin hcos hcp hcl pol hpdef
  have hd : 1 - S ^ 2 ≠ 0 := by linarith
  rw [hS] at hd
  clear hS1 hS2 hp
  apply mat_injective
  rw [toMatrix_real, toMatrix_real]
  obtain ⟨x, y, z, w⟩ := q
  obtain ⟨x', y', z', w'⟩ := p
  dsimp only at *
  -- equal diagonal entries and the shared row and column
  have e00 : 1 - 2 * (y' * y' + z' * z') = 1 - 2 * (y * y + z * z) := by linarith
  have e22 : 1 - 2 * (x' * x' + y' * y') = 1 - 2 * (x * x + y * y) := by linarith
  have e20 : 2 * (x' * z' + w' * y') = 2 * (x * z + w * y) := by linarith
  have e10 : 2 * (x' * y' - w' * z') = 2 * (x * y - w * z) := by linarith
  have e21 : 2 * (y' * z' - w' * x') = 2 * (y * z - w * x) := by linarith
  -- the other four entries are determined
  obtain ⟨a1, a2, a3, a4⟩ := rot_cofactors h
  obtain ⟨b1, b2, b3, b4⟩ := rot_cofactors hu
  have hd' : 1 - (2 * (x * z + w * y)) ^ 2 ≠ 0 := by rwa [show w * y = y * w by ring]
  have e01 : 2 * (x' * y' + w' * z') = 2 * (x * y + w * z) := by
    apply mul_left_cancel₀ hd'
    rw [a1, ← e20, b1, e00, e10, e20, e21, e22]
  have e02 : 2 * (x' * z' - w' * y') = 2 * (x * z - w * y) := by
    apply mul_left_cancel₀ hd'
    rw [a2, ← e20, b2, e00, e10, e20, e21, e22]
  have e11 : 1 - 2 * (x' * x' + z' * z') = 1 - 2 * (x * x + z * z) := by
    rw [a3, b3, e00, e20, e22, e02]
  have e12 : 2 * (y' * z' + w' * x') = 2 * (y * z + w * x) := by
    rw [a4, b4, e00, e20, e21, e01]
  rw [e00, e01, e02, e10, e11, e12, e20, e21, e22]

/-- non-vacuity: a rotation about x that `to_radians` handles -/
example : UnitQuat ⟨3 / 5, 0, 0, 4 / 5⟩ ∧ (2 * ((3 / 5 : ℝ) * 0 + 0 * (4 / 5))) ^ 2 < 1 := by
  constructor
  · simp only [UnitQuat]; norm_num
  · norm_num

end Graphene
