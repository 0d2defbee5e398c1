/-
  C105: rigid motions.  Every matrix built from translations, rotations (angle and axis, quaternions, Euler angles),
  products and inverses, in any order and number, preserves distances, angles and orientation, can be inverted, and
  is inverted by the cheap `graphene_simd4x4f_inv_ortho_*` functions.
-/
import Verif.Props.Matrix8
import Verif.Props.Euler1

namespace Graphene
open Spec Simd4f Matrix

/-- The matrices a caller can build from rotations and translations: closed under every function of the API that
appends a rotation or a translation, under products and under inversion. -/
inductive Spec.Built (bk : Backend) : M4 ℝ → Prop
  | identity : Spec.Built bk GMatrix.initIdentity
  | initTranslate (t : Point3D ℝ) : Spec.Built bk (GMatrix.initTranslate t)
  | initRotate (θ : ℝ) (axis : Vec3 ℝ) (h : AxisOk bk axis) : Spec.Built bk (GMatrix.initRotate bk θ axis)
  | quaternion (q : Quat ℝ) (h : UnitQuat q) : Spec.Built bk q.toMatrix
  | euler (x y z : ℝ) (o : EulerOrder) : Spec.Built bk (Euler.initFromRadians x y z o).toMatrix
  | lookAt (e c : Point3D ℝ) (up : Vec3 ℝ) (h1 : eps < sqLen (vecTo (Vec3.init e.x e.y e.z) (Vec3.init c.x c.y c.z)))
      (h2 : eps < sqLen (cross (unitOf (vecTo (Vec3.init e.x e.y e.z) (Vec3.init c.x c.y c.z))) (vtx up))) :
      Spec.Built bk (GMatrix.initLookAt bk (Vec3.init e.x e.y e.z) (Vec3.init c.x c.y c.z) up)
  | translate (m : M4 ℝ) (t : Point3D ℝ) : Spec.Built bk m → Spec.Built bk (GMatrix.translate m t)
  | rotate (m : M4 ℝ) (θ : ℝ) (axis : Vec3 ℝ) (h : AxisOk bk axis) : Spec.Built bk m → Spec.Built bk (GMatrix.rotate bk m θ axis)
  | rotateX (m : M4 ℝ) (θ : ℝ) : Spec.Built bk m → Spec.Built bk (GMatrix.rotateX bk m θ)
  | rotateY (m : M4 ℝ) (θ : ℝ) : Spec.Built bk m → Spec.Built bk (GMatrix.rotateY bk m θ)
  | rotateZ (m : M4 ℝ) (θ : ℝ) : Spec.Built bk m → Spec.Built bk (GMatrix.rotateZ bk m θ)
  | rotateQuaternion (m : M4 ℝ) (q : Quat ℝ) (h : UnitQuat q) : Spec.Built bk m → Spec.Built bk (GMatrix.rotateQuaternion m q)
  | multiply (a b : M4 ℝ) : Spec.Built bk a → Spec.Built bk b → Spec.Built bk (GMatrix.multiply a b)
  | inverse (m r : M4 ℝ) : Spec.Built bk m → GMatrix.inverse bk m = some r → Spec.Built bk r

/-- the linear part -/
def linear3 (m : M4 ℝ) : Matrix (Fin 3) (Fin 3) ℝ :=
  !![m.x.x, m.x.y, m.x.z; m.y.x, m.y.y, m.y.z; m.z.x, m.z.y, m.z.z]

/-- orthonormal linear part, positive orientation, last column `(0, 0, 0, 1)` -/
structure Rigid (m : M4 ℝ) : Prop where
  aff : Affine m
  orth : linear3 m * (linear3 m)ᵀ = 1
  det : (linear3 m).det = 1

theorem linear3_mul (a b : M4 ℝ) (ha : Affine a) : linear3 (GMatrix.multiply a b) = linear3 a * linear3 b := by
  obtain ⟨h1, h2, h3, h4⟩ := ha
  ext i j
  fin_cases i <;> fin_cases j <;>
    simp [linear3, GMatrix.multiply, Simd4x4f.matrixMul, Simd4x4f.vec4Mul, Simd4x4f.init, Matrix.mul_apply, Fin.sum_univ_succ, greal, h1, h2, h3] <;> ring

theorem affine_mul (a b : M4 ℝ) (ha : Affine a) (hb : Affine b) : Affine (GMatrix.multiply a b) := by
  obtain ⟨h1, h2, h3, h4⟩ := ha
  obtain ⟨k1, k2, k3, k4⟩ := hb
  simp [Affine, GMatrix.multiply, Simd4x4f.matrixMul, Simd4x4f.vec4Mul, Simd4x4f.init, greal, h1, h2, h3, h4, k1, k2, k3, k4]

theorem Rigid.mul {a b : M4 ℝ} (ha : Rigid a) (hb : Rigid b) : Rigid (GMatrix.multiply a b) := by
  refine ⟨affine_mul a b ha.aff hb.aff, ?_, ?_⟩
  · rw [linear3_mul a b ha.aff, Matrix.transpose_mul, Matrix.mul_assoc, ← Matrix.mul_assoc (linear3 b), hb.orth, Matrix.one_mul, ha.orth]
  · rw [linear3_mul a b ha.aff, Matrix.det_mul, ha.det, hb.det, _root_.mul_one]

/-- a 4x4 rotation matrix is rigid -/
theorem rigid_of_mat {m : M4 ℝ} (ha : Affine m) (ho : mat m * (mat m)ᵀ = 1) (hd : (mat m).det = 1) : Rigid m := by
  obtain ⟨h1, h2, h3, h4⟩ := ha
  have e : ∀ i j, (mat m * (mat m)ᵀ) i j = (1 : Matrix (Fin 4) (Fin 4) ℝ) i j := fun i j => by rw [ho]
  refine ⟨⟨h1, h2, h3, h4⟩, ?_, ?_⟩
  · ext i j
    have e' := e (Fin.castSucc i) (Fin.castSucc j)
    fin_cases i <;> fin_cases j <;>
      simpa [linear3, mat, vec, Matrix.mul_apply, Fin.sum_univ_succ, h1, h2, h3, add_assoc] using e'
  · rw [← hd, Matrix.det_succ_column (mat m) 3]
    simp [Fin.sum_univ_succ, Matrix.det_fin_three, Matrix.submatrix, mat, vec, Fin.succAbove, linear3, h1, h2, h3, h4]
    ring

theorem det_rigid {m : M4 ℝ} (h : Affine m) : (mat m).det = (linear3 m).det := by
  obtain ⟨h1, h2, h3, h4⟩ := h
  rw [Matrix.det_succ_column (mat m) 3]
  simp [Fin.sum_univ_succ, Matrix.det_fin_three, Matrix.submatrix, mat, vec, Fin.succAbove, linear3, h1, h2, h3, h4]
  ring

/-- the inverse of a rigid motion: transposed linear part -/
def rigidInv (m : M4 ℝ) : M4 ℝ :=
  ⟨⟨m.x.x, m.y.x, m.z.x, 0⟩, ⟨m.x.y, m.y.y, m.z.y, 0⟩, ⟨m.x.z, m.y.z, m.z.z, 0⟩,
   ⟨-(m.w.x * m.x.x + m.w.y * m.x.y + m.w.z * m.x.z), -(m.w.x * m.y.x + m.w.y * m.y.y + m.w.z * m.y.z),
    -(m.w.x * m.z.x + m.w.y * m.z.y + m.w.z * m.z.z), 1⟩⟩

theorem rigid_eqs {m : M4 ℝ} (h : linear3 m * (linear3 m)ᵀ = 1) :
    (m.x.x ^ 2 + m.x.y ^ 2 + m.x.z ^ 2 = 1 ∧ m.y.x ^ 2 + m.y.y ^ 2 + m.y.z ^ 2 = 1 ∧ m.z.x ^ 2 + m.z.y ^ 2 + m.z.z ^ 2 = 1) ∧
    (m.x.x * m.y.x + m.x.y * m.y.y + m.x.z * m.y.z = 0 ∧ m.x.x * m.z.x + m.x.y * m.z.y + m.x.z * m.z.z = 0 ∧
      m.y.x * m.z.x + m.y.y * m.z.y + m.y.z * m.z.z = 0) := by
  have e : ∀ i j, (linear3 m * (linear3 m)ᵀ) i j = (1 : Matrix (Fin 3) (Fin 3) ℝ) i j := fun i j => by rw [h]
  have a := e 0 0
  have b := e 1 1
  have c := e 2 2
  have d := e 0 1
  have f := e 0 2
  have g := e 1 2
  simp [linear3, Matrix.mul_apply, Fin.sum_univ_succ] at a b c d f g
  refine ⟨⟨by linarith, by linarith, by linarith⟩, by linarith, by linarith, by linarith⟩

theorem linear3_inv (m : M4 ℝ) : linear3 (rigidInv m) = (linear3 m)ᵀ := by
  ext i j; fin_cases i <;> fin_cases j <;> rfl

theorem Rigid.inv {m : M4 ℝ} (h : Rigid m) : Rigid (rigidInv m) := by
  refine ⟨⟨rfl, rfl, rfl, rfl⟩, ?_, ?_⟩
  · rw [linear3_inv, Matrix.transpose_transpose]; exact mul_eq_one_comm.mp h.orth
  · rw [linear3_inv, Matrix.det_transpose]; exact h.det

theorem Rigid.inv_mul {m : M4 ℝ} (h : Rigid m) : mat m * mat (rigidInv m) = 1 := by
  obtain ⟨⟨a1, a2, a3⟩, b1, b2, b3⟩ := rigid_eqs h.orth
  obtain ⟨h1, h2, h3, h4⟩ := h.aff
  ext i j
  fin_cases i <;> fin_cases j <;> simp [mat, vec, rigidInv, Matrix.mul_apply, Fin.sum_univ_succ, h1, h2, h3, h4] <;> linarith

theorem Rigid.inverse (bk : Backend) {m : M4 ℝ} (h : Rigid m) : GMatrix.inverse bk m = some (rigidInv m) := by
  have d : |(mat m).det| = 1 := by rw [det_rigid h.aff, h.det, abs_one]
  obtain ⟨r, hr, h1⟩ := inverse_real bk m (by rw [d]; unfold eps; norm_num) (fun e => by rw [d] at e; unfold eps at e; norm_num at e)
  have : mat r = mat (rigidInv m) := by
    calc mat r = (mat (rigidInv m) * mat m) * mat r := by rw [mul_eq_one_comm.mp h.inv_mul, Matrix.one_mul]
      _ = _ := by rw [Matrix.mul_assoc, h1, Matrix.mul_one]
  rw [GMatrix.inverse, hr, mat_injective this]

theorem axisOk_unit (bk : Backend) (x y z : ℝ) (h : x ^ 2 + y ^ 2 + z ^ 2 = 1) : AxisOk bk (Vec3.init x y z) := by
  have : (Vec3.init x y z).getX ^ 2 + (Vec3.init x y z).getY ^ 2 + (Vec3.init x y z).getZ ^ 2 = 1 := h
  rw [AxisOk, this]
  exact ⟨one_pos, Or.inr (by unfold eps; norm_num)⟩

theorem rigid_rotate (bk : Backend) (θ : ℝ) (axis : Vec3 ℝ) (h : AxisOk bk axis) : Rigid (GMatrix.initRotate bk θ axis) :=
  rigid_of_mat (C56_rotation bk θ axis h axis ⟨0, 0, 0⟩).2.2 (C56_rotation_group bk θ θ axis h).1 (C56_rotation_group bk θ θ axis h).2.1

theorem rigid_translate (t : Point3D ℝ) : Rigid (GMatrix.initTranslate t) := by
  refine ⟨(C56_init t t 0 0 0 0 0).2.2.2.1, ?_, ?_⟩
  · ext i j
    fin_cases i <;> fin_cases j <;> simp [linear3, GMatrix.initTranslate, Matrix.mul_apply, Fin.sum_univ_succ, greal]
  · simp [linear3, GMatrix.initTranslate, Matrix.det_fin_three, greal]

theorem rigid_quat (q : Quat ℝ) (h : UnitQuat q) : Rigid q.toMatrix := by
  obtain ⟨a, -, b, -, c⟩ := C71_rotation q h
  exact rigid_of_mat c a b

theorem normalize3_w (bk : Backend) (v : V4 ℝ) (h : v.w = 0) : (normalize3 bk v).w = 0 := by
  obtain ⟨x, y, z, w⟩ := v
  simp only at h
  subst h
  cases bk <;> simp [normalize3, Simd4f.mul, Simd4f.div, map2, greal] <;> split_ifs <;> simp [greal]

theorem rigid_lookAt (bk : Backend) (e c : Point3D ℝ) (up : Vec3 ℝ)
    (h1 : eps < sqLen (vecTo (Vec3.init e.x e.y e.z) (Vec3.init c.x c.y c.z)))
    (h2 : eps < sqLen (cross (unitOf (vecTo (Vec3.init e.x e.y e.z) (Vec3.init c.x c.y c.z))) (vtx up))) :
    Rigid (GMatrix.initLookAt bk (Vec3.init e.x e.y e.z) (Vec3.init c.x c.y c.z) up) := by
  obtain ⟨⟨⟨a1, a2, a3⟩, ⟨b1, b2, b3⟩, k⟩, -, -, ew⟩ := C64_basis_partial bk _ _ up h1 h2
  have hd : (Simd4f.sub (Vec3.init c.x c.y c.z).value (Vec3.init e.x e.y e.z).value).w = 0 := by
    simp [Vec3.init, greal]
  have aff : Affine (GMatrix.initLookAt bk (Vec3.init e.x e.y e.z) (Vec3.init c.x c.y c.z) up) := by
    refine ⟨?_, ?_, ?_, by rw [ew]⟩
    · exact normalize3_w bk _ (by simp only [Simd4x4f.initLookAt]; split_ifs <;> rw [cross3_real])
    · simp only [GMatrix.initLookAt, Simd4x4f.initLookAt, cross3_real]
    · simp only [GMatrix.initLookAt, Simd4x4f.initLookAt, Simd4f.neg, map1]
      split_ifs <;> simp [normalize3_w, hd, greal]
  generalize GMatrix.initLookAt bk (Vec3.init e.x e.y e.z) (Vec3.init c.x c.y c.z) up = m at *
  simp only [row3, Point3D.mk.injEq] at a1 a2 a3 b1 b2 b3 k
  obtain ⟨k1, k2, k3⟩ := k
  refine ⟨aff, ?_, ?_⟩
  · ext i j
    fin_cases i <;> fin_cases j <;> simp [linear3, Matrix.mul_apply, Fin.sum_univ_succ] <;> linarith
  · simp [linear3, Matrix.det_fin_three]
    linear_combination a3 - m.z.x * k1 - m.z.y * k2 - m.z.z * k3

theorem lastCol_mul {A B : Matrix (Fin 4) (Fin 4) ℝ} (hA : ∀ i, A i 3 = if i = 3 then 1 else 0)
    (hB : ∀ i, B i 3 = if i = 3 then 1 else 0) (i : Fin 4) : (A * B) i 3 = if i = 3 then 1 else 0 := by
  rw [Matrix.mul_apply, Fin.sum_univ_four, hB, hB, hB, hB]
  simp [hA]

theorem lastCol_axis (a : Axis) (t : ℝ) (i : Fin 4) : axisMat a t i 3 = if i = 3 then 1 else 0 := by
  cases a <;> fin_cases i <;> simp [axisMat]

theorem rigid_built (bk : Backend) {m : M4 ℝ} (h : Spec.Built bk m) : Rigid m := by
  induction h with
  | identity =>
    have e : (GMatrix.initIdentity : M4 ℝ) = GMatrix.initTranslate ⟨f0, f0, f0⟩ := rfl
    rw [e]; exact rigid_translate _
  | initTranslate t => exact rigid_translate t
  | initRotate θ axis h => exact rigid_rotate bk θ axis h
  | quaternion q h => exact rigid_quat q h
  | euler x y z o =>
    obtain ⟨a, b⟩ := C77_rotation x y z o
    refine rigid_of_mat ?_ a b
    have e : ∀ i, mat (Euler.initFromRadians x y z o).toMatrix i 3 = if i = 3 then 1 else 0 := by
      have h := C77_to_matrix x y z o
      simp only at h
      rw [h]
      split
      · exact lastCol_mul (lastCol_mul (lastCol_axis _ _) (lastCol_axis _ _)) (lastCol_axis _ _)
      · exact lastCol_mul (lastCol_mul (lastCol_axis _ _) (lastCol_axis _ _)) (lastCol_axis _ _)
    exact ⟨e 0, e 1, e 2, e 3⟩
  | lookAt e c up h1 h2 => exact rigid_lookAt bk e c up h1 h2
  | translate m t _ ih => exact ih.mul (rigid_translate t)
  | rotate m θ axis h _ ih => exact ih.mul (rigid_rotate bk θ axis h)
  | rotateX m θ _ ih =>
    rw [(C56_append bk m ⟨0, 0, 0⟩ 0 0 0 0 θ (Vec3.init 0 0 0)).2.2.2.1]
    exact ih.mul (rigid_rotate bk θ _ (axisOk_unit bk 1 0 0 (by norm_num)))
  | rotateY m θ _ ih =>
    rw [(C56_append bk m ⟨0, 0, 0⟩ 0 0 0 0 θ (Vec3.init 0 0 0)).2.2.2.2.1]
    exact ih.mul (rigid_rotate bk θ _ (axisOk_unit bk 0 1 0 (by norm_num)))
  | rotateZ m θ _ ih =>
    rw [(C56_append bk m ⟨0, 0, 0⟩ 0 0 0 0 θ (Vec3.init 0 0 0)).2.2.2.2.2.1]
    exact ih.mul (rigid_rotate bk θ _ (axisOk_unit bk 0 0 1 (by norm_num)))
  | rotateQuaternion m q h _ ih => exact ih.mul (rigid_quat q h)
  | multiply a b _ _ iha ihb => exact iha.mul ihb
  | inverse m r _ hr ih =>
    rw [ih.inverse bk] at hr
    rw [← Option.some.inj hr]
    exact ih.inv

/-! ### What rigid motions do -/

/-- every entry is its own cofactor -/
theorem Rigid.cofactors {m : M4 ℝ} (h : Rigid m) :
    m.x.x = m.y.y * m.z.z - m.y.z * m.z.y ∧ m.x.y = m.y.z * m.z.x - m.y.x * m.z.z ∧ m.x.z = m.y.x * m.z.y - m.y.y * m.z.x ∧
    m.y.x = m.x.z * m.z.y - m.x.y * m.z.z ∧ m.y.y = m.x.x * m.z.z - m.x.z * m.z.x ∧ m.y.z = m.x.y * m.z.x - m.x.x * m.z.y ∧
    m.z.x = m.x.y * m.y.z - m.x.z * m.y.y ∧ m.z.y = m.x.z * m.y.x - m.x.x * m.y.z ∧ m.z.z = m.x.x * m.y.y - m.x.y * m.y.x := by
  have e : (linear3 m)ᵀ = (linear3 m).adjugate := by
    have := Matrix.adjugate_mul (linear3 m)
    rw [h.det, one_smul] at this
    calc (linear3 m)ᵀ = ((linear3 m).adjugate * linear3 m) * (linear3 m)ᵀ := by rw [this, Matrix.one_mul]
      _ = _ := by rw [Matrix.mul_assoc, h.orth, Matrix.mul_one]
  have g : ∀ i j, linear3 m i j = (linear3 m).adjugate j i := fun i j => by rw [← e]; rfl
  rw [Matrix.adjugate_fin_three] at g
  have g00 := g 0 0
  have g01 := g 0 1
  have g02 := g 0 2
  have g10 := g 1 0
  have g11 := g 1 1
  have g12 := g 1 2
  have g20 := g 2 0
  have g21 := g 2 1
  have g22 := g 2 2
  simp [linear3] at g00 g01 g02 g10 g11 g12 g20 g21 g22
  refine ⟨by linarith, by linarith, by linarith, by linarith, by linarith, by linarith, by linarith, by linarith, by linarith⟩

theorem rigid_point (m : M4 ℝ) (p : Point3D ℝ) : GMatrix.transformPoint3D m p =
    ⟨p.x * m.x.x + p.y * m.y.x + p.z * m.z.x + m.w.x, p.x * m.x.y + p.y * m.y.y + p.z * m.z.y + m.w.y,
     p.x * m.x.z + p.y * m.y.z + p.z * m.z.z + m.w.z⟩ := by
  simp [GMatrix.transformPoint3D, greal]
  refine ⟨by ring, by ring, by ring⟩

theorem rigid_vec (m : M4 ℝ) (v : Vec3 ℝ) : (GMatrix.transformVec3 m v).value =
    ⟨v.getX * m.x.x + v.getY * m.y.x + v.getZ * m.z.x, v.getX * m.x.y + v.getY * m.y.y + v.getZ * m.z.y,
     v.getX * m.x.z + v.getY * m.y.z + v.getZ * m.z.z, 0⟩ := by
  simp [GMatrix.transformVec3, Vec3.getX, Vec3.getY, Vec3.getZ, Simd4f.get, greal]
  refine ⟨by ring, by ring, by ring⟩

/-- C105: however it was built, such a matrix preserves the distance of any two points, dot products (hence lengths and
angles) and cross products (hence orientation) of vectors. -/
theorem C105_isometry (bk : Backend) (m : M4 ℝ) (h : Spec.Built bk m) :
    (∀ p q, eucl (GMatrix.transformPoint3D m p) (GMatrix.transformPoint3D m q) = eucl p q) ∧
    (∀ u v, Vec3.dot bk (GMatrix.transformVec3 m u) (GMatrix.transformVec3 m v) = Vec3.dot bk u v) ∧
    (∀ v, Vec3.length bk (GMatrix.transformVec3 m v) = Vec3.length bk v) ∧
    (∀ u v, vtx (Vec3.cross bk (GMatrix.transformVec3 m u) (GMatrix.transformVec3 m v)) =
      vtx (GMatrix.transformVec3 m (Vec3.cross bk u v))) := by
  have R := rigid_built bk h
  obtain ⟨⟨a1, a2, a3⟩, b1, b2, b3⟩ := rigid_eqs R.orth
  have dot : ∀ u v, Vec3.dot bk (GMatrix.transformVec3 m u) (GMatrix.transformVec3 m v) = Vec3.dot bk u v := by
    intro u v
    simp only [Vec3.dot, dot3Scalar_real, rigid_vec, Vec3.getX, Vec3.getY, Vec3.getZ, Simd4f.get]
    linear_combination (u.value.x * v.value.x) * a1 + (u.value.y * v.value.y) * a2 + (u.value.z * v.value.z) * a3 +
      (u.value.x * v.value.y + u.value.y * v.value.x) * b1 + (u.value.x * v.value.z + u.value.z * v.value.x) * b2 +
      (u.value.y * v.value.z + u.value.z * v.value.y) * b3
  refine ⟨?_, dot, ?_, ?_⟩
  · intro p q
    have : distSq (GMatrix.transformPoint3D m p) (GMatrix.transformPoint3D m q) = distSq p q := by
      rw [rigid_point, rigid_point]
      simp only [distSq]
      linear_combination (p.x - q.x) ^ 2 * a1 + (p.y - q.y) ^ 2 * a2 + (p.z - q.z) ^ 2 * a3 +
        2 * (p.x - q.x) * (p.y - q.y) * b1 + 2 * (p.x - q.x) * (p.z - q.z) * b2 + 2 * (p.y - q.y) * (p.z - q.z) * b3
    rw [eucl, eucl, this]
  · intro v
    have := dot v v
    simp only [Vec3.dot, dot3Scalar_real] at this
    simp only [Vec3.length, length3_real, Simd4f.get, splat]
    rw [this]
  · intro u v
    obtain ⟨c1, c2, c3, c4, c5, c6, c7, c8, c9⟩ := R.cofactors
    simp only [Vec3.cross, vtx, rigid_vec, cross3_real, Vec3.getX, Vec3.getY, Vec3.getZ, Simd4f.get, Point3D.mk.injEq]
    generalize u.value.x = u1, u.value.y = u2, u.value.z = u3, v.value.x = v1, v.value.y = v2, v.value.z = v3
    refine ⟨?_, ?_, ?_⟩
    · linear_combination -(u2 * v3 - u3 * v2) * c1 - (u3 * v1 - u1 * v3) * c4 - (u1 * v2 - u2 * v1) * c7
    · linear_combination -(u2 * v3 - u3 * v2) * c2 - (u3 * v1 - u1 * v3) * c5 - (u1 * v2 - u2 * v1) * c8
    · linear_combination -(u2 * v3 - u3 * v2) * c3 - (u3 * v1 - u1 * v3) * c6 - (u1 * v2 - u2 * v1) * c9

/-- C105: such a matrix can always be inverted, its determinant (as the library computes it, negated: C53) is exactly
one in magnitude, and the inverse undoes it in both directions. -/
theorem C105_inverse (bk : Backend) (m : M4 ℝ) (h : Spec.Built bk m) :
    ∃ r, GMatrix.inverse bk m = some r ∧ Spec.Built bk r ∧
      (∀ p, GMatrix.transformPoint3D r (GMatrix.transformPoint3D m p) = p) ∧
      (∀ p, GMatrix.transformPoint3D m (GMatrix.transformPoint3D r p) = p) ∧
      GMatrix.determinant bk m = -1 ∧ GMatrix.isSingular bk m = false := by
  have R := rigid_built bk h
  have i := R.inverse bk
  have b : Spec.Built bk (rigidInv m) := .inverse m _ h i
  have d : (mat m).det = 1 := by rw [det_rigid R.aff, R.det]
  obtain ⟨⟨a1, a2, a3⟩, b1, b2, b3⟩ := rigid_eqs R.orth
  obtain ⟨⟨c1, c2, c3⟩, d1, d2, d3⟩ := rigid_eqs R.inv.orth
  simp only [rigidInv] at c1 c2 c3 d1 d2 d3
  refine ⟨_, i, b, ?_, ?_, ?_, ?_⟩
  · rintro ⟨x, y, z⟩
    simp only [rigid_point, rigidInv, Point3D.mk.injEq]
    refine ⟨?_, ?_, ?_⟩
    · linear_combination x * a1 + y * b1 + z * b2
    · linear_combination x * b1 + y * a2 + z * b3
    · linear_combination x * b2 + y * b3 + z * a3
  · rintro ⟨x, y, z⟩
    simp only [rigid_point, rigidInv, Point3D.mk.injEq]
    refine ⟨?_, ?_, ?_⟩
    · linear_combination (x - m.w.x) * c1 + (y - m.w.y) * d1 + (z - m.w.z) * d2
    · linear_combination (x - m.w.x) * d1 + (y - m.w.y) * c2 + (z - m.w.z) * d3
    · linear_combination (x - m.w.x) * d2 + (y - m.w.y) * d3 + (z - m.w.z) * c3
  · rw [(C53_determinant_partial bk m m).1, d]
  · rw [← Bool.not_eq_true, C53_singular, d, abs_one]; unfold eps; norm_num

/-- C105: `graphene_simd4x4f_inv_ortho_vec3_mul` and `graphene_simd4x4f_inv_ortho_point3_mul` undo the transformation of
vectors and of points, and agree with transforming by the inverse matrix; the value of the fourth lane of the argument does
not matter. -/
theorem C105_inv_ortho (bk : Backend) (m r : M4 ℝ) (h : Spec.Built bk m) (hr : GMatrix.inverse bk m = some r) (x y z w : ℝ) :
    row3 (Simd4x4f.invOrthoVec3Mul m (Simd4x4f.vec3Mul m ⟨x, y, z, w⟩)) = ⟨x, y, z⟩ ∧
    row3 (Simd4x4f.vec3Mul m (Simd4x4f.invOrthoVec3Mul m ⟨x, y, z, w⟩)) = ⟨x, y, z⟩ ∧
    row3 (Simd4x4f.invOrthoPoint3Mul m (Simd4x4f.point3Mul m ⟨x, y, z, w⟩)) = ⟨x, y, z⟩ ∧
    row3 (Simd4x4f.point3Mul m (Simd4x4f.invOrthoPoint3Mul m ⟨x, y, z, w⟩)) = ⟨x, y, z⟩ ∧
    row3 (Simd4x4f.invOrthoVec3Mul m ⟨x, y, z, w⟩) = row3 (Simd4x4f.vec3Mul r ⟨x, y, z, w⟩) ∧
    row3 (Simd4x4f.invOrthoPoint3Mul m ⟨x, y, z, w⟩) = GMatrix.transformPoint3D r ⟨x, y, z⟩ := by
  have R := rigid_built bk h
  have i := R.inverse bk
  rw [hr] at i
  rw [Option.some.inj i]
  obtain ⟨⟨a1, a2, a3⟩, b1, b2, b3⟩ := rigid_eqs R.orth
  obtain ⟨⟨c1, c2, c3⟩, d1, d2, d3⟩ := rigid_eqs R.inv.orth
  simp only [rigidInv] at c1 c2 c3 d1 d2 d3
  have e1 : ∀ (n : M4 ℝ) x y z w, Simd4x4f.vec3Mul n ⟨x, y, z, w⟩ = ⟨x * n.x.x + y * n.y.x + z * n.z.x,
      x * n.x.y + y * n.y.y + z * n.z.y, x * n.x.z + y * n.y.z + z * n.z.z, 0⟩ := by
    intro n x y z w
    exact rigid_vec n ⟨⟨x, y, z, w⟩⟩
  have e2 : ∀ x y z w, Simd4x4f.invOrthoVec3Mul m ⟨x, y, z, w⟩ = ⟨x * m.x.x + y * m.x.y + z * m.x.z,
      x * m.y.x + y * m.y.y + z * m.y.z, x * m.z.x + y * m.z.y + z * m.z.z, 0⟩ := by
    intro x y z w
    simp [Simd4x4f.invOrthoVec3Mul, greal]
    refine ⟨by ring, by ring, by ring⟩
  have e3 : ∀ x y z w, row3 (Simd4x4f.point3Mul m ⟨x, y, z, w⟩) = ⟨x * m.x.x + y * m.y.x + z * m.z.x + m.w.x,
      x * m.x.y + y * m.y.y + z * m.z.y + m.w.y, x * m.x.z + y * m.y.z + z * m.z.z + m.w.z⟩ := by
    intro x y z w
    exact rigid_point m ⟨x, y, z⟩
  have e4 : ∀ v, row3 (Simd4x4f.invOrthoPoint3Mul m v) =
      ⟨(v.x - m.w.x) * m.x.x + (v.y - m.w.y) * m.x.y + (v.z - m.w.z) * m.x.z,
       (v.x - m.w.x) * m.y.x + (v.y - m.w.y) * m.y.y + (v.z - m.w.z) * m.y.z,
       (v.x - m.w.x) * m.z.x + (v.y - m.w.y) * m.z.y + (v.z - m.w.z) * m.z.z⟩ := by
    intro v
    simp [Simd4x4f.invOrthoPoint3Mul, row3, R.aff.1, R.aff.2.1, R.aff.2.2.1, greal]
    refine ⟨by ring, by ring, by ring⟩
  have px := fun x y z w => congrArg Point3D.x (e3 x y z w)
  have py := fun x y z w => congrArg Point3D.y (e3 x y z w)
  have pz := fun x y z w => congrArg Point3D.z (e3 x y z w)
  simp only [row3] at px py pz
  refine ⟨?_, ?_, ?_, ?_, ?_, ?_⟩
  · rw [e1, e2]
    simp only [row3, Point3D.mk.injEq]
    refine ⟨?_, ?_, ?_⟩
    · linear_combination x * a1 + y * b1 + z * b2
    · linear_combination x * b1 + y * a2 + z * b3
    · linear_combination x * b2 + y * b3 + z * a3
  · rw [e2, e1]
    simp only [row3, Point3D.mk.injEq]
    refine ⟨?_, ?_, ?_⟩
    · linear_combination x * c1 + y * d1 + z * d2
    · linear_combination x * d1 + y * c2 + z * d3
    · linear_combination x * d2 + y * d3 + z * c3
  · rw [e4, px, py, pz]
    simp only [Point3D.mk.injEq]
    refine ⟨?_, ?_, ?_⟩
    · linear_combination x * a1 + y * b1 + z * b2
    · linear_combination x * b1 + y * a2 + z * b3
    · linear_combination x * b2 + y * b3 + z * a3
  · have q := e4 ⟨x, y, z, w⟩
    generalize Simd4x4f.invOrthoPoint3Mul m ⟨x, y, z, w⟩ = v at *
    obtain ⟨v1, v2, v3, v4⟩ := v
    simp only [row3, Point3D.mk.injEq] at q
    obtain ⟨q1, q2, q3⟩ := q
    rw [e3, q1, q2, q3]
    simp only [Point3D.mk.injEq]
    refine ⟨?_, ?_, ?_⟩
    · linear_combination (x - m.w.x) * c1 + (y - m.w.y) * d1 + (z - m.w.z) * d2
    · linear_combination (x - m.w.x) * d1 + (y - m.w.y) * c2 + (z - m.w.z) * d3
    · linear_combination (x - m.w.x) * d2 + (y - m.w.y) * d3 + (z - m.w.z) * c3
  · rw [e2, e1]; rfl
  · rw [e4, rigid_point]
    simp only [rigidInv, Point3D.mk.injEq]
    refine ⟨by ring, by ring, by ring⟩

/-- non-vacuity: turn by 30 degrees about (1, 2, 2), move by (1, 2, 3), turn about the x axis and invert -/
example (bk : Backend) : ∃ m, Spec.Built bk m ∧ GMatrix.inverse bk (GMatrix.rotateX bk (GMatrix.translate
    (GMatrix.initRotate bk 30 (Vec3.init 1 2 2)) ⟨1, 2, 3⟩) 45) = some m := by
  have a : AxisOk bk (Vec3.init 1 2 2) := by
    have : (Vec3.init (1 : ℝ) 2 2).getX ^ 2 + (Vec3.init (1 : ℝ) 2 2).getY ^ 2 + (Vec3.init (1 : ℝ) 2 2).getZ ^ 2 = 9 := by
      show (1 : ℝ) ^ 2 + 2 ^ 2 + 2 ^ 2 = 9
      norm_num
    rw [AxisOk, this]
    exact ⟨by norm_num, Or.inr (by unfold eps; norm_num)⟩
  have b := Spec.Built.rotateX _ 45 (.translate _ ⟨1, 2, 3⟩ (.initRotate 30 _ a))
  obtain ⟨r, hr, h, -⟩ := C105_inverse bk _ b
  exact ⟨r, h, hr⟩

end Graphene
