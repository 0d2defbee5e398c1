/-
  C64: `graphene_matrix_init_look_at`.
-/
import Verif.Props.Matrix7

namespace Graphene
open Spec Simd4f Matrix

/-- three mutually orthogonal unit vectors, right-handed (`x × y = z`) -/
def Spec.Orthonormal (x y z : Point3D ℝ) : Prop :=
  (x.x ^ 2 + x.y ^ 2 + x.z ^ 2 = 1 ∧ y.x ^ 2 + y.y ^ 2 + y.z ^ 2 = 1 ∧ z.x ^ 2 + z.y ^ 2 + z.z ^ 2 = 1) ∧
  (x.x * y.x + x.y * y.y + x.z * y.z = 0 ∧ x.x * z.x + x.y * z.y + x.z * z.z = 0 ∧
    y.x * z.x + y.y * z.y + y.z * z.z = 0) ∧
  z = ⟨x.y * y.z - x.z * y.y, x.z * y.x - x.x * y.z, x.x * y.y - x.y * y.x⟩

/-- the first three entries of a row -/
def Spec.row3 (v : V4 ℝ) : Point3D ℝ := ⟨v.x, v.y, v.z⟩

/-- the vector from one point to another -/
noncomputable def Spec.vecTo (a b : Vec3 ℝ) : Vec3 ℝ := Vec3.init (b.getX - a.getX) (b.getY - a.getY) (b.getZ - a.getZ)

/-- the cross product -/
noncomputable def Spec.cross (u v : Point3D ℝ) : Vec3 ℝ :=
  Vec3.init (u.y * v.z - u.z * v.y) (u.z * v.x - u.x * v.z) (u.x * v.y - u.y * v.x)

/-- the squared length -/
noncomputable def Spec.sqLen (v : Vec3 ℝ) : ℝ := v.getX ^ 2 + v.getY ^ 2 + v.getZ ^ 2

theorem normalize3_lanes {bk : Backend} {v : V4 ℝ} {x y z : ℝ} (hx : v.x = x) (hy : v.y = y) (hz : v.z = z)
    (h : eps < x ^ 2 + y ^ 2 + z ^ 2) :
    row3 (normalize3 bk v) = unitOf (Vec3.init x y z) := by
  subst hx hy hz
  have h' : AxisOk bk ⟨v⟩ := ⟨lt_trans eps_pos h, Or.inr h⟩
  obtain ⟨a, b, c⟩ := normalize3_real h'
  have e : unitOf ⟨v⟩ = unitOf (Vec3.init v.x v.y v.z) := rfl
  rw [← e]
  ext
  · exact a
  · exact b
  · exact c

/-- the rows of the matrix in the regular case -/
theorem lookAt_rows (bk : Backend) (eye center up : Vec3 ℝ) (h1 : eps < sqLen (vecTo eye center))
    (h2 : eps < sqLen (cross (unitOf (vecTo eye center)) (vtx up))) :
    let z := unitOf (vecTo eye center)
    let x := unitOf (cross z (vtx up))
    let m := GMatrix.initLookAt bk eye center up
    row3 m.x = x ∧ row3 m.y = vtx (cross x z) ∧ row3 m.z = ⟨-z.x, -z.y, -z.z⟩ ∧
    m.w = ⟨-eye.getX, -eye.getY, -eye.getZ, 1⟩ := by
  intro z x m
  have hz : row3 (normalize3 bk (Simd4f.sub center.value eye.value)) = z :=
    normalize3_lanes (v := Simd4f.sub center.value eye.value) rfl rfl rfl h1
  have hd : (Simd4f.dot3 bk (Simd4f.sub center.value eye.value) (Simd4f.sub center.value eye.value)).x =
      sqLen (vecTo eye center) := by
    simp [Simd4f.dot3, sqLen, vecTo, greal]; ring
  set Z := normalize3 bk (Simd4f.sub center.value eye.value) with hZ
  have hc : Simd4f.cross3 bk Z up.value =
      ⟨(cross z (vtx up)).getX, (cross z (vtx up)).getY, (cross z (vtx up)).getZ, 0⟩ := by
    rw [cross3_real, ← hz]; rfl
  have hcc : (Simd4f.dot3 bk (Simd4f.cross3 bk Z up.value) (Simd4f.cross3 bk Z up.value)).x =
      sqLen (cross z (vtx up)) := by
    rw [hc]; simp only [Simd4f.dot3, dot3Scalar_real, sqLen, splat]; ring
  have hx : row3 (normalize3 bk (Simd4f.cross3 bk Z up.value)) = x :=
    normalize3_lanes (by rw [hc]; rfl) (by rw [hc]; rfl) (by rw [hc]; rfl) h2
  set X := normalize3 bk (Simd4f.cross3 bk Z up.value) with hX
  have hm : m = ⟨X, Simd4f.cross3 bk X Z, Simd4f.neg bk Z,
      Simd4f.init (-eye.getX) (-eye.getY) (-eye.getZ) 1⟩ := by
    have n1 : ((Simd4f.dot3 bk (Simd4f.sub center.value eye.value) (Simd4f.sub center.value eye.value)).x <. fltEps) = false := by
      rw [hd]; simpa using h1.le
    have n2 : ((Simd4f.dot3 bk (Simd4f.cross3 bk Z up.value) (Simd4f.cross3 bk Z up.value)).x <. fltEps) = false := by
      rw [hcc]; simpa using h2.le
    simp only [m, GMatrix.initLookAt, Simd4x4f.initLookAt, n1, Bool.false_eq_true, if_false, ← hZ, n2, ← hX]
    simp [Vec3.getX, Vec3.getY, Vec3.getZ, Simd4f.get]
  rw [hm]
  refine ⟨hx, ?_, ?_, rfl⟩
  · rw [← hx, ← hz, cross3_real]; rfl
  · rw [← hz]; simp [row3, Simd4f.neg, map1]

/-- C64, what holds: when `eye` and `center` are more than √FLT_EPSILON apart and `up` is not close to
parallel to the view direction, the rotation part is a right-handed orthonormal basis whose `z` axis
points from `center` to `eye` and whose `x` axis is orthogonal to `up`; the last row is `-eye`.
Missing: the eye is not mapped to the origin (`C64_eye_false`), and the basis is degenerate for some
`up` that is nearly parallel to the view direction (`C64_up_false`). -/
theorem C64_basis_partial (bk : Backend) (eye center up : Vec3 ℝ) (h1 : eps < sqLen (vecTo eye center))
    (h2 : eps < sqLen (cross (unitOf (vecTo eye center)) (vtx up))) :
    let m := GMatrix.initLookAt bk eye center up
    Orthonormal (row3 m.x) (row3 m.y) (row3 m.z) ∧
    row3 m.z = unitOf (vecTo center eye) ∧
    m.x.x * up.getX + m.x.y * up.getY + m.x.z * up.getZ = 0 ∧
    m.w = ⟨-eye.getX, -eye.getY, -eye.getZ, 1⟩ := by
  obtain ⟨e1, e2, e3, e4⟩ := lookAt_rows bk eye center up h1 h2
  intro m
  set z := unitOf (vecTo eye center) with hz
  have uz : z.x ^ 2 + z.y ^ 2 + z.z ^ 2 = 1 := unitOf_sq (lt_trans eps_pos h1)
  have ux : (unitOf (cross z (vtx up))).x ^ 2 + (unitOf (cross z (vtx up))).y ^ 2 + (unitOf (cross z (vtx up))).z ^ 2 = 1 :=
    unitOf_sq (lt_trans eps_pos h2)
  set x := unitOf (cross z (vtx up)) with hx
  obtain ⟨k, k1, k2, k3⟩ : ∃ k, x.x = (z.y * up.getZ - z.z * up.getY) * k ∧ x.y = (z.z * up.getX - z.x * up.getZ) * k ∧
      x.z = (z.x * up.getY - z.y * up.getX) * k := ⟨_, rfl, rfl, rfl⟩
  have o1 : x.x * z.x + x.y * z.y + x.z * z.z = 0 := by rw [k1, k2, k3]; ring
  have o2 : x.x * up.getX + x.y * up.getY + x.z * up.getZ = 0 := by rw [k1, k2, k3]; ring
  have q1 : row3 m.x = x := e1
  have q2 : row3 m.y = vtx (cross x z) := e2
  have q3 : row3 m.z = ⟨-z.x, -z.y, -z.z⟩ := e3
  clear_value x
  refine ⟨?_, ?_, ?_, e4⟩
  · rw [q1, q2, q3]
    obtain ⟨x1, x2, x3⟩ := x
    clear k1 k2 k3 o2 e1 e2 e3 e4 q1 q2 q3 hz hx h1 h2
    clear_value z
    obtain ⟨z1, z2, z3⟩ := z
    simp only [Orthonormal, cross, vtx, Vec3.init, Vec3.getX, Vec3.getY, Vec3.getZ, Simd4f.get, Simd4f.init,
      Point3D.mk.injEq] at *
    refine ⟨⟨ux, ?_, by linarith⟩, ⟨by ring, by linarith, by ring⟩, ?_, ?_, ?_⟩
    · linear_combination (z1 ^ 2 + z2 ^ 2 + z3 ^ 2) * ux + uz - (x1 * z1 + x2 * z2 + x3 * z3) * o1
    · linear_combination z1 * ux - x1 * o1
    · linear_combination z2 * ux - x2 * o1
    · linear_combination z3 * ux - x3 * o1
  · rw [q3, hz]
    simp only [unitOf, vecTo, Vec3.init, Vec3.getX, Vec3.getY, Vec3.getZ, Simd4f.get, Simd4f.init, Point3D.mk.injEq]
    have : ∀ a b c d e f : ℝ, (a - b) ^ 2 + (c - d) ^ 2 + (e - f) ^ 2 = (b - a) ^ 2 + (d - c) ^ 2 + (f - e) ^ 2 := by
      intros; ring
    rw [this]
    refine ⟨by ring, by ring, by ring⟩
  · have q1x : m.x.x = x.x := congrArg Point3D.x q1
    have q1y : m.x.y = x.y := congrArg Point3D.y q1
    have q1z : m.x.z = x.z := congrArg Point3D.z q1
    rw [q1x, q1y, q1z, o2]

theorem eps_lt_of_one {a : ℝ} (h : a = 1) : eps < a := by rw [h]; exact eps_lt_one

/-- C64 is false: the matrix does not map the eye to the origin.  Looking from (1, 0, 0) at the origin with
`up = (0, 1, 0)`, the eye is mapped to (-1, 0, -1). -/
theorem C64_eye_false (bk : Backend) :
    GMatrix.transformPoint3D (GMatrix.initLookAt bk (Vec3.init (1 : ℝ) 0 0) (Vec3.init 0 0 0) (Vec3.init 0 1 0))
      ⟨1, 0, 0⟩ = ⟨-1, 0, -1⟩ := by
  have hz : unitOf (vecTo (Vec3.init (1 : ℝ) 0 0) (Vec3.init 0 0 0)) = ⟨-1, 0, 0⟩ := by
    simp [unitOf, vecTo, Vec3.init, Vec3.getX, Vec3.getY, Vec3.getZ, Simd4f.get, Simd4f.init]
  have h1 : eps < sqLen (vecTo (Vec3.init (1 : ℝ) 0 0) (Vec3.init 0 0 0)) := by
    apply eps_lt_of_one
    simp [sqLen, vecTo, Vec3.init, Vec3.getX, Vec3.getY, Vec3.getZ, Simd4f.get, Simd4f.init]
  have hc : cross ⟨-1, 0, 0⟩ (vtx (Vec3.init (0 : ℝ) 1 0)) = Vec3.init 0 0 (-1) := by
    simp [cross, vtx, Vec3.init, Simd4f.init, Vec3.getX, Vec3.getY, Vec3.getZ, Simd4f.get]
  obtain ⟨e1, e2, e3, e4⟩ := lookAt_rows bk (Vec3.init (1 : ℝ) 0 0) (Vec3.init 0 0 0) (Vec3.init 0 1 0) h1 (by
    rw [hz, hc]; apply eps_lt_of_one
    simp [sqLen, Vec3.init, Vec3.getX, Vec3.getY, Vec3.getZ, Simd4f.get, Simd4f.init])
  rw [hz, hc] at e1
  have hx : unitOf (Vec3.init 0 0 (-1)) = ⟨0, 0, -1⟩ := by
    simp [unitOf, Vec3.init, Vec3.getX, Vec3.getY, Vec3.getZ, Simd4f.get, Simd4f.init]
  rw [hx] at e1
  set m := GMatrix.initLookAt bk (Vec3.init (1 : ℝ) 0 0) (Vec3.init 0 0 0) (Vec3.init 0 1 0)
  have x1 : m.x.x = 0 := congrArg Point3D.x e1
  have x2 : m.x.y = 0 := congrArg Point3D.y e1
  have x3 : m.x.z = -1 := congrArg Point3D.z e1
  rw [(C57_points m ⟨0, 0⟩ _ Vec3.zero).1, image_eq, x1, x2, x3, e4]
  simp [Vec3.init, Vec3.getX, Vec3.getY, Vec3.getZ, Simd4f.get, Simd4f.init]

/-- C64 is false for some `up` vectors that are not parallel to the view direction: the correction that is
meant to separate them may make them parallel.  Looking from the origin at (1, 0, 0) with
`up = (1, 0, 1/10000)` the `x` axis of the camera is the zero vector (SSE, GCC and NEON in exact arithmetic; the
scalar backend as well). -/
theorem C64_up_false (bk : Backend) :
    let m := GMatrix.initLookAt bk (Vec3.init (0 : ℝ) 0 0) (Vec3.init 1 0 0) (Vec3.init 1 0 (1 / 10000))
    row3 m.x = ⟨0, 0, 0⟩ := by
  intro m
  have hz : row3 (normalize3 bk (Simd4f.sub (Vec3.init (1 : ℝ) 0 0).value (Vec3.init 0 0 0).value)) = ⟨1, 0, 0⟩ := by
    have := normalize3_lanes (bk := bk) (v := Simd4f.sub (Vec3.init (1 : ℝ) 0 0).value (Vec3.init 0 0 0).value)
      (x := 1) (y := 0) (z := 0) (by simp [Vec3.init, greal]) (by simp [Vec3.init, greal]) (by simp [Vec3.init, greal])
      (eps_lt_of_one (by norm_num))
    rw [this]
    simp [unitOf, Vec3.init, Vec3.getX, Vec3.getY, Vec3.getZ, Simd4f.get, Simd4f.init]
  have n1 : ((Simd4f.dot3 bk (Simd4f.sub (Vec3.init (1 : ℝ) 0 0).value (Vec3.init 0 0 0).value)
      (Simd4f.sub (Vec3.init (1 : ℝ) 0 0).value (Vec3.init 0 0 0).value)).x <. fltEps) = false := by
    simp [Simd4f.dot3, Vec3.init, greal]; exact eps_lt_one.le
  set Z := normalize3 bk (Simd4f.sub (Vec3.init (1 : ℝ) 0 0).value (Vec3.init 0 0 0).value) with hZ
  have z1 : Z.x = 1 := congrArg Point3D.x hz
  have z2 : Z.y = 0 := congrArg Point3D.y hz
  have z3 : Z.z = 0 := congrArg Point3D.z hz
  have n2 : ((Simd4f.dot3 bk (Simd4f.cross3 bk Z (Vec3.init (1 : ℝ) 0 (1 / 10000)).value)
      (Simd4f.cross3 bk Z (Vec3.init (1 : ℝ) 0 (1 / 10000)).value)).x <. fltEps) = true := by
    rw [cross3_real]
    simp only [Simd4f.dot3, splat, dot3Scalar_real, Vec3.init, Simd4f.init, z1, z2, z3, RealScalar.lt_eq, fltEps_real]
    unfold eps; norm_num
  have n3 : (Scalar.abs ((FloatConv.widen (Vec3.init (1 : ℝ) 0 (1 / 10000)).value.z : ℝ) -. f1) <. fltEps) = false := by
    simp only [Vec3.init, Simd4f.init, RealScalar.widen_eq, RealScalar.lt_eq_false, fltEps_real, RealScalar.abs_eq, RealScalar.sub_eq, RealScalar.f1_eq]
    unfold eps; rw [abs_of_neg (by norm_num)]; norm_num
  set W := normalize3 bk (Simd4f.add Z (Simd4f.init f0 f0 (Scalar.lit 1 10000) f0)) with hW
  have hw : row3 W = unitOf (Vec3.init 1 0 (1 / 10000)) := by
    apply normalize3_lanes
    · simp [greal, z1]
    · simp [greal, z2]
    · simp [greal, z3]
    · unfold eps; norm_num
  have hm : m.x = normalize3 bk (Simd4f.cross3 bk W (Vec3.init (1 : ℝ) 0 (1 / 10000)).value) := by
    simp only [m, GMatrix.initLookAt, Simd4x4f.initLookAt, n1, Bool.false_eq_true, if_false, ← hZ, n2, if_true, n3, ← hW]
  obtain ⟨k, hk⟩ : ∃ k, W.x = 1 * k ∧ W.y = 0 * k ∧ W.z = 1 / 10000 * k :=
    ⟨_, congrArg Point3D.x hw, congrArg Point3D.y hw, congrArg Point3D.z hw⟩
  have hc : Simd4f.cross3 bk W (Vec3.init (1 : ℝ) 0 (1 / 10000)).value = ⟨0, 0, 0, 0⟩ := by
    rw [cross3_real]
    simp only [hk.1, hk.2.1, hk.2.2, Vec3.init, Simd4f.init, V4.mk.injEq]
    refine ⟨by ring, by ring, by ring, trivial⟩
  rw [hm, hc]
  simp [row3, normalize3, Simd4f.mul, map2]

/-- non-vacuity of `C64_basis_partial`: see the proof of `C64_eye_false`; here another camera -/
example : eps < sqLen (vecTo (Vec3.init (0 : ℝ) 0 0) (Vec3.init 0 0 (-1))) ∧
    eps < sqLen (cross (unitOf (vecTo (Vec3.init (0 : ℝ) 0 0) (Vec3.init 0 0 (-1)))) (vtx (Vec3.init (0 : ℝ) 1 0))) := by
  constructor <;> apply eps_lt_of_one <;>
    simp [sqLen, cross, unitOf, vecTo, vtx, Vec3.init, Vec3.getX, Vec3.getY, Vec3.getZ, Simd4f.get, Simd4f.init]

end Graphene
