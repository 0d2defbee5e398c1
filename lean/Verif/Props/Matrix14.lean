/-
  C112: `graphene_matrix_init_look_at` in its degenerate cases.
-/
import Verif.Props.Matrix8

namespace Graphene
open Spec Simd4f Matrix

namespace Spec

/-- the direction to look in: from `eye` to `center`, or +z if they (almost) coincide -/
noncomputable def lookDir (eye center : Vec3 ℝ) : Point3D ℝ :=
  if sqLen (vecTo eye center) < eps then ⟨0, 0, 1⟩ else unitOf (vecTo eye center)

/-- the correction when `up` is (almost) parallel to the direction: 1/10000 along x if `up.z` is 1, and along z otherwise -/
noncomputable def tweak (up : Vec3 ℝ) : Point3D ℝ := if |up.getZ - 1| < eps then ⟨1 / 10000, 0, 0⟩ else ⟨0, 0, 1 / 10000⟩

/-- the direction after that correction -/
noncomputable def lookDir' (eye center up : Vec3 ℝ) : Point3D ℝ :=
  if sqLen (cross (lookDir eye center) (vtx up)) < eps then
    unitOf (Vec3.init ((lookDir eye center).x + (tweak up).x) ((lookDir eye center).y + (tweak up).y) ((lookDir eye center).z + (tweak up).z))
  else lookDir eye center

end Spec

theorem normalize3_lanes' {bk : Backend} (hb : ∀ d, bk ≠ .scalar d) {v : V4 ℝ} {x y z : ℝ} (hx : v.x = x) (hy : v.y = y) (hz : v.z = z)
    (h : 0 < x ^ 2 + y ^ 2 + z ^ 2) :
    row3 (normalize3 bk v) = unitOf (Vec3.init x y z) := by
  subst hx hy hz
  have h' : AxisOk bk ⟨v⟩ := ⟨h, Or.inl hb⟩
  obtain ⟨a, b, c⟩ := normalize3_real h'
  have e : unitOf ⟨v⟩ = unitOf (Vec3.init v.x v.y v.z) := rfl
  rw [← e]
  ext
  · exact a
  · exact b
  · exact c

theorem lookDir_unit (eye center : Vec3 ℝ) : (lookDir eye center).x ^ 2 + (lookDir eye center).y ^ 2 + (lookDir eye center).z ^ 2 = 1 := by
  unfold lookDir
  split
  · norm_num
  · exact unitOf_sq (lt_of_lt_of_le eps_pos (not_lt.mp ‹_›))

theorem tweak_sq (up : Vec3 ℝ) : (tweak up).x ^ 2 + (tweak up).y ^ 2 + (tweak up).z ^ 2 = (1 / 10000) ^ 2 := by
  unfold tweak; split <;> norm_num

/-- a unit vector moved by 1/10000 stays away from zero -/
theorem tweaked_pos {z t : Point3D ℝ} (hz : z.x ^ 2 + z.y ^ 2 + z.z ^ 2 = 1) (ht : t.x ^ 2 + t.y ^ 2 + t.z ^ 2 = (1 / 10000) ^ 2) :
    0 < (z.x + t.x) ^ 2 + (z.y + t.y) ^ 2 + (z.z + t.z) ^ 2 := by
  have h : -(2 * (z.x * t.x + z.y * t.y + z.z * t.z)) ≤ 1 / 2 + 1 / 2000 := by
    nlinarith [sq_nonneg (z.x + 2 * t.x), sq_nonneg (z.y + 2 * t.y), sq_nonneg (z.z + 2 * t.z)]
  nlinarith

theorem lookDir'_unit (eye center up : Vec3 ℝ) :
    (lookDir' eye center up).x ^ 2 + (lookDir' eye center up).y ^ 2 + (lookDir' eye center up).z ^ 2 = 1 := by
  unfold lookDir'
  split
  · exact unitOf_sq (tweaked_pos (lookDir_unit eye center) (tweak_sq up))
  · exact lookDir_unit eye center

/-- the rows of the matrix in all cases -/
theorem lookAt_rows' (bk : Backend) (hb : ∀ d, bk ≠ .scalar d) (eye center up : Vec3 ℝ)
    (h : 0 < sqLen (cross (lookDir' eye center up) (vtx up))) :
    let z := lookDir' eye center up
    let x := unitOf (cross z (vtx up))
    let m := GMatrix.initLookAt bk eye center up
    row3 m.x = x ∧ row3 m.y = vtx (cross x z) ∧ row3 m.z = ⟨-z.x, -z.y, -z.z⟩ ∧
    m.w = ⟨-eye.getX, -eye.getY, -eye.getZ, 1⟩ := by
  intro z x m
  have hd : (Simd4f.dot3 bk (Simd4f.sub center.value eye.value) (Simd4f.sub center.value eye.value)).x =
      sqLen (vecTo eye center) := by
    simp [Simd4f.dot3, sqLen, vecTo, greal]; ring
  have hc : ∀ Z : V4 ℝ, Simd4f.cross3 bk Z up.value =
      ⟨(cross (row3 Z) (vtx up)).getX, (cross (row3 Z) (vtx up)).getY, (cross (row3 Z) (vtx up)).getZ, 0⟩ := by
    intro Z; rw [cross3_real]; rfl
  have hcc : ∀ Z : V4 ℝ, (Simd4f.dot3 bk (Simd4f.cross3 bk Z up.value) (Simd4f.cross3 bk Z up.value)).x =
      sqLen (cross (row3 Z) (vtx up)) := by
    intro Z; rw [hc]; simp only [Simd4f.dot3, dot3Scalar_real, sqLen, splat]; ring
  -- the first direction
  obtain ⟨Z0, hZ0, e0⟩ : ∃ Z0 : V4 ℝ, (if (Simd4f.dot3 bk (Simd4f.sub center.value eye.value) (Simd4f.sub center.value eye.value)).x <. fltEps
      then Simd4f.init f0 f0 f1 f0 else normalize3 bk (Simd4f.sub center.value eye.value)) = Z0 ∧ row3 Z0 = lookDir eye center := by
    refine ⟨_, rfl, ?_⟩
    rw [hd]
    unfold lookDir
    by_cases hs : sqLen (vecTo eye center) < eps
    · rw [if_pos hs, if_pos (by simpa using hs)]
      simp [row3, Simd4f.init]
    · rw [if_neg hs, if_neg (by simpa using hs)]
      exact normalize3_lanes' hb (v := Simd4f.sub center.value eye.value) rfl rfl rfl (lt_of_lt_of_le eps_pos (not_lt.mp hs))
  -- the corrected direction
  obtain ⟨Z, hZ, hm⟩ : ∃ Z : V4 ℝ, row3 Z = z ∧ m = ⟨normalize3 bk (Simd4f.cross3 bk Z up.value),
      Simd4f.cross3 bk (normalize3 bk (Simd4f.cross3 bk Z up.value)) Z, Simd4f.neg bk Z,
      Simd4f.init (-eye.getX) (-eye.getY) (-eye.getZ) 1⟩ := by
    by_cases hp : sqLen (cross (lookDir eye center) (vtx up)) < eps
    · have hp' : ((Simd4f.dot3 bk (Simd4f.cross3 bk Z0 up.value) (Simd4f.cross3 bk Z0 up.value)).x <. fltEps) = true := by
        rw [hcc, e0]; simpa using hp
      refine ⟨normalize3 bk (Simd4f.add Z0 (if Scalar.abs ((FloatConv.widen up.value.z : ℝ) -. f1) <. fltEps then
          Simd4f.init (Scalar.lit 1 10000) f0 f0 f0 else Simd4f.init f0 f0 (Scalar.lit 1 10000) f0)), ?_, ?_⟩
      · simp only [z, lookDir', if_pos hp]
        apply normalize3_lanes' hb _ _ _ (tweaked_pos (lookDir_unit eye center) (tweak_sq up)) <;> rw [← e0] <;>
          by_cases ht : |up.getZ - 1| < eps <;>
          simp only [tweak, ht, if_true, if_false] <;>
          simp only [Vec3.getZ, Simd4f.get] at ht <;>
          simp [ht, row3, Simd4f.add, map2, Simd4f.init, greal]
      · simp only [m, GMatrix.initLookAt, Simd4x4f.initLookAt, hZ0, hp', if_true]
        simp [Vec3.getX, Vec3.getY, Vec3.getZ, Simd4f.get]
    · have hp' : ((Simd4f.dot3 bk (Simd4f.cross3 bk Z0 up.value) (Simd4f.cross3 bk Z0 up.value)).x <. fltEps) = false := by
        rw [hcc, e0]; simpa using hp
      refine ⟨Z0, ?_, ?_⟩
      · simp only [z, lookDir', if_neg hp]; exact e0
      · simp only [m, GMatrix.initLookAt, Simd4x4f.initLookAt, hZ0, hp', Bool.false_eq_true, if_false]
        simp [Vec3.getX, Vec3.getY, Vec3.getZ, Simd4f.get]
  have hx : row3 (normalize3 bk (Simd4f.cross3 bk Z up.value)) = x := by
    apply normalize3_lanes' hb _ _ _ h
    all_goals rw [hc, hZ]
  rw [hm]
  generalize normalize3 bk (Simd4f.cross3 bk Z up.value) = X at *
  refine ⟨hx, ?_, ?_, rfl⟩
  · rw [← hx, ← hZ, cross3_real]; rfl
  · rw [← hZ]; simp [row3, Simd4f.neg, map1]

/-- from a unit vector and an `up` that is not parallel to it, an orthonormal basis -/
theorem camera_basis (z : Point3D ℝ) (up : Vec3 ℝ) (uz : z.x ^ 2 + z.y ^ 2 + z.z ^ 2 = 1) (h : 0 < sqLen (cross z (vtx up))) :
    let x := unitOf (cross z (vtx up))
    Orthonormal x (vtx (cross x z)) ⟨-z.x, -z.y, -z.z⟩ ∧ x.x * up.getX + x.y * up.getY + x.z * up.getZ = 0 := by
  have ux : (unitOf (cross z (vtx up))).x ^ 2 + (unitOf (cross z (vtx up))).y ^ 2 + (unitOf (cross z (vtx up))).z ^ 2 = 1 :=
    unitOf_sq h
  intro x
  obtain ⟨k, k1, k2, k3⟩ : ∃ k, x.x = (z.y * up.getZ - z.z * up.getY) * k ∧ x.y = (z.z * up.getX - z.x * up.getZ) * k ∧
      x.z = (z.x * up.getY - z.y * up.getX) * k := ⟨_, rfl, rfl, rfl⟩
  have o1 : x.x * z.x + x.y * z.y + x.z * z.z = 0 := by rw [k1, k2, k3]; ring
  have o2 : x.x * up.getX + x.y * up.getY + x.z * up.getZ = 0 := by rw [k1, k2, k3]; ring
  refine ⟨?_, o2⟩
  change x.x ^ 2 + x.y ^ 2 + x.z ^ 2 = 1 at ux
  clear_value x
  obtain ⟨x1, x2, x3⟩ := x
  clear k1 k2 k3 o2 h
  obtain ⟨z1, z2, z3⟩ := z
  simp only [Orthonormal, cross, vtx, Vec3.init, Vec3.getX, Vec3.getY, Vec3.getZ, Simd4f.get, Simd4f.init,
    Point3D.mk.injEq] at *
  refine ⟨⟨ux, ?_, by linarith⟩, ⟨by ring, by linarith, by ring⟩, ?_, ?_, ?_⟩
  · linear_combination (z1 ^ 2 + z2 ^ 2 + z3 ^ 2) * ux + uz - (x1 * z1 + x2 * z2 + x3 * z3) * o1
  · linear_combination z1 * ux - x1 * o1
  · linear_combination z2 * ux - x2 * o1
  · linear_combination z3 * ux - x3 * o1

/-- a unit vector moved by `t` and normalized is within `3 t` -/
theorem unitOf_near {z t : Point3D ℝ} (hz : z.x ^ 2 + z.y ^ 2 + z.z ^ 2 = 1) (ht : t.x ^ 2 + t.y ^ 2 + t.z ^ 2 = (1 / 10000) ^ 2) :
    let u := unitOf (Vec3.init (z.x + t.x) (z.y + t.y) (z.z + t.z))
    (u.x - z.x) ^ 2 + (u.y - z.y) ^ 2 + (u.z - z.z) ^ 2 ≤ (1 / 5000) ^ 2 := by
  intro u
  have hp := tweaked_pos hz ht
  set n := √((z.x + t.x) ^ 2 + (z.y + t.y) ^ 2 + (z.z + t.z) ^ 2) with hn
  have n0 : 0 < n := Real.sqrt_pos.mpr hp
  have n2 : n ^ 2 = (z.x + t.x) ^ 2 + (z.y + t.y) ^ 2 + (z.z + t.z) ^ 2 := Real.sq_sqrt hp.le
  have uu : u.x ^ 2 + u.y ^ 2 + u.z ^ 2 = 1 := unitOf_sq (a := Vec3.init (z.x + t.x) (z.y + t.y) (z.z + t.z)) hp
  have e1 : n * u.x = z.x + t.x := by
    change n * ((z.x + t.x) * (√((z.x + t.x) ^ 2 + (z.y + t.y) ^ 2 + (z.z + t.z) ^ 2))⁻¹) = _
    rw [← hn]; field_simp
  have e2 : n * u.y = z.y + t.y := by
    change n * ((z.y + t.y) * (√((z.x + t.x) ^ 2 + (z.y + t.y) ^ 2 + (z.z + t.z) ^ 2))⁻¹) = _
    rw [← hn]; field_simp
  have e3 : n * u.z = z.z + t.z := by
    change n * ((z.z + t.z) * (√((z.x + t.x) ^ 2 + (z.y + t.y) ^ 2 + (z.z + t.z) ^ 2))⁻¹) = _
    rw [← hn]; field_simp
  clear_value n u
  set s := t.x * z.x + t.y * z.y + t.z * z.z with hs
  set c := u.x * z.x + u.y * z.y + u.z * z.z with hc
  have hs1 : -(1 / 4) ≤ s := by
    nlinarith [sq_nonneg (z.x / 100 + 100 * t.x), sq_nonneg (z.y / 100 + 100 * t.y), sq_nonneg (z.z / 100 + 100 * t.z)]
  have hnc : n * c = 1 + s := by rw [hc, hs]; linear_combination z.x * e1 + z.y * e2 + z.z * e3 + hz
  have hn2 : n ^ 2 = 1 + 2 * s + (1 / 10000) ^ 2 := by rw [n2, ← ht, hs]; linear_combination hz
  have c0 : 0 < c := by
    by_contra hcn
    have := mul_nonpos_of_nonneg_of_nonpos n0.le (not_lt.mp hcn)
    linarith
  have hdist : (u.x - z.x) ^ 2 + (u.y - z.y) ^ 2 + (u.z - z.z) ^ 2 = 2 * (1 - c) := by rw [hc]; linear_combination uu + hz
  have c1 : c ≤ 1 := by
    linarith [sq_nonneg (u.x - z.x), sq_nonneg (u.y - z.y), sq_nonneg (u.z - z.z)]
  have cc : c ^ 2 ≤ c := by rw [sq]; exact mul_le_of_le_one_right c0.le c1
  have hk : n ^ 2 * (1 - c ^ 2) ≤ (1 / 10000) ^ 2 := by
    have : n ^ 2 * (1 - c ^ 2) = (1 / 10000) ^ 2 - s ^ 2 := by
      have : n ^ 2 * c ^ 2 = (1 + s) ^ 2 := by rw [← mul_pow, hnc]
      rw [mul_sub, this, hn2]; ring
    rw [this]; linarith [sq_nonneg s]
  have hc2 : 0 ≤ 1 - c ^ 2 := by linarith
  have hn3 : 1 / 2 ≤ n ^ 2 := by rw [hn2]; linarith
  rw [hdist]
  have : 1 / 2 * (1 - c ^ 2) ≤ n ^ 2 * (1 - c ^ 2) := mul_le_mul_of_nonneg_right hn3 hc2
  clear_value c s
  norm_num at *
  linarith

/-! ## C112 -/

/-- C112: on the SIMD backends, whatever `eye`, `center` and `up` are, as long as `up` is not parallel to the direction
looked in after the correction: the rotation part is a right-handed orthonormal basis whose `x` axis is orthogonal to `up`, and
whose `z` axis is opposite to a direction at most 1/5000 from that of `center` as seen from `eye` (from +z, if they coincide).
Missing: `up` parallel to the corrected direction (`C112_up_false`), the scalar backend (`C112_scalar_false`). -/
theorem C112_basis_partial (bk : Backend) (hb : ∀ d, bk ≠ .scalar d) (eye center up : Vec3 ℝ)
    (h : 0 < sqLen (cross (lookDir' eye center up) (vtx up))) :
    let m := GMatrix.initLookAt bk eye center up
    Orthonormal (row3 m.x) (row3 m.y) (row3 m.z) ∧
    (m.z.x + (lookDir eye center).x) ^ 2 + (m.z.y + (lookDir eye center).y) ^ 2 + (m.z.z + (lookDir eye center).z) ^ 2 ≤ (1 / 5000) ^ 2 ∧
    m.x.x * up.getX + m.x.y * up.getY + m.x.z * up.getZ = 0 ∧
    m.w = ⟨-eye.getX, -eye.getY, -eye.getZ, 1⟩ := by
  obtain ⟨e1, e2, e3, e4⟩ := lookAt_rows' bk hb eye center up h
  obtain ⟨b1, b2⟩ := camera_basis _ up (lookDir'_unit eye center up) h
  intro m
  have q1 : row3 m.x = unitOf (cross (lookDir' eye center up) (vtx up)) := e1
  have q2 : row3 m.y = vtx (cross (unitOf (cross (lookDir' eye center up) (vtx up))) (lookDir' eye center up)) := e2
  have q3 : row3 m.z = ⟨-(lookDir' eye center up).x, -(lookDir' eye center up).y, -(lookDir' eye center up).z⟩ := e3
  refine ⟨by rw [q1, q2, q3]; exact b1, ?_, ?_, e4⟩
  · rw [show m.z.x = _ from congrArg Point3D.x q3, show m.z.y = _ from congrArg Point3D.y q3, show m.z.z = _ from congrArg Point3D.z q3]
    dsimp only
    unfold lookDir'
    split
    · have := unitOf_near (lookDir_unit eye center) (tweak_sq up)
      dsimp only at this
      refine le_trans (le_of_eq ?_) this
      ring
    · norm_num
  · have x1 := congrArg Point3D.x q1
    have x2 := congrArg Point3D.y q1
    have x3 := congrArg Point3D.z q1
    simp only [row3] at x1 x2 x3
    rw [x1, x2, x3]; exact b2

/-- C112: the hypothesis of `C112_basis_partial` is met whenever `up` is nonzero and exactly parallel to the direction, unless both
are along the z axis and `up.z` is not 1. -/
theorem C112_parallel_partial (eye center up : Vec3 ℝ) (hpar : sqLen (cross (lookDir eye center) (vtx up)) = 0) (h0 : 0 < sqLen up)
    (hz : up.getX ≠ 0 ∨ up.getY ≠ 0 ∨ |up.getZ - 1| < eps) :
    0 < sqLen (cross (lookDir' eye center up) (vtx up)) := by
  have hlt : sqLen (cross (lookDir eye center) (vtx up)) < eps := by rw [hpar]; exact eps_pos
  have hp := tweaked_pos (lookDir_unit eye center) (tweak_sq up)
  unfold lookDir'
  rw [if_pos hlt]
  generalize lookDir eye center = z at *
  obtain ⟨k, hk, e⟩ : ∃ k : ℝ, 0 < k ∧ unitOf (Vec3.init (z.x + (tweak up).x) (z.y + (tweak up).y) (z.z + (tweak up).z)) =
      ⟨(z.x + (tweak up).x) * k, (z.y + (tweak up).y) * k, (z.z + (tweak up).z) * k⟩ := by
    refine ⟨_, inv_pos.mpr (Real.sqrt_pos.mpr hp), rfl⟩
  rw [e]
  obtain ⟨⟨a, b, c, d⟩⟩ := up
  obtain ⟨z1, z2, z3⟩ := z
  simp only [sqLen, cross, vtx, Vec3.init, Vec3.getX, Vec3.getY, Vec3.getZ, Simd4f.get, Simd4f.init] at hpar h0 hz ⊢
  have p1 : z2 * c - z3 * b = 0 := by
    apply pow_eq_zero_iff two_ne_zero |>.mp
    linarith [sq_nonneg (z2 * c - z3 * b), sq_nonneg (z3 * a - z1 * c), sq_nonneg (z1 * b - z2 * a)]
  have p2 : z3 * a - z1 * c = 0 := by
    apply pow_eq_zero_iff two_ne_zero |>.mp
    linarith [sq_nonneg (z2 * c - z3 * b), sq_nonneg (z3 * a - z1 * c), sq_nonneg (z1 * b - z2 * a)]
  have p3 : z1 * b - z2 * a = 0 := by
    apply pow_eq_zero_iff two_ne_zero |>.mp
    linarith [sq_nonneg (z2 * c - z3 * b), sq_nonneg (z3 * a - z1 * c), sq_nonneg (z1 * b - z2 * a)]
  by_cases ht : |c - 1| < eps
  · have hc : c ≠ 0 := by
      rintro rfl
      rw [zero_sub, abs_neg, abs_one] at ht
      linarith [eps_lt_one]
    simp only [tweak, Vec3.getZ, Simd4f.get, ht, if_true]
    have : ((z2 + 0) * k * c - (z3 + 0) * k * b) ^ 2 + ((z3 + 0) * k * a - (z1 + 1 / 10000) * k * c) ^ 2 +
        ((z1 + 1 / 10000) * k * b - (z2 + 0) * k * a) ^ 2 = (1 / 10000 * k) ^ 2 * (c ^ 2 + b ^ 2) := by
      linear_combination k ^ 2 * (z2 * c - z3 * b) * p1 + k ^ 2 * (z3 * a - z1 * c - 2 / 10000 * c) * p2 + k ^ 2 * (z1 * b - z2 * a + 2 / 10000 * b) * p3
    rw [this]
    positivity
  · simp only [tweak, Vec3.getZ, Simd4f.get, ht, if_false]
    have : ((z2 + 0) * k * c - (z3 + 1 / 10000) * k * b) ^ 2 + ((z3 + 1 / 10000) * k * a - (z1 + 0) * k * c) ^ 2 +
        ((z1 + 0) * k * b - (z2 + 0) * k * a) ^ 2 = (1 / 10000 * k) ^ 2 * (b ^ 2 + a ^ 2) := by
      linear_combination k ^ 2 * (z2 * c - z3 * b - 2 / 10000 * b) * p1 + k ^ 2 * (z3 * a - z1 * c + 2 / 10000 * a) * p2 + k ^ 2 * (z1 * b - z2 * a) * p3
    rw [this]
    rcases hz with hz | hz | hz
    · positivity
    · positivity
    · exact absurd hz ht

/-- C112: it is also met when `up` is not close to parallel to the direction. -/
theorem C112_regular (eye center up : Vec3 ℝ) (h : eps ≤ sqLen (cross (lookDir eye center) (vtx up))) :
    lookDir' eye center up = lookDir eye center ∧ 0 < sqLen (cross (lookDir' eye center up) (vtx up)) := by
  have : lookDir' eye center up = lookDir eye center := by unfold lookDir'; rw [if_neg (not_lt.mpr h)]
  exact ⟨this, by rw [this]; exact lt_of_lt_of_le eps_pos h⟩

/-- the `x` row for the eye at the origin, looking along `d`, with `up` parallel to it and `up.z` not 1 -/
theorem lookAt_tweaked (bk : Backend) (d up : Vec3 ℝ) (a b c : ℝ) (hd : d = Vec3.init a b c) (h1 : a ^ 2 + b ^ 2 + c ^ 2 = 1)
    (hc : 0 ≤ c) (hpar : Simd4f.cross3 bk ⟨a, b, c, 0⟩ up.value = ⟨0, 0, 0, 0⟩) (hup : eps ≤ |up.getZ - 1|) :
    ∃ W : V4 ℝ, row3 W = unitOf (Vec3.init a b (c + 1 / 10000)) ∧
      (GMatrix.initLookAt bk (Vec3.init 0 0 0) d up).x = normalize3 bk (Simd4f.cross3 bk W up.value) := by
  subst hd
  have hs : Simd4f.sub (Vec3.init a b c).value (Vec3.init (0 : ℝ) 0 0).value = ⟨a, b, c, 0⟩ := by simp [Vec3.init, greal]
  have hz : row3 (normalize3 bk ⟨a, b, c, 0⟩) = ⟨a, b, c⟩ := by
    have := normalize3_lanes (bk := bk) (v := ⟨a, b, c, 0⟩) rfl rfl rfl (by dsimp only; rw [h1]; exact eps_lt_one)
    rw [this]
    simp [unitOf, Vec3.init, Vec3.getX, Vec3.getY, Vec3.getZ, Simd4f.get, Simd4f.init, h1]
  have n1 : ((Simd4f.dot3 bk (⟨a, b, c, 0⟩ : V4 ℝ) ⟨a, b, c, 0⟩).x <. fltEps) = false := by
    have : (Simd4f.dot3 bk (⟨a, b, c, 0⟩ : V4 ℝ) ⟨a, b, c, 0⟩).x = 1 := by
      simp only [Simd4f.dot3, splat, dot3Scalar_real]; linarith
    rw [this]; simpa using eps_lt_one.le
  have z1 : (normalize3 bk (⟨a, b, c, 0⟩ : V4 ℝ)).x = a := congrArg Point3D.x hz
  have z2 : (normalize3 bk (⟨a, b, c, 0⟩ : V4 ℝ)).y = b := congrArg Point3D.y hz
  have z3 : (normalize3 bk (⟨a, b, c, 0⟩ : V4 ℝ)).z = c := congrArg Point3D.z hz
  have hcr : Simd4f.cross3 bk (normalize3 bk ⟨a, b, c, 0⟩) up.value = ⟨0, 0, 0, 0⟩ := by
    rw [← hpar, cross3_real, cross3_real, z1, z2, z3]
  have n2 : ((Simd4f.dot3 bk (⟨0, 0, 0, 0⟩ : V4 ℝ) ⟨0, 0, 0, 0⟩).x <. fltEps) = true := by
    simp [Simd4f.dot3, splat, dot3Scalar_real, eps_pos]
  have n3 : (Scalar.abs ((FloatConv.widen up.value.z : ℝ) -. f1) <. fltEps) = false := by
    simpa [Vec3.getZ, Simd4f.get] using hup
  refine ⟨normalize3 bk (Simd4f.add (normalize3 bk ⟨a, b, c, 0⟩) (Simd4f.init f0 f0 (Scalar.lit 1 10000) f0)), ?_, ?_⟩
  · generalize normalize3 bk (⟨a, b, c, 0⟩ : V4 ℝ) = Z at z1 z2 z3
    apply normalize3_lanes
    · simp [Simd4f.add, map2, Simd4f.init, z1]
    · simp [Simd4f.add, map2, Simd4f.init, z2]
    · simp [Simd4f.add, map2, Simd4f.init, z3]
    · nlinarith [eps_lt_one]
  · simp only [GMatrix.initLookAt, Simd4x4f.initLookAt, hs, n1, Bool.false_eq_true, if_false, hcr, n2, if_true, n3]

/-- C112 is false for `up` along the z axis other than (0, 0, 1): looking from the origin at (0, 0, 1) with `up = (0, 0, -1)`
the `x` axis of the camera is the zero vector, on every backend: the correction is along z as well. -/
theorem C112_up_false (bk : Backend) :
    row3 (GMatrix.initLookAt bk (Vec3.init (0 : ℝ) 0 0) (Vec3.init 0 0 1) (Vec3.init 0 0 (-1))).x = ⟨0, 0, 0⟩ := by
  obtain ⟨W, hW, e⟩ := lookAt_tweaked bk (Vec3.init 0 0 1) (Vec3.init 0 0 (-1)) 0 0 1 rfl (by norm_num) (by norm_num)
    (by rw [cross3_real]; simp [Vec3.init, Simd4f.init])
    (by simp only [Vec3.init, Vec3.getZ, Simd4f.init, Simd4f.get]; norm_num; linarith [eps_lt_one])
  have w1 : W.x = 0 * _ := congrArg Point3D.x hW
  have w2 : W.y = 0 * _ := congrArg Point3D.y hW
  have hc : Simd4f.cross3 bk W (Vec3.init (0 : ℝ) 0 (-1)).value = ⟨0, 0, 0, 0⟩ := by
    rw [cross3_real]; simp [Vec3.init, Simd4f.init, w1, w2]
  rw [e, hc]
  simp [row3, normalize3, Simd4f.mul, map2]

/-- C112 is false on the scalar backend: looking from the origin at (1, 0, 0) with `up = (1, 0, 0)` the `x` axis of the camera
is the zero vector: after the correction by 1/10000 the squared length of the cross product is below `FLT_EPSILON`. -/
theorem C112_scalar_false (dv : Bool) :
    row3 (GMatrix.initLookAt (.scalar dv) (Vec3.init (0 : ℝ) 0 0) (Vec3.init 1 0 0) (Vec3.init 1 0 0)).x = ⟨0, 0, 0⟩ := by
  obtain ⟨W, hW, e⟩ := lookAt_tweaked (.scalar dv) (Vec3.init 1 0 0) (Vec3.init 1 0 0) 1 0 0 rfl (by norm_num) (by norm_num)
    (by rw [cross3_real]; simp [Vec3.init, Simd4f.init])
    (by simp only [Vec3.init, Vec3.getZ, Simd4f.init, Simd4f.get]; norm_num; exact eps_lt_one.le)
  have w2 : W.y = 0 * _ := congrArg Point3D.y hW
  have w3 : W.z = (0 + 1 / 10000) * _ := congrArg Point3D.z hW
  have hW1 := unitOf_sq (a := Vec3.init (1 : ℝ) 0 (0 + 1 / 10000)) (by simp [Vec3.init, Vec3.getX, Vec3.getY, Vec3.getZ, Simd4f.get, Simd4f.init]; norm_num)
  have hk : W.z ^ 2 ≤ (1 / 10000) ^ 2 := by
    have w1 : W.x = 1 * _ := congrArg Point3D.x hW
    rw [← hW] at hW1
    simp only [row3] at hW1
    have : W.z = 1 / 10000 * W.x := by rw [w1, w3]; ring
    rw [this]
    nlinarith [sq_nonneg W.y, sq_nonneg W.z]
  have hc : Simd4f.cross3 (.scalar dv) W (Vec3.init (1 : ℝ) 0 0).value = ⟨0, W.z, 0, 0⟩ := by
    rw [cross3_real]; simp [Vec3.init, Simd4f.init, w2]
  rw [e, hc]
  have hr : (rsqrt1 (.scalar dv) (W.z * W.z) : ℝ) = 0 := by
    have : ¬ eps < |W.z * W.z| := by
      rw [abs_mul_self, not_lt, ← sq]; refine le_trans hk ?_; unfold eps; norm_num
    simp only [rsqrt1, RealScalar.abs_eq, fltEps_real]
    rw [if_neg (by simpa using this)]; simp
  simp [row3, normalize3, Simd4f.mul, map2, Simd4f.dot3, splat, dot3Scalar_real, rsqrt, map1, hr]

/-- the hypotheses of `C112_basis_partial` and `C112_parallel_partial` are met: looking at (3, 4, 0) with `up` in the same direction,
and looking up along z with `up = (0, 0, 1)` -/
example : 0 < sqLen (cross (lookDir' (Vec3.init 0 0 0) (Vec3.init 3 4 0) (Vec3.init 3 4 0)) (vtx (Vec3.init 3 4 0))) ∧
    0 < sqLen (cross (lookDir' (Vec3.init 1 2 3) (Vec3.init 1 2 5) (Vec3.init 0 0 1)) (vtx (Vec3.init 0 0 1))) ∧
    0 < sqLen (cross (lookDir' (Vec3.init 1 2 3) (Vec3.init 1 2 3) (Vec3.init 0 0 1)) (vtx (Vec3.init 0 0 1))) := by
  have h5 : ¬ (25 : ℝ) < eps := by unfold eps; norm_num
  have h4 : ¬ (4 : ℝ) < eps := by unfold eps; norm_num
  have s5 : √(25 : ℝ) = 5 := by rw [show (25 : ℝ) = 5 ^ 2 by norm_num]; exact Real.sqrt_sq (by norm_num)
  have s4 : √(4 : ℝ) = 2 := by rw [show (4 : ℝ) = 2 ^ 2 by norm_num]; exact Real.sqrt_sq (by norm_num)
  refine ⟨C112_parallel_partial _ _ _ ?_ ?_ (Or.inl ?_), C112_parallel_partial _ _ _ ?_ ?_ (Or.inr (Or.inr ?_)), C112_parallel_partial _ _ _ ?_ ?_ (Or.inr (Or.inr ?_))⟩ <;>
    simp only [lookDir, sqLen, cross, vecTo, unitOf, vtx, Vec3.init, Vec3.getX, Vec3.getY, Vec3.getZ, Simd4f.get, Simd4f.init] <;> norm_num [h5, h4, s5, s4, eps_pos]

end Graphene
