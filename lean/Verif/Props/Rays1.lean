/-
  C46 – C49: rays, distances, spheres.
-/
import Verif.Props.Triangles
import Verif.Props.Spheres
import Verif.Model.Ray

namespace Graphene
open Spec Simd4f

/-- the point of the ray's line at parameter `t` -/
noncomputable def Spec.rayAt (r : Ray ℝ) (t : ℝ) : Point3D ℝ :=
  ⟨(vtx r.origin).x + t * (vtx r.direction).x, (vtx r.origin).y + t * (vtx r.direction).y,
   (vtx r.origin).z + t * (vtx r.direction).z⟩
/-- the direction has length one -/
def Spec.UnitDir (r : Ray ℝ) : Prop :=
  (vtx r.direction).x ^ 2 + (vtx r.direction).y ^ 2 + (vtx r.direction).z ^ 2 = 1

theorem positionAt_real (r : Ray ℝ) (t : ℝ) : r.getPositionAt t = rayAt r t := by
  ext <;> simp [Ray.getPositionAt, rayAt, Point3D.initFromVec3, Point3D.initFromSimd4f, Vec3.add, Vec3.scale,
    Simd4f.add, Simd4f.mul, map2, splat, vtx] <;> ring

/-! ## C46 construction and parametrisation -/

/-- C46: a ray keeps the origin; its direction is the unit vector in the given direction when the
backend can normalise it, and zero when it is not longer than `FLT_EPSILON`; `NULL` is zero.
Copying a ray normalises again, which keeps a unit direction. -/
theorem C46_init (bk : Backend) (o : Point3D ℝ) (v d : Vec3 ℝ) :
    (Ray.init bk (some o) (some d)).getOrigin = o ∧
    (Ray.initFromVec3 bk (some v) (some d)).getOrigin = vtx v ∧
    (Ray.init bk (some o) (some d)).getDirection = (Ray.initFromVec3 bk (some v) (some d)).getDirection ∧
    (Normalisable bk d →
      Spec.UnitOf (Spec.v3 (Ray.init bk (some o) (some d)).getDirection) (Spec.v3 d) ∧
      UnitDir (Ray.init bk (some o) (some d))) ∧
    (d.length bk ≤ eps → Spec.v3 (Ray.init bk (some o) (some d)).getDirection = ![0, 0, 0]) ∧
    (vtx (Ray.init bk (some o) none).getDirection = ⟨0, 0, 0⟩ ∧
      (Ray.init bk none (some d)).getOrigin = ⟨0, 0, 0⟩ ∧
      vtx (Ray.initFromVec3 bk (some v) none).getDirection = ⟨0, 0, 0⟩ ∧
      (Ray.initFromVec3 bk none (some d)).getOrigin = ⟨0, 0, 0⟩) ∧
    (∀ r : Ray ℝ, UnitDir r → (Ray.initFromRay bk r).getOrigin = r.getOrigin ∧
      vtx (Ray.initFromRay bk r).getDirection = vtx r.getDirection) := by
  refine ⟨rfl, rfl, rfl, ?_, ?_, ⟨?_, ?_, ?_, ?_⟩, ?_⟩
  · intro h
    have hs := h.pos
    have e : (Ray.init bk (some o) (some d)).getDirection = Vec3.normalize bk d := rfl
    have hu : Spec.UnitOf (Spec.v3 (Vec3.normalize bk d)) (Spec.v3 d) := by
      obtain ⟨⟨x, y, z, w⟩⟩ := d
      rw [vec3_normalize_eq h]
      refine ⟨?_, _, inv_pos.2 (Real.sqrt_pos.2 hs), ?_⟩
      · simp only [Spec.v3, Fin.sum_univ_three, Vec3.getX, Vec3.getY, Vec3.getZ, Simd4f.get,
          Matrix.cons_val_zero, Matrix.cons_val_one, Matrix.cons_val]
        exact unit_sum hs
      · intro i; fin_cases i <;> simp [Spec.v3, Vec3.getX, Vec3.getY, Vec3.getZ, Simd4f.get, mul_comm]
    refine ⟨e ▸ hu, ?_⟩
    have := hu.1
    simp only [Spec.v3, Fin.sum_univ_three, Matrix.cons_val_zero, Matrix.cons_val_one, Matrix.cons_val] at this
    exact this
  · intro h
    exact (C04_vec3 bk d).2 h
  all_goals try simp [Ray.init, Ray.initFromVec3, Ray.getDirection, Ray.getOrigin, vtx, Vec3.zero, initZero,
    Point3D.initFromVec3, Point3D.initFromSimd4f]
  intro r hr
  refine ⟨⟨rfl, rfl, rfl⟩, ?_⟩
  obtain ⟨ro, ⟨⟨x, y, z, w⟩⟩⟩ := r
  have hr' : x ^ 2 + y ^ 2 + z ^ 2 = 1 := hr
  have hn : Normalisable bk (⟨⟨x, y, z, w⟩⟩ : Vec3 ℝ) := by
    apply Spec.Normalisable.of_gt
    simp only [Vec3.getX, Vec3.getY, Vec3.getZ, Simd4f.get, hr']
    exact eps_lt_one
  simp [Ray.initFromRay, Ray.initFromVec3, vec3_normalize_eq hn, hr']

/-- C46: `get_position_at (t)` is origin + t · direction, at distance |t| from the origin. -/
theorem C46_position (r : Ray ℝ) (t : ℝ) :
    r.getPositionAt t = rayAt r t ∧ (UnitDir r → eucl r.getOrigin (r.getPositionAt t) = |t|) := by
  refine ⟨positionAt_real r t, ?_⟩
  intro h
  have h' : (vtx r.direction).x ^ 2 + (vtx r.direction).y ^ 2 + (vtx r.direction).z ^ 2 = 1 := h
  rw [positionAt_real, eucl, ← Real.sqrt_sq_eq_abs]
  congr 1
  simp only [distSq, rayAt, Ray.getOrigin, Point3D.initFromVec3, Point3D.initFromSimd4f, vtx] at h' ⊢
  linear_combination t ^ 2 * h'

/-! ## C47 closest point -/

/-- C47: the closest point is a point of the half-line, `get_distance_to_point` is its distance, and
no point of the half-line is closer. -/
theorem C47_closest (bk : Backend) (r : Ray ℝ) (h : UnitDir r) (p : Point3D ℝ) :
    (∃ t, 0 ≤ t ∧ r.getClosestPointToPoint bk p = rayAt r t) ∧
    r.getDistanceToPoint bk p = eucl p (r.getClosestPointToPoint bk p) ∧
    ∀ t, 0 ≤ t → r.getDistanceToPoint bk p ≤ eucl p (rayAt r t) := by
  obtain ⟨⟨⟨ox, oy, oz, ow⟩⟩, ⟨⟨dx, dy, dz, dw⟩⟩⟩ := r
  obtain ⟨px, py, pz⟩ := p
  have h' : dx ^ 2 + dy ^ 2 + dz ^ 2 = 1 := h
  set s := (px - ox) * dx + (py - oy) * dy + (pz - oz) * dz with hs
  have hd : Vec3.dot bk (Vec3.subtract (Point3D.toVec3 ⟨px, py, pz⟩) ⟨⟨ox, oy, oz, ow⟩⟩)
      ⟨⟨dx, dy, dz, dw⟩⟩ = s := by
    simp [Vec3.dot, Vec3.subtract, Simd4f.sub, map2, Point3D.toVec3, Simd4f.init, hs]
  have hdist : ∀ t, distSq ⟨px, py, pz⟩ (rayAt ⟨⟨⟨ox, oy, oz, ow⟩⟩, ⟨⟨dx, dy, dz, dw⟩⟩⟩ t) =
      distSq ⟨px, py, pz⟩ ⟨ox, oy, oz⟩ - s ^ 2 + (t - s) ^ 2 := by
    intro t
    simp only [distSq, rayAt, vtx]
    linear_combination (t ^ 2) * h' + (-2 * t) * hs
  by_cases hneg : s < 0
  · have ec : Ray.getClosestPointToPoint bk ⟨⟨⟨ox, oy, oz, ow⟩⟩, ⟨⟨dx, dy, dz, dw⟩⟩⟩ ⟨px, py, pz⟩ =
        rayAt ⟨⟨⟨ox, oy, oz, ow⟩⟩, ⟨⟨dx, dy, dz, dw⟩⟩⟩ 0 := by
      simp only [Ray.getClosestPointToPoint, hd, RealScalar.lt_eq, RealScalar.f0_eq, hneg, if_true]
      simp [rayAt, vtx, Point3D.initFromVec3, Point3D.initFromSimd4f]
    have ed : Ray.getDistanceToPoint bk ⟨⟨⟨ox, oy, oz, ow⟩⟩, ⟨⟨dx, dy, dz, dw⟩⟩⟩ ⟨px, py, pz⟩ =
        eucl ⟨px, py, pz⟩ (rayAt ⟨⟨⟨ox, oy, oz, ow⟩⟩, ⟨⟨dx, dy, dz, dw⟩⟩⟩ 0) := by
      simp only [Ray.getDistanceToPoint, hd, RealScalar.lt_eq, RealScalar.f0_eq, hneg, if_true, vec3_length]
      rw [eucl]; congr 1
      simp [distSq, rayAt, vtx, Vec3.subtract, Simd4f.sub, map2, Point3D.toVec3, Simd4f.init, Vec3.getX,
        Vec3.getY, Vec3.getZ, Simd4f.get]
      ring
    refine ⟨⟨0, le_refl _, ec⟩, by rw [ed, ec], ?_⟩
    intro t ht
    rw [ed, eucl, eucl]
    apply Real.sqrt_le_sqrt
    rw [hdist, hdist]; nlinarith
  · have ec : Ray.getClosestPointToPoint bk ⟨⟨⟨ox, oy, oz, ow⟩⟩, ⟨⟨dx, dy, dz, dw⟩⟩⟩ ⟨px, py, pz⟩ =
        rayAt ⟨⟨⟨ox, oy, oz, ow⟩⟩, ⟨⟨dx, dy, dz, dw⟩⟩⟩ s := by
      simp only [Ray.getClosestPointToPoint, hd, RealScalar.lt_eq, RealScalar.f0_eq, hneg, if_false]
      ext <;> simp [rayAt, vtx, Point3D.initFromVec3, Point3D.initFromSimd4f, Vec3.add, Vec3.scale, Simd4f.add,
        Simd4f.mul, map2, splat] <;> ring
    have ed : Ray.getDistanceToPoint bk ⟨⟨⟨ox, oy, oz, ow⟩⟩, ⟨⟨dx, dy, dz, dw⟩⟩⟩ ⟨px, py, pz⟩ =
        eucl ⟨px, py, pz⟩ (rayAt ⟨⟨⟨ox, oy, oz, ow⟩⟩, ⟨⟨dx, dy, dz, dw⟩⟩⟩ s) := by
      simp only [Ray.getDistanceToPoint, hd, RealScalar.lt_eq, RealScalar.f0_eq, hneg, if_false, vec3_length]
      rw [eucl]; congr 1
      simp only [distSq, rayAt, vtx, Vec3.subtract, Simd4f.sub, map2, Point3D.toVec3, Simd4f.init, Vec3.getX,
        Vec3.getY, Vec3.getZ, Simd4f.get, Vec3.add, Vec3.scale, Simd4f.add, Simd4f.mul, splat,
        RealScalar.add_eq, RealScalar.mul_eq, RealScalar.sub_eq]
      ring
    refine ⟨⟨s, not_lt.1 hneg, ec⟩, by rw [ed, ec], ?_⟩
    intro t ht
    rw [ed, eucl, eucl]
    apply Real.sqrt_le_sqrt
    rw [hdist, hdist]; nlinarith [sq_nonneg (t - s)]

/-- non-vacuity: a ray with unit direction -/
example : UnitDir ⟨Vec3.init 1 2 3, Vec3.init (3 / 5) 0 (4 / 5)⟩ := by
  norm_num [UnitDir, vtx, Vec3.init, Simd4f.init]

/-! ## C48 distance to a plane -/

/-- C48 (exact arithmetic): if the ray is not parallel to the plane up to `FLT_EPSILON` and its line
meets the plane at a parameter t ≥ 0, that t is returned; if the ray is parallel and starts on the
plane (up to `FLT_EPSILON`), 0 is returned.  In all other cases the result is `INFINITY`
(`C48_ieee`). -/
theorem C48_meets (bk : Backend) (r : Ray ℝ) (p : Plane ℝ) :
    let denom := p.normal.getX * (vtx r.direction).x + p.normal.getY * (vtx r.direction).y +
      p.normal.getZ * (vtx r.direction).z
    (eps ≤ |denom| → ∀ t, 0 ≤ t → rayAt r t ∈ planePts p → r.getDistanceToPlane bk p = t) ∧
    (eps ≤ |denom| → (∃ t, 0 ≤ t ∧ rayAt r t ∈ planePts p) →
      0 ≤ r.getDistanceToPlane bk p ∧ rayAt r (r.getDistanceToPlane bk p) ∈ planePts p) ∧
    (|denom| < eps → |side p (vtx r.origin)| < eps → r.getDistanceToPlane bk p = 0) := by
  intro denom
  have hden : Vec3.dot bk p.normal r.direction = denom := by
    simp [Vec3.dot, denom, vtx, Vec3.getX, Vec3.getY, Vec3.getZ, Simd4f.get]
  have hside : Vec3.dot bk r.origin p.normal + p.constant = side p (vtx r.origin) := by
    simp only [Vec3.dot, dot3Scalar_real, side, vtx, Vec3.getX, Vec3.getY, Vec3.getZ, Simd4f.get]; ring
  have hval : ∀ t, side p (rayAt r t) = side p (vtx r.origin) + t * denom := by
    intro t; simp only [side, rayAt, denom, vtx]; ring
  have key : eps ≤ |denom| → ∀ t, 0 ≤ t → rayAt r t ∈ planePts p → r.getDistanceToPlane bk p = t := by
    intro h t ht hm
    have hm' : side p (vtx r.origin) + t * denom = 0 := by rw [← hval]; exact hm
    have hd0 : denom ≠ 0 := by
      intro h0; rw [h0, abs_zero] at h; exact absurd h (not_le.2 eps_pos)
    have ht' : (-1) * side p (vtx r.origin) / denom = t := by
      field_simp; linarith
    simp only [Ray.getDistanceToPlane, hden, RealScalar.abs_eq, RealScalar.lt_eq, fltEps_real, not_lt.2 h,
      if_false, RealScalar.add_eq, hside, RealScalar.mul_eq, RealScalar.div_eq, RealScalar.lit_eq,
      RealScalar.le_eq, RealScalar.f0_eq]
    push_cast
    rw [show (-1 / 1 : ℝ) = -1 by norm_num, ht', if_pos ht]
  refine ⟨key, ?_, ?_⟩
  · rintro h ⟨t, ht, hm⟩
    rw [key h t ht hm]; exact ⟨ht, hm⟩
  · intro h1 h2
    have e : Plane.distance bk p (Point3D.initFromVec3 r.origin) = side p (vtx r.origin) :=
      plane_distance_real bk p _
    simp [Ray.getDistanceToPlane, hden, h1, e, h2]

/-- C48 (bit-exact): whatever the inputs (infinities and NaN included), the result is never negative
and never NaN: it is `+∞`, zero, or a value `t ≥ 0`; and it is `+∞` when the ray is parallel and not
on the plane, and when the plane lies behind the ray. -/
theorem C48_ieee [Libm binary32] (bk : Backend) (r : Ray F32) (p : Plane F32) :
    let denom := Vec3.dot bk p.normal r.direction
    let off := Plane.distance bk p r.getOrigin
    (Fp.zero false : F32).le (r.getDistanceToPlane bk p) = true ∧
    (denom.abs.lt fltEps = true → off.abs.lt fltEps = false → r.getDistanceToPlane bk p = .inf false) ∧
    (denom.abs.lt fltEps = false →
      (Fp.zero false : F32).le
        (Fp.div (Fp.mul (Fp.lit (-1) 1) (Fp.add (Vec3.dot bk r.origin p.normal) p.constant)) denom) = false →
      r.getDistanceToPlane bk p = .inf false) := by
  intro denom off
  refine ⟨?_, ?_, ?_⟩
  · unfold Ray.getDistanceToPlane
    dsimp only
    split
    · split
      · rw [Fp.f0_eq]; exact Fp.le_refl rfl
      · exact Fp.le_posInf rfl
    · split
      · rename_i h; rw [Fp.f0_eq, Fp.sc_le] at h; exact h
      · exact Fp.le_posInf rfl
  · intro h1 h2
    have h1' : (Scalar.abs (Vec3.dot bk p.normal r.direction) <. fltEps) = true := h1
    have h2' : (Scalar.abs (Plane.distance bk p (Point3D.initFromVec3 r.origin)) <. fltEps) = false := h2
    unfold Ray.getDistanceToPlane
    simp only [h1', h2', Bool.false_eq_true, if_true, if_false]
    rfl
  · intro h1 h2
    have h1' : (Scalar.abs (Vec3.dot bk p.normal r.direction) <. fltEps) = false := h1
    unfold Ray.getDistanceToPlane
    simp only [h1', Bool.false_eq_true, if_false, Fp.f0_eq]
    have h2' : ((Scalar.lit (-1) 1 *. (Vec3.dot bk r.origin p.normal +. p.constant)) /.
      Vec3.dot bk p.normal r.direction >=. (Fp.zero false : F32)) = false := h2
    rw [h2']
    rfl

/-- non-vacuity: the ray along z meets the plane z = 2 at t = 2 -/
example : (⟨Vec3.init 0 0 0, Vec3.init 0 0 1⟩ : Ray ℝ).getDistanceToPlane .gcc ⟨Vec3.init 0 0 1, -2⟩ = 2 := by
  refine (C48_meets .gcc _ _).1 ?_ 2 (by norm_num) ?_
  · simp [vtx, greal, eps]; norm_num
  · simp [planePts, side, rayAt, vtx, greal]

/-! ## C49 spheres -/

theorem quad_le_iff {d2 tca ρ thc t : ℝ} (hsq : thc ^ 2 = ρ * ρ - d2) (hnn : 0 ≤ thc) :
    d2 + (t - tca) ^ 2 ≤ ρ ^ 2 ↔ tca - thc ≤ t ∧ t ≤ tca + thc := by
  have : d2 + (t - tca) ^ 2 ≤ ρ ^ 2 ↔ (t - tca) ^ 2 ≤ thc ^ 2 := by
    rw [hsq, sq ρ]; constructor <;> intro h <;> linarith
  rw [this]
  constructor
  · intro h; have := abs_le_of_sq_le_sq' h hnn; constructor <;> linarith [this.1, this.2]
  · rintro ⟨h1, h2⟩; nlinarith

/-- C49: with a unit direction and a non-negative radius: the ray intersects exactly when some point
of the half-line lies in the closed ball; ENTER reports the first parameter in the ball, on the
surface; LEAVE is reported when the ray starts in the ball, with the last parameter in the ball, on
the surface; starting strictly inside always gives LEAVE, starting outside never does. -/
theorem C49_sphere (bk : Backend) (r : Ray ℝ) (h : UnitDir r) (c : Point3D ℝ) (ρ : ℝ) (hρ : 0 ≤ ρ) :
    let s := Sphere.init (some c) ρ
    (r.intersectsSphere bk s = true ↔ ∃ t, 0 ≤ t ∧ eucl c (rayAt r t) ≤ ρ) ∧
    (∀ t, r.intersectSphere bk s = (.enter, t) → 0 ≤ t ∧ eucl c (rayAt r t) = ρ ∧
      ∀ u, 0 ≤ u → u < t → ρ < eucl c (rayAt r u)) ∧
    (∀ t, r.intersectSphere bk s = (.leave, t) → 0 ≤ t ∧ eucl c (rayAt r t) = ρ ∧
      (∀ u, 0 ≤ u → u ≤ t → eucl c (rayAt r u) ≤ ρ) ∧ ∀ u, t < u → ρ < eucl c (rayAt r u)) ∧
    (eucl c (rayAt r 0) < ρ → (r.intersectSphere bk s).1 = .leave) ∧
    (ρ < eucl c (rayAt r 0) → (r.intersectSphere bk s).1 ≠ .leave) ∧
    (∀ t, r.intersectSphere bk s = (.none, t) → t = 0) := by
  intro s
  obtain ⟨⟨⟨ox, oy, oz, ow⟩⟩, ⟨⟨dx, dy, dz, dw⟩⟩⟩ := r
  obtain ⟨cx, cy, cz⟩ := c
  have h' : dx ^ 2 + dy ^ 2 + dz ^ 2 = 1 := h
  set R : Ray ℝ := ⟨⟨⟨ox, oy, oz, ow⟩⟩, ⟨⟨dx, dy, dz, dw⟩⟩⟩ with hR
  set tca := (cx - ox) * dx + (cy - oy) * dy + (cz - oz) * dz with htca
  set d2 := (cx - ox) * (cx - ox) + (cy - oy) * (cy - oy) + (cz - oz) * (cz - oz) - tca * tca with hd2
  have hdist : ∀ t, distSq ⟨cx, cy, cz⟩ (rayAt R t) = d2 + (t - tca) ^ 2 := by
    intro t
    simp only [distSq, rayAt, vtx, hR, hd2]
    linear_combination (t ^ 2) * h' + (-2 * t) * htca
  have hle : ∀ t, eucl ⟨cx, cy, cz⟩ (rayAt R t) ≤ ρ ↔ d2 + (t - tca) ^ 2 ≤ ρ ^ 2 := by
    intro t; rw [eucl, Real.sqrt_le_left hρ, hdist]
  have hlt : ∀ t, ρ < eucl ⟨cx, cy, cz⟩ (rayAt R t) ↔ ρ ^ 2 < d2 + (t - tca) ^ 2 := by
    intro t; rw [← not_le, hle, not_le]
  have heq : ∀ t, eucl ⟨cx, cy, cz⟩ (rayAt R t) = ρ ↔ d2 + (t - tca) ^ 2 = ρ ^ 2 := by
    intro t; rw [eucl, Real.sqrt_eq_iff_eq_sq (distSq_nonneg _ _) hρ, hdist]
  have hlt' : ∀ t, eucl ⟨cx, cy, cz⟩ (rayAt R t) < ρ ↔ d2 + (t - tca) ^ 2 < ρ ^ 2 := by
    intro t; rw [lt_iff_le_and_ne, lt_iff_le_and_ne, hle, Ne, heq]
  have e1 : Vec3.dot bk (Vec3.subtract s.center R.origin) R.direction = tca := by
    simp [s, R, Sphere.init, Point3D.toVec3, Vec3.dot, Vec3.subtract, Simd4f.sub, map2, Simd4f.init, htca]
  have e2 : Vec3.dot bk (Vec3.subtract s.center R.origin) (Vec3.subtract s.center R.origin) - tca * tca = d2 := by
    simp [s, R, Sphere.init, Point3D.toVec3, Vec3.dot, Vec3.subtract, Simd4f.sub, map2, Simd4f.init, hd2]
  have e3 : s.radius = ρ := rfl
  have hI : R.intersectSphere bk s = if ρ * ρ < d2 then (.none, 0) else
      if tca - √(ρ * ρ - d2) < 0 ∧ tca + √(ρ * ρ - d2) < 0 then (.none, 0)
      else if tca - √(ρ * ρ - d2) < 0 then (.leave, tca + √(ρ * ρ - d2))
      else (.enter, tca - √(ρ * ρ - d2)) := by
    simp only [Ray.intersectSphere, e1, e2, e3, RealScalar.mul_eq, RealScalar.sub_eq, RealScalar.lt_eq,
      RealScalar.f0_eq, RealScalar.sqrt_eq, RealScalar.add_eq, Bool.and_eq_true]
  simp only [hle, hlt, heq, hlt', Ray.intersectsSphere]
  rw [hI]
  by_cases c1 : ρ * ρ < d2
  · simp only [c1, if_true]
    refine ⟨⟨by simp, ?_⟩, by simp, by simp, ?_, by simp, ?_⟩
    · rintro ⟨t, -, ht⟩; nlinarith [sq_nonneg (t - tca)]
    · intro ht; nlinarith [sq_nonneg (0 - tca)]
    · rintro t ht; simp at ht; exact ht.symm
  have hth : 0 ≤ ρ * ρ - d2 := by linarith
  have hsq := Real.sq_sqrt hth
  have hnn := Real.sqrt_nonneg (ρ * ρ - d2)
  set thc := √(ρ * ρ - d2) with hthc
  have hle2 : ∀ t, d2 + (t - tca) ^ 2 ≤ ρ ^ 2 ↔ tca - thc ≤ t ∧ t ≤ tca + thc :=
    fun t => quad_le_iff hsq hnn
  have hlt2 : ∀ t, ρ ^ 2 < d2 + (t - tca) ^ 2 ↔ ¬ (tca - thc ≤ t ∧ t ≤ tca + thc) := by
    intro t; rw [← hle2, not_le]
  simp only [c1, if_false, hle2, hlt2]
  clear_value thc d2 tca s R
  clear hI e1 e2 e3 hle hlt heq hlt' hdist h h'
  by_cases c2 : tca - thc < 0 ∧ tca + thc < 0
  · simp only [if_pos c2]
    refine ⟨⟨by simp, ?_⟩, by simp, by simp, ?_, by simp, ?_⟩
    · rintro ⟨t, h0, -, ht⟩; linarith [c2.2]
    · intro ht
      have := (hle2 0).1 ht.le
      linarith [c2.2, this.2]
    · rintro t ht; simp at ht; exact ht.symm
  by_cases c3 : tca - thc < 0
  · have c4 : 0 ≤ tca + thc := by
      by_contra hc; exact c2 ⟨c3, not_le.1 hc⟩
    simp only [if_neg c2, if_pos c3]
    refine ⟨⟨?_, by simp⟩, by simp, ?_, by simp, ?_, by simp⟩
    · intro _; exact ⟨0, le_refl _, c3.le, c4⟩
    · rintro t ht
      simp only [Prod.mk.injEq, true_and] at ht
      subst ht
      refine ⟨c4, by rw [add_sub_cancel_left]; linarith, ?_, ?_⟩
      · intro u h0 h1; exact ⟨by linarith, h1⟩
      · rintro u h1 ⟨-, h2⟩; linarith
    · intro hc
      exact absurd ⟨c3.le, c4⟩ hc
  · simp only [if_neg c2, if_neg c3]
    refine ⟨⟨?_, by simp⟩, ?_, by simp, ?_, by simp, by simp⟩
    · intro _; exact ⟨tca - thc, not_lt.1 c3, le_refl _, by linarith⟩
    · rintro t ht
      simp only [Prod.mk.injEq, true_and] at ht
      subst ht
      refine ⟨not_lt.1 c3, by rw [sub_sub_cancel_left, neg_sq]; linarith, ?_⟩
      rintro u h0 h1 ⟨h2, -⟩; linarith
    · intro hc
      have h1 : tca ^ 2 < thc ^ 2 := by
        have : (0 - tca) ^ 2 = tca ^ 2 := by ring
        linarith
      have h2 := abs_lt_of_sq_lt_sq' h1 hnn
      linarith [not_lt.1 c3, h2.2]

/-- non-vacuity: a ray that enters and one that leaves a unit sphere -/
example : (⟨Vec3.init 0 0 (-3), Vec3.init 0 0 1⟩ : Ray ℝ).intersectsSphere .gcc (Sphere.init (some ⟨0, 0, 0⟩) 1)
      = true ∧
    ((⟨Vec3.init 0 0 0, Vec3.init 0 0 1⟩ : Ray ℝ).intersectSphere .gcc (Sphere.init (some ⟨0, 0, 0⟩) 1)).1
      = .leave := by
  have hu : ∀ z : ℝ, UnitDir ⟨Vec3.init 0 0 z, Vec3.init 0 0 1⟩ := by
    intro z; norm_num [UnitDir, vtx, Vec3.init, Simd4f.init]
  constructor
  · rw [(C49_sphere .gcc _ (hu (-3)) ⟨0, 0, 0⟩ 1 zero_le_one).1]
    refine ⟨3, by norm_num, ?_⟩
    rw [eucl, Real.sqrt_le_left zero_le_one]
    norm_num [distSq, rayAt, vtx, Vec3.init, Simd4f.init]
  · refine (C49_sphere .gcc _ (hu 0) ⟨0, 0, 0⟩ 1 zero_le_one).2.2.2.1 ?_
    rw [eucl]
    norm_num [distSq, rayAt, vtx, Vec3.init, Simd4f.init]

end Graphene
