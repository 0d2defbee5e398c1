/-
  C43 – C45: triangles.
-/
import Verif.Props.Planes
import Verif.Props.Boxes1
import Verif.Model.Triangle

namespace Graphene
open Spec Simd4f

/-- the three vertices of a triangle, as points -/
def Spec.vtx {α : Type} (v : Vec3 α) : Point3D α := ⟨v.value.x, v.value.y, v.value.z⟩
/-- twice the area vector of the triangle: (b-a) × (c-a) -/
noncomputable def Spec.triCross (t : Triangle ℝ) : Vec3 ℝ := ccw (vtx t.a) (vtx t.b) (vtx t.c)
/-- its squared length, four times the squared area; positive exactly when the three vertices are
not collinear -/
noncomputable def Spec.gram (t : Triangle ℝ) : ℝ :=
  (triCross t).getX ^ 2 + (triCross t).getY ^ 2 + (triCross t).getZ ^ 2

theorem gram_nonneg (t : Triangle ℝ) : 0 ≤ gram t := by unfold gram; positivity

theorem edgeCross_real (bk : Backend) (t : Triangle ℝ) : t.edgeCross bk = triCross t := by
  simp only [Triangle.edgeCross, Vec3.cross, cross3_real, Vec3.subtract, Simd4f.sub, map2,
    RealScalar.sub_eq, triCross, ccw, vtx, Vec3.mk.injEq, V4.mk.injEq, and_true]
  refine ⟨?_, ?_, ?_⟩ <;> ring

/-! ## C43 measures -/

theorem getArea_real (bk : Backend) (t : Triangle ℝ) : t.getArea bk = √(gram t) / 2 := by
  rw [Triangle.getArea, edgeCross_real, vec3_length]
  simp only [gram, sq, RealScalar.mul_eq, RealScalar.lit_eq]
  push_cast; ring

/-- C43 (area): half the length of the cross product of two edges, and the same for every order of
the vertices. -/
theorem C43_area (bk : Backend) (a b c : Vec3 ℝ) :
    (⟨a, b, c⟩ : Triangle ℝ).getArea bk = √(gram ⟨a, b, c⟩) / 2 ∧
    (⟨b, a, c⟩ : Triangle ℝ).getArea bk = (⟨a, b, c⟩ : Triangle ℝ).getArea bk ∧
    (⟨a, c, b⟩ : Triangle ℝ).getArea bk = (⟨a, b, c⟩ : Triangle ℝ).getArea bk ∧
    (⟨b, c, a⟩ : Triangle ℝ).getArea bk = (⟨a, b, c⟩ : Triangle ℝ).getArea bk := by
  simp only [getArea_real]
  refine ⟨trivial, ?_, ?_, ?_⟩ <;>
  · congr 2
    simp only [gram, triCross, ccw, vtx, Vec3.getX, Vec3.getY, Vec3.getZ, Simd4f.get]
    ring

/-- C43 (midpoint): the centroid. -/
theorem C43_midpoint (t : Triangle ℝ) :
    t.getMidpoint = ⟨((vtx t.a).x + (vtx t.b).x + (vtx t.c).x) / 3,
      ((vtx t.a).y + (vtx t.b).y + (vtx t.c).y) / 3, ((vtx t.a).z + (vtx t.b).z + (vtx t.c).z) / 3⟩ := by
  ext <;> simp [Triangle.getMidpoint, Point3D.initFromVec3, Point3D.initFromSimd4f, Vec3.scale, Vec3.add,
    Simd4f.mul, Simd4f.add, map2, splat, vtx] <;> ring

/-- C43 (normal): the unit vector in the direction from which the vertices appear counter-clockwise,
hence orthogonal to both edges; the zero vector exactly when the vertices are collinear. -/
theorem C43_normal (bk : Backend) (t : Triangle ℝ) :
    (0 < gram t → Spec.UnitOf (Spec.v3 (t.getNormal bk)) (Spec.v3 (triCross t))) ∧
    (gram t = 0 → Spec.v3 (t.getNormal bk) = ![0, 0, 0]) ∧
    (let n := t.getNormal bk
     let a := vtx t.a; let b := vtx t.b; let c := vtx t.c
     n.getX * (b.x - a.x) + n.getY * (b.y - a.y) + n.getZ * (b.z - a.z) = 0 ∧
     n.getX * (c.x - a.x) + n.getY * (c.y - a.y) + n.getZ * (c.z - a.z) = 0) := by
  have hd : Vec3.dot bk (triCross t) (triCross t) = gram t := by
    simp only [Vec3.dot, dot3Scalar_real, gram, Vec3.getX, Vec3.getY, Vec3.getZ, Simd4f.get]; ring
  have e1 : 0 < gram t → t.getNormal bk = Vec3.scale (triCross t) (1 / √(gram t)) := by
    intro h
    simp [Triangle.getNormal, edgeCross_real, hd, h]
  have e2 : ¬ 0 < gram t → t.getNormal bk = Vec3.zero := by
    intro h
    simp [Triangle.getNormal, edgeCross_real, hd, h]
  refine ⟨?_, ?_, ?_⟩
  · intro h
    rw [e1 h]
    have h' : 0 < (triCross t).getX ^ 2 + (triCross t).getY ^ 2 + (triCross t).getZ ^ 2 := h
    refine ⟨?_, (√(gram t))⁻¹, by positivity, ?_⟩
    · have := unit_sum h'
      simpa [Spec.v3, Fin.sum_univ_three, Vec3.scale, Simd4f.mul, map2, splat, Vec3.getX, Vec3.getY, Vec3.getZ,
        Simd4f.get, gram, one_div] using this
    · intro i; fin_cases i <;> simp [Spec.v3, Vec3.scale, Simd4f.mul, map2, splat, Vec3.getX, Vec3.getY, Vec3.getZ,
        Simd4f.get, mul_comm]
  · intro h
    rw [e2 (by rw [h]; exact lt_irrefl 0)]
    simp [Spec.v3, greal]
  · by_cases h : 0 < gram t
    · rw [e1 h]
      simp only [Vec3.scale, Simd4f.mul, map2, splat, Vec3.getX, Vec3.getY, Vec3.getZ, Simd4f.get, triCross,
        ccw, RealScalar.mul_eq]
      constructor <;> ring
    · rw [e2 h]
      simp [greal]

/-- C43 (plane): contains the three vertices, with the unit normal of the triangle. -/
theorem C43_plane (bk : Backend) (t : Triangle ℝ) (h : Normalisable bk (triCross t)) :
    Spec.UnitOf (Spec.v3 (t.getPlane bk).normal) (Spec.v3 (triCross t)) ∧
    vtx t.a ∈ planePts (t.getPlane bk) ∧ vtx t.b ∈ planePts (t.getPlane bk) ∧
    vtx t.c ∈ planePts (t.getPlane bk) := by
  have hp : t.getPlane bk = Plane.initFromPoints bk (vtx t.a) (vtx t.b) (vtx t.c) := rfl
  obtain ⟨h1, _, h2, h3, h4, _⟩ := C40_from_points bk (vtx t.a) (vtx t.b) (vtx t.c) h
  rw [plane_distance_real] at h2 h3 h4
  rw [hp]
  exact ⟨h1, h2, h3, h4⟩

/-- C43 (bounding box, bit-exact): on every axis the least and greatest vertex coordinate. -/
theorem C43_bounding_box [Libm binary32] (bk : Backend) (t : Triangle F32)
    (h : ∀ v ∈ [t.a, t.b, t.c], v.value.x.isNaN = false ∧ v.value.y.isNaN = false ∧
      v.value.z.isNaN = false ∧ v.value.w.isNaN = false) :
    let b := t.getBoundingBox bk
    let l := [t.a, t.b, t.c]
    IsLeast b.min.value.x (l.map (·.value.x)) ∧ IsGreatest b.max.value.x (l.map (·.value.x)) ∧
    IsLeast b.min.value.y (l.map (·.value.y)) ∧ IsGreatest b.max.value.y (l.map (·.value.y)) ∧
    IsLeast b.min.value.z (l.map (·.value.z)) ∧ IsGreatest b.max.value.z (l.map (·.value.z)) ∧
    Usable b :=
  C29_box_vectors bk [t.a, t.b, t.c] h (by simp)

/-- C43: the constructors store the three vertices; `NULL` is the origin. -/
theorem C43_init {α : Type} [Scalar α] (a b c : Point3D α) (u v w : Vec3 α) :
    (let t := Triangle.initFromPoint3D (some a) (some b) (some c)
     vtx t.a = a ∧ vtx t.b = b ∧ vtx t.c = c) ∧
    Triangle.initFromVec3 (some u) (some v) (some w) = ⟨u, v, w⟩ ∧
    (let z : Point3D α := ⟨f0, f0, f0⟩
     vtx (Triangle.initFromPoint3D none (some b) (some c)).a = z ∧
     vtx (Triangle.initFromPoint3D (some a) none (some c)).b = z ∧
     vtx (Triangle.initFromPoint3D (some a) (some b) none).c = z ∧
     vtx (Triangle.initFromVec3 none (some v) (some w)).a = z ∧
     vtx (Triangle.initFromVec3 (some u) none (some w)).b = z ∧
     vtx (Triangle.initFromVec3 (some u) (some v) none).c = z) :=
  ⟨⟨rfl, rfl, rfl⟩, rfl, rfl, rfl, rfl, rfl, rfl, rfl⟩

/-- the triangle (0,0,0) (1,0,0) (0,1,0) -/
noncomputable def Spec.unitTri : Triangle ℝ := Triangle.initFromPoint3D (some ⟨0, 0, 0⟩) (some ⟨1, 0, 0⟩) (some ⟨0, 1, 0⟩)

/-- non-vacuity: the unit right triangle -/
example : gram unitTri = 1 := by
  norm_num [gram, unitTri, triCross, ccw, vtx, Triangle.initFromPoint3D, Point3D.toVec3, Simd4f.init,
    Vec3.getX, Vec3.getY, Vec3.getZ, Simd4f.get]

/-! ## C44 barycentric coordinates -/

/-- the point a + u (c - a) + v (b - a) -/
noncomputable def Spec.baryPoint (t : Triangle ℝ) (u v : ℝ) : Point3D ℝ :=
  let a := vtx t.a; let b := vtx t.b; let c := vtx t.c
  ⟨a.x + u * (c.x - a.x) + v * (b.x - a.x), a.y + u * (c.y - a.y) + v * (b.y - a.y),
   a.z + u * (c.z - a.z) + v * (b.z - a.z)⟩
/-- the point lies in the plane of the triangle -/
noncomputable def Spec.Coplanar (t : Triangle ℝ) (p : Point3D ℝ) : Prop :=
  (triCross t).getX * (p.x - (vtx t.a).x) + (triCross t).getY * (p.y - (vtx t.a).y) +
    (triCross t).getZ * (p.z - (vtx t.a).z) = 0
/-- the inner product of `q - p` and `s - r` -/
def Spec.inner3 (p q r s : Point3D ℝ) : ℝ :=
  (q.x - p.x) * (s.x - r.x) + (q.y - p.y) * (s.y - r.y) + (q.z - p.z) * (s.z - r.z)

theorem barycoords_real (bk : Backend) (t : Triangle ℝ) (p : Point3D ℝ) :
    t.getBarycoords bk (some p) =
      if gram t ≤ eps then none
      else
        let a := vtx t.a; let b := vtx t.b; let c := vtx t.c
        some (Vec2.init
          ((inner3 a b a b * inner3 a c a p - inner3 a c a b * inner3 a b a p) / gram t)
          ((inner3 a c a c * inner3 a b a p - inner3 a c a b * inner3 a c a p) / gram t)) := by
  have hden : ∀ bk, Vec3.dot bk (Vec3.subtract t.c t.a) (Vec3.subtract t.c t.a) *
      Vec3.dot bk (Vec3.subtract t.b t.a) (Vec3.subtract t.b t.a) -
      Vec3.dot bk (Vec3.subtract t.c t.a) (Vec3.subtract t.b t.a) *
      Vec3.dot bk (Vec3.subtract t.c t.a) (Vec3.subtract t.b t.a) = gram t := by
    intro bk
    simp only [Vec3.dot, dot3Scalar_real, Vec3.subtract, Simd4f.sub, map2, RealScalar.sub_eq, gram, triCross,
      ccw, vtx, Vec3.getX, Vec3.getY, Vec3.getZ, Simd4f.get]
    ring
  simp only [Triangle.getBarycoords, RealScalar.mul_eq, RealScalar.sub_eq, hden, RealScalar.abs_eq,
    abs_of_nonneg (gram_nonneg t), RealScalar.le_eq, fltEps_real, RealScalar.div_eq, RealScalar.f1_eq]
  split
  · rfl
  · congr 2 <;>
    · simp only [Vec3.dot, dot3Scalar_real, Vec3.subtract, Simd4f.sub, map2, RealScalar.sub_eq, vtx, inner3,
        Point3D.toVec3, Simd4f.init]
      ring

theorem eq_of_orthogonal {x y z a b c d e f : ℝ}
    (hn : 0 < (b * f - c * e) ^ 2 + (c * d - a * f) ^ 2 + (a * e - b * d) ^ 2)
    (h1 : x * a + y * b + z * c = 0) (h2 : x * d + y * e + z * f = 0)
    (h3 : (b * f - c * e) * x + (c * d - a * f) * y + (a * e - b * d) * z = 0) :
    x = 0 ∧ y = 0 ∧ z = 0 := by
  have key : (x ^ 2 + y ^ 2 + z ^ 2) *
      ((b * f - c * e) ^ 2 + (c * d - a * f) ^ 2 + (a * e - b * d) ^ 2) = 0 := by
    have e1 : (c * d - a * f) * z - (a * e - b * d) * y = 0 := by
      linear_combination d * h1 - a * h2
    have e2 : (a * e - b * d) * x - (b * f - c * e) * z = 0 := by
      linear_combination e * h1 - b * h2
    have e3 : (b * f - c * e) * y - (c * d - a * f) * x = 0 := by
      linear_combination f * h1 - c * h2
    linear_combination ((b * f - c * e) * x + (c * d - a * f) * y + (a * e - b * d) * z) * h3 +
      ((c * d - a * f) * z - (a * e - b * d) * y) * e1 + ((a * e - b * d) * x - (b * f - c * e) * z) * e2 +
      ((b * f - c * e) * y - (c * d - a * f) * x) * e3
  have h0 : x ^ 2 + y ^ 2 + z ^ 2 = 0 := by
    rcases mul_eq_zero.1 key with h | h
    · exact h
    · exact absurd h hn.ne'
  refine ⟨?_, ?_, ?_⟩ <;> nlinarith [sq_nonneg x, sq_nonneg y, sq_nonneg z]

/-- C44: `get_barycoords` fails exactly when the squared doubled area is at most `FLT_EPSILON`;
otherwise it returns `(u,v)` such that a + u (c - a) + v (b - a) is the orthogonal projection of the
point on the plane of the triangle: the difference is orthogonal to both edges, and the point itself
is returned when it is coplanar.  A `NULL` point is the origin. -/
theorem C44_barycoords (bk : Backend) (t : Triangle ℝ) (p : Point3D ℝ) :
    (t.getBarycoords bk (some p) = none ↔ gram t ≤ eps) ∧
    (∀ uv, t.getBarycoords bk (some p) = some uv →
      let r := baryPoint t uv.getX uv.getY
      inner3 r p (vtx t.a) (vtx t.b) = 0 ∧ inner3 r p (vtx t.a) (vtx t.c) = 0 ∧
      (Coplanar t p → r = p)) ∧
    t.getBarycoords bk none = t.getBarycoords bk (some ⟨0, 0, 0⟩) := by
  refine ⟨?_, ?_, ?_⟩
  · rw [barycoords_real]; split <;> simp_all
  · intro uv h
    rw [barycoords_real] at h
    split at h
    · exact absurd h (by simp)
    rename_i hg
    have hg0 : 0 < gram t := eps_pos.trans (not_le.1 hg)
    simp only [Option.some.injEq] at h
    subst h
    obtain ⟨⟨⟨ax, ay, az, aw⟩⟩, ⟨⟨bx, bym, bz, bw⟩⟩, ⟨⟨cx, cy, cz, cw⟩⟩⟩ := t
    have hge : gram ⟨⟨⟨ax, ay, az, aw⟩⟩, ⟨⟨bx, bym, bz, bw⟩⟩, ⟨⟨cx, cy, cz, cw⟩⟩⟩ =
      ((bym - ay) * (cz - az) - (bz - az) * (cy - ay)) ^ 2 + ((bz - az) * (cx - ax) - (bx - ax) * (cz - az)) ^ 2 +
      ((bx - ax) * (cy - ay) - (bym - ay) * (cx - ax)) ^ 2 := by
      simp only [gram, triCross, ccw, vtx, Vec3.getX, Vec3.getY, Vec3.getZ, Simd4f.get]
    rw [hge] at hg0 ⊢
    simp only [inner3, baryPoint, vtx, Vec2.init, Vec2.getX, Vec2.getY, Simd4f.get, Simd4f.init, Coplanar,
      triCross, ccw, Vec3.getX, Vec3.getY, Vec3.getZ]
    obtain ⟨px, py, pz⟩ := p
    simp only [Point3D.mk.injEq]
    generalize hX : bx - ax = bX at *
    generalize hY : bym - ay = bY at *
    generalize hZ : bz - az = bZ at *
    generalize cx - ax = cX at *
    generalize cy - ay = cY at *
    generalize cz - az = cZ at *
    have hpx : px = (px - ax) + ax := by ring
    have hpy : py = (py - ay) + ay := by ring
    have hpz : pz = (pz - az) + az := by ring
    generalize hqx : px - ax = qx at *
    generalize hqy : py - ay = qy at *
    generalize hqz : pz - az = qz at *
    subst hpx hpy hpz
    set G := (bY * cZ - bZ * cY) ^ 2 + (bZ * cX - bX * cZ) ^ 2 + (bX * cY - bY * cX) ^ 2 with hG
    set u := ((bX * bX + bY * bY + bZ * bZ) * (cX * qx + cY * qy + cZ * qz) -
      (cX * bX + cY * bY + cZ * bZ) * (bX * qx + bY * qy + bZ * qz)) / G with hu
    set v := ((cX * cX + cY * cY + cZ * cZ) * (bX * qx + bY * qy + bZ * qz) -
      (cX * bX + cY * bY + cZ * bZ) * (cX * qx + cY * qy + cZ * qz)) / G with hv
    have hu' : u * G = (bX * bX + bY * bY + bZ * bZ) * (cX * qx + cY * qy + cZ * qz) -
      (cX * bX + cY * bY + cZ * bZ) * (bX * qx + bY * qy + bZ * qz) := by
      rw [hu]; field_simp
    have hv' : v * G = (cX * cX + cY * cY + cZ * cZ) * (bX * qx + bY * qy + bZ * qz) -
      (cX * bX + cY * bY + cZ * bZ) * (cX * qx + cY * qy + cZ * qz) := by
      rw [hv]; field_simp
    have o1 : (qx + ax - (ax + u * cX + v * bX)) * bX + (qy + ay - (ay + u * cY + v * bY)) * bY +
        (qz + az - (az + u * cZ + v * bZ)) * bZ = 0 := by
      apply mul_left_cancel₀ hg0.ne'
      rw [hG] at hu' hv' ⊢
      linear_combination (-(cX * bX + cY * bY + cZ * bZ)) * hu' - (bX * bX + bY * bY + bZ * bZ) * hv'
    have o2 : (qx + ax - (ax + u * cX + v * bX)) * cX + (qy + ay - (ay + u * cY + v * bY)) * cY +
        (qz + az - (az + u * cZ + v * bZ)) * cZ = 0 := by
      apply mul_left_cancel₀ hg0.ne'
      rw [hG] at hu' hv' ⊢
      linear_combination (-(cX * cX + cY * cY + cZ * cZ)) * hu' - (cX * bX + cY * bY + cZ * bZ) * hv'
    refine ⟨o1, o2, ?_⟩
    intro hco
    have o3 : (bY * cZ - bZ * cY) * (qx + ax - (ax + u * cX + v * bX)) +
        (bZ * cX - bX * cZ) * (qy + ay - (ay + u * cY + v * bY)) +
        (bX * cY - bY * cX) * (qz + az - (az + u * cZ + v * bZ)) = 0 := by
      linear_combination hco
    obtain ⟨e1, e2, e3⟩ := eq_of_orthogonal hg0 o1 o2 o3
    refine ⟨?_, ?_, ?_⟩ <;> linarith
  · simp [Triangle.getBarycoords, Vec3.init, Point3D.toVec3]

/-- C44: `get_uv` interpolates the texture coordinates with the barycentric weights
(1-u-v for a, v for b, u for c); on failure it reports false and stores zero. -/
theorem C44_uv (bk : Backend) (t : Triangle ℝ) (p : Option (Point3D ℝ)) (A B C : Vec2 ℝ) :
    (∀ uv, t.getBarycoords bk p = some uv →
      let r := t.getUv bk p A B C
      r.1 = true ∧
      r.2.getX = (1 - uv.getX - uv.getY) * A.getX + uv.getY * B.getX + uv.getX * C.getX ∧
      r.2.getY = (1 - uv.getX - uv.getY) * A.getY + uv.getY * B.getY + uv.getX * C.getY) ∧
    (t.getBarycoords bk p = none →
      (t.getUv bk p A B C).1 = false ∧ (t.getUv bk p A B C).2.getX = 0 ∧ (t.getUv bk p A B C).2.getY = 0) := by
  constructor
  · intro uv h
    simp only [Triangle.getUv, h]
    refine ⟨trivial, ?_, ?_⟩ <;>
    · simp [greal]; ring
  · intro h
    simp [Triangle.getUv, h, greal]

/-! ## C45 membership -/

/-- the closed triangle: convex combinations of the vertices -/
def Spec.triPts (t : Triangle ℝ) : Set (Point3D ℝ) :=
  {p | ∃ α β γ : ℝ, 0 ≤ α ∧ 0 ≤ β ∧ 0 ≤ γ ∧ α + β + γ = 1 ∧
    p.x = α * (vtx t.a).x + β * (vtx t.b).x + γ * (vtx t.c).x ∧
    p.y = α * (vtx t.a).y + β * (vtx t.b).y + γ * (vtx t.c).y ∧
    p.z = α * (vtx t.a).z + β * (vtx t.b).z + γ * (vtx t.c).z}
/-- the same without the edge from b to c -/
def Spec.triPtsOpen (t : Triangle ℝ) : Set (Point3D ℝ) :=
  {p | ∃ α β γ : ℝ, 0 < α ∧ 0 ≤ β ∧ 0 ≤ γ ∧ α + β + γ = 1 ∧
    p.x = α * (vtx t.a).x + β * (vtx t.b).x + γ * (vtx t.c).x ∧
    p.y = α * (vtx t.a).y + β * (vtx t.b).y + γ * (vtx t.c).y ∧
    p.z = α * (vtx t.a).z + β * (vtx t.b).z + γ * (vtx t.c).z}

/-- barycentric coordinates in a non-degenerate triangle are unique -/
theorem bary_unique {t : Triangle ℝ} (h : 0 < gram t) {u v u' v' : ℝ}
    (e : baryPoint t u v = baryPoint t u' v') : u = u' ∧ v = v' := by
  simp only [baryPoint, Point3D.mk.injEq] at e
  obtain ⟨e1, e2, e3⟩ := e
  have hg : gram t = ((triCross t).getX) ^ 2 + (triCross t).getY ^ 2 + (triCross t).getZ ^ 2 := rfl
  simp only [triCross, ccw, Vec3.getX, Vec3.getY, Vec3.getZ, Simd4f.get] at hg
  rw [hg] at h
  generalize (vtx t.b).x - (vtx t.a).x = bX at *
  generalize (vtx t.b).y - (vtx t.a).y = bY at *
  generalize (vtx t.b).z - (vtx t.a).z = bZ at *
  generalize (vtx t.c).x - (vtx t.a).x = cX at *
  generalize (vtx t.c).y - (vtx t.a).y = cY at *
  generalize (vtx t.c).z - (vtx t.a).z = cZ at *
  have f1 : (u - u') * cX + (v - v') * bX = 0 := by linear_combination e1
  have f2 : (u - u') * cY + (v - v') * bY = 0 := by linear_combination e2
  have f3 : (u - u') * cZ + (v - v') * bZ = 0 := by linear_combination e3
  constructor
  · have : (u - u') ^ 2 * ((bY * cZ - bZ * cY) ^ 2 + (bZ * cX - bX * cZ) ^ 2 + (bX * cY - bY * cX) ^ 2) = 0 := by
      have g1 : (u - u') * (bY * cZ - bZ * cY) = 0 := by linear_combination bY * f3 - bZ * f2
      have g2 : (u - u') * (bZ * cX - bX * cZ) = 0 := by linear_combination bZ * f1 - bX * f3
      have g3 : (u - u') * (bX * cY - bY * cX) = 0 := by linear_combination bX * f2 - bY * f1
      linear_combination ((u - u') * (bY * cZ - bZ * cY)) * g1 + ((u - u') * (bZ * cX - bX * cZ)) * g2 +
        ((u - u') * (bX * cY - bY * cX)) * g3
    have := (mul_eq_zero.1 this).resolve_right h.ne'
    exact sub_eq_zero.1 (pow_eq_zero_iff (two_ne_zero) |>.1 this)
  · have : (v - v') ^ 2 * ((bY * cZ - bZ * cY) ^ 2 + (bZ * cX - bX * cZ) ^ 2 + (bX * cY - bY * cX) ^ 2) = 0 := by
      have g1 : (v - v') * (bY * cZ - bZ * cY) = 0 := by linear_combination cZ * f2 - cY * f3
      have g2 : (v - v') * (bZ * cX - bX * cZ) = 0 := by linear_combination cX * f3 - cZ * f1
      have g3 : (v - v') * (bX * cY - bY * cX) = 0 := by linear_combination cY * f1 - cX * f2
      linear_combination ((v - v') * (bY * cZ - bZ * cY)) * g1 + ((v - v') * (bZ * cX - bX * cZ)) * g2 +
        ((v - v') * (bX * cY - bY * cX)) * g3
    have := (mul_eq_zero.1 this).resolve_right h.ne'
    exact sub_eq_zero.1 (pow_eq_zero_iff (two_ne_zero) |>.1 this)

/-- C45 (proved part): for a triangle that is not degenerate up to `FLT_EPSILON` and a point of its
plane, `contains_point` is membership in the triangle without the edge b–c.  That edge is wrongly
excluded (`C45_edge_false`). -/
theorem C45_contains_partial (bk : Backend) (t : Triangle ℝ) (h : eps < gram t) (p : Point3D ℝ)
    (hp : Coplanar t p) : t.containsPoint bk (some p) = true ↔ p ∈ triPtsOpen t := by
  obtain ⟨h1, h2, -⟩ := C44_barycoords bk t p
  have hne : t.getBarycoords bk (some p) ≠ none := fun hc => absurd (h1.1 hc) (not_le.2 h)
  obtain ⟨uv, huv⟩ := Option.ne_none_iff_exists'.1 hne
  obtain ⟨-, -, hr⟩ := h2 uv huv
  have hr := hr hp
  simp only [Triangle.containsPoint, huv, Bool.and_eq_true, RealScalar.le_eq, RealScalar.lt_eq,
    RealScalar.f0_eq, RealScalar.f1_eq, RealScalar.add_eq]
  generalize uv.getX = u at *
  generalize uv.getY = v at *
  constructor
  · rintro ⟨⟨hu, hv⟩, huv⟩
    refine ⟨1 - u - v, v, u, by linarith, hv, hu, by ring, ?_, ?_, ?_⟩ <;>
    · rw [← hr]; simp only [baryPoint]; ring
  · rintro ⟨α, β, γ, hα, hβ, hγ, hs, ex, ey, ez⟩
    have e : baryPoint t u v = baryPoint t γ β := by
      rw [hr]
      have hα' : α = 1 - β - γ := by linarith
      ext
      · rw [ex, hα']; simp only [baryPoint]; ring
      · rw [ey, hα']; simp only [baryPoint]; ring
      · rw [ez, hα']; simp only [baryPoint]; ring
    obtain ⟨e1, e2⟩ := bary_unique (eps_pos.trans h) e
    rw [e1, e2]
    exact ⟨⟨hγ, hβ⟩, by linarith⟩

/-- every point of the triangle lies in its plane -/
theorem coplanar_of_mem {t : Triangle ℝ} {p : Point3D ℝ} (h : p ∈ triPts t) : Coplanar t p := by
  obtain ⟨α, β, γ, hα, hβ, hγ, hs, ex, ey, ez⟩ := h
  have hα' : α = 1 - β - γ := by linarith
  simp only [Coplanar]
  rw [ex, ey, ez, hα']
  simp only [triCross, ccw, Vec3.getX, Vec3.getY, Vec3.getZ, Simd4f.get]
  ring

/-- C45 is false on the edge b–c: the vertex b of the unit right triangle is not "contained". -/
theorem C45_edge_false (bk : Backend) :
    (⟨1, 0, 0⟩ : Point3D ℝ) ∈ triPts unitTri ∧ eps < gram unitTri ∧
    unitTri.containsPoint bk (some ⟨1, 0, 0⟩) = false := by
  have hg : gram unitTri = 1 := by
    norm_num [gram, unitTri, triCross, ccw, vtx, Triangle.initFromPoint3D, Point3D.toVec3, Simd4f.init,
      Vec3.getX, Vec3.getY, Vec3.getZ, Simd4f.get]
  have hm : (⟨1, 0, 0⟩ : Point3D ℝ) ∈ triPts unitTri := by
    refine ⟨0, 1, 0, le_refl _, zero_le_one, le_refl _, by norm_num, ?_, ?_, ?_⟩ <;>
      simp [vtx, unitTri, Triangle.initFromPoint3D, Point3D.toVec3, Simd4f.init]
  have he : eps < gram unitTri := by rw [hg]; exact eps_lt_one
  refine ⟨hm, he, ?_⟩
  rw [← Bool.not_eq_true, C45_contains_partial bk _ he _ (coplanar_of_mem hm)]
  rintro ⟨α, β, γ, hα, hβ, hγ, hs, ex, ey, ez⟩
  simp [vtx, unitTri, Triangle.initFromPoint3D, Point3D.toVec3, Simd4f.init] at ex ey
  linarith

/-- non-vacuity: an interior point, found -/
example (bk : Backend) : unitTri.containsPoint bk (some ⟨1 / 4, 1 / 4, 0⟩) = true := by
  have hg : gram unitTri = 1 := by
    norm_num [gram, unitTri, triCross, ccw, vtx, Triangle.initFromPoint3D, Point3D.toVec3, Simd4f.init,
      Vec3.getX, Vec3.getY, Vec3.getZ, Simd4f.get]
  have hv : vtx unitTri.a = ⟨0, 0, 0⟩ ∧ vtx unitTri.b = ⟨1, 0, 0⟩ ∧ vtx unitTri.c = ⟨0, 1, 0⟩ := ⟨rfl, rfl, rfl⟩
  rw [C45_contains_partial bk _ (by rw [hg]; exact eps_lt_one)]
  · refine ⟨1 / 2, 1 / 4, 1 / 4, by norm_num, by norm_num, by norm_num, by norm_num, ?_, ?_, ?_⟩ <;>
      rw [hv.1, hv.2.1, hv.2.2] <;> norm_num
  · apply coplanar_of_mem
    refine ⟨1 / 2, 1 / 4, 1 / 4, by norm_num, by norm_num, by norm_num, by norm_num, ?_, ?_, ?_⟩ <;>
      rw [hv.1, hv.2.1, hv.2.2] <;> norm_num

end Graphene
