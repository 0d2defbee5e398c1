/-
  C57–C59: transforming points, vectors, rectangles, boxes, rays and spheres.
-/
import Verif.Props.Matrix2
import Verif.Props.Quads
import Verif.Props.Rays1
import Verif.Props.Spheres
import Verif.Props.Boxes1
import Verif.Proofs.KDecide

namespace Graphene
open Spec Simd4f Matrix

/-! ## C57 -/

/-- the image of a point: the first three components of `(x, y, z, 1)` times the matrix -/
def Spec.image (m : M4 ℝ) (p : Point3D ℝ) : Point3D ℝ :=
  let h := hom p ᵥ* mat m
  ⟨h 0, h 1, h 2⟩

theorem image_eq (m : M4 ℝ) (p : Point3D ℝ) : image m p =
    ⟨p.x * m.x.x + p.y * m.y.x + p.z * m.z.x + m.w.x, p.x * m.x.y + p.y * m.y.y + p.z * m.z.y + m.w.y,
     p.x * m.x.z + p.y * m.y.z + p.z * m.z.z + m.w.z⟩ := by
  simp [image, hom, mat, vec, Matrix.vecMul, dotProduct, Fin.sum_univ_succ]
  refine ⟨by ring, by ring, by ring⟩

/-- C57: points are transformed by the affine part, with translation; vectors without. -/
theorem C57_points (m : M4 ℝ) (p : Point ℝ) (q : Point3D ℝ) (v : Vec3 ℝ) :
    GMatrix.transformPoint3D m q = image m q ∧
    GMatrix.transformPoint m p = ⟨(image m ⟨p.x, p.y, 0⟩).x, (image m ⟨p.x, p.y, 0⟩).y⟩ ∧
    vec (GMatrix.transformVec3 m v).value =
      ![(dir (vtx v) ᵥ* mat m) 0, (dir (vtx v) ᵥ* mat m) 1, (dir (vtx v) ᵥ* mat m) 2, 0] := by
  refine ⟨?_, ?_, ?_⟩
  · rw [image_eq]
    simp only [GMatrix.transformPoint3D, greal, Point3D.mk.injEq]
    refine ⟨by ring, by ring, by ring⟩
  · rw [image_eq]
    simp only [GMatrix.transformPoint, greal, Point.mk.injEq]
    refine ⟨by ring, by ring⟩
  · funext i
    fin_cases i <;> simp [GMatrix.transformVec3, dir, vtx, mat, vec, Matrix.vecMul, dotProduct, Fin.sum_univ_succ, greal] <;>
      ring

/-- the point of the plane with the given coordinates, transformed -/
def Spec.image2 (m : M4 ℝ) (p : Point ℝ) : Point ℝ :=
  ⟨(image m ⟨p.x, p.y, 0⟩).x, (image m ⟨p.x, p.y, 0⟩).y⟩

theorem transformCorner_real (m : M4 ℝ) (p : Point ℝ) : GMatrix.transformCorner m p = image2 m p := by
  simp only [image2, image_eq, GMatrix.transformCorner, greal, Point.mk.injEq]
  refine ⟨by ring, by ring⟩

theorem corners_normalize (r : Rect ℝ) :
    (Rect.normalize r).getTopLeft = ⟨left r, top r⟩ ∧ (Rect.normalize r).getTopRight = ⟨right r, top r⟩ ∧
    (Rect.normalize r).getBottomRight = ⟨right r, bottom r⟩ ∧
    (Rect.normalize r).getBottomLeft = ⟨left r, bottom r⟩ := by
  have h := edges_normalize r
  have hw := left_add_width r.normalize
  have hh := top_add_height r.normalize
  rw [h.1, h.2.1] at hw
  rw [h.2.2.1, h.2.2.2] at hh
  simp only [Rect.getTopLeft, Rect.getTopRight, Rect.getBottomLeft, Rect.getBottomRight,
    normalize_real r.normalize, RealScalar.add_eq, h.1, h.2.2.1, hw, hh, Point.init, and_self]

/-- C57: `transform_rect` is the quadrilateral of the images of the four corners, in order top left, top
right, bottom right, bottom left. -/
theorem C57_rect (m : M4 ℝ) (r : Rect ℝ) :
    GMatrix.transformRect m r =
      ⟨image2 m ⟨left r, top r⟩, image2 m ⟨right r, top r⟩, image2 m ⟨right r, bottom r⟩,
        image2 m ⟨left r, bottom r⟩⟩ := by
  obtain ⟨h1, h2, h3, h4⟩ := corners_normalize r
  simp only [GMatrix.transformRect, transformCorner_real, Quad.init, h1, h2, h3, h4]

theorem mem_boundsOf (bk : Backend) (a b c d p : Point ℝ) : p ∈ area (GMatrix.boundsOf bk a b c d) ↔
    min (min a.x b.x) (min c.x d.x) ≤ p.x ∧ p.x ≤ max (max a.x b.x) (max c.x d.x) ∧
    min (min a.y b.y) (min c.y d.y) ≤ p.y ∧ p.y ≤ max (max a.y b.y) (max c.y d.y) := by
  have e : ∀ a b c d : ℝ, min (min a b) (min c d) ≤ max (max a b) (max c d) := fun a b c d =>
    ((min_le_left _ _).trans (min_le_left _ _)).trans ((le_max_left _ _).trans (le_max_left _ _))
  simp only [GMatrix.boundsOf, minVal_real, maxVal_real, Rect.init, area_normalize, Point.init,
    Size.init, Simd4f.init, RealScalar.sub_eq]
  have ed := edges_mk (min (min a.x b.x) (min c.x d.x)) (min (min a.y b.y) (min c.y d.y)) _ _
    (sub_nonneg.2 (e a.x b.x c.x d.x)) (sub_nonneg.2 (e a.y b.y c.y d.y))
  simp only [area, Set.mem_setOf_eq, ed.1, ed.2.1, ed.2.2.1, ed.2.2.2, add_sub_cancel]

/-- smallest rectangle containing four points -/
def Spec.SmallestRect (b : Rect ℝ) (l : List (Point ℝ)) : Prop :=
  (∀ c ∈ l, c ∈ area b) ∧ ∀ r : Rect ℝ, (∀ c ∈ l, c ∈ area r) → area b ⊆ area r

theorem boundsOf_smallest (bk : Backend) (a b c d : Point ℝ) :
    SmallestRect (GMatrix.boundsOf bk a b c d) [a, b, c, d] := by
  constructor
  · intro p hp
    rw [mem_boundsOf]
    simp only [List.mem_cons, List.not_mem_nil, or_false] at hp
    rcases hp with rfl | rfl | rfl | rfl <;> simp
  · intro r hr p hp
    rw [mem_boundsOf] at hp
    have h0 := hr a (by simp)
    have h1 := hr b (by simp)
    have h2 := hr c (by simp)
    have h3 := hr d (by simp)
    exact ⟨(le_min (le_min h0.1 h1.1) (le_min h2.1 h3.1)).trans hp.1,
      hp.2.1.trans (max_le (max_le h0.2.1 h1.2.1) (max_le h2.2.1 h3.2.1)),
      (le_min (le_min h0.2.2.1 h1.2.2.1) (le_min h2.2.2.1 h3.2.2.1)).trans hp.2.2.1,
      hp.2.2.2.trans (max_le (max_le h0.2.2.2 h1.2.2.2) (max_le h2.2.2.2 h3.2.2.2))⟩

/-- a linear expression on an interval is bounded by its values at the ends -/
theorem lin_bounds {x a b : ℝ} (h1 : a ≤ x) (h2 : x ≤ b) (k : ℝ) :
    min (a * k) (b * k) ≤ x * k ∧ x * k ≤ max (a * k) (b * k) := by
  rcases le_total 0 k with h | h
  · exact ⟨(min_le_left _ _).trans (by nlinarith), le_trans (by nlinarith) (le_max_right _ _)⟩
  · exact ⟨(min_le_right _ _).trans (by nlinarith), le_trans (by nlinarith) (le_max_left _ _)⟩

/-- an expression bilinear in two intervals lies between the smallest and largest corner value -/
theorem corner2 {x y a b c d : ℝ} (h1 : a ≤ x) (h2 : x ≤ b) (h3 : c ≤ y) (h4 : y ≤ d) (k l n : ℝ) :
    min (min (a * k + c * l + n) (b * k + c * l + n)) (min (b * k + d * l + n) (a * k + d * l + n)) ≤
      x * k + y * l + n ∧
    x * k + y * l + n ≤
      max (max (a * k + c * l + n) (b * k + c * l + n)) (max (b * k + d * l + n) (a * k + d * l + n)) := by
  have hx := lin_bounds h1 h2 k
  have hy := lin_bounds h3 h4 l
  constructor
  · rcases min_le_iff.1 hx.1 with e | e <;> rcases min_le_iff.1 hy.1 with f | f <;>
      simp only [min_le_iff] <;>
      first
        | (left; left; linarith)
        | (left; right; linarith)
        | (right; left; linarith)
        | (right; right; linarith)
  · rcases le_max_iff.1 hx.2 with e | e <;> rcases le_max_iff.1 hy.2 with f | f <;>
      simp only [le_max_iff] <;>
      first
        | (left; left; linarith)
        | (left; right; linarith)
        | (right; left; linarith)
        | (right; right; linarith)

/-- C57: `transform_bounds` is the smallest rectangle containing the images of the corners, and contains
the image of every point of the rectangle. -/
theorem C57_bounds (bk : Backend) (m : M4 ℝ) (r : Rect ℝ) :
    SmallestRect (GMatrix.transformBounds bk m r)
      [image2 m ⟨left r, top r⟩, image2 m ⟨right r, top r⟩, image2 m ⟨right r, bottom r⟩,
        image2 m ⟨left r, bottom r⟩] ∧
    ∀ p ∈ area r, image2 m p ∈ area (GMatrix.transformBounds bk m r) := by
  obtain ⟨h1, h2, h3, h4⟩ := corners_normalize r
  have e : GMatrix.transformBounds bk m r = GMatrix.boundsOf bk (image2 m ⟨left r, top r⟩)
      (image2 m ⟨right r, top r⟩) (image2 m ⟨right r, bottom r⟩) (image2 m ⟨left r, bottom r⟩) := by
    simp only [GMatrix.transformBounds, transformCorner_real, h1, h2, h3, h4]
  rw [e]
  refine ⟨boundsOf_smallest _ _ _ _ _, ?_⟩
  rintro p ⟨a, b, c, d⟩
  rw [mem_boundsOf]
  have hx := corner2 a b c d m.x.x m.y.x (0 * m.z.x + m.w.x)
  have hy := corner2 a b c d m.x.y m.y.y (0 * m.z.y + m.w.y)
  simp only [← add_assoc] at hx hy
  simp only [image2, image_eq]
  exact ⟨hx.1, hx.2, hy.1, hy.2⟩

/-! ### boxes -/

theorem foldl_expand_min {bk : Backend} (l : List (Vec3 ℝ)) (b : Box ℝ) :
    (∀ v ∈ l, (l.foldl (Box.expandVec3 bk) b).min.value.x ≤ v.value.x ∧
      (l.foldl (Box.expandVec3 bk) b).min.value.y ≤ v.value.y ∧
      (l.foldl (Box.expandVec3 bk) b).min.value.z ≤ v.value.z ∧
      v.value.x ≤ (l.foldl (Box.expandVec3 bk) b).max.value.x ∧
      v.value.y ≤ (l.foldl (Box.expandVec3 bk) b).max.value.y ∧
      v.value.z ≤ (l.foldl (Box.expandVec3 bk) b).max.value.z) ∧
    (l.foldl (Box.expandVec3 bk) b).min.value.x ≤ b.min.value.x ∧
    (l.foldl (Box.expandVec3 bk) b).min.value.y ≤ b.min.value.y ∧
    (l.foldl (Box.expandVec3 bk) b).min.value.z ≤ b.min.value.z ∧
    b.max.value.x ≤ (l.foldl (Box.expandVec3 bk) b).max.value.x ∧
    b.max.value.y ≤ (l.foldl (Box.expandVec3 bk) b).max.value.y ∧
    b.max.value.z ≤ (l.foldl (Box.expandVec3 bk) b).max.value.z := by
  induction l generalizing b with
  | nil => simp
  | cons v l ih =>
    obtain ⟨h1, h2, h3, h4, h5, h6, h7⟩ := ih (Box.expandVec3 bk b v)
    simp only [List.foldl_cons]
    simp only [Box.expandVec3, Box.expandSimd4f, Simd4f.min, Simd4f.max, map2, min1_real, max1_real] at h1 h2 h3 h4 h5 h6 h7 ⊢
    refine ⟨?_, h2.trans (min_le_left _ _), h3.trans (min_le_left _ _), h4.trans (min_le_left _ _),
      (le_max_left _ _).trans h5, (le_max_left _ _).trans h6, (le_max_left _ _).trans h7⟩
    intro u hu
    rcases List.mem_cons.1 hu with rfl | hu
    · exact ⟨h2.trans (min_le_right _ _), h3.trans (min_le_right _ _), h4.trans (min_le_right _ _),
        (le_max_right _ _).trans h5, (le_max_right _ _).trans h6, (le_max_right _ _).trans h7⟩
    · exact h1 u hu

theorem corner3 {x y z a b c d e f : ℝ} (h1 : a ≤ x) (h2 : x ≤ b) (h3 : c ≤ y) (h4 : y ≤ d) (h5 : e ≤ z)
    (h6 : z ≤ f) {k l n o lo hi : ℝ}
    (h : ∀ u v w, (u = a ∨ u = b) → (v = c ∨ v = d) → (w = e ∨ w = f) →
      lo ≤ u * k + v * l + w * n + o ∧ u * k + v * l + w * n + o ≤ hi) :
    lo ≤ x * k + y * l + z * n + o ∧ x * k + y * l + z * n + o ≤ hi := by
  have hx := lin_bounds h1 h2 k
  have hy := lin_bounds h3 h4 l
  have hz := lin_bounds h5 h6 n
  constructor
  · rcases min_le_iff.1 hx.1 with i | i <;> rcases min_le_iff.1 hy.1 with j | j <;>
      rcases min_le_iff.1 hz.1 with k | k
    · linarith [(h a c e (by simp) (by simp) (by simp)).1]
    · linarith [(h a c f (by simp) (by simp) (by simp)).1]
    · linarith [(h a d e (by simp) (by simp) (by simp)).1]
    · linarith [(h a d f (by simp) (by simp) (by simp)).1]
    · linarith [(h b c e (by simp) (by simp) (by simp)).1]
    · linarith [(h b c f (by simp) (by simp) (by simp)).1]
    · linarith [(h b d e (by simp) (by simp) (by simp)).1]
    · linarith [(h b d f (by simp) (by simp) (by simp)).1]
  · rcases le_max_iff.1 hx.2 with i | i <;> rcases le_max_iff.1 hy.2 with j | j <;>
      rcases le_max_iff.1 hz.2 with k | k
    · linarith [(h a c e (by simp) (by simp) (by simp)).2]
    · linarith [(h a c f (by simp) (by simp) (by simp)).2]
    · linarith [(h a d e (by simp) (by simp) (by simp)).2]
    · linarith [(h a d f (by simp) (by simp) (by simp)).2]
    · linarith [(h b c e (by simp) (by simp) (by simp)).2]
    · linarith [(h b c f (by simp) (by simp) (by simp)).2]
    · linarith [(h b d e (by simp) (by simp) (by simp)).2]
    · linarith [(h b d f (by simp) (by simp) (by simp)).2]

/-- C57: the result of `transform_box` contains the image of every point of the box. -/
theorem C57_box (bk : Backend) (m : M4 ℝ) (lo hi : Point3D ℝ) (p : Point3D ℝ) (hp : p ∈ between lo hi) :
    let b := GMatrix.transformBox bk m (Box.init (some lo) (some hi))
    image m p ∈ between b.getMin b.getMax := by
  intro b
  obtain ⟨h1, h2, h3, h4, h5, h6⟩ := hp
  have key : ∀ u v w, (u = lo.x ∨ u = hi.x) → (v = lo.y ∨ v = hi.y) → (w = lo.z ∨ w = hi.z) →
      image m ⟨u, v, w⟩ ∈ between b.getMin b.getMax := by
    intro u v w hu hv hw
    have hmem : Vec3.init u v w ∈ (Box.init (some lo) (some hi)).getVertices := by
      simp only [Box.getVertices, Box.init, Point3D.toVec3, Box.getMin, Box.getMax, Point3D.initFromVec3,
        Point3D.initFromSimd4f, Simd4f.init, List.mem_cons, Vec3.init]
      rcases hu with rfl | rfl <;> rcases hv with rfl | rfl <;> rcases hw with rfl | rfl <;> simp
    have hk := (foldl_expand_min (bk := bk) ((Box.init (some lo) (some hi)).getVertices.map
      fun v => (⟨Simd4x4f.point3Mul m v.value⟩ : Vec3 ℝ)) Box.empty).1
      ⟨Simd4x4f.point3Mul m (Vec3.init u v w).value⟩ (List.mem_map.2 ⟨_, hmem, rfl⟩)
    have e : (⟨(Simd4x4f.point3Mul m (Vec3.init u v w).value).x, (Simd4x4f.point3Mul m (Vec3.init u v w).value).y,
        (Simd4x4f.point3Mul m (Vec3.init u v w).value).z⟩ : Point3D ℝ) = image m ⟨u, v, w⟩ := by
      rw [← (C57_points m ⟨0, 0⟩ ⟨u, v, w⟩ Vec3.zero).1]; rfl
    rw [← e]
    obtain ⟨k1, k2, k3, k4, k5, k6⟩ := hk
    exact ⟨k1, k4, k2, k5, k3, k6⟩
  simp only [image_eq, between, Set.mem_setOf_eq] at key ⊢
  obtain ⟨x1, x2⟩ := corner3 h1 h2 h3 h4 h5 h6 (k := m.x.x) (l := m.y.x) (n := m.z.x) (o := m.w.x)
    fun u v w a b c => ⟨(key u v w a b c).1, (key u v w a b c).2.1⟩
  obtain ⟨y1, y2⟩ := corner3 h1 h2 h3 h4 h5 h6 (k := m.x.y) (l := m.y.y) (n := m.z.y) (o := m.w.y)
    fun u v w a b c => ⟨(key u v w a b c).2.2.1, (key u v w a b c).2.2.2.1⟩
  obtain ⟨z1, z2⟩ := corner3 h1 h2 h3 h4 h5 h6 (k := m.x.z) (l := m.y.z) (n := m.z.z) (o := m.w.z)
    fun u v w a b c => ⟨(key u v w a b c).2.2.2.2.1, (key u v w a b c).2.2.2.2.2⟩
  exact ⟨x1, x2, y1, y2, z1, z2⟩

/-- C57: `transform_ray` moves the origin like a point (up to the homogeneous coordinate, which it
drops) and the direction like a vector, which is then normalised. -/
theorem C57_ray (bk : Backend) (m : M4 ℝ) (r : Ray ℝ) :
    (GMatrix.transformRay bk m r).getOrigin = image m r.getOrigin ∧
    (GMatrix.transformRay bk m r).getDirection = Vec3.normalize bk (GMatrix.transformVec3 m r.direction) ∧
    (Normalisable bk (GMatrix.transformVec3 m r.direction) →
      Spec.UnitOf (Spec.v3 (GMatrix.transformRay bk m r).getDirection)
        (Spec.v3 (GMatrix.transformVec3 m r.direction))) := by
  refine ⟨?_, rfl, ?_⟩
  · rw [image_eq]
    simp only [GMatrix.transformRay, Ray.initFromVec3, Ray.getOrigin, Point3D.initFromVec3, Point3D.initFromSimd4f,
      GMatrix.transformVec4, greal, Option.getD, Vec3.initFromVec3, Point3D.mk.injEq]
    refine ⟨by ring, by ring, by ring⟩
  · intro h
    exact ((C46_init bk ⟨0, 0, 0⟩ Vec3.zero (GMatrix.transformVec3 m r.direction)).2.2.2.1 h).1

/-- non-vacuity of C57: a sheared and translated unit square -/
example : image2 (⟨⟨1, 2, 0, 0⟩, ⟨3, 4, 0, 0⟩, ⟨0, 0, 1, 0⟩, ⟨5, 6, 7, 1⟩⟩ : M4 ℝ) ⟨1, 1⟩ = ⟨9, 12⟩ ∧
    (⟨1, 1⟩ : Point ℝ) ∈ area ⟨⟨0, 0⟩, ⟨1, 1⟩⟩ := by
  refine ⟨?_, ?_⟩
  · simp only [image2, image_eq]; norm_num
  · simp [area, left, right, top, bottom]

/-! ## C58 -/

/-- the three basis images (rows) are mutually orthogonal: rotations, translations and axis-aligned
scales in this order, but no skew -/
def Spec.OrthogonalRows (m : M4 ℝ) : Prop :=
  m.x.x * m.y.x + m.x.y * m.y.y + m.x.z * m.y.z = 0 ∧
  m.x.x * m.z.x + m.x.y * m.z.y + m.x.z * m.z.z = 0 ∧
  m.y.x * m.z.x + m.y.y * m.z.y + m.y.z * m.z.z = 0

/-- C58, proved part: the transformed sphere contains the image of every point of the original when the
rows of the matrix are mutually orthogonal.  Missing: matrices with skew, for which it is false
(`C58_skew_false`). -/
theorem C58_sphere_partial (bk : Backend) (m : M4 ℝ) (hm : OrthogonalRows m) (c : Point3D ℝ) (r : ℝ) (hr : 0 ≤ r)
    (p : Point3D ℝ) (hp : (Sphere.init (some c) r).containsPoint bk p = true) :
    let s := GMatrix.transformSphere bk m (Sphere.init (some c) r)
    s.getCenter = image m c ∧ s.containsPoint bk (image m p) = true := by
  intro s
  have hc : s.getCenter = image m c := by
    rw [← (C57_points m ⟨0, 0⟩ c Vec3.zero).1]; rfl
  refine ⟨hc, ?_⟩
  simp only [Sphere.containsPoint, distanceSq_eq, RealScalar.le_eq, RealScalar.mul_eq] at hp ⊢
  have hc' : vtx s.center = image m c := hc
  have e1 : (vtx (Sphere.init (some c) r).center) = c := rfl
  set M := max (max (m.x.x * m.x.x + m.x.y * m.x.y + m.x.z * m.x.z) (m.y.x * m.y.x + m.y.y * m.y.y + m.y.z * m.y.z))
    (m.z.x * m.z.x + m.z.y * m.z.y + m.z.z * m.z.z) with hM
  have hrad : s.radius = r * √M := by
    show (Sphere.init (some c) r).radius *. Scalar.sqrt _ = _
    simp only [dot3Scalar_real, fmaxf_real, RealScalar.mul_eq, RealScalar.sqrt_eq, Sphere.init, hM]
  have hM1 : m.x.x * m.x.x + m.x.y * m.x.y + m.x.z * m.x.z ≤ M := (le_max_left _ _).trans (le_max_left _ _)
  have hM2 : m.y.x * m.y.x + m.y.y * m.y.y + m.y.z * m.y.z ≤ M := (le_max_right _ _).trans (le_max_left _ _)
  have hM3 : m.z.x * m.z.x + m.z.y * m.z.y + m.z.z * m.z.z ≤ M := le_max_right _ _
  have hM0 : 0 ≤ M := le_trans (by nlinarith [mul_self_nonneg m.x.x, mul_self_nonneg m.x.y, mul_self_nonneg m.x.z]) hM1
  have hsq : √M * √M = M := Real.mul_self_sqrt hM0
  rw [hrad, show r * √M * (r * √M) = r * r * M by linear_combination r * r * hsq]
  obtain ⟨o1, o2, o3⟩ := hm
  have key : distSq (image m c) (image m p) =
      (c.x - p.x) ^ 2 * (m.x.x * m.x.x + m.x.y * m.x.y + m.x.z * m.x.z) +
      (c.y - p.y) ^ 2 * (m.y.x * m.y.x + m.y.y * m.y.y + m.y.z * m.y.z) +
      (c.z - p.z) ^ 2 * (m.z.x * m.z.x + m.z.y * m.z.y + m.z.z * m.z.z) := by
    simp only [image_eq, distSq]
    linear_combination 2 * (c.x - p.x) * (c.y - p.y) * o1 + 2 * (c.x - p.x) * (c.z - p.z) * o2 +
      2 * (c.y - p.y) * (c.z - p.z) * o3
  have hp' : distSq c p ≤ r * r := hp
  have : distSq (image m c) (image m p) ≤ r * r * M := by
    rw [key]
    calc _ ≤ (c.x - p.x) ^ 2 * M + (c.y - p.y) ^ 2 * M + (c.z - p.z) ^ 2 * M := by
          gcongr
      _ = distSq c p * M := by simp only [distSq]; ring
      _ ≤ r * r * M := by gcongr
  rw [← hc'] at this
  exact this

/-- C58 is false with skew: the unit sphere at the origin under `(x, y, z) ↦ (x + y, y, z)` becomes a
sphere of radius √2, outside of which lies the image of the point (3/5, 4/5, 0). -/
theorem C58_skew_false (bk : Backend) :
    ∃ (m : M4 ℝ) (s : Sphere ℝ) (p : Point3D ℝ), Affine m ∧ s.containsPoint bk p = true ∧
      (GMatrix.transformSphere bk m s).containsPoint bk (image m p) = false := by
  refine ⟨⟨⟨1, 0, 0, 0⟩, ⟨1, 1, 0, 0⟩, ⟨0, 0, 1, 0⟩, ⟨0, 0, 0, 1⟩⟩, Sphere.init (some ⟨0, 0, 0⟩) 1,
    ⟨3 / 5, 4 / 5, 0⟩, by simp [Affine], ?_, ?_⟩
  · simp only [Sphere.containsPoint, distanceSq_eq, RealScalar.le_eq, RealScalar.mul_eq, Sphere.init, distSq,
      greal]
    simp only [Point3D.toVec3, Point3D.initFromVec3, Point3D.initFromSimd4f, greal]
    norm_num
  · rw [← Bool.not_eq_true]
    simp only [Sphere.containsPoint, distanceSq_eq, RealScalar.le_eq, RealScalar.mul_eq, Sphere.init, distSq,
      image_eq]
    simp only [GMatrix.transformSphere, greal]
    simp only [Point3D.toVec3, Point3D.initFromVec3, Point3D.initFromSimd4f, greal]
    have : √2 * √2 = (2 : ℝ) := Real.mul_self_sqrt (by norm_num)
    norm_num [this]

/-- non-vacuity: a rotation by 90° with a scale -/
example : OrthogonalRows (⟨⟨0, 2, 0, 0⟩, ⟨-3, 0, 0, 0⟩, ⟨0, 0, 1, 0⟩, ⟨5, 6, 7, 1⟩⟩ : M4 ℝ) := by
  simp [OrthogonalRows]

end Graphene
