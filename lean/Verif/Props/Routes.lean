/-
  C120: the routes the API offers to the same result give the same bits, on every backend and in every arithmetic
  (single precision included).
-/
import Verif.Model.Frustum
import Verif.Model.Euler
import Verif.Model.Access
import Verif.Proofs.KDecide
import Verif.Proofs.FpLemmas

namespace Graphene
open Fp

section
variable {α : Type} [Scalar α]

/-- C120: changing a matrix in place is multiplying it by the matrix built for that change; the rotations around the
coordinate axes are the rotation around those axes; Euler angles go through their quaternion. -/
theorem C120_matrix (bk : Backend) (m : M4 α) (p : Point3D α) (x y z angle : α) (axis : Vec3 α) (q : Quat α) (e : Euler α) :
    GMatrix.translate m p = GMatrix.multiply m (GMatrix.initTranslate p) ∧
    GMatrix.scale m x y z = GMatrix.multiply m (GMatrix.initScale x y z) ∧
    GMatrix.rotate bk m angle axis = GMatrix.multiply m (GMatrix.initRotate bk angle axis) ∧
    GMatrix.rotateX bk m angle = GMatrix.rotate bk m angle (Vec3.init f1 f0 f0) ∧
    GMatrix.rotateY bk m angle = GMatrix.rotate bk m angle (Vec3.init f0 f1 f0) ∧
    GMatrix.rotateZ bk m angle = GMatrix.rotate bk m angle (Vec3.init f0 f0 f1) ∧
    GMatrix.rotateQuaternion m q = GMatrix.multiply m q.toMatrix ∧
    GMatrix.rotateEuler m e = GMatrix.multiply m e.toQuaternion.toMatrix :=
  ⟨rfl, rfl, rfl, rfl, rfl, rfl, rfl, rfl⟩

/-- C120: a three-dimensional point is the vector from the origin: the operations on points and those on vectors agree
(normalisation as long as the vector is not taken to be zero). -/
theorem C120_points (bk : Backend) (a b : Point3D α) (k : α) :
    Point3D.dot bk a b = Vec3.dot bk a.toVec3 b.toVec3 ∧
    Point3D.length bk a = Vec3.length bk a.toVec3 ∧
    Point3D.cross bk a b = Point3D.initFromVec3 (Vec3.cross bk a.toVec3 b.toVec3) ∧
    Point3D.scale a k = Point3D.initFromVec3 (Vec3.scale a.toVec3 k) ∧
    ((Point3D.distance bk a b).1 = Vec3.length bk (Vec3.subtract a.toVec3 b.toVec3)) ∧
    ((Scalar.abs (Point3D.length bk a) >. fltEps) = true →
      Point3D.normalize bk a = Point3D.initFromVec3 (Vec3.normalize bk a.toVec3)) := by
  refine ⟨?_, rfl, rfl, rfl, rfl, fun h => ?_⟩
  · rfl
  · have h' : (Scalar.abs (Vec3.length bk a.toVec3) >. fltEps) = true := h
    unfold Vec3.normalize
    rw [if_pos h']; rfl

/-- C120: turning points into vectors keeps the coordinates in order, gives the vector with those coordinates (as
`graphene_vec2_init`/`graphene_vec3_init` build it), and is undone by the conversion back. -/
theorem C120_conversions (p : Point α) (q : Point3D α) :
    p.toVec2 = Vec2.init p.x p.y ∧ q.toVec3 = Vec3.init q.x q.y q.z ∧
    (Vec2.getX p.toVec2 = p.x ∧ Vec2.getY p.toVec2 = p.y) ∧
    (Vec3.getX q.toVec3 = q.x ∧ Vec3.getY q.toVec3 = q.y ∧ Vec3.getZ q.toVec3 = q.z) ∧
    Point.initFromVec2 p.toVec2 = p ∧ Point3D.initFromVec3 q.toVec3 = q :=
  ⟨rfl, rfl, ⟨rfl, rfl⟩, ⟨rfl, rfl, rfl⟩, rfl, rfl⟩

/-- C120: shapes from points and shapes from vectors. -/
theorem C120_shapes (bk : Backend) (ps : List (Point3D α)) (qs : List (Point α)) (c : Option (Point3D α)) (B : Box α) (b : Box2d α)
    (p : Point3D α) (q : Point α) (a d : Point3D α) (o : Option (Point3D α)) (v : Option (Vec3 α)) :
    Box.initFromPoints bk ps = Box.initFromVectors bk (ps.map Point3D.toVec3) ∧
    Box2d.initFromPoints bk qs = Box2d.initFromVectors bk (qs.map Point.toVec2) ∧
    Sphere.initFromPoints bk ps c = Sphere.initFromVectors bk (ps.map Point3D.toVec3) c ∧
    Box.expand bk B p = Box.expandVec3 bk B p.toVec3 ∧
    Box2d.expand bk b q = Box2d.expandVec2 bk b q.toVec2 ∧
    Triangle.initFromPoint3D (some p) (some a) (some d) = Triangle.initFromVec3 (some p.toVec3) (some a.toVec3) (some d.toVec3) ∧
    Ray.init bk o v = Ray.initFromVec3 bk (o.map Point3D.toVec3) v := by
  refine ⟨?_, ?_, ?_, rfl, rfl, rfl, ?_⟩
  · simp only [Box.initFromPoints, Box.initFromVectors, List.foldl_map]
  · simp only [Box2d.initFromPoints, Box2d.initFromVectors, List.foldl_map]
  · cases c <;> simp only [Sphere.initFromPoints, Sphere.initFromVectors, Sphere.centerOf, Box.initFromPoints, Box.initFromVectors, List.foldl_map]
  · cases o <;> rfl

/-- C120: the shapes of a triangle: its plane is the plane of its vertices, its box the box of its vertices; and a point has barycentric
coordinates exactly when it has texture coordinates. -/
theorem C120_triangle (bk : Backend) (a b c : Point3D α) (p : Option (Point3D α)) (t : Triangle α) (ua ub uc : Vec2 α) :
    (Triangle.initFromPoint3D (some a) (some b) (some c)).getPlane bk = Plane.initFromPoints bk a b c ∧
    (Triangle.initFromPoint3D (some a) (some b) (some c)).getBoundingBox bk = Box.initFromPoints bk [a, b, c] ∧
    ((t.getUv bk p ua ub uc).1 = (t.getBarycoords bk p).isSome) := by
  refine ⟨rfl, rfl, ?_⟩
  unfold Triangle.getUv
  cases t.getBarycoords bk p <;> rfl

/-- C120: bounds of transformed rectangles are the bounds of the transformed corners, and the queries that only say whether there is an
intersection agree with those that say where. -/
theorem C120_queries (bk : Backend) (m : M4 α) (r : Rect α) (ray : Ray α) (s : Sphere α) (b : Box α) (t : Triangle α) :
    GMatrix.transformBounds bk m r = (GMatrix.transformRect m r).bounds bk ∧
    GMatrix.projectRectBounds bk m r = (GMatrix.projectRect m r).bounds bk ∧
    (ray.intersectsSphere bk s = true ↔ (ray.intersectSphere bk s).1 ≠ .none) ∧
    (ray.intersectsBox bk b = true ↔ (ray.intersectBox bk b).1 ≠ .none) ∧
    (ray.intersectsTriangle bk t = true ↔ (ray.intersectTriangle bk t).1 ≠ .none) := by
  refine ⟨rfl, rfl, ?_, ?_, ?_⟩
  all_goals simp [Ray.intersectsSphere, Ray.intersectsBox, Ray.intersectsTriangle]

end

/-- a point long enough for its normalisation, and a ray that meets a box -/
example [Libm binary32] : (Scalar.abs (Point3D.length .gcc (⟨lit 3 1, lit 4 1, lit 0 1⟩ : Point3D F32)) >. fltEps) = true ∧
    (Ray.intersectBox .gcc (⟨Vec3.init (lit (-3) 1) (lit 0 1) (lit 0 1), Vec3.init (lit 1 1) (lit 0 1) (lit 0 1)⟩ : Ray F32)
      ⟨Vec3.init (lit (-1) 1) (lit (-1) 1) (lit (-1) 1), Vec3.init (lit 1 1) (lit 1 1) (lit 1 1)⟩).1 = .enter :=
  ⟨by kdecide, by kdecide⟩

end Graphene
