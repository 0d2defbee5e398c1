/-
  C94: what is stored is what is read back, bit for bit.
-/
import Verif.Model.Access
import Verif.Proofs.KDecide
import Verif.Proofs.FpLemmas

namespace Graphene
open Fp

/-- the point at the origin -/
def Spec.originPoint {α : Type} [Scalar α] : Point3D α := ⟨f0, f0, f0⟩
/-- the point at the origin -/
def Spec.originPoint2 {α : Type} [Scalar α] : Point α := ⟨f0, f0⟩

section
variable {α : Type} [Scalar α]

/-- C94: boxes.  Corners given as points are read back unchanged, by every getter, `NULL` corners are the
origin, a `NULL` output is left out without disturbing the other; copies are faithful. -/
theorem C94_box (lo hi : Option (Point3D α)) (a b : Point3D α) :
    let box := Box.init lo hi
    box.getMin = lo.getD Spec.originPoint ∧ box.getMax = hi.getD Spec.originPoint ∧
    box.getMinmax (some a) (some b) = (some (lo.getD Spec.originPoint), some (hi.getD Spec.originPoint)) ∧
    box.getMinmax (some a) none = (some (lo.getD Spec.originPoint), none) ∧
    box.getMinmax none (some b) = (none, some (hi.getD Spec.originPoint)) ∧
    box.getMinmax none none = (none, none) ∧
    (∀ c : Box α, Box.initFromBox c = c) ∧
    (∀ u v : Vec3 α, (Box.initFromVec3 (some u) (some v)).getMin = ⟨u.getX, u.getY, u.getZ⟩ ∧
      (Box.initFromVec3 (some u) (some v)).getMax = ⟨v.getX, v.getY, v.getZ⟩) ∧
    (Box.initFromVec3 (none : Option (Vec3 α)) none).getMin = Spec.originPoint ∧
    (Box.initFromVec3 (none : Option (Vec3 α)) none).getMax = Spec.originPoint := by
  refine ⟨?_, ?_, ?_, ?_, ?_, rfl, fun _ => rfl, fun _ _ => ⟨rfl, rfl⟩, rfl, rfl⟩ <;> cases lo <;> cases hi <;> rfl

/-- C94: 2D boxes -/
theorem C94_box2d (lo hi : Option (Point α)) (a b : Point α) :
    let box := Box2d.init lo hi
    box.getMin = lo.getD Spec.originPoint2 ∧ box.getMax = hi.getD Spec.originPoint2 ∧
    box.getMinmax (some a) (some b) = (some (lo.getD Spec.originPoint2), some (hi.getD Spec.originPoint2)) ∧
    box.getMinmax (some a) none = (some (lo.getD Spec.originPoint2), none) ∧
    box.getMinmax none (some b) = (none, some (hi.getD Spec.originPoint2)) ∧
    box.getMinmax none none = (none, none) ∧
    (∀ c : Box2d α, Box2d.initFromBox c = c) ∧
    (∀ u v : Vec2 α, (Box2d.initFromVec2 (some u) (some v)).getMin = ⟨u.getX, u.getY⟩ ∧
      (Box2d.initFromVec2 (some u) (some v)).getMax = ⟨v.getX, v.getY⟩) ∧
    (Box2d.initFromVec2 (none : Option (Vec2 α)) none).getMin = Spec.originPoint2 ∧
    (Box2d.initFromVec2 (none : Option (Vec2 α)) none).getMax = Spec.originPoint2 := by
  refine ⟨?_, ?_, ?_, ?_, ?_, rfl, fun _ => rfl, fun _ _ => ⟨rfl, rfl⟩, rfl, rfl⟩ <;> cases lo <;> cases hi <;> rfl

/-- C94: planes; the default normal is the x axis -/
theorem C94_plane (n : Option (Vec3 α)) (d : α) (v : Vec4 α) (p : Plane α) :
    (Plane.init n d).getNormal = n.getD (Vec3.init f1 f0 f0) ∧ (Plane.init n d).getConstant = d ∧
    (Plane.initFromVec4 v).getNormal = Vec3.init v.getX v.getY v.getZ ∧
    (Plane.initFromVec4 v).getConstant = v.getW ∧
    (Plane.initFromPlane p).getNormal = p.getNormal ∧ (Plane.initFromPlane p).getConstant = p.getConstant ∧
    Plane.init (some p.getNormal) p.getConstant = p := by
  refine ⟨?_, rfl, rfl, rfl, rfl, rfl, rfl⟩
  cases n <;> rfl

/-- C94: spheres -/
theorem C94_sphere (c : Option (Point3D α)) (r : α) :
    (Sphere.init c r).getCenter = c.getD Spec.originPoint ∧ (Sphere.init c r).getRadius = r := by
  cases c <;> exact ⟨rfl, rfl⟩

/-- C94: triangles -/
theorem C94_triangle (a b c : Option (Point3D α)) (u v w : Option (Vec3 α)) (fa fb fc : List α) (x y z : Point3D α)
    (p q r : Vec3 α) :
    (Triangle.initFromPoint3D a b c).getPoints (some x) (some y) (some z) =
      (some (a.getD Spec.originPoint), some (b.getD Spec.originPoint), some (c.getD Spec.originPoint)) ∧
    (Triangle.initFromVec3 u v w).getVertices (some p) (some q) (some r) =
      (some (u.getD (Vec3.init f0 f0 f0)), some (v.getD (Vec3.init f0 f0 f0)), some (w.getD (Vec3.init f0 f0 f0))) ∧
    (∀ t : Triangle α, ∀ o1 o2 o3 : Option (Point3D α),
      (t.getPoints o1 o2 o3).1 = o1.map (fun _ => (⟨t.a.getX, t.a.getY, t.a.getZ⟩ : Point3D α)) ∧
      (t.getPoints o1 o2 o3).2.1 = o2.map (fun _ => (⟨t.b.getX, t.b.getY, t.b.getZ⟩ : Point3D α)) ∧
      (t.getPoints o1 o2 o3).2.2 = o3.map (fun _ => (⟨t.c.getX, t.c.getY, t.c.getZ⟩ : Point3D α))) ∧
    (∀ t : Triangle α, ∀ o1 o2 o3 : Option (Vec3 α),
      (t.getVertices o1 o2 o3).1 = o1.map (fun _ => t.a) ∧
      (t.getVertices o1 o2 o3).2.1 = o2.map (fun _ => t.b) ∧
      (t.getVertices o1 o2 o3).2.2 = o3.map (fun _ => t.c)) ∧
    -- three arrays of at least three floats are read as points; nothing past the third float is looked at
    (∀ x1 x2 x3 y1 y2 y3 z1 z2 z3 : α,
      Triangle.initFromFloat (x1 :: x2 :: x3 :: fa) (y1 :: y2 :: y3 :: fb) (z1 :: z2 :: z3 :: fc) =
        some (Triangle.initFromPoint3D (some ⟨x1, x2, x3⟩) (some ⟨y1, y2, y3⟩) (some ⟨z1, z2, z3⟩))) := by
  refine ⟨?_, ?_, fun _ _ _ _ => ⟨rfl, rfl, rfl⟩, fun _ _ _ _ => ⟨rfl, rfl, rfl⟩, fun _ _ _ _ _ _ _ _ _ => rfl⟩
  · cases a <;> cases b <;> cases c <;> rfl
  · cases u <;> cases v <;> cases w <;> rfl

/-- C94: quaternions and their vectors -/
theorem C94_quaternion (x y z w : α) (q : Quat α) (v : Vec4 α) :
    Quat.initFromQuaternion q = q ∧ Quat.initFromVec4 q.toVec4 = q ∧ (Quat.initFromVec4 v).toVec4 = v ∧
    Quat.initFromVec4 (Vec4.init x y z w) = Quat.init x y z w ∧
    (Quat.init x y z w).toVec4 = Vec4.init x y z w ∧ (Quat.identity : Quat α) = Quat.init f0 f0 f0 f1 :=
  ⟨rfl, rfl, rfl, rfl, rfl, rfl⟩

/-- C94: frusta keep their planes and the order of them -/
theorem C94_frustum (p0 p1 p2 p3 p4 p5 : Plane α) :
    (Frustum.init p0 p1 p2 p3 p4 p5).getPlanes = [p0, p1, p2, p3, p4, p5] ∧
    (Frustum.initFromFrustum (Frustum.init p0 p1 p2 p3 p4 p5)).getPlanes = [p0, p1, p2, p3, p4, p5] :=
  ⟨rfl, rfl⟩

/-- C94: the origin of a ray is read back unchanged, also from a copy; the direction is what
`graphene_vec3_normalize` makes of the given one. -/
theorem C94_ray (bk : Backend) (o : Option (Point3D α)) (u d : Option (Vec3 α)) (r : Ray α) :
    (Ray.init bk o d).getOrigin = o.getD Spec.originPoint ∧
    (Ray.init bk o d).getDirection = (d.map (Vec3.normalize bk)).getD (Vec3.init f0 f0 f0) ∧
    (Ray.initFromVec3 bk u d).getOrigin = (u.map fun v => (⟨v.getX, v.getY, v.getZ⟩ : Point3D α)).getD Spec.originPoint ∧
    (Ray.initFromVec3 bk u d).getDirection = (d.map (Vec3.normalize bk)).getD (Vec3.init f0 f0 f0) ∧
    (Ray.initFromRay bk r).getOrigin = r.getOrigin ∧
    (Ray.initFromRay bk r).getDirection = Vec3.normalize bk r.getDirection := by
  refine ⟨?_, ?_, ?_, ?_, rfl, rfl⟩
  · cases o <;> rfl
  · cases d <;> rfl
  · cases u <;> rfl
  · cases d <;> rfl

end

/-- C94, the exception: copying a ray normalises its direction again, which can change it: the copy of a ray
along (1,1,1) has a different direction (GCC vector backend). -/
theorem C94_ray_copy_changes [Libm binary32] :
    let r : Ray F32 := Ray.init .gcc none (some (Vec3.init (lit 1 1) (lit 1 1) (lit 1 1)))
    (Ray.initFromRay .gcc r).getDirection.getX ≠ r.getDirection.getX := by
  kdecide

end Graphene
