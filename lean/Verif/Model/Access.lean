/-
  Copy constructors and getters with `NULL`-able output parameters.
  An output parameter is `Option T`: `none` is a `NULL` pointer, `some old` points to a variable holding
  `old`; the result is what it points to after the call.
-/
import Verif.Model.Triangle
import Verif.Model.Ray
import Verif.Model.Quat
import Verif.Model.Frustum
import Verif.Model.Fp

namespace Graphene

namespace Box
variable {α : Type} [Scalar α]
/-- `graphene_box_init_from_box` (box.c:190-198). -/
def initFromBox (src : Box α) : Box α := ⟨src.min, src.max⟩
/-- `graphene_box_get_minmax` (box.c:526-535). -/
def getMinmax (b : Box α) (min max : Option (Point3D α)) : Option (Point3D α) × Option (Point3D α) :=
  (min.map fun _ => Point3D.initFromVec3 b.min, max.map fun _ => Point3D.initFromVec3 b.max)
end Box

namespace Box2d
variable {α : Type} [Scalar α]
/-- `graphene_box2d_init_from_box` (box2d.c:169-176). -/
def initFromBox (src : Box2d α) : Box2d α := ⟨src.minmax⟩
/-- `graphene_box2d_get_minmax` (box2d.c:723-736). -/
def getMinmax (b : Box2d α) (min max : Option (Point α)) : Option (Point α) × Option (Point α) :=
  let minV := Simd4f.mergeLow b.minmax Simd4f.initZero
  let maxV := Simd4f.mergeHigh b.minmax Simd4f.initZero
  (min.map fun _ => ⟨minV.x, minV.y⟩, max.map fun _ => ⟨maxV.x, maxV.y⟩)
end Box2d

namespace Plane
variable {α : Type} [Scalar α]
/-- `graphene_plane_init_from_plane` (plane.c:149-157). -/
def initFromPlane (src : Plane α) : Plane α := ⟨Vec3.initFromVec3 src.normal, src.constant⟩
/-- `graphene_plane_get_normal` (plane.c:296-301). -/
def getNormal (p : Plane α) : Vec3 α := Vec3.initFromVec3 p.normal
/-- `graphene_plane_get_constant` (plane.c:314-318). -/
def getConstant (p : Plane α) : α := p.constant
end Plane

namespace Triangle
variable {α : Type} [Scalar α]
/-- `graphene_triangle_init_from_float` (triangle.c:169-181); `none` when an array is too short, where the
C code reads out of bounds. -/
def initFromFloat (a b c : Buf α) : Option (Triangle α) := do
  let va ← Vec3.initFromFloat a
  let vb ← Vec3.initFromFloat b
  let vc ← Vec3.initFromFloat c
  return initFromVec3 (some va) (some vb) (some vc)
/-- `graphene_triangle_get_points` (triangle.c:198-210). -/
def getPoints (t : Triangle α) (a b c : Option (Point3D α)) :
    Option (Point3D α) × Option (Point3D α) × Option (Point3D α) :=
  (a.map fun _ => Point3D.initFromVec3 t.a, b.map fun _ => Point3D.initFromVec3 t.b,
   c.map fun _ => Point3D.initFromVec3 t.c)
/-- `graphene_triangle_get_vertices` (triangle.c:223-235). -/
def getVertices (t : Triangle α) (a b c : Option (Vec3 α)) :
    Option (Vec3 α) × Option (Vec3 α) × Option (Vec3 α) :=
  (a.map fun _ => t.a, b.map fun _ => t.b, c.map fun _ => t.c)
end Triangle

/-- `graphene_quaternion_init_from_quaternion` (quaternion.c:144-151). -/
def Quat.initFromQuaternion {α : Type} (src : Quat α) : Quat α := src

end Graphene
