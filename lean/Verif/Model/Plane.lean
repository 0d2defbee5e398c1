/- Model of src/graphene-plane.c (`graphene_plane_transform` is in Frustum.lean). -/
import Verif.Model.Sphere

namespace Graphene

/-- `graphene_plane_t` (include/graphene-plane.h). -/
@[ext] structure Plane (α : Type) where
  normal : Vec3 α
  constant : α

namespace Plane
variable {α : Type} [Scalar α]

/-- `graphene_plane_init` (plane.c:99-112); `none` is `NULL`. -/
def init (normal : Option (Vec3 α)) (constant : α) : Plane α :=
  ⟨match normal with | some n => n | none => Vec3.xAxis, constant⟩
/-- `graphene_plane_init_from_vec4` (plane.c:127-135). -/
def initFromVec4 (src : Vec4 α) : Plane α := ⟨Vec4.getXYZ src, Vec4.getW src⟩
/-- `graphene_plane_init_from_point` (plane.c:172-185). -/
def initFromPoint (bk : Backend) (normal : Vec3 α) (point : Point3D α) : Plane α :=
  ⟨normal, Vec3.dot bk point.toVec3 normal *. Scalar.lit (-1) 1⟩
/-- `graphene_plane_init_from_points` (plane.c:204-224). -/
def initFromPoints (bk : Backend) (a b c : Point3D α) : Plane α :=
  let v1 := Vec3.subtract c.toVec3 b.toVec3
  let v2 := Vec3.subtract a.toVec3 b.toVec3
  let normal := Vec3.normalize bk (Vec3.cross bk v1 v2)
  initFromPoint bk normal a
/-- `graphene_plane_normalize` (plane.c:236-244). -/
def normalize (bk : Backend) (p : Plane α) : Plane α :=
  ⟨Vec3.normalize bk p.normal, p.constant /. Vec3.length bk p.normal⟩
/-- `graphene_plane_negate` (plane.c:256-262). -/
def negate (bk : Backend) (p : Plane α) : Plane α :=
  ⟨Vec3.negate bk p.normal, p.constant *. Scalar.lit (-1) 1⟩
/-- `graphene_plane_distance` (plane.c:275-284). -/
def distance (bk : Backend) (p : Plane α) (point : Point3D α) : α :=
  Vec3.dot bk p.normal point.toVec3 +. p.constant
/-- `plane_equal` (plane.c:320-329). -/
def equalV (bk : Backend) (a b : Plane α) : Bool :=
  Vec3.equalV bk a.normal b.normal && approxVal a.constant b.constant
/-- `graphene_plane_equal` (plane.c:342-347). -/
def equal (bk : Backend) (m : Mem (Plane α)) (p1 p2 : Ptr) : Bool :=
  pointerEqual m p1 p2 (equalV bk)

end Plane
end Graphene
