/- Model of src/graphene-sphere.c. -/
import Verif.Model.Box

namespace Graphene
namespace Sphere
variable {α : Type} [Scalar α]

/-- `graphene_sphere_init` (sphere.c:91-104); `none` is `NULL`. -/
def init (center : Option (Point3D α)) (radius : α) : Sphere α :=
  ⟨match center with | some c => c.toVec3 | none => Vec3.zero, radius⟩
/-- `distance_sq` (sphere.c:106-114). -/
def distanceSq (bk : Backend) (p1 p2 : Vec3 α) : α :=
  let delta := Vec3.subtract p1 p2
  Vec3.dot bk delta delta
/-- the centre computed by `graphene_sphere_init_from_vectors` (sphere.c:193-204). -/
def centerOf (bk : Backend) (vectors : List (Vec3 α)) (center : Option (Point3D α)) : Vec3 α :=
  match center with
  | some c => c.toVec3
  | none => (Box.initFromVectors bk vectors).getCenter.toVec3
/-- `graphene_sphere_init_from_vectors` (sphere.c:185-212). -/
def initFromVectors (bk : Backend) (vectors : List (Vec3 α)) (center : Option (Point3D α)) :
    Sphere α :=
  let c := centerOf bk vectors center
  let maxRadiusSq := vectors.foldl (fun m v => fmaxf m (distanceSq bk c v)) f0
  ⟨c, Scalar.sqrt maxRadiusSq⟩
/-- `graphene_sphere_init_from_points` (sphere.c:133-166): the same function after
`graphene_point3d_to_vec3` on every point. -/
def initFromPoints (bk : Backend) (points : List (Point3D α)) (center : Option (Point3D α)) :
    Sphere α :=
  let c := match center with
    | some c => c.toVec3
    | none => (Box.initFromPoints bk points).getCenter.toVec3
  let maxRadiusSq := points.foldl (fun m p => fmaxf m (distanceSq bk c p.toVec3)) f0
  ⟨c, Scalar.sqrt maxRadiusSq⟩
/-- `graphene_sphere_get_center` (sphere.c:224-229). -/
def getCenter (s : Sphere α) : Point3D α := Point3D.initFromVec3 s.center
/-- `graphene_sphere_get_radius` (sphere.c:239-243). -/
def getRadius (s : Sphere α) : α := s.radius
/-- `graphene_sphere_is_empty` (sphere.c:255-259); `none` is `NULL`. -/
def isEmpty (s : Option (Sphere α)) : Bool :=
  match s with | some s => s.radius <=. f0 | none => false
/-- `graphene_sphere_contains_point` (sphere.c:273-287). -/
def containsPoint (bk : Backend) (s : Sphere α) (p : Point3D α) : Bool :=
  distanceSq bk s.center p.toVec3 <=. s.radius *. s.radius
/-- `graphene_sphere_distance` (sphere.c:301-310). -/
def distance (bk : Backend) (s : Sphere α) (p : Point3D α) : α :=
  Scalar.sqrt (distanceSq bk s.center p.toVec3) -. s.radius
/-- `graphene_sphere_get_bounding_box` (sphere.c:322-328). -/
def getBoundingBox (s : Sphere α) : Box α := Box.expandScalar ⟨s.center, s.center⟩ s.radius
/-- `graphene_sphere_translate` (sphere.c:341-350) as a store into `*res`: only the
centre is written, `old` is the previous content of `*res`. -/
def translateInto (s : Sphere α) (point : Point3D α) (old : Sphere α) : Sphere α :=
  { old with center := Vec3.add s.center point.toVec3 }
/-- `sphere_equal` (sphere.c:352-361). -/
def equalV (bk : Backend) (a b : Sphere α) : Bool :=
  Vec3.equalV bk a.center b.center && approxVal a.radius b.radius
/-- `graphene_sphere_equal` (sphere.c:374-379). -/
def equal (bk : Backend) (m : Mem (Sphere α)) (p1 p2 : Ptr) : Bool :=
  pointerEqual m p1 p2 (equalV bk)

end Sphere
end Graphene
