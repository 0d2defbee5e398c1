/- Model of src/graphene-frustum.c, and of `graphene_plane_transform` (plane.c:367-407). -/
import Verif.Model.GMatrix

namespace Graphene

/-- `graphene_frustum_t` (include/graphene-frustum.h): six planes. -/
structure Frustum (α : Type) where
  p0 : Plane α
  p1 : Plane α
  p2 : Plane α
  p3 : Plane α
  p4 : Plane α
  p5 : Plane α

namespace Frustum
variable {α : Type} [Scalar α]

/-- `graphene_frustum_init` (frustum.c:100-117). -/
def init (p0 p1 p2 p3 p4 p5 : Plane α) : Frustum α := ⟨p0, p1, p2, p3, p4, p5⟩
/-- `graphene_frustum_init_from_frustum` (frustum.c:131-139). -/
def initFromFrustum (src : Frustum α) : Frustum α := src
/-- one clip plane: `graphene_plane_init_from_vec4`, `graphene_plane_normalize`
(frustum.c:168-169 and the same pair below). -/
def clipPlane (bk : Backend) (v : Vec4 α) : Plane α := Plane.normalize bk (Plane.initFromVec4 v)
/-- `graphene_frustum_init_from_matrix` (frustum.c:152-192). -/
def initFromMatrix (bk : Backend) (matrix : M4 α) : Frustum α :=
  let m := GMatrix.transpose matrix
  let r1 := GMatrix.getRow m 0
  let r2 := GMatrix.getRow m 1
  let r3 := GMatrix.getRow m 2
  let r4 := GMatrix.getRow m 3
  ⟨clipPlane bk (Vec4.subtract r4 r1), clipPlane bk (Vec4.add r4 r1),
   clipPlane bk (Vec4.subtract r4 r2), clipPlane bk (Vec4.add r4 r2),
   clipPlane bk (Vec4.subtract r4 r3), clipPlane bk (Vec4.add r4 r3)⟩
/-- `graphene_frustum_get_planes` (frustum.c:204-210). -/
def getPlanes (f : Frustum α) : List (Plane α) := [f.p0, f.p1, f.p2, f.p3, f.p4, f.p5]
/-- `graphene_frustum_contains_point` (frustum.c:224-240); `none` is `NULL`. -/
def containsPoint (bk : Backend) (f : Frustum α) (point : Option (Point3D α)) : Bool :=
  match point with
  | none => false
  | some p => f.getPlanes.all fun pl => !(Plane.distance bk pl p <. f0)
/-- `graphene_frustum_intersects_sphere` (frustum.c:254-271). -/
def intersectsSphere (bk : Backend) (f : Frustum α) (s : Sphere α) : Bool :=
  let center := Point3D.initFromVec3 s.center
  f.getPlanes.all fun pl => !(Plane.distance bk pl center <. Scalar.neg s.radius)
/-- the loop body of `graphene_frustum_intersects_box` (frustum.c:299-316): the plane
separates the box. -/
def planeSeparates (bk : Backend) (pl : Plane α) (min max : Point3D α) : Bool :=
  let n := Point3D.initFromVec3 pl.normal
  let p0 : Point3D α :=
    ⟨if n.x >. f0 then min.x else max.x, if n.y >. f0 then min.y else max.y,
     if n.z >. f0 then min.z else max.z⟩
  let p1 : Point3D α :=
    ⟨if n.x >. f0 then max.x else min.x, if n.y >. f0 then max.y else min.y,
     if n.z >. f0 then max.z else min.z⟩
  (Plane.distance bk pl p0 <. f0) && (Plane.distance bk pl p1 <. f0)
/-- `graphene_frustum_intersects_box` (frustum.c:285-320). -/
def intersectsBox (bk : Backend) (f : Frustum α) (b : Box α) : Bool :=
  f.getPlanes.all fun pl => !planeSeparates bk pl b.getMin b.getMax
/-- `frustum_equal` (frustum.c:322-335).  Each `graphene_plane_equal` is given distinct
addresses. -/
def equalV (bk : Backend) (a b : Frustum α) : Bool :=
  Plane.equalV bk a.p0 b.p0 && Plane.equalV bk a.p1 b.p1 && Plane.equalV bk a.p2 b.p2 &&
  Plane.equalV bk a.p3 b.p3 && Plane.equalV bk a.p4 b.p4 && Plane.equalV bk a.p5 b.p5
/-- `graphene_frustum_equal` (frustum.c:348-353). -/
def equal (bk : Backend) (m : Mem (Frustum α)) (p1 p2 : Ptr) : Bool :=
  pointerEqual m p1 p2 (equalV bk)

end Frustum

/-- `graphene_plane_transform` (plane.c:367-407); `normalMatrix = none` is `NULL`.  The
result is `none` when the matrix has no inverse and the uninitialised `normal_m`
is read (394-395). -/
def Plane.transform {α : Type} [Scalar α] (bk : Backend) (p : Plane α) (matrix : M4 α)
    (normalMatrix : Option (M4 α)) : Option (Plane α) :=
  let coplanar := Vec3.scale p.normal (Scalar.neg p.constant)
  let ref := Vec4.getXYZ (GMatrix.transformVec4 matrix (Vec4.initFromVec3 coplanar f1))
  let normalM : Option (M4 α) :=
    match normalMatrix with
    | some n => some n
    | none => (GMatrix.inverse bk matrix).map GMatrix.transpose
  match normalM with
  | none => none
  | some nm =>
    let normal := Vec3.normalize bk (GMatrix.transformVec3 nm p.normal)
    some (Plane.init (some normal) (Scalar.neg (Vec3.dot bk normal ref)))

end Graphene
