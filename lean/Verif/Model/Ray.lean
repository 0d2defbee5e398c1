/- Model of src/graphene-ray.c. -/
import Verif.Model.Triangle

namespace Graphene

/-- `graphene_ray_t` (include/graphene-ray.h). -/
@[ext] structure Ray (α : Type) where
  origin : Vec3 α
  direction : Vec3 α

/-- `graphene_ray_intersection_kind_t` (include/graphene-ray.h). -/
inductive IntersectionKind where
  | none | enter | leave
deriving DecidableEq

namespace Ray
variable {α : Type} [Scalar α]

/-- `graphene_ray_init` (ray.c:101-117); `none` is `NULL`. -/
def init (bk : Backend) (origin : Option (Point3D α)) (direction : Option (Vec3 α)) : Ray α :=
  ⟨match origin with | some p => p.toVec3 | none => Vec3.zero,
   match direction with | some d => Vec3.normalize bk d | none => Vec3.zero⟩
/-- `graphene_ray_init_from_vec3` (ray.c:150-166). -/
def initFromVec3 (bk : Backend) (origin direction : Option (Vec3 α)) : Ray α :=
  ⟨match origin with | some p => p | none => Vec3.zero,
   match direction with | some d => Vec3.normalize bk d | none => Vec3.zero⟩
/-- `graphene_ray_init_from_ray` (ray.c:131-136): the direction is normalised again. -/
def initFromRay (bk : Backend) (src : Ray α) : Ray α :=
  initFromVec3 bk (some src.origin) (some src.direction)
/-- `graphene_ray_get_origin` (ray.c:177-182). -/
def getOrigin (r : Ray α) : Point3D α := Point3D.initFromVec3 r.origin
/-- `graphene_ray_get_direction` (ray.c:193-198). -/
def getDirection (r : Ray α) : Vec3 α := r.direction
/-- `graphene_ray_get_position_at` (ray.c:211-222). -/
def getPositionAt (r : Ray α) (t : α) : Point3D α :=
  Point3D.initFromVec3 (Vec3.add (Vec3.scale r.direction t) r.origin)
/-- `graphene_ray_get_distance_to_point` (ray.c:240-267). -/
def getDistanceToPoint (bk : Backend) (r : Ray α) (p : Point3D α) : α :=
  let point := p.toVec3
  let distance := Vec3.dot bk (Vec3.subtract point r.origin) r.direction
  if distance <. f0 then Vec3.length bk (Vec3.subtract r.origin point)
  else
    let tmp := Vec3.add (Vec3.scale r.direction distance) r.origin
    Vec3.length bk (Vec3.subtract tmp point)
/-- `graphene_ray_get_distance_to_plane` (ray.c:283-307). -/
def getDistanceToPlane (bk : Backend) (r : Ray α) (p : Plane α) : α :=
  let denom := Vec3.dot bk p.normal r.direction
  if Scalar.abs denom <. fltEps then
    if Scalar.abs (Plane.distance bk p (Point3D.initFromVec3 r.origin)) <. fltEps then f0
    else Scalar.inf
  else
    let t := (Scalar.lit (-1) 1 *. (Vec3.dot bk r.origin p.normal +. p.constant)) /. denom
    if t >=. f0 then t else Scalar.inf
/-- `ray_equal` (ray.c:309-318). -/
def equalV (bk : Backend) (a b : Ray α) : Bool :=
  Vec3.equalV bk a.origin b.origin && Vec3.equalV bk a.direction b.direction
/-- `graphene_ray_equal` (ray.c:331-336). -/
def equal (bk : Backend) (m : Mem (Ray α)) (p1 p2 : Ptr) : Bool :=
  pointerEqual m p1 p2 (equalV bk)
/-- `graphene_ray_get_closest_point_to_point` (ray.c:349-370). -/
def getClosestPointToPoint (bk : Backend) (r : Ray α) (p : Point3D α) : Point3D α :=
  let distance := Vec3.dot bk (Vec3.subtract p.toVec3 r.origin) r.direction
  Point3D.initFromVec3
    (if distance <. f0 then r.origin else Vec3.add (Vec3.scale r.direction distance) r.origin)
/-- `graphene_ray_intersect_sphere` (ray.c:385-442): the kind and `*t_out`. -/
def intersectSphere (bk : Backend) (r : Ray α) (s : Sphere α) : IntersectionKind × α :=
  let v1 := Vec3.subtract s.center r.origin
  let tca := Vec3.dot bk v1 r.direction
  let d2 := Vec3.dot bk v1 v1 -. tca *. tca
  let radius2 := s.radius *. s.radius
  if d2 >. radius2 then (.none, f0)
  else
    let thc := Scalar.sqrt (radius2 -. d2)
    let t0 := tca -. thc
    let t1 := tca +. thc
    if t0 <. f0 && t1 <. f0 then (.none, f0)
    else if t0 <. f0 then (.leave, t1)
    else (.enter, t0)
/-- `graphene_ray_intersects_sphere` (ray.c:458-463). -/
def intersectsSphere (bk : Backend) (r : Ray α) (s : Sphere α) : Bool :=
  (intersectSphere bk r s).1 ≠ .none
/-- one axis of the slab test of `graphene_ray_intersect_box` (ray.c:496-506, 508-518,
534-544): entry and exit parameter. -/
def slabAxis (invDir invMin invMax : α) : α × α :=
  if invDir >=. f0 then (invMin, invMax) else (invMax, invMin)
/-- the merge step of `graphene_ray_intersect_box` (ray.c:523-532, 546-552): `none` when
the two parameter ranges are disjoint. -/
def slabMerge (t1 t2 : α × α) : Option (α × α) :=
  if t1.1 >. t2.2 || t2.1 >. t1.2 then none
  else
    some (if t2.1 >. t1.1 || Scalar.isNaN t1.1 then t2.1 else t1.1,
          if t2.2 <. t1.2 || Scalar.isNaN t1.2 then t2.2 else t1.2)
/-- `graphene_ray_intersect_box` (ray.c:478-570): the kind and `*t_out`. -/
def intersectBox (bk : Backend) (r : Ray α) (b : Box α) : IntersectionKind × α :=
  let invDir := Simd4f.reciprocal bk r.direction.value
  let invMin := Simd4f.mul (Vec3.subtract b.min r.origin).value invDir
  let invMax := Simd4f.mul (Vec3.subtract b.max r.origin).value invDir
  let tx := slabAxis invDir.x invMin.x invMax.x
  let ty := slabAxis invDir.y invMin.y invMax.y
  match slabMerge tx ty with
  | none => (.none, f0)
  | some txy =>
    let tz := slabAxis invDir.z invMin.z invMax.z
    match slabMerge txy tz with
    | none => (.none, f0)
    | some t =>
      if t.2 <. f0 then (.none, f0)
      else if t.1 >=. f0 then (.enter, t.1)
      else (.leave, t.2)
/-- `graphene_ray_intersects_box` (ray.c:586-591). -/
def intersectsBox (bk : Backend) (r : Ray α) (b : Box α) : Bool :=
  (intersectBox bk r b).1 ≠ .none
/-- `graphene_ray_intersect_triangle` (ray.c:606-691): the kind and the value stored in
`*t_out` (`Option.none` when it is not written). -/
def intersectTriangle (bk : Backend) (r : Ray α) (t : Triangle α) : IntersectionKind × Option α :=
  let edge1 := Vec3.subtract t.b t.a
  let edge2 := Vec3.subtract t.c t.a
  let normal := Vec3.cross bk edge1 edge2
  let ddn0 := Vec3.dot bk r.direction normal
  if approxVal ddn0 f0 then (.none, Option.none)
  else
    let ks : IntersectionKind × α × α :=
      if ddn0 >. f0 then (.leave, f1, ddn0)
      else (.enter, Scalar.lit (-1) 1, Scalar.neg ddn0)
    let kind := ks.1
    let sign := ks.2.1
    let ddn := ks.2.2
    let diff := Vec3.subtract r.origin t.a
    let ddqxe2 := sign *. Vec3.dot bk r.direction (Vec3.cross bk diff edge2)
    if ddqxe2 <. f0 then (.none, Option.none)
    else
      let dde1xq := sign *. Vec3.dot bk r.direction (Vec3.cross bk edge1 diff)
      if dde1xq <. f0 then (.none, Option.none)
      else if ddqxe2 +. dde1xq >. ddn then (.none, Option.none)
      else
        let qdn := Scalar.neg sign *. Vec3.dot bk diff normal
        if qdn <. f0 then (.none, Option.none)
        else (kind, some (qdn /. ddn))
/-- `graphene_ray_intersects_triangle` (ray.c:707-712). -/
def intersectsTriangle (bk : Backend) (r : Ray α) (t : Triangle α) : Bool :=
  (intersectTriangle bk r t).1 ≠ .none

end Ray
end Graphene
