/-
  Model of src/graphene-point.c, src/graphene-point3d.c and src/graphene-size.c.
  The functions of these files that take two objects and test `a == b` on the
  addresses first are modelled at pointer level (`…P`), over a memory.
-/
import Verif.Model.Vec

namespace Graphene

/-- `graphene_point_t` (include/graphene-point.h). -/
@[ext] structure Point (α : Type) where
  x : α
  y : α
deriving DecidableEq
/-- `graphene_point3d_t` (include/graphene-point3d.h). -/
@[ext] structure Point3D (α : Type) where
  x : α
  y : α
  z : α
deriving DecidableEq
/-- `graphene_size_t` (include/graphene-size.h). -/
@[ext] structure Size (α : Type) where
  width : α
  height : α
deriving DecidableEq
/-- `graphene_rect_t` (include/graphene-rect.h). -/
@[ext] structure Rect (α : Type) where
  origin : Point α
  size : Size α
deriving DecidableEq

namespace Point
variable {α : Type} [Scalar α]

/-- `graphene_point_init` (point.c:111-120). -/
def init (x y : α) : Point α := ⟨x, y⟩
/-- `graphene_point_init_from_point` (point.c:133-140). -/
def initFromPoint (src : Point α) : Point α := src
/-- `graphene_point_init_from_vec2` (point.c:153-161). -/
def initFromVec2 (src : Vec2 α) : Point α := ⟨Simd4f.get src.value 0, Simd4f.get src.value 1⟩
/-- the difference vector computed by `graphene_point_distance`, `_distance_squared` and
`_near` (point.c:218-220, 249-251, 277-279). -/
def diff (a b : Point α) : V4 α :=
  Simd4f.sub (Simd4f.init a.x a.y f0 f0) (Simd4f.init b.x b.y f0 f0)
/-- `graphene_point_distance` on distinct addresses (point.c:218-228): the distance,
`*d_x` and `*d_y`. -/
def distance (bk : Backend) (a b : Point α) : α × α × α :=
  let v := diff a b
  (Simd4f.get (Simd4f.length2 bk v) 0, Scalar.abs (Simd4f.get v 0), Scalar.abs (Simd4f.get v 1))
/-- `graphene_point_distance` (point.c:209-229): for the same address it returns `0.f`
and does not write `*d_x`, `*d_y` (`none`). -/
def distanceP (bk : Backend) (m : Mem (Point α)) (a b : Nat) : α × Option (α × α) :=
  if a = b then (f0, none)
  else let r := distance bk (m a) (m b); (r.1, some r.2)
/-- `graphene_point_distance_squared` on distinct addresses (point.c:249-253). -/
def distanceSquared (a b : Point α) : α :=
  let v := diff a b
  Simd4f.get (Simd4f.dot2 v v) 0
/-- `graphene_point_distance_squared` (point.c:242-254). -/
def distanceSquaredP (m : Mem (Point α)) (a b : Nat) : α :=
  if a = b then f0 else distanceSquared (m a) (m b)
/-- `graphene_point_near` on distinct addresses (point.c:277-282). -/
def near (a b : Point α) (epsilon : α) : Bool :=
  let v := diff a b
  (Scalar.abs (Simd4f.get v 0) <. epsilon) && (Scalar.abs (Simd4f.get v 1) <. epsilon)
/-- `graphene_point_near` (point.c:269-283). -/
def nearP (m : Mem (Point α)) (a b : Nat) (epsilon : α) : Bool :=
  if a = b then true else near (m a) (m b) epsilon
/-- `point_equal` (point.c:163-171); it is only reached with distinct addresses. -/
def equalV (a b : Point α) : Bool := near a b fltEps
/-- `graphene_point_equal` (point.c:189-194). -/
def equal (m : Mem (Point α)) (p1 p2 : Ptr) : Bool := pointerEqual m p1 p2 equalV
/-- `graphene_point_interpolate` (point.c:298-306).  `res` may alias `a` or `b`: each
component is read before it is written. -/
def interpolate {δ : Type} [Scalar δ] [FloatConv α δ] (a b : Point α) (factor : δ) : Point α :=
  ⟨flerpf a.x b.x factor, flerpf a.y b.y factor⟩
/-- `graphene_point_to_vec2` (point.c:318-323). -/
def toVec2 (p : Point α) : Vec2 α := ⟨Simd4f.init p.x p.y f0 f0⟩
/-- `graphene_point_zero` (point.c:325, 336-340). -/
def zero : Point α := ⟨f0, f0⟩
end Point

namespace Point3D
variable {α : Type} [Scalar α]

/-- `graphene_point3d_init` (point3d.c:91-102). -/
def init (x y z : α) : Point3D α := ⟨x, y, z⟩
/-- `graphene_point3d_init_from_simd4f` (point3d.c:104-123). -/
def initFromSimd4f (v : V4 α) : Point3D α := ⟨v.x, v.y, v.z⟩
/-- `graphene_point3d_init_from_point` (point3d.c:137-144). -/
def initFromPoint (src : Point3D α) : Point3D α := src
/-- `graphene_point3d_init_from_vec3` (point3d.c:158-163). -/
def initFromVec3 (v : Vec3 α) : Point3D α := initFromSimd4f v.value
/-- the vector every function of the file starts from (point3d.c:231, 258, 280, 302, 322, 344). -/
def vec (p : Point3D α) : V4 α := Simd4f.init p.x p.y p.z f0
/-- `graphene_point3d_to_vec3` (point3d.c:175-180). -/
def toVec3 (p : Point3D α) : Vec3 α := ⟨Simd4f.init p.x p.y p.z f0⟩
/-- `graphene_point3d_near` on distinct addresses (point3d.c:231-237). -/
def near (a b : Point3D α) (epsilon : α) : Bool :=
  let v := Simd4f.sub (vec a) (vec b)
  (Scalar.abs (Simd4f.get v 0) <. epsilon) && (Scalar.abs (Simd4f.get v 1) <. epsilon) &&
  (Scalar.abs (Simd4f.get v 2) <. epsilon)
/-- `graphene_point3d_near` (point3d.c:223-238). -/
def nearP (m : Mem (Point3D α)) (a b : Nat) (epsilon : α) : Bool :=
  if a = b then true else near (m a) (m b) epsilon
/-- `point3d_equal` (point3d.c:182-190); only reached with distinct addresses. -/
def equalV (a b : Point3D α) : Bool := near a b fltEps
/-- `graphene_point3d_equal` (point3d.c:203-208). -/
def equal (m : Mem (Point3D α)) (p1 p2 : Ptr) : Bool := pointerEqual m p1 p2 equalV
/-- `graphene_point3d_scale` (point3d.c:251-262). -/
def scale (p : Point3D α) (factor : α) : Point3D α :=
  initFromSimd4f (Simd4f.mul (vec p) (Simd4f.splat factor))
/-- `graphene_point3d_cross` (point3d.c:275-285). -/
def cross (bk : Backend) (a b : Point3D α) : Point3D α :=
  initFromSimd4f (Simd4f.cross3 bk (vec a) (vec b))
/-- `graphene_point3d_dot` (point3d.c:298-306). -/
def dot (bk : Backend) (a b : Point3D α) : α := Simd4f.dot3Scalar bk (vec a) (vec b)
/-- `graphene_point3d_length` (point3d.c:319-325). -/
def length (bk : Backend) (p : Point3D α) : α := Simd4f.get (Simd4f.length3 bk (vec p)) 0
/-- `graphene_point3d_normalize` (point3d.c:338-348): no guard against a zero length. -/
def normalize (bk : Backend) (p : Point3D α) : Point3D α :=
  initFromSimd4f (Simd4f.normalize3 bk (vec p))
/-- `graphene_point3d_distance` (point3d.c:363-383): the distance and `*delta`. -/
def distance (bk : Backend) (a b : Point3D α) : α × Vec3 α :=
  let res := Vec3.subtract (toVec3 a) (toVec3 b)
  (Vec3.length bk res,
   Vec3.init (Scalar.abs (Vec3.getX res)) (Scalar.abs (Vec3.getY res)) (Scalar.abs (Vec3.getZ res)))
/-- `graphene_point3d_interpolate` (point3d.c:398-407). -/
def interpolate {δ : Type} [Scalar δ] [FloatConv α δ] (a b : Point3D α) (factor : δ) : Point3D α :=
  ⟨flerpf a.x b.x factor, flerpf a.y b.y factor, flerpf a.z b.z factor⟩
/-- `graphene_point3d_normalize_viewport` (point3d.c:428-442). -/
def normalizeViewport (p : Point3D α) (viewport : Rect α) (zNear zFar : α) : Point3D α :=
  let x := (p.x -. viewport.origin.x) /. viewport.size.width
  let y := (p.y -. viewport.origin.y) /. viewport.size.height
  let z := (p.z -. zNear) /. (zFar -. zNear)
  let mone : α := Scalar.lit (-1) 1
  ⟨cClamp (x *. f2 -. f1) mone f1, cClamp (y *. f2 -. f1) mone f1,
   cClamp (z *. f2 -. f1) mone f1⟩
/-- `graphene_point3d_zero` (point3d.c:444, 455-459). -/
def zero : Point3D α := ⟨f0, f0, f0⟩
end Point3D

namespace Size
variable {α : Type} [Scalar α]

/-- `graphene_size_init` (size.c:83-92). -/
def init (width height : α) : Size α := ⟨width, height⟩
/-- `graphene_size_init_from_size` (size.c:106-113). -/
def initFromSize (src : Size α) : Size α := src
/-- `size_equal` (size.c:115-124). -/
def equalV (a b : Size α) : Bool := approxVal a.width b.width && approxVal a.height b.height
/-- `graphene_size_equal` (size.c:137-142). -/
def equal (m : Mem (Size α)) (p1 p2 : Ptr) : Bool := pointerEqual m p1 p2 equalV
/-- `graphene_size_scale` (size.c:154-163). -/
def scale (s : Size α) (factor : α) : Size α := ⟨s.width *. factor, s.height *. factor⟩
/-- `graphene_size_interpolate` (size.c:177-185). -/
def interpolate {δ : Type} [Scalar δ] [FloatConv α δ] (a b : Size α) (factor : δ) : Size α :=
  ⟨flerpf a.width b.width factor, flerpf a.height b.height factor⟩
/-- `graphene_size_zero` (size.c:187, 199-203). -/
def zero : Size α := ⟨f0, f0⟩
end Size

end Graphene
