/-
  Model of src/graphene-box.c.  `graphene_box_union`, `_expand*` store `res->min` and
  then read the `max` of their arguments: with `res` aliasing an argument the field
  read is not the field written, so values suffice.
-/
import Verif.Model.Box2d

namespace Graphene

/-- `graphene_sphere_t` (include/graphene-sphere.h). -/
@[ext] structure Sphere (α : Type) where
  center : Vec3 α
  radius : α

/-- `graphene_box_t` (include/graphene-box.h). -/
@[ext] structure Box (α : Type) where
  min : Vec3 α
  max : Vec3 α

namespace Box
variable {α : Type} [Scalar α]
open Box2d (isPosInf isNegInf)

/-- `graphene_box_init` (box.c:97-113); `none` is `NULL`. -/
def init (min max : Option (Point3D α)) : Box α :=
  ⟨match min with | some p => p.toVec3 | none => Vec3.zero,
   match max with | some p => p.toVec3 | none => Vec3.zero⟩
/-- `graphene_box_init_from_vec3` (box.c:213-229). -/
def initFromVec3 (min max : Option (Vec3 α)) : Box α :=
  ⟨min.getD Vec3.zero, max.getD Vec3.zero⟩
/-- `graphene_box_init_from_simd4f` (box.c:231-240). -/
def initFromSimd4f (min max : V4 α) : Box α := ⟨⟨min⟩, ⟨max⟩⟩
/-- the value of `graphene_box_zero ()` (box.c:740-741). -/
def zero : Box α := ⟨⟨Simd4f.initZero⟩, ⟨Simd4f.initZero⟩⟩
/-- the value of `graphene_box_one ()` (box.c:743-744). -/
def one : Box α := ⟨⟨Simd4f.initZero⟩, ⟨Simd4f.init f1 f1 f1 f0⟩⟩
/-- `(-1, -1, -1, 0)` (box.c:746, 749). -/
def minusOnes : V4 α := Simd4f.init (Scalar.lit (-1) 1) (Scalar.lit (-1) 1) (Scalar.lit (-1) 1) f0
/-- the value of `graphene_box_minus_one ()` (box.c:746-747). -/
def minusOne : Box α := ⟨⟨minusOnes⟩, ⟨Simd4f.initZero⟩⟩
/-- the value of `graphene_box_one_minus_one ()` (box.c:749-750). -/
def oneMinusOne : Box α := ⟨⟨minusOnes⟩, ⟨Simd4f.init f1 f1 f1 f0⟩⟩
/-- the value of `graphene_box_infinite ()` (box.c:752-753). -/
def infinite : Box α :=
  ⟨⟨Simd4f.init (Scalar.neg Scalar.inf) (Scalar.neg Scalar.inf) (Scalar.neg Scalar.inf) f0⟩,
   ⟨Simd4f.init Scalar.inf Scalar.inf Scalar.inf f0⟩⟩
/-- the value of `graphene_box_empty ()` (box.c:755-756). -/
def empty : Box α :=
  ⟨⟨Simd4f.init Scalar.inf Scalar.inf Scalar.inf f0⟩,
   ⟨Simd4f.init (Scalar.neg Scalar.inf) (Scalar.neg Scalar.inf) (Scalar.neg Scalar.inf) f0⟩⟩
/-- `graphene_box_expand_simd4f` (box.c:242-249). -/
def expandSimd4f (bk : Backend) (b : Box α) (v : V4 α) : Box α :=
  ⟨⟨Simd4f.min bk b.min.value v⟩, ⟨Simd4f.max bk b.max.value v⟩⟩
/-- `graphene_box_expand_vec3` (box.c:262-268). -/
def expandVec3 (bk : Backend) (b : Box α) (v : Vec3 α) : Box α := expandSimd4f bk b v.value
/-- `graphene_box_expand` (box.c:280-288). -/
def expand (bk : Backend) (b : Box α) (p : Point3D α) : Box α :=
  expandSimd4f bk b (Simd4f.init p.x p.y p.z f0)
/-- `graphene_box_init_from_points` (box.c:131-147). -/
def initFromPoints (bk : Backend) (points : List (Point3D α)) : Box α :=
  points.foldl (fun b p => expandVec3 bk b p.toVec3) empty
/-- `graphene_box_init_from_vectors` (box.c:165-176). -/
def initFromVectors (bk : Backend) (vectors : List (Vec3 α)) : Box α :=
  vectors.foldl (expandVec3 bk) empty
/-- `graphene_box_expand_scalar` (box.c:303-313): the scalar is added to all four lanes,
the hidden one included. -/
def expandScalar (b : Box α) (scalar : α) : Box α :=
  ⟨⟨Simd4f.add b.min.value (Simd4f.splat (scalar *. Scalar.lit (-1) 1))⟩,
   ⟨Simd4f.add b.max.value (Simd4f.splat scalar)⟩⟩
/-- `graphene_box_union` (box.c:325-332). -/
def union (bk : Backend) (a b : Box α) : Box α :=
  ⟨⟨Simd4f.min bk a.min.value b.min.value⟩, ⟨Simd4f.max bk a.max.value b.max.value⟩⟩
/-- `graphene_box_intersection` (box.c:349-371): the boolean and `*res`. -/
def intersection (bk : Backend) (a b : Box α) : Bool × Box α :=
  let min := Simd4f.max bk a.min.value b.min.value
  let max := Simd4f.min bk a.max.value b.max.value
  if !Simd4f.cmpLe min max then (false, empty) else (true, initFromSimd4f min max)
/-- `graphene_box_get_width` (box.c:383-389). -/
def getWidth (b : Box α) : α := Scalar.abs (Simd4f.sub b.max.value b.min.value).x
/-- `graphene_box_get_height` (box.c:401-407). -/
def getHeight (b : Box α) : α := Scalar.abs (Simd4f.sub b.max.value b.min.value).y
/-- `graphene_box_get_depth` (box.c:419-425). -/
def getDepth (b : Box α) : α := Scalar.abs (Simd4f.sub b.max.value b.min.value).z
/-- `graphene_box_is_empty` (box.c:427-444). -/
def isEmpty (b : Box α) : Bool :=
  (isPosInf b.min.value.x && isPosInf b.min.value.y && isPosInf b.min.value.z) &&
  (isNegInf b.max.value.x && isNegInf b.max.value.y && isNegInf b.max.value.z)
/-- `graphene_box_is_infinity` (box.c:446-463). -/
def isInfinity (b : Box α) : Bool :=
  (isNegInf b.min.value.x && isNegInf b.min.value.y && isNegInf b.min.value.z) &&
  (isPosInf b.max.value.x && isPosInf b.max.value.y && isPosInf b.max.value.z)
/-- `graphene_box_get_size` (box.c:475-485). -/
def getSize (b : Box α) : Vec3 α :=
  if b.isEmpty then ⟨Simd4f.initZero⟩
  else if b.isInfinity then ⟨Simd4f.init Scalar.inf Scalar.inf Scalar.inf f0⟩
  else ⟨Simd4f.sub b.max.value b.min.value⟩
/-- `graphene_box_get_center` (box.c:497-513). -/
def getCenter (b : Box α) : Point3D α :=
  if b.isEmpty || b.isInfinity then ⟨f0, f0, f0⟩
  else Point3D.initFromVec3 (Vec3.scale (Vec3.add b.min b.max) (Scalar.lit 1 2))
/-- `graphene_box_get_min` (box.c:547-552, 526-535). -/
def getMin (b : Box α) : Point3D α := Point3D.initFromVec3 b.min
/-- `graphene_box_get_max` (box.c:564-569, 526-535). -/
def getMax (b : Box α) : Point3D α := Point3D.initFromVec3 b.max
/-- `graphene_box_get_vertices` (box.c:581-598). -/
def getVertices (b : Box α) : List (Vec3 α) :=
  let min := b.getMin
  let max := b.getMax
  [Vec3.init min.x min.y min.z, Vec3.init min.x min.y max.z,
   Vec3.init min.x max.y min.z, Vec3.init min.x max.y max.z,
   Vec3.init max.x min.y min.z, Vec3.init max.x min.y max.z,
   Vec3.init max.x max.y min.z, Vec3.init max.x max.y max.z]
/-- `graphene_box_contains_point` (box.c:611-628). -/
def containsPoint (b : Box α) (point : Point3D α) : Bool :=
  if b.isEmpty then false
  else if b.isInfinity then true
  else
    let p := Simd4f.init point.x point.y point.z f0
    Simd4f.cmpGe p b.min.value && Simd4f.cmpLe p b.max.value
/-- `graphene_box_contains_box` (box.c:642-658). -/
def containsBox (a b : Box α) : Bool :=
  if a.isEmpty || b.isInfinity then false
  else if a.isInfinity || b.isEmpty then true
  else Simd4f.cmpGe b.min.value a.min.value && Simd4f.cmpLe b.max.value a.max.value
/-- `box_equal` (box.c:660-679). -/
def equalV (bk : Backend) (a b : Box α) : Bool :=
  if a.isEmpty && b.isEmpty then true
  else if a.isEmpty || b.isEmpty then false
  else if a.isInfinity && b.isInfinity then true
  else if a.isInfinity || b.isInfinity then false
  else Vec3.equalV bk a.min b.min && Vec3.equalV bk a.max b.max
/-- `graphene_box_equal` (box.c:692-697). -/
def equal (bk : Backend) (m : Mem (Box α)) (p1 p2 : Ptr) : Bool := pointerEqual m p1 p2 (equalV bk)
/-- `graphene_box_get_bounding_sphere` (box.c:709-722). -/
def getBoundingSphere (bk : Backend) (b : Box α) : Sphere α :=
  ⟨b.getCenter.toVec3, Vec3.length bk b.getSize *. Scalar.lit 1 2⟩

end Box
end Graphene
