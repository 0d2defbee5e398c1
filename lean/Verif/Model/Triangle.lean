/- Model of src/graphene-triangle.c. -/
import Verif.Model.Plane

namespace Graphene

/-- `graphene_triangle_t` (include/graphene-triangle.h). -/
@[ext] structure Triangle (α : Type) where
  a : Vec3 α
  b : Vec3 α
  c : Vec3 α

namespace Triangle
variable {α : Type} [Scalar α]

/-- `graphene_triangle_init_from_point3d` (triangle.c:93-115); `none` is `NULL`. -/
def initFromPoint3D (a b c : Option (Point3D α)) : Triangle α :=
  ⟨match a with | some p => p.toVec3 | none => Vec3.zero,
   match b with | some p => p.toVec3 | none => Vec3.zero,
   match c with | some p => p.toVec3 | none => Vec3.zero⟩
/-- `graphene_triangle_init_from_vec3` (triangle.c:130-152). -/
def initFromVec3 (a b c : Option (Vec3 α)) : Triangle α :=
  ⟨a.getD Vec3.zero, b.getD Vec3.zero, c.getD Vec3.zero⟩
/-- the cross product of the edges at `b`, computed by `_get_area` and `_get_normal`
(triangle.c:252-255, 302-305). -/
def edgeCross (bk : Backend) (t : Triangle α) : Vec3 α :=
  Vec3.cross bk (Vec3.subtract t.c t.b) (Vec3.subtract t.a t.b)
/-- `graphene_triangle_get_area` (triangle.c:247-258). -/
def getArea (bk : Backend) (t : Triangle α) : α :=
  Vec3.length bk (edgeCross bk t) *. Scalar.lit 1 2
/-- `graphene_triangle_get_midpoint` (triangle.c:273-284). -/
def getMidpoint (t : Triangle α) : Point3D α :=
  Point3D.initFromVec3 (Vec3.scale (Vec3.add (Vec3.add t.a t.b) t.c) (f1 /. Scalar.lit 3 1))
/-- `graphene_triangle_get_normal` (triangle.c:295-312). -/
def getNormal (bk : Backend) (t : Triangle α) : Vec3 α :=
  let tmp := edgeCross bk t
  let lengthSq := Vec3.dot bk tmp tmp
  if lengthSq >. f0 then Vec3.scale tmp (f1 /. Scalar.sqrt lengthSq) else Vec3.zero
/-- `graphene_triangle_get_plane` (triangle.c:323-334). -/
def getPlane (bk : Backend) (t : Triangle α) : Plane α :=
  Plane.initFromPoints bk (Point3D.initFromVec3 t.a) (Point3D.initFromVec3 t.b)
    (Point3D.initFromVec3 t.c)
/-- `graphene_triangle_get_bounding_box` (triangle.c:345-353). -/
def getBoundingBox (bk : Backend) (t : Triangle α) : Box α :=
  Box.expandVec3 bk (Box.expandVec3 bk (Box.expandVec3 bk Box.empty t.a) t.b) t.c
/-- `graphene_triangle_get_barycoords` (triangle.c:449-488); `p = none` is `NULL`,
result `none` is `return false` with `*res` untouched. -/
def getBarycoords (bk : Backend) (t : Triangle α) (p : Option (Point3D α)) : Option (Vec2 α) :=
  let point := match p with
    | none => Vec3.init f0 f0 f0
    | some p => p.toVec3
  let v0 := Vec3.subtract t.c t.a
  let v1 := Vec3.subtract t.b t.a
  let v2 := Vec3.subtract point t.a
  let dot00 := Vec3.dot bk v0 v0
  let dot01 := Vec3.dot bk v0 v1
  let dot02 := Vec3.dot bk v0 v2
  let dot11 := Vec3.dot bk v1 v1
  let dot12 := Vec3.dot bk v1 v2
  let denom := dot00 *. dot11 -. dot01 *. dot01
  if Scalar.abs denom <=. fltEps then none
  else
    let invDenom := f1 /. denom
    let u := (dot11 *. dot02 -. dot01 *. dot12) *. invDenom
    let v := (dot00 *. dot12 -. dot01 *. dot02) *. invDenom
    some (Vec2.init u v)
/-- `graphene_triangle_get_uv` (triangle.c:382-419): the returned boolean and `*res`. -/
def getUv (bk : Backend) (t : Triangle α) (p : Option (Point3D α)) (uvA uvB uvC : Vec2 α) :
    Bool × Vec2 α :=
  match getBarycoords bk t p with
  | none => (false, Vec2.init f0 f0)
  | some bc =>
    let u := bc.getX
    let v := bc.getY
    let r0 := Vec2.init f0 f0
    let r1 := Vec2.add r0 (Vec2.scale uvA (f1 -. u -. v))
    let r2 := Vec2.add r1 (Vec2.scale uvB v)
    (true, Vec2.add r2 (Vec2.scale uvC u))
/-- `graphene_triangle_contains_point` (triangle.c:501-519). -/
def containsPoint (bk : Backend) (t : Triangle α) (p : Option (Point3D α)) : Bool :=
  match getBarycoords bk t p with
  | none => false
  | some bc => bc.getX >=. f0 && bc.getY >=. f0 && (bc.getX +. bc.getY) <. f1
/-- `triangle_equal` (triangle.c:521-531). -/
def equalV (bk : Backend) (s t : Triangle α) : Bool :=
  Vec3.equalV bk s.a t.a && Vec3.equalV bk s.b t.b && Vec3.equalV bk s.c t.c
/-- `graphene_triangle_equal` (triangle.c:544-549). -/
def equal (bk : Backend) (m : Mem (Triangle α)) (p1 p2 : Ptr) : Bool :=
  pointerEqual m p1 p2 (equalV bk)

end Triangle
end Graphene
