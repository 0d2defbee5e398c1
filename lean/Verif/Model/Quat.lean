/-
  Model of src/graphene-quaternion.c (`graphene_quaternion_init_from_euler` is
  `Euler.toQuaternion`).  Each function reads its arguments into locals before
  it stores the result, except `_invert` (quaternion.c:629-637) and
  `_init_from_matrix`, which read a component before they store it; `res` may
  alias the arguments.
-/
import Verif.Model.GMatrix

namespace Graphene

/-- `graphene_quaternion_t` (include/graphene-quaternion.h). -/
@[ext] structure Quat (α : Type) where
  x : α
  y : α
  z : α
  w : α
deriving DecidableEq

namespace Quat
variable {α : Type} [Scalar α]

/-- `graphene_quaternion_init` (quaternion.c:98-111). -/
def init (x y z w : α) : Quat α := ⟨x, y, z, w⟩
/-- `graphene_quaternion_init_identity` (quaternion.c:124-131). -/
def identity : Quat α := ⟨f0, f0, f0, f1⟩
/-- `graphene_quaternion_init_from_simd4f` (quaternion.c:153-160). -/
def initFromSimd4f (v : V4 α) : Quat α := ⟨v.x, v.y, v.z, v.w⟩
/-- `graphene_quaternion_init_from_vec4` (quaternion.c:173-178). -/
def initFromVec4 (src : Vec4 α) : Quat α := initFromSimd4f src.value
/-- `graphene_quaternion_to_vec4` (quaternion.c:191-196). -/
def toVec4 (q : Quat α) : Vec4 α := ⟨Simd4f.init q.x q.y q.z q.w⟩
/-- `graphene_simd4f_init (q->x, q->y, q->z, q->w)`, as in quaternion.c:284, 612, 655, 705. -/
def vec (q : Quat α) : V4 α := Simd4f.init q.x q.y q.z q.w
/-- `graphene_quaternion_init_from_matrix` (quaternion.c:210-233).  The integer literal
`1` is converted to `float`. -/
def initFromMatrix (m : M4 α) : Quat α :=
  let v := GMatrix.getValue m
  let xx := v 0 0
  let yy := v 1 1
  let zz := v 2 2
  let half : α := Scalar.lit 1 2
  let w := half *. Scalar.sqrt (cMax (f1 +. xx +. yy +. zz) f0)
  let x := half *. Scalar.sqrt (cMax (f1 +. xx -. yy -. zz) f0)
  let y := half *. Scalar.sqrt (cMax (f1 -. xx +. yy -. zz) f0)
  let z := half *. Scalar.sqrt (cMax (f1 -. xx -. yy +. zz) f0)
  ⟨if v 2 1 >. v 1 2 then Scalar.neg x else x,
   if v 0 2 >. v 2 0 then Scalar.neg y else y,
   if v 1 0 >. v 0 1 then Scalar.neg z else z, w⟩
/-- `graphene_quaternion_to_matrix` (quaternion.c:245-262). -/
def toMatrix (q : Quat α) : M4 α :=
  ⟨Simd4f.init (f1 -. f2 *. (q.y *. q.y +. q.z *. q.z))
               (f2 *. (q.x *. q.y +. q.w *. q.z))
               (f2 *. (q.x *. q.z -. q.w *. q.y)) f0,
   Simd4f.init (f2 *. (q.x *. q.y -. q.w *. q.z))
               (f1 -. f2 *. (q.x *. q.x +. q.z *. q.z))
               (f2 *. (q.y *. q.z +. q.w *. q.x)) f0,
   Simd4f.init (f2 *. (q.x *. q.z +. q.w *. q.y))
               (f2 *. (q.y *. q.z -. q.w *. q.x))
               (f1 -. f2 *. (q.x *. q.x +. q.y *. q.y)) f0,
   Simd4f.init f0 f0 f0 f1⟩
/-- `graphene_quaternion_slerp` (quaternion.c:278-317). -/
def slerp (a b : Quat α) (factor : α) : Quat α :=
  let dot0 := cClamp (Simd4f.dot4 a.vec b.vec).x (Scalar.lit (-1) 1) f1
  let leftSign : α := if dot0 <. f0 then Scalar.lit (-1) 1 else f1
  let dot := if dot0 <. f0 then Scalar.neg dot0 else dot0
  if approxVal dot f1 then a
  else
    let theta := Scalar.acos dot
    let rSinTheta := f1 /. Scalar.sqrt (f1 -. dot *. dot)
    let rightV := Scalar.sin (factor *. theta) *. rSinTheta
    let leftV := Scalar.cos (factor *. theta) -. dot *. rightV
    let left := Simd4f.mul a.vec (Simd4f.splat (leftV *. leftSign))
    let right := Simd4f.mul b.vec (Simd4f.splat rightV)
    initFromSimd4f (Simd4f.add left right)
/-- `graphene_quaternion_init_from_radians` (quaternion.c:365-384). -/
def initFromRadians (radX radY radZ : α) : Quat α :=
  let half : α := Scalar.lit 1 2
  let sinX := Scalar.sin (radX *. half)
  let cosX := Scalar.cos (radX *. half)
  let sinY := Scalar.sin (radY *. half)
  let cosY := Scalar.cos (radY *. half)
  let sinZ := Scalar.sin (radZ *. half)
  let cosZ := Scalar.cos (radZ *. half)
  ⟨sinX *. cosY *. cosZ +. cosX *. sinY *. sinZ,
   cosX *. sinY *. cosZ -. sinX *. cosY *. sinZ,
   cosX *. cosY *. sinZ +. sinX *. sinY *. cosZ,
   cosX *. cosY *. cosZ -. sinX *. sinY *. sinZ⟩
/-- `graphene_quaternion_init_from_angles` (quaternion.c:336-346). -/
def initFromAngles (degX degY degZ : α) : Quat α :=
  initFromRadians (degToRad degX) (degToRad degY) (degToRad degZ)
/-- `graphene_quaternion_to_radians` (quaternion.c:436-462). -/
def toRadians (q : Quat α) : α × α × α :=
  let sx := q.x *. q.x
  let sy := q.y *. q.y
  let sz := q.z *. q.z
  let sw := q.w *. q.w
  (Scalar.atan2 (f2 *. (q.x *. q.w -. q.y *. q.z)) (sw -. sx -. sy +. sz),
   Scalar.asin (cClamp (f2 *. (q.x *. q.z +. q.y *. q.w)) (Scalar.lit (-1) 1) f1),
   Scalar.atan2 (f2 *. (q.z *. q.w -. q.x *. q.y)) (sw +. sx -. sy -. sz))
/-- `graphene_quaternion_to_angles` (quaternion.c:402-418). -/
def toAngles (q : Quat α) : α × α × α :=
  let r := toRadians q
  (radToDeg r.1, radToDeg r.2.1, radToDeg r.2.2)
/-- `graphene_quaternion_init_from_angle_vec3` (quaternion.c:477-497). -/
def initFromAngleVec3 (bk : Backend) (angle : α) (axis : Vec3 α) : Quat α :=
  let rad := degToRad angle /. f2
  let axisN := Simd4f.mul (Simd4f.normalize3 bk axis.value) (Simd4f.splat (Scalar.sin rad))
  ⟨axisN.x, axisN.y, axisN.z, Scalar.cos rad⟩
/-- `graphene_quaternion_dot` (quaternion.c:608-616). -/
def dot (a b : Quat α) : α := (Simd4f.dot4 a.vec b.vec).x
/-- `graphene_quaternion_invert` (quaternion.c:629-637). -/
def invert (q : Quat α) : Quat α := ⟨Scalar.neg q.x, Scalar.neg q.y, Scalar.neg q.z, q.w⟩
/-- `graphene_quaternion_normalize` (quaternion.c:649-659). -/
def normalize (bk : Backend) (q : Quat α) : Quat α := initFromSimd4f (Simd4f.normalize4 bk q.vec)
/-- `graphene_quaternion_to_angle_vec3` (quaternion.c:509-533): the angle in degrees and
the axis.  `fabsf (sin_a) < 0.00005` compares in `double`. -/
def toAngleVec3 {δ : Type} [Scalar δ] [FloatConv α δ] (bk : Backend) (q : Quat α) : α × Vec3 α :=
  let qn := normalize bk q
  let cosA := qn.w
  let sinA0 := Scalar.sqrt (f1 -. cosA *. cosA)
  let sinA := if FloatConv.widen (Scalar.abs sinA0) <. (Scalar.lit 5 100000 : δ) then f1 else sinA0
  (radToDeg (Scalar.acos cosA *. f2), Vec3.init (qn.x /. sinA) (qn.y /. sinA) (qn.z /. sinA))
/-- `graphene_fuzzy_equals (n1, n2, 0.00001)`: the difference of two `float` compared with
a `double` literal (src/graphene-private.h:91-106). -/
def fuzzyEq5 {δ : Type} [Scalar δ] [FloatConv α δ] (n1 n2 : α) : Bool :=
  FloatConv.widen (if n1 >. n2 then n1 -. n2 else n2 -. n1) <. (Scalar.lit 1 100000 : δ)
/-- `quaternion_equal` (quaternion.c:555-577): also true when `b` is near the conjugate
of `a`. -/
def equalV {δ : Type} [Scalar δ] [FloatConv α δ] (a b : Quat α) : Bool :=
  if fuzzyEq5 a.x b.x && fuzzyEq5 a.y b.y && fuzzyEq5 a.z b.z && fuzzyEq5 a.w b.w then true
  else
    let i := invert a
    fuzzyEq5 i.x b.x && fuzzyEq5 i.y b.y && fuzzyEq5 i.z b.z && fuzzyEq5 i.w b.w
/-- `graphene_quaternion_equal` (quaternion.c:590-595). -/
def equal {δ : Type} [Scalar δ] [FloatConv α δ] (m : Mem (Quat α)) (p1 p2 : Ptr) : Bool :=
  pointerEqual m p1 p2 equalV
/-- `graphene_quaternion_multiply` (quaternion.c:671-686). -/
def multiply (a b : Quat α) : Quat α :=
  ⟨a.x *. b.w +. a.w *. b.x +. a.y *. b.z -. a.z *. b.y,
   a.y *. b.w +. a.w *. b.y +. a.z *. b.x -. a.x *. b.z,
   a.z *. b.w +. a.w *. b.z +. a.x *. b.y -. a.y *. b.x,
   a.w *. b.w -. a.x *. b.x -. a.y *. b.y -. a.z *. b.z⟩
/-- `graphene_quaternion_scale` (quaternion.c:699-709). -/
def scale (q : Quat α) (factor : α) : Quat α :=
  initFromSimd4f (Simd4f.mul q.vec (Simd4f.splat factor))
/-- `graphene_quaternion_add` (quaternion.c:721-731). -/
def add (a b : Quat α) : Quat α := initFromSimd4f (Simd4f.add a.vec b.vec)

end Quat

namespace GMatrix
variable {α : Type} [Scalar α]
/-- `graphene_matrix_rotate_quaternion` (matrix.c:1449-1457). -/
def rotateQuaternion (m : M4 α) (q : Quat α) : M4 α := multiply m q.toMatrix
end GMatrix
end Graphene
