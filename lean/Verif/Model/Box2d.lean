/-
  Model of src/graphene-box2d.c and of the inline function of include/graphene-box2d.h.
  Result pointers may alias arguments: every function below reads all its inputs
  into locals before its single store (box2d.c:183, 361), so values suffice.
-/
import Verif.Model.Rect

namespace Graphene

/-- `graphene_box2d_t` (include/graphene-box2d.h): one `graphene_vec4_t` holding
`(min.x, min.y, max.x, max.y)`. -/
@[ext] structure Box2d (α : Type) where
  minmax : V4 α
deriving DecidableEq

namespace Box2d
variable {α : Type} [Scalar α]

/-- `graphene_simd4f_merge_low (box->minmax.value, zero)`, written out in every function. -/
def minV (b : Box2d α) : V4 α := Simd4f.mergeLow b.minmax Simd4f.initZero
/-- `graphene_simd4f_merge_high (box->minmax.value, zero)`. -/
def maxV (b : Box2d α) : V4 α := Simd4f.mergeHigh b.minmax Simd4f.initZero

/-- `graphene_box2d_init` (box2d.c:81-92); `none` is a `NULL` argument. -/
def init (min max : Option (Point α)) : Box2d α :=
  ⟨Simd4f.init (match min with | some p => p.x | none => f0)
               (match min with | some p => p.y | none => f0)
               (match max with | some p => p.x | none => f0)
               (match max with | some p => p.y | none => f0)⟩
/-- `graphene_box2d_init_from_simd4f` (box2d.c:178-186). -/
def initFromSimd4f (min max : V4 α) : Box2d α := ⟨Simd4f.mergeLow min max⟩
/-- `graphene_box2d_init_from_vec2` (box2d.c:201-209). -/
def initFromVec2 (min max : Option (Vec2 α)) : Box2d α :=
  initFromSimd4f (match min with | some v => v.value | none => Simd4f.initZero)
                 (match max with | some v => v.value | none => Simd4f.initZero)
/-- `graphene_box2d_init_from_rect` (box2d.c:223-234): the rectangle is not normalised. -/
def initFromRect (r : Rect α) : Box2d α :=
  ⟨Simd4f.init r.origin.x r.origin.y (r.origin.x +. r.size.width) (r.origin.y +. r.size.height)⟩
/-- the value of `graphene_box2d_zero ()` (box2d.c:919). -/
def zero : Box2d α := ⟨Simd4f.initZero⟩
/-- the value of `graphene_box2d_one ()` (box2d.c:921). -/
def one : Box2d α := ⟨Simd4f.init f0 f0 f1 f1⟩
/-- the value of `graphene_box2d_minus_one ()` (box2d.c:923). -/
def minusOne : Box2d α := ⟨Simd4f.init (Scalar.lit (-1) 1) (Scalar.lit (-1) 1) f0 f0⟩
/-- the value of `graphene_box2d_one_minus_one ()` (box2d.c:925). -/
def oneMinusOne : Box2d α := ⟨Simd4f.init (Scalar.lit (-1) 1) (Scalar.lit (-1) 1) f1 f1⟩
/-- the value of `graphene_box2d_infinite ()` (box2d.c:927). -/
def infinite : Box2d α :=
  ⟨Simd4f.init (Scalar.neg Scalar.inf) (Scalar.neg Scalar.inf) Scalar.inf Scalar.inf⟩
/-- the value of `graphene_box2d_empty ()` (box2d.c:929). -/
def empty : Box2d α :=
  ⟨Simd4f.init Scalar.inf Scalar.inf (Scalar.neg Scalar.inf) (Scalar.neg Scalar.inf)⟩
/-- `graphene_box2d_expand_simd4f` (box2d.c:236-250); `graphene_box2d_expand_vec2`
(263-269) passes the vector's value. -/
def expandSimd4f (bk : Backend) (b : Box2d α) (v : V4 α) : Box2d α :=
  initFromSimd4f (Simd4f.min bk b.minV v) (Simd4f.max bk b.maxV v)
/-- `graphene_box2d_expand_vec2` (box2d.c:263-269). -/
def expandVec2 (bk : Backend) (b : Box2d α) (v : Vec2 α) : Box2d α := expandSimd4f bk b v.value
/-- `graphene_box2d_expand` (box2d.c:281-289). -/
def expand (bk : Backend) (b : Box2d α) (p : Point α) : Box2d α :=
  expandSimd4f bk b (Simd4f.init p.x p.y f0 f0)
/-- `graphene_box2d_init_from_points` (box2d.c:110-126); the loop over `n_points`. -/
def initFromPoints (bk : Backend) (points : List (Point α)) : Box2d α :=
  points.foldl (fun b p => expandVec2 bk b p.toVec2) empty
/-- `graphene_box2d_init_from_vectors` (box2d.c:144-155). -/
def initFromVectors (bk : Backend) (vectors : List (Vec2 α)) : Box2d α :=
  vectors.foldl (expandVec2 bk) empty
/-- `graphene_box2d_expand_scalar` (box2d.c:304-320). -/
def expandScalar (b : Box2d α) (scalar : α) : Box2d α :=
  initFromSimd4f (Simd4f.add b.minV (Simd4f.splat (scalar *. Scalar.lit (-1) 1)))
                 (Simd4f.add b.maxV (Simd4f.splat scalar))
/-- `graphene_box2d_scale_offset` (box2d.c:337-362): the scale's hidden lanes are added in. -/
def scaleOffset (bk : Backend) (b : Box2d α) (scale : Option (Vec2 α)) (offset : Option (Point α)) :
    Box2d α :=
  let scaleFull := match scale with
    | some s => Simd4f.add s.value (Simd4f.shuffleZWXY s.value)
    | none => Simd4f.init f1 f1 f1 f1
  let offsetFull := match offset with
    | some o => Simd4f.init o.x o.y o.x o.y
    | none => Simd4f.initZero
  ⟨Simd4f.madd bk b.minmax scaleFull offsetFull⟩
/-- `graphene_box2d_to_float` (box2d.c:382-387). -/
def toFloat (b : Box2d α) (v : Buf α) : Option (Buf α) := Simd4f.dup4f b.minmax v
/-- `graphene_box2d_get_min` (box2d.c:688-693, 724-736). -/
def getMin (b : Box2d α) : Point α := ⟨b.minV.x, b.minV.y⟩
/-- `graphene_box2d_get_max` (box2d.c:705-710, 724-736). -/
def getMax (b : Box2d α) : Point α := ⟨b.maxV.x, b.maxV.y⟩
/-- `graphene_box2d_to_rect` (box2d.c:399-411). -/
def toRect (b : Box2d α) : Rect α :=
  ⟨⟨b.getMin.x, b.getMin.y⟩, ⟨b.getMax.x -. b.getMin.x, b.getMax.y -. b.getMin.y⟩⟩
/-- `graphene_box2d_union` (box2d.c:423-441). -/
def union (bk : Backend) (a b : Box2d α) : Box2d α :=
  initFromSimd4f (Simd4f.min bk a.minV b.minV) (Simd4f.max bk a.maxV b.maxV)
/-- `graphene_box2d_intersection` (box2d.c:458-487): the boolean and `*res`. -/
def intersection (bk : Backend) (a b : Box2d α) : Bool × Box2d α :=
  let minV := Simd4f.max bk a.minV b.minV
  let maxV := Simd4f.min bk a.maxV b.maxV
  if !Simd4f.cmpLe minV maxV then (false, empty) else (true, initFromSimd4f minV maxV)
/-- `graphene_box2d_intersects` (include/graphene-box2d.h:157-178; box2d.c:502-507). -/
def intersects (bk : Backend) (a b : Box2d α) : Bool :=
  let minV := Simd4f.max bk (Simd4f.init a.getMin.x a.getMin.y f0 f0)
                            (Simd4f.init b.getMin.x b.getMin.y f0 f0)
  let maxV := Simd4f.min bk (Simd4f.init a.getMax.x a.getMax.y f0 f0)
                            (Simd4f.init b.getMax.x b.getMax.y f0 f0)
  if !Simd4f.cmpLe minV maxV then false else true
/-- `graphene_box2d_get_width` (box2d.c:519-529). -/
def getWidth (b : Box2d α) : α := Scalar.abs (Simd4f.sub b.maxV b.minV).x
/-- `graphene_box2d_get_height` (box2d.c:541-551). -/
def getHeight (b : Box2d α) : α := Scalar.abs (Simd4f.sub b.maxV b.minV).y
/-- `isinff (v) == 1` -/
def isPosInf (v : α) : Bool := Scalar.isInf v && !Scalar.signbit v
/-- `isinff (v) == -1` -/
def isNegInf (v : α) : Bool := Scalar.isInf v && Scalar.signbit v
/-- `graphene_box2d_is_empty` (box2d.c:553-584).  The `memcmp` branch compares with the
same constants; an infinity has one bit pattern, and the two upper lanes are `+0.f`. -/
def isEmpty (b : Box2d α) : Bool :=
  (isPosInf b.minV.x && isPosInf b.minV.y) && (isNegInf b.maxV.x && isNegInf b.maxV.y)
/-- `graphene_box2d_is_infinity` (box2d.c:586-617). -/
def isInfinity (b : Box2d α) : Bool :=
  (isNegInf b.minV.x && isNegInf b.minV.y) && (isPosInf b.maxV.x && isPosInf b.maxV.y)
/-- `graphene_box2d_get_size` (box2d.c:629-645). -/
def getSize (b : Box2d α) : Vec2 α :=
  if b.isEmpty then ⟨Simd4f.initZero⟩
  else if b.isInfinity then ⟨Simd4f.init Scalar.inf Scalar.inf f0 f0⟩
  else ⟨Simd4f.sub b.maxV b.minV⟩
/-- `graphene_box2d_get_center` (box2d.c:657-676). -/
def getCenter (b : Box2d α) : Point α :=
  if b.isEmpty || b.isInfinity then ⟨f0, f0⟩
  else
    let res := Simd4f.mul (Simd4f.add b.minV b.maxV) (Simd4f.splat (Scalar.lit 1 2))
    ⟨res.x, res.y⟩
/-- `graphene_box2d_get_vertices` (box2d.c:748-760). -/
def getVertices (b : Box2d α) : List (Vec2 α) :=
  [Vec2.init b.getMin.x b.getMin.y, Vec2.init b.getMin.x b.getMax.y,
   Vec2.init b.getMax.x b.getMin.y, Vec2.init b.getMax.x b.getMax.y]
/-- `graphene_box2d_contains_point` (box2d.c:773-793). -/
def containsPoint (b : Box2d α) (point : Point α) : Bool :=
  if b.isEmpty then false
  else if b.isInfinity then true
  else
    let p := Simd4f.init point.x point.y f0 f0
    Simd4f.cmpGe p b.minV && Simd4f.cmpLe p b.maxV
/-- `graphene_box2d_contains_box` (box2d.c:807-829). -/
def containsBox (a b : Box2d α) : Bool :=
  if a.isEmpty || b.isInfinity then false
  else if a.isInfinity || b.isEmpty then true
  else Simd4f.cmpGe b.minV a.minV && Simd4f.cmpLe b.maxV a.maxV
/-- `graphene_box2d_contains_rect` (box2d.c:842-863). -/
def containsRect (b : Box2d α) (r : Rect α) : Bool :=
  if b.isEmpty then false
  else if b.isInfinity then true
  else if !b.containsPoint r.origin then false
  else if !b.containsPoint (Point.init (r.origin.x +. r.size.width) (r.origin.y +. r.size.height))
  then false
  else true
/-- `box_equal` (box2d.c:865-883). -/
def equalV (bk : Backend) (a b : Box2d α) : Bool :=
  if a.isEmpty && b.isEmpty then true
  else if a.isEmpty || b.isEmpty then false
  else if a.isInfinity && b.isInfinity then true
  else if a.isInfinity || b.isInfinity then false
  else Vec4.equalV bk ⟨a.minmax⟩ ⟨b.minmax⟩
/-- `graphene_box2d_equal` (box2d.c:896-901). -/
def equal (bk : Backend) (m : Mem (Box2d α)) (p1 p2 : Ptr) : Bool := pointerEqual m p1 p2 (equalV bk)

end Box2d
end Graphene
