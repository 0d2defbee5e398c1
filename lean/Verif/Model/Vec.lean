/-
  Model of src/graphene-vectors.c: `graphene_vec2_t`, `graphene_vec3_t`,
  `graphene_vec4_t`.  Each wraps a whole four-lane vector; the lanes beyond the
  dimension are "hidden" but take part in lane-wise operations.

  Result pointers are return values: every function reads all its operands before
  the single store of the result, so `res` may alias an operand.
  The `_alloc`/`_free` functions are modelled in Verif/Model/Alloc.lean and the
  static constants in Verif/Model/Once.lean.
-/
import Verif.Model.Simd4f

namespace Graphene

/-- `graphene_vec2_t` (include/graphene-vec2.h:44-48). -/
@[ext] structure Vec2 (α : Type) where
  value : V4 α
deriving DecidableEq
/-- `graphene_vec3_t` (include/graphene-vec3.h). -/
@[ext] structure Vec3 (α : Type) where
  value : V4 α
deriving DecidableEq
/-- `graphene_vec4_t` (include/graphene-vec4.h). -/
@[ext] structure Vec4 (α : Type) where
  value : V4 α
deriving DecidableEq

namespace Vec2
variable {α : Type} [Scalar α]

/-- `graphene_vec2_init` (vectors.c:104-112). -/
def init (x y : α) : Vec2 α := ⟨Simd4f.init x y f0 f0⟩
/-- `graphene_vec2_init_from_vec2` (vectors.c:125-132). -/
def initFromVec2 (src : Vec2 α) : Vec2 α := ⟨src.value⟩
/-- `graphene_vec2_init_from_float` (vectors.c:146-153). -/
def initFromFloat (src : Buf α) : Option (Vec2 α) := (Simd4f.init2f src).map Vec2.mk
/-- `graphene_vec2_get_x` (vectors.c:165-169). -/
def getX (v : Vec2 α) : α := Simd4f.get v.value 0
/-- `graphene_vec2_get_y` (vectors.c:181-185). -/
def getY (v : Vec2 α) : α := Simd4f.get v.value 1
/-- `graphene_vec2_to_float` (vectors.c:197-202). -/
def toFloat (v : Vec2 α) (dest : Buf α) : Option (Buf α) := Simd4f.dup2f v.value dest
/-- `graphene_vec2_add` (vectors.c:215-221). -/
def add (a b : Vec2 α) : Vec2 α := ⟨Simd4f.add a.value b.value⟩
/-- `graphene_vec2_subtract` (vectors.c:235-241). -/
def subtract (a b : Vec2 α) : Vec2 α := ⟨Simd4f.sub a.value b.value⟩
/-- `graphene_vec2_multiply` (vectors.c:254-260). -/
def multiply (a b : Vec2 α) : Vec2 α := ⟨Simd4f.mul a.value b.value⟩
/-- `graphene_vec2_divide` (vectors.c:274-280). -/
def divide (bk : Backend) (a b : Vec2 α) : Vec2 α := ⟨Simd4f.div bk a.value b.value⟩
/-- `graphene_vec2_dot` (vectors.c:293-298). -/
def dot (a b : Vec2 α) : α := Simd4f.get (Simd4f.dot2 a.value b.value) 0
/-- `graphene_vec2_length` (vectors.c:310-314). -/
def length (bk : Backend) (v : Vec2 α) : α := Simd4f.get (Simd4f.length2 bk v.value) 0
/-- `graphene_vec2_normalize` (vectors.c:326-334). -/
def normalize (bk : Backend) (v : Vec2 α) : Vec2 α :=
  if Scalar.abs (length bk v) >. fltEps then ⟨Simd4f.normalize2 bk v.value⟩
  else ⟨Simd4f.initZero⟩
/-- `graphene_vec2_min` (vectors.c:347-353). -/
def min (bk : Backend) (a b : Vec2 α) : Vec2 α := ⟨Simd4f.min bk a.value b.value⟩
/-- `graphene_vec2_max` (vectors.c:366-372). -/
def max (bk : Backend) (a b : Vec2 α) : Vec2 α := ⟨Simd4f.max bk a.value b.value⟩
/-- `graphene_vec2_scale` (vectors.c:384-390). -/
def scale (v : Vec2 α) (factor : α) : Vec2 α := ⟨Simd4f.mul v.value (Simd4f.splat factor)⟩
/-- `graphene_vec2_negate` (vectors.c:401-406). -/
def negate (bk : Backend) (v : Vec2 α) : Vec2 α := ⟨Simd4f.neg bk v.value⟩
/-- `graphene_vec2_near` (vectors.c:452-461). -/
def near (v1 v2 : Vec2 α) (epsilon : α) : Bool :=
  let d := Simd4f.sub v1.value v2.value
  let epsilonSq := epsilon *. epsilon
  (Simd4f.get (Simd4f.dot2 d d) 0) <. epsilonSq
/-- `vec2_equal` (vectors.c:408-419), the comparison behind `graphene_vec2_equal`. -/
def equalV (bk : Backend) (v1 v2 : Vec2 α) : Bool :=
  if Simd4f.cmpEq bk v1.value v2.value then true else near v1 v2 fltEps
/-- `graphene_vec2_equal` (vectors.c:432-437). -/
def equal (bk : Backend) (m : Mem (Vec2 α)) (p1 p2 : Ptr) : Bool :=
  pointerEqual m p1 p2 (equalV bk)
/-- `graphene_vec2_interpolate` (vectors.c:474-481). -/
def interpolate {δ : Type} [FloatConv α δ] (v1 v2 : Vec2 α) (factor : δ) : Vec2 α :=
  ⟨Simd4f.interpolate v1.value v2.value (FloatConv.narrow factor)⟩
end Vec2

namespace Vec3
variable {α : Type} [Scalar α]

/-- `graphene_vec3_init` (vectors.c:682-691). -/
def init (x y z : α) : Vec3 α := ⟨Simd4f.init x y z f0⟩
/-- `graphene_vec3_init_from_vec3` (vectors.c:705-712). -/
def initFromVec3 (src : Vec3 α) : Vec3 α := ⟨src.value⟩
/-- `graphene_vec3_init_from_float` (vectors.c:725-732). -/
def initFromFloat (src : Buf α) : Option (Vec3 α) := (Simd4f.init3f src).map Vec3.mk
/-- `graphene_vec3_get_x` (vectors.c:744-748). -/
def getX (v : Vec3 α) : α := Simd4f.get v.value 0
/-- `graphene_vec3_get_y` (vectors.c:760-764). -/
def getY (v : Vec3 α) : α := Simd4f.get v.value 1
/-- `graphene_vec3_get_z` (vectors.c:776-780). -/
def getZ (v : Vec3 α) : α := Simd4f.get v.value 2
/-- `graphene_vec3_to_float` (vectors.c:792-797). -/
def toFloat (v : Vec3 α) (dest : Buf α) : Option (Buf α) := Simd4f.dup3f v.value dest
/-- `graphene_vec3_add` (vectors.c:809-815). -/
def add (a b : Vec3 α) : Vec3 α := ⟨Simd4f.add a.value b.value⟩
/-- `graphene_vec3_subtract` (vectors.c:829-835). -/
def subtract (a b : Vec3 α) : Vec3 α := ⟨Simd4f.sub a.value b.value⟩
/-- `graphene_vec3_multiply` (vectors.c:847-853). -/
def multiply (a b : Vec3 α) : Vec3 α := ⟨Simd4f.mul a.value b.value⟩
/-- `graphene_vec3_divide` (vectors.c:867-873). -/
def divide (bk : Backend) (a b : Vec3 α) : Vec3 α := ⟨Simd4f.div bk a.value b.value⟩
/-- `graphene_vec3_cross` (vectors.c:885-891). -/
def cross (bk : Backend) (a b : Vec3 α) : Vec3 α := ⟨Simd4f.cross3 bk a.value b.value⟩
/-- `graphene_vec3_dot` (vectors.c:904-909). -/
def dot (bk : Backend) (a b : Vec3 α) : α := Simd4f.dot3Scalar bk a.value b.value
/-- `graphene_vec3_length` (vectors.c:921-925). -/
def length (bk : Backend) (v : Vec3 α) : α := Simd4f.get (Simd4f.length3 bk v.value) 0
/-- `graphene_vec3_normalize` (vectors.c:936-944). -/
def normalize (bk : Backend) (v : Vec3 α) : Vec3 α :=
  if Scalar.abs (length bk v) >. fltEps then ⟨Simd4f.normalize3 bk v.value⟩
  else ⟨Simd4f.initZero⟩
/-- `graphene_vec3_min` (vectors.c:957-963). -/
def min (bk : Backend) (a b : Vec3 α) : Vec3 α := ⟨Simd4f.min bk a.value b.value⟩
/-- `graphene_vec3_max` (vectors.c:976-982). -/
def max (bk : Backend) (a b : Vec3 α) : Vec3 α := ⟨Simd4f.max bk a.value b.value⟩
/-- `graphene_vec3_scale` (vectors.c:994-1000). -/
def scale (v : Vec3 α) (factor : α) : Vec3 α := ⟨Simd4f.mul v.value (Simd4f.splat factor)⟩
/-- `graphene_vec3_get_xy` (vectors.c:1012-1017). -/
def getXY (v : Vec3 α) : Vec2 α := ⟨Simd4f.zeroZW v.value⟩
/-- `graphene_vec3_get_xy0` (vectors.c:1029-1034). -/
def getXY0 (v : Vec3 α) : Vec3 α := ⟨Simd4f.zeroZW v.value⟩
/-- `graphene_vec3_get_xyz0` (vectors.c:1046-1051). -/
def getXYZ0 (v : Vec3 α) : Vec4 α := ⟨Simd4f.zeroW v.value⟩
/-- `graphene_vec3_get_xyz1` (vectors.c:1063-1069). -/
def getXYZ1 (v : Vec3 α) : Vec4 α :=
  ⟨Simd4f.add (Simd4f.zeroW v.value) (Simd4f.init f0 f0 f0 f1)⟩
/-- `graphene_vec3_get_xyzw` (vectors.c:1082-1089). -/
def getXYZW (v : Vec3 α) (w : α) : Vec4 α :=
  ⟨Simd4f.add (Simd4f.zeroW v.value) (Simd4f.init f0 f0 f0 w)⟩
/-- `graphene_vec3_negate` (vectors.c:1100-1105). -/
def negate (bk : Backend) (v : Vec3 α) : Vec3 α := ⟨Simd4f.neg bk v.value⟩
/-- `graphene_vec3_near` (vectors.c:1151-1160). -/
def near (bk : Backend) (v1 v2 : Vec3 α) (epsilon : α) : Bool :=
  let d := Simd4f.sub v1.value v2.value
  let epsilonSq := epsilon *. epsilon
  (Simd4f.dot3Scalar bk d d) <. epsilonSq
/-- `vec3_equal` (vectors.c:1107-1118), the comparison behind `graphene_vec3_equal`. -/
def equalV (bk : Backend) (v1 v2 : Vec3 α) : Bool :=
  if Simd4f.cmpEq bk v1.value v2.value then true else near bk v1 v2 fltEps
/-- `graphene_vec3_equal` (vectors.c:1131-1136). -/
def equal (bk : Backend) (m : Mem (Vec3 α)) (p1 p2 : Ptr) : Bool :=
  pointerEqual m p1 p2 (equalV bk)
/-- `graphene_vec3_interpolate` (vectors.c:1173-1180). -/
def interpolate {δ : Type} [FloatConv α δ] (v1 v2 : Vec3 α) (factor : δ) : Vec3 α :=
  ⟨Simd4f.interpolate v1.value v2.value (FloatConv.narrow factor)⟩
/-- the value `graphene_vec3_zero ()` points to (vectors.c:1197, 1270-1276). -/
def zero : Vec3 α := ⟨Simd4f.initZero⟩
/-- the value `graphene_vec3_x_axis ()` points to (vectors.c:1199, 1306-1312). -/
def xAxis : Vec3 α := ⟨Simd4f.init f1 f0 f0 f0⟩
end Vec3

namespace Vec4
variable {α : Type} [Scalar α]

/-- `graphene_vec4_init` (vectors.c:1405-1415). -/
def init (x y z w : α) : Vec4 α := ⟨Simd4f.init x y z w⟩
/-- `graphene_vec4_init_from_vec4` (vectors.c:1429-1436). -/
def initFromVec4 (src : Vec4 α) : Vec4 α := ⟨src.value⟩
/-- `graphene_vec4_init_from_vec3` (vectors.c:1451-1459). -/
def initFromVec3 (src : Vec3 α) (w : α) : Vec4 α := ⟨Simd4f.mergeW src.value w⟩
/-- `graphene_vec4_init_from_vec2` (vectors.c:1475-1484). -/
def initFromVec2 (src : Vec2 α) (z w : α) : Vec4 α :=
  ⟨Simd4f.mergeLow src.value (Simd4f.init z w f0 f0)⟩
/-- `graphene_vec4_init_from_float` (vectors.c:1497-1504). -/
def initFromFloat (src : Buf α) : Option (Vec4 α) := (Simd4f.init4f src).map Vec4.mk
/-- `graphene_vec4_get_x` (vectors.c:1516-1520). -/
def getX (v : Vec4 α) : α := Simd4f.get v.value 0
/-- `graphene_vec4_get_y` (vectors.c:1532-1536). -/
def getY (v : Vec4 α) : α := Simd4f.get v.value 1
/-- `graphene_vec4_get_z` (vectors.c:1548-1552). -/
def getZ (v : Vec4 α) : α := Simd4f.get v.value 2
/-- `graphene_vec4_get_w` (vectors.c:1564-1568). -/
def getW (v : Vec4 α) : α := Simd4f.get v.value 3
/-- `graphene_vec4_to_float` (vectors.c:1581-1586). -/
def toFloat (v : Vec4 α) (dest : Buf α) : Option (Buf α) := Simd4f.dup4f v.value dest
/-- `graphene_vec4_add` (vectors.c:1598-1604). -/
def add (a b : Vec4 α) : Vec4 α := ⟨Simd4f.add a.value b.value⟩
/-- `graphene_vec4_subtract` (vectors.c:1618-1624). -/
def subtract (a b : Vec4 α) : Vec4 α := ⟨Simd4f.sub a.value b.value⟩
/-- `graphene_vec4_multiply` (vectors.c:1636-1642). -/
def multiply (a b : Vec4 α) : Vec4 α := ⟨Simd4f.mul a.value b.value⟩
/-- `graphene_vec4_divide` (vectors.c:1656-1662). -/
def divide (bk : Backend) (a b : Vec4 α) : Vec4 α := ⟨Simd4f.div bk a.value b.value⟩
/-- `graphene_vec4_dot` (vectors.c:1675-1680). -/
def dot (a b : Vec4 α) : α := Simd4f.get (Simd4f.dot4 a.value b.value) 0
/-- `graphene_vec4_length` (vectors.c:1692-1696). -/
def length (bk : Backend) (v : Vec4 α) : α := Simd4f.get (Simd4f.length4 bk v.value) 0
/-- `graphene_vec4_normalize` (vectors.c:1708-1716). -/
def normalize (bk : Backend) (v : Vec4 α) : Vec4 α :=
  if Scalar.abs (length bk v) >. fltEps then ⟨Simd4f.normalize4 bk v.value⟩
  else ⟨Simd4f.initZero⟩
/-- `graphene_vec4_min` (vectors.c:1729-1735). -/
def min (bk : Backend) (a b : Vec4 α) : Vec4 α := ⟨Simd4f.min bk a.value b.value⟩
/-- `graphene_vec4_max` (vectors.c:1748-1754). -/
def max (bk : Backend) (a b : Vec4 α) : Vec4 α := ⟨Simd4f.max bk a.value b.value⟩
/-- `graphene_vec4_scale` (vectors.c:1766-1772). -/
def scale (v : Vec4 α) (factor : α) : Vec4 α := ⟨Simd4f.mul v.value (Simd4f.splat factor)⟩
/-- `graphene_vec4_get_xy` (vectors.c:1784-1789). -/
def getXY (v : Vec4 α) : Vec2 α := ⟨Simd4f.zeroZW v.value⟩
/-- `graphene_vec4_get_xyz` (vectors.c:1801-1806). -/
def getXYZ (v : Vec4 α) : Vec3 α := ⟨Simd4f.zeroW v.value⟩
/-- `graphene_vec4_negate` (vectors.c:1817-1822). -/
def negate (bk : Backend) (v : Vec4 α) : Vec4 α := ⟨Simd4f.neg bk v.value⟩
/-- `graphene_vec4_near` (vectors.c:1868-1877). -/
def near (v1 v2 : Vec4 α) (epsilon : α) : Bool :=
  let d := Simd4f.sub v1.value v2.value
  let epsilonSq := epsilon *. epsilon
  (Simd4f.get (Simd4f.dot4 d d) 0) <. epsilonSq
/-- `vec4_equal` (vectors.c:1824-1835), the comparison behind `graphene_vec4_equal`. -/
def equalV (bk : Backend) (v1 v2 : Vec4 α) : Bool :=
  if Simd4f.cmpEq bk v1.value v2.value then true else near v1 v2 fltEps
/-- `graphene_vec4_equal` (vectors.c:1848-1853). -/
def equal (bk : Backend) (m : Mem (Vec4 α)) (p1 p2 : Ptr) : Bool :=
  pointerEqual m p1 p2 (equalV bk)
/-- `graphene_vec4_interpolate` (vectors.c:1890-1897). -/
def interpolate {δ : Type} [FloatConv α δ] (v1 v2 : Vec4 α) (factor : δ) : Vec4 α :=
  ⟨Simd4f.interpolate v1.value v2.value (FloatConv.narrow factor)⟩
/-- the value `graphene_vec4_zero ()` points to (vectors.c:1915, 1990-1996). -/
def zero : Vec4 α := ⟨Simd4f.initZero⟩
end Vec4

end Graphene
