/-
  Model of src/graphene-matrix.c, except rotations by quaternion or Euler angles
  (Verif/Model/Euler.lean) and decomposition/interpolation
  (Verif/Model/MatrixDecompose.lean).

  `graphene_matrix_t` is a wrapper around `graphene_simd4x4f_t`, so it is `M4` here.
  Functions that return `bool` and write only on success return an `Option`; the
  `…Into` functions take the previous content of `*res` when some path does not
  write it.
-/
import Verif.Model.Simd4x4f
import Verif.Model.Quad
import Verif.Model.Ray

namespace Graphene
namespace GMatrix
variable {α : Type} [Scalar α]

/-- `graphene_matrix_to_float` (matrix.c:148-153). -/
def toFloat (m : M4 α) (v : Buf α) : Option (Buf α) := Simd4x4f.toFloat m v
/-- `graphene_matrix_init_identity` (matrix.c:155-160, 172-178): from a table of 16 floats. -/
def initIdentity : M4 α :=
  ⟨⟨f1, f0, f0, f0⟩, ⟨f0, f1, f0, f0⟩, ⟨f0, f0, f1, f0⟩, ⟨f0, f0, f0, f1⟩⟩
/-- `graphene_matrix_init_from_float` (matrix.c:193-200). -/
def initFromFloat (v : Buf α) : Option (M4 α) := Simd4x4f.initFromFloat v
/-- `graphene_matrix_init_from_vec4` (matrix.c:217-230). -/
def initFromVec4 (v0 v1 v2 v3 : Vec4 α) : M4 α :=
  Simd4x4f.init v0.value v1.value v2.value v3.value
/-- `graphene_matrix_init_from_matrix` (matrix.c:244-251). -/
def initFromMatrix (src : M4 α) : M4 α := src
/-- `graphene_matrix_init_perspective` (matrix.c:267-279). -/
def initPerspective (fovy aspect zNear zFar : α) : M4 α :=
  Simd4x4f.initPerspective (degToRad fovy) aspect zNear zFar
/-- `graphene_matrix_init_ortho` (matrix.c:297-309): `top` and `bottom` are passed in the
positions of `bottom` and `top` of `graphene_simd4x4f_init_ortho`. -/
def initOrtho (left right top bottom zNear zFar : α) : M4 α :=
  Simd4x4f.initOrtho left right top bottom zNear zFar
/-- `graphene_matrix_init_look_at` (matrix.c:340-349). -/
def initLookAt {δ : Type} [Scalar δ] [FloatConv α δ] (bk : Backend) (eye center up : Vec3 α) : M4 α :=
  Simd4x4f.initLookAt bk eye.value center.value up.value
/-- `graphene_matrix_init_frustum` (matrix.c:369-381). -/
def initFrustum (left right bottom top zNear zFar : α) : M4 α :=
  Simd4x4f.initFrustum left right bottom top zNear zFar
/-- `graphene_matrix_init_scale` (matrix.c:396-409). -/
def initScale (x y z : α) : M4 α :=
  Simd4x4f.init (Simd4f.init x f0 f0 f0) (Simd4f.init f0 y f0 f0)
    (Simd4f.init f0 f0 z f0) (Simd4f.init f0 f0 f0 f1)
/-- `graphene_matrix_init_translate` (matrix.c:423-434). -/
def initTranslate (p : Point3D α) : M4 α :=
  Simd4x4f.init (Simd4f.init f1 f0 f0 f0) (Simd4f.init f0 f1 f0 f0)
    (Simd4f.init f0 f0 f1 f0) (Simd4f.init p.x p.y p.z f1)
/-- `graphene_matrix_init_skew` (matrix.c:449-466). -/
def initSkew (xSkew ySkew : α) : M4 α :=
  let tx := Scalar.tan xSkew
  let ty := Scalar.tan ySkew
  Simd4x4f.init (Simd4f.init f1 ty f0 f0) (Simd4f.init tx f1 f0 f0)
    (Simd4f.init f0 f0 f1 f0) (Simd4f.init f0 f0 f0 f1)
/-- `graphene_matrix_init_rotate` (matrix.c:481-491). -/
def initRotate (bk : Backend) (angle : α) (axis : Vec3 α) : M4 α :=
  Simd4x4f.rotation bk (degToRad angle) axis.value
/-- `graphene_matrix_is_identity` (matrix.c:503-507). -/
def isIdentity (bk : Backend) (m : M4 α) : Bool := Simd4x4f.isIdentity bk m
/-- `graphene_matrix_is_2d` (matrix.c:521-553, the `#else` branch). -/
def is2d (m : M4 α) : Bool := Simd4x4f.is2d m
/-- `graphene_matrix_inverse` (matrix.c:1691-1696); `none` is `return false`, `*res`
untouched. -/
def inverse (bk : Backend) (m : M4 α) : Option (M4 α) := Simd4x4f.inverse bk m
/-- `graphene_matrix_is_backface_visible` (matrix.c:565-575). -/
def isBackfaceVisible (bk : Backend) (m : M4 α) : Bool :=
  match Simd4x4f.inverse bk m with
  | none => false
  | some tmp => tmp.z.z <. f0
/-- `graphene_matrix_determinant` (matrix.c:843-851). -/
def determinant (bk : Backend) (m : M4 α) : α := (Simd4x4f.determinant bk m).1.x
/-- `graphene_matrix_is_singular` (matrix.c:587-595). -/
def isSingular (bk : Backend) (m : M4 α) : Bool :=
  Scalar.abs (Simd4x4f.determinant bk m).1.x <=. fltEps
/-- `graphene_matrix_init_from_2d` (matrix.c:625-640): the arguments are `double`. -/
def initFrom2d {δ : Type} [FloatConv α δ] (xx yx xy yy x0 y0 : δ) : M4 α :=
  Simd4x4f.init
    (Simd4f.init (FloatConv.narrow xx) (FloatConv.narrow yx) f0 f0)
    (Simd4f.init (FloatConv.narrow xy) (FloatConv.narrow yy) f0 f0)
    (Simd4f.init f0 f0 f1 f0)
    (Simd4f.init (FloatConv.narrow x0) (FloatConv.narrow y0) f0 f1)
/-- `graphene_matrix_to_2d` (matrix.c:671-704): `(xx, yx, xy, yy, x_0, y_0)`; `none` is
`return false` with nothing written. -/
def to2d {δ : Type} [FloatConv α δ] (m : M4 α) : Option (δ × δ × δ × δ × δ × δ) :=
  if !Simd4x4f.is2d m then none
  else some (FloatConv.widen m.x.x, FloatConv.widen m.x.y, FloatConv.widen m.y.x,
             FloatConv.widen m.y.y, FloatConv.widen m.w.x, FloatConv.widen m.w.y)
/-- `graphene_matrix_get_row` (matrix.c:717-744). -/
def getRow (m : M4 α) (index : Nat) : Vec4 α :=
  match index with
  | 0 => ⟨m.x⟩
  | 1 => ⟨m.y⟩
  | 2 => ⟨m.z⟩
  | 3 => ⟨m.w⟩
  | _ => ⟨Simd4f.initZero⟩
/-- `graphene_matrix_get_value` (matrix.c:758-809). -/
def getValue (m : M4 α) (row col : Nat) : α :=
  if row > 3 || col > 3 then f0
  else Simd4f.get (getRow m row).value col
/-- `graphene_matrix_multiply` (matrix.c:825-831). -/
def multiply (a b : M4 α) : M4 α := Simd4x4f.matrixMul a b
/-- `graphene_simd4x4f_matrix_mul` (simd4x4f.h:533-543) on memory: the four products go
to locals, then `*res` is stored. -/
def multiplyP (m : Mem (M4 α)) (a b res : Nat) : Mem (M4 α) :=
  let x := Simd4x4f.vec4Mul (m b) (m a).x
  let y := Simd4x4f.vec4Mul (m b) (m a).y
  let z := Simd4x4f.vec4Mul (m b) (m a).z
  let w := Simd4x4f.vec4Mul (m b) (m a).w
  m.upd res (Simd4x4f.init x y z w)
/-- `graphene_matrix_transform_vec3` (matrix.c:869-875). -/
def transformVec3 (m : M4 α) (v : Vec3 α) : Vec3 α := ⟨Simd4x4f.vec3Mul m v.value⟩
/-- `graphene_matrix_transform_vec4` (matrix.c:889-895). -/
def transformVec4 (m : M4 α) (v : Vec4 α) : Vec4 α := ⟨Simd4x4f.vec4Mul m v.value⟩
/-- `graphene_matrix_transform_point` (matrix.c:914-926). -/
def transformPoint (m : M4 α) (p : Point α) : Point α :=
  let v := Simd4x4f.point3Mul m (Simd4f.init p.x p.y f0 f1)
  ⟨v.x, v.y⟩
/-- `graphene_matrix_transform_point3d` (matrix.c:944-957). -/
def transformPoint3D (m : M4 α) (p : Point3D α) : Point3D α :=
  let v := Simd4x4f.point3Mul m (Simd4f.init p.x p.y p.z f1)
  ⟨v.x, v.y, v.z⟩
/-- the macro `TRANSFORM_POINT` (matrix.c:984-991, 1032-1039). -/
def transformCorner (m : M4 α) (p : Point α) : Point α :=
  let s := Simd4x4f.vec4Mul m (Simd4f.init p.x p.y f0 f1)
  ⟨s.x, s.y⟩
/-- `graphene_matrix_transform_rect` (matrix.c:974-1001). -/
def transformRect (m : M4 α) (r : Rect α) : Quad α :=
  let rr := Rect.normalize r
  Quad.init (transformCorner m rr.getTopLeft) (transformCorner m rr.getTopRight)
    (transformCorner m rr.getBottomRight) (transformCorner m rr.getBottomLeft)
/-- the bounding rectangle of four points, as computed by
`graphene_matrix_transform_bounds` (matrix.c:1065-1077) and
`graphene_matrix_project_rect_bounds` (1234-1242). -/
def boundsOf (bk : Backend) (p0 p1 p2 p3 : Point α) : Rect α :=
  let vx := Simd4f.init p0.x p1.x p2.x p3.x
  let vy := Simd4f.init p0.y p1.y p2.y p3.y
  let minX := (Simd4f.minVal bk vx).x
  let minY := (Simd4f.minVal bk vy).x
  let maxX := (Simd4f.maxVal bk vx).x
  let maxY := (Simd4f.maxVal bk vy).x
  Rect.init minX minY (maxX -. minX) (maxY -. minY)
/-- `graphene_matrix_transform_bounds` (matrix.c:1019-1078). -/
def transformBounds (bk : Backend) (m : M4 α) (r : Rect α) : Rect α :=
  let rr := Rect.normalize r
  boundsOf bk (transformCorner m rr.getTopLeft) (transformCorner m rr.getTopRight)
    (transformCorner m rr.getBottomRight) (transformCorner m rr.getBottomLeft)
/-- `graphene_matrix_transform_sphere` (matrix.c:1092-1106). -/
def transformSphere (bk : Backend) (m : M4 α) (s : Sphere α) : Sphere α :=
  let maxScale := fmaxf (fmaxf (Simd4f.dot3Scalar bk m.x m.x) (Simd4f.dot3Scalar bk m.y m.y))
    (Simd4f.dot3Scalar bk m.z m.z)
  ⟨⟨Simd4x4f.point3Mul m s.center.value⟩, s.radius *. Scalar.sqrt maxScale⟩
/-- `graphene_matrix_transform_box` (matrix.c:1122-1135). -/
def transformBox (bk : Backend) (m : M4 α) (b : Box α) : Box α :=
  Box.initFromVectors bk (b.getVertices.map fun v => ⟨Simd4x4f.point3Mul m v.value⟩)
/-- `graphene_matrix_transform_ray` (matrix.c:1148-1163). -/
def transformRay (bk : Backend) (m : M4 α) (r : Ray α) : Ray α :=
  let origin4 := transformVec4 m (Vec4.initFromVec3 r.origin f1)
  Ray.initFromVec3 bk (some (Vec4.getXYZ origin4)) (some (transformVec3 m r.direction))
/-- `graphene_matrix_project_point` (matrix.c:1176-1197). -/
def projectPoint (m : M4 α) (p : Point α) : Point α :=
  let pa := Simd4x4f.vec3Mul m (Simd4f.init p.x p.y f0 f0)
  let pb := Simd4x4f.vec3Mul m (Simd4f.init p.x p.y f1 f0)
  let pc := Simd4f.sub pa pb
  let t := Scalar.neg pa.z /. pc.z
  Point.init (pa.x +. t *. pc.x) (pa.y +. t *. pc.y)
/-- `graphene_matrix_project_rect_bounds` (matrix.c:1213-1243). -/
def projectRectBounds (bk : Backend) (m : M4 α) (r : Rect α) : Rect α :=
  let rr := Rect.normalize r
  boundsOf bk (projectPoint m rr.getTopLeft) (projectPoint m rr.getTopRight)
    (projectPoint m rr.getBottomLeft) (projectPoint m rr.getBottomRight)
/-- `graphene_matrix_project_rect` (matrix.c:1258-1281): the points are stored in the
order top-left, top-right, bottom-left, bottom-right. -/
def projectRect (m : M4 α) (r : Rect α) : Quad α :=
  let rr := Rect.normalize r
  ⟨projectPoint m rr.getTopLeft, projectPoint m rr.getTopRight,
   projectPoint m rr.getBottomLeft, projectPoint m rr.getBottomRight⟩
/-- `graphene_matrix_untransform_point` (matrix.c:1298-1326). -/
def untransformPoint (bk : Backend) (m : M4 α) (p : Point α) (bounds : Rect α) :
    Option (Point α) :=
  if is2d m then
    match inverse bk m with
    | none => none
    | some inv => some (transformPoint inv p)
  else if !(transformBounds bk m bounds).containsPoint p then none
  else
    match inverse bk m with
    | none => none
    | some inv => some (projectPoint inv p)
/-- `graphene_matrix_untransform_bounds` (matrix.c:1341-1371): `none` when the function
returns without writing `*res`. -/
def untransformBounds (bk : Backend) (m : M4 α) (r bounds : Rect α) : Option (Rect α) :=
  if is2d m then
    match inverse bk m with
    | none => none
    | some inv => some (transformBounds bk inv r)
  else
    let i := Rect.intersection r (transformBounds bk m bounds)
    if !i.1 then some (Rect.init f0 f0 f0 f0)
    else
      match inverse bk m with
      | none => none
      | some inv => some (projectRectBounds bk inv i.2)
/-- `graphene_matrix_unproject_point3d` (matrix.c:1387-1411): `none` when it returns
without writing `*res`. -/
def unprojectPoint3D (bk : Backend) (projection modelview : M4 α) (point : Point3D α) :
    Option (Point3D α) :=
  match Simd4x4f.inverse bk projection with
  | none => none
  | some tmp =>
    let tmp := Simd4x4f.matrixMul tmp modelview
    let v := Simd4x4f.vec4Mul tmp (Simd4f.init point.x point.y point.z f1)
    let invW := f1 /. v.w
    let v := Simd4f.mul v (Simd4f.splat invW)
    some (Point3D.init v.x v.y v.z)
/-- `graphene_matrix_translate` (matrix.c:1426-1434). -/
def translate (m : M4 α) (pos : Point3D α) : M4 α :=
  Simd4x4f.matrixMul m (Simd4x4f.translation pos.x pos.y pos.z)
/-- `graphene_matrix_rotate_internal` (matrix.c:1479-1488). -/
def rotateInternal (bk : Backend) (m : M4 α) (rad : α) (axis : V4 α) : M4 α :=
  Simd4x4f.matrixMul m (Simd4x4f.rotation bk rad axis)
/-- `graphene_matrix_rotate` (matrix.c:1504-1510). -/
def rotate (bk : Backend) (m : M4 α) (angle : α) (axis : Vec3 α) : M4 α :=
  rotateInternal bk m (degToRad angle) axis.value
/-- `graphene_matrix_rotate_x` (matrix.c:1524-1530). -/
def rotateX (bk : Backend) (m : M4 α) (angle : α) : M4 α :=
  rotateInternal bk m (degToRad angle) (Simd4f.init f1 f0 f0 f0)
/-- `graphene_matrix_rotate_y` (matrix.c:1544-1550). -/
def rotateY (bk : Backend) (m : M4 α) (angle : α) : M4 α :=
  rotateInternal bk m (degToRad angle) (Simd4f.init f0 f1 f0 f0)
/-- `graphene_matrix_rotate_z` (matrix.c:1564-1570). -/
def rotateZ (bk : Backend) (m : M4 α) (angle : α) : M4 α :=
  rotateInternal bk m (degToRad angle) (Simd4f.init f0 f0 f1 f0)
/-- `graphene_matrix_scale` (matrix.c:1587-1597). -/
def scale (m : M4 α) (fx fy fz : α) : M4 α := Simd4x4f.matrixMul m (Simd4x4f.scale fx fy fz)
/-- `graphene_matrix_skew_xy` (matrix.c:1608-1618). -/
def skewXY (bk : Backend) (m : M4 α) (factor : α) : M4 α :=
  { m with y := Simd4f.madd bk m.x (Simd4f.splat factor) m.y }
/-- `graphene_matrix_skew_xz` (matrix.c:1629-1639). -/
def skewXZ (bk : Backend) (m : M4 α) (factor : α) : M4 α :=
  { m with z := Simd4f.madd bk m.x (Simd4f.splat factor) m.z }
/-- `graphene_matrix_skew_yz` (matrix.c:1650-1660). -/
def skewYZ (bk : Backend) (m : M4 α) (factor : α) : M4 α :=
  { m with z := Simd4f.madd bk m.y (Simd4f.splat factor) m.z }
/-- `graphene_matrix_transpose` (matrix.c:1672-1677; simd4x4f.h:158-164: copies, then
transposes in place). -/
def transpose (m : M4 α) : M4 α := Simd4x4f.transpose m
/-- `graphene_matrix_perspective` (matrix.c:1709-1718). -/
def perspective (m : M4 α) (depth : α) : M4 α := Simd4x4f.perspective m depth
/-- `graphene_matrix_normalize` (matrix.c:1729-1745): `none` when it returns without
writing `*res`. -/
def normalize (m : M4 α) : Option (M4 α) :=
  if approxVal m.w.w f0 then none
  else
    let n := Simd4f.splat (f1 /. m.w.w)
    some ⟨Simd4f.mul m.x n, Simd4f.mul m.y n, Simd4f.mul m.z n, Simd4f.mul m.w n⟩
/-- `graphene_matrix_get_x_translation` (matrix.c:1757-1761). -/
def getXTranslation (m : M4 α) : α := m.w.x
/-- `graphene_matrix_get_y_translation` (matrix.c:1773-1777). -/
def getYTranslation (m : M4 α) : α := m.w.y
/-- `graphene_matrix_get_z_translation` (matrix.c:1789-1793). -/
def getZTranslation (m : M4 α) : α := m.w.z
/-- `graphene_matrix_get_x_scale` (matrix.c:1805-1809). -/
def getXScale (m : M4 α) : α := m.x.x
/-- `graphene_matrix_get_y_scale` (matrix.c:1821-1825). -/
def getYScale (m : M4 α) : α := m.y.y
/-- `graphene_matrix_get_z_scale` (matrix.c:1837-1841). -/
def getZScale (m : M4 α) : α := m.z.z
/-- the row comparison loop of `graphene_matrix_near` (matrix.c:2340-2351). -/
def nearV (a b : M4 α) (epsilon : α) : Bool :=
  Vec4.near (getRow a 0) (getRow b 0) epsilon && Vec4.near (getRow a 1) (getRow b 1) epsilon &&
  Vec4.near (getRow a 2) (getRow b 2) epsilon && Vec4.near (getRow a 3) (getRow b 3) epsilon
/-- `graphene_matrix_near` (matrix.c:2329-2352). -/
def near (m : Mem (M4 α)) (a b : Ptr) (epsilon : α) : Bool :=
  if a = b then true
  else match a, b with
    | some a, some b => nearV (m a) (m b) epsilon
    | _, _ => false
/-- `graphene_matrix_equal` (matrix.c:2365-2370). -/
def equal (m : Mem (M4 α)) (a b : Ptr) : Bool := near m a b fltEps
/-- `graphene_matrix_equal_fast` (matrix.c:2405-2410): `memcmp` of the 64 bytes, i.e.
equality of representations.  (A value of the model is a bit pattern, except
that all NaNs are identified.) -/
def equalFast [DecidableEq α] (a b : M4 α) : Bool := a = b

end GMatrix
end Graphene
