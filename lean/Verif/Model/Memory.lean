/-
  Functions with a result pointer, statement by statement over one flat memory.

  The value-level model gives the value a call computes; it says nothing about what happens
  when the result object is also an operand.  Here memory is a map from cells to `float`s
  (an address counts floats; a `graphene_simd4f_t` is four consecutive cells), pointers are
  cells, and each function is the sequence of loads and stores of its C text, in order, with the
  loads reading the memory as it is at that moment.  C locals are separate objects whose address
  is never passed outside, and are therefore values.  A structure assignment loads the whole
  source and then stores the whole destination.

  Layouts: include/graphene-point.h:58-62, graphene-size.h:45-49, graphene-rect.h:45-49,
  graphene-point3d.h:49-54, graphene-quad.h:41-44 (public fields), graphene-vec*.h,
  graphene-box2d.h, graphene-box.h, graphene-sphere.h, graphene-plane.h, graphene-ray.h,
  graphene-triangle.h, graphene-matrix.h (one or more `graphene_simd4f_t`, followed by at most
  one `float`), graphene-quaternion.h (four floats).
-/
import Verif.Model.Frustum
import Verif.Model.Quat
import Verif.Model.Box2d
import Verif.Model.Quad

namespace Graphene

/-- The memory, one `float` per cell. -/
abbrev Cells (α : Type) := Nat → α

namespace Flat

/-- Store one float. -/
def st {α : Type} (m : Cells α) (a : Nat) (v : α) : Cells α := fun i => if i = a then v else m i

/-- A C type laid out in memory: how many cells it occupies, how an object is read and written. -/
class Obj (T : Type) (α : outParam Type) where
  size : Nat
  get : Cells α → Nat → T
  put : Cells α → Nat → T → Cells α

variable {α : Type}

/-- `graphene_point_t`: `x`, `y` (graphene-point.h:58-62). -/
instance : Obj (Point α) α where
  size := 2
  get m a := ⟨m a, m (a + 1)⟩
  put m a v := st (st m a v.x) (a + 1) v.y
/-- `graphene_size_t`: `width`, `height` (graphene-size.h:45-49). -/
instance : Obj (Size α) α where
  size := 2
  get m a := ⟨m a, m (a + 1)⟩
  put m a v := st (st m a v.width) (a + 1) v.height
/-- `graphene_rect_t`: `origin`, `size` (graphene-rect.h:45-49). -/
instance : Obj (Rect α) α where
  size := 4
  get m a := ⟨⟨m a, m (a + 1)⟩, ⟨m (a + 2), m (a + 3)⟩⟩
  put m a v := st (st (st (st m a v.origin.x) (a + 1) v.origin.y) (a + 2) v.size.width) (a + 3) v.size.height
/-- `graphene_point3d_t`: `x`, `y`, `z` (graphene-point3d.h:49-54). -/
instance : Obj (Point3D α) α where
  size := 3
  get m a := ⟨m a, m (a + 1), m (a + 2)⟩
  put m a v := st (st (st m a v.x) (a + 1) v.y) (a + 2) v.z
/-- `graphene_quaternion_t`: `x`, `y`, `z`, `w` (graphene-quaternion.h). -/
instance : Obj (Quat α) α where
  size := 4
  get m a := ⟨m a, m (a + 1), m (a + 2), m (a + 3)⟩
  put m a v := st (st (st (st m a v.x) (a + 1) v.y) (a + 2) v.z) (a + 3) v.w
/-- `graphene_simd4f_t`: four lanes. -/
instance : Obj (V4 α) α where
  size := 4
  get m a := ⟨m a, m (a + 1), m (a + 2), m (a + 3)⟩
  put m a v := st (st (st (st m a v.x) (a + 1) v.y) (a + 2) v.z) (a + 3) v.w

/-- load / store of a `graphene_simd4f_t` -/
def ldV (m : Cells α) (a : Nat) : V4 α := Obj.get m a
/-- load / store of a `graphene_simd4f_t` -/
def stV (m : Cells α) (a : Nat) (v : V4 α) : Cells α := Obj.put m a v

/-- `graphene_vec2_t`: one register (graphene-vec2.h). -/
instance : Obj (Vec2 α) α where
  size := 4
  get m a := ⟨ldV m a⟩
  put m a v := stV m a v.value
/-- `graphene_vec3_t`: one register (graphene-vec3.h). -/
instance : Obj (Vec3 α) α where
  size := 4
  get m a := ⟨ldV m a⟩
  put m a v := stV m a v.value
/-- `graphene_vec4_t`: one register (graphene-vec4.h). -/
instance : Obj (Vec4 α) α where
  size := 4
  get m a := ⟨ldV m a⟩
  put m a v := stV m a v.value
/-- `graphene_box2d_t`: `minmax` (graphene-box2d.h). -/
instance : Obj (Box2d α) α where
  size := 4
  get m a := ⟨ldV m a⟩
  put m a v := stV m a v.minmax
/-- `graphene_box_t`: `min`, `max` (graphene-box.h). -/
instance : Obj (Box α) α where
  size := 8
  get m a := ⟨⟨ldV m a⟩, ⟨ldV m (a + 4)⟩⟩
  put m a v := stV (stV m a v.min.value) (a + 4) v.max.value
/-- `graphene_sphere_t`: `center`, `radius` (graphene-sphere.h). -/
instance : Obj (Sphere α) α where
  size := 5
  get m a := ⟨⟨ldV m a⟩, m (a + 4)⟩
  put m a v := st (stV m a v.center.value) (a + 4) v.radius
/-- `graphene_plane_t`: `normal`, `constant` (graphene-plane.h). -/
instance : Obj (Plane α) α where
  size := 5
  get m a := ⟨⟨ldV m a⟩, m (a + 4)⟩
  put m a v := st (stV m a v.normal.value) (a + 4) v.constant
/-- `graphene_ray_t`: `origin`, `direction` (graphene-ray.h). -/
instance : Obj (Ray α) α where
  size := 8
  get m a := ⟨⟨ldV m a⟩, ⟨ldV m (a + 4)⟩⟩
  put m a v := stV (stV m a v.origin.value) (a + 4) v.direction.value
/-- `graphene_triangle_t`: `a`, `b`, `c` (graphene-triangle.h). -/
instance : Obj (Triangle α) α where
  size := 12
  get m a := ⟨⟨ldV m a⟩, ⟨ldV m (a + 4)⟩, ⟨ldV m (a + 8)⟩⟩
  put m a v := stV (stV (stV m a v.a.value) (a + 4) v.b.value) (a + 8) v.c.value
/-- `graphene_simd4x4f_t`, `graphene_matrix_t`: rows `x`, `y`, `z`, `w`. -/
instance : Obj (M4 α) α where
  size := 16
  get m a := ⟨ldV m a, ldV m (a + 4), ldV m (a + 8), ldV m (a + 12)⟩
  put m a v := stV (stV (stV (stV m a v.x) (a + 4) v.y) (a + 8) v.z) (a + 12) v.w
/-- `graphene_quad_t`: `points[4]` (graphene-quad.h). -/
instance : Obj (Quad α) α where
  size := 8
  get m a := ⟨Obj.get m a, Obj.get m (a + 2), Obj.get m (a + 4), Obj.get m (a + 6)⟩
  put m a v := Obj.put (Obj.put (Obj.put (Obj.put m a v.p0) (a + 2) v.p1) (a + 4) v.p2) (a + 6) v.p3

variable [Scalar α] {δ : Type} [Scalar δ] [FloatConv α δ]

/-! ### points and sizes -/

/-- `graphene_point_interpolate` (point.c:298-306). -/
def pointInterpolate (m : Cells α) (a b : Nat) (factor : δ) (res : Nat) : Cells α :=
  let m := st m res (flerpf (m a) (m b) factor)
  let m := st m (res + 1) (flerpf (m (a + 1)) (m (b + 1)) factor)
  m
/-- `graphene_point_init_from_vec2` (point.c:153-161). -/
def pointInitFromVec2 (m : Cells α) (p src : Nat) : Cells α :=
  let m := st m p (Simd4f.get (ldV m src) 0)
  let m := st m (p + 1) (Simd4f.get (ldV m src) 1)
  m
/-- `graphene_size_scale` (size.c:154-163). -/
def sizeScale (m : Cells α) (s : Nat) (factor : α) (res : Nat) : Cells α :=
  let m := Obj.put m res (Obj.get m s : Size α)
  let m := st m res (m res *. factor)
  let m := st m (res + 1) (m (res + 1) *. factor)
  m
/-- `graphene_size_interpolate` (size.c:177-185). -/
def sizeInterpolate (m : Cells α) (a b : Nat) (factor : δ) (res : Nat) : Cells α :=
  let m := st m res (flerpf (m a) (m b) factor)
  let m := st m (res + 1) (flerpf (m (a + 1)) (m (b + 1)) factor)
  m
/-- `graphene_point3d_init_from_simd4f` (point3d.c:104-123): `dup_3f` into `x`, `y`, `z`. -/
def point3dFromSimd4f (m : Cells α) (p : Nat) (v : V4 α) : Cells α :=
  st (st (st m p v.x) (p + 1) v.y) (p + 2) v.z
/-- `graphene_point3d_scale` (point3d.c:251-262). -/
def point3dScale (m : Cells α) (p : Nat) (factor : α) (res : Nat) : Cells α :=
  let v := Simd4f.init (m p) (m (p + 1)) (m (p + 2)) f0
  let v := Simd4f.mul v (Simd4f.splat factor)
  point3dFromSimd4f m res v
/-- `graphene_point3d_cross` (point3d.c:275-285). -/
def point3dCross (bk : Backend) (m : Cells α) (a b res : Nat) : Cells α :=
  let va := Simd4f.init (m a) (m (a + 1)) (m (a + 2)) f0
  let vb := Simd4f.init (m b) (m (b + 1)) (m (b + 2)) f0
  point3dFromSimd4f m res (Simd4f.cross3 bk va vb)
/-- `graphene_point3d_normalize` (point3d.c:338-348). -/
def point3dNormalize (bk : Backend) (m : Cells α) (p res : Nat) : Cells α :=
  let v := Simd4f.init (m p) (m (p + 1)) (m (p + 2)) f0
  point3dFromSimd4f m res (Simd4f.normalize3 bk v)
/-- `graphene_point3d_interpolate` (point3d.c:398-407). -/
def point3dInterpolate (m : Cells α) (a b : Nat) (factor : δ) (res : Nat) : Cells α :=
  let m := st m res (flerpf (m a) (m b) factor)
  let m := st m (res + 1) (flerpf (m (a + 1)) (m (b + 1)) factor)
  let m := st m (res + 2) (flerpf (m (a + 2)) (m (b + 2)) factor)
  m
/-- `graphene_point3d_normalize_viewport` (point3d.c:428-442); the viewport's fields are at
`v`, `v+1` (origin) and `v+2`, `v+3` (size). -/
def point3dNormalizeViewport (m : Cells α) (p v : Nat) (zNear zFar : α) (res : Nat) : Cells α :=
  let m := st m res ((m p -. m v) /. m (v + 2))
  let m := st m (res + 1) ((m (p + 1) -. m (v + 1)) /. m (v + 3))
  let m := st m (res + 2) ((m (p + 2) -. zNear) /. (zFar -. zNear))
  let m := st m res (cClamp ((m res *. f2) -. f1) (Scalar.lit (-1) 1) f1)
  let m := st m (res + 1) (cClamp ((m (res + 1) *. f2) -. f1) (Scalar.lit (-1) 1) f1)
  let m := st m (res + 2) (cClamp ((m (res + 2) *. f2) -. f1) (Scalar.lit (-1) 1) f1)
  m

/-! ### rectangles -/

/-- `graphene_rect_normalize_in_place` (rect.c:53-71). -/
def rectNormalizeInPlace (m : Cells α) (r : Nat) : Cells α :=
  let m :=
    if m (r + 2) <. f0 then
      let size := Scalar.abs (m (r + 2))
      let m := st m r (m r -. size)
      st m (r + 2) size
    else m
  if m (r + 3) <. f0 then
    let size := Scalar.abs (m (r + 3))
    let m := st m (r + 1) (m (r + 1) -. size)
    st m (r + 3) size
  else m
/-- `graphene_rect_normalize_r` (rect.c:231-239). -/
def rectNormalizeR (m : Cells α) (r res : Nat) : Cells α :=
  let m := if res ≠ r then Obj.put m res (Obj.get m r : Rect α) else m
  rectNormalizeInPlace m res
/-- `graphene_rect_get_center` (rect.c:250-262): `rr` is a local. -/
def rectGetCenter (m : Cells α) (r p : Nat) : Cells α :=
  let rr := Rect.normalize (Obj.get m r)
  let m := st m p (rr.origin.x +. (rr.size.width /. f2))
  st m (p + 1) (rr.origin.y +. (rr.size.height /. f2))
/-- `graphene_rect_get_top_left` (rect.c:273-283). -/
def rectGetTopLeft (m : Cells α) (r p : Nat) : Cells α :=
  let rr := Rect.normalize (Obj.get m r)
  Obj.put m p rr.origin
/-- `graphene_rect_get_top_right` (rect.c:294-304). -/
def rectGetTopRight (m : Cells α) (r p : Nat) : Cells α :=
  let rr := Rect.normalize (Obj.get m r)
  let m := st m p (rr.origin.x +. rr.size.width)
  st m (p + 1) rr.origin.y
/-- `graphene_rect_get_bottom_left` (rect.c:315-325). -/
def rectGetBottomLeft (m : Cells α) (r p : Nat) : Cells α :=
  let rr := Rect.normalize (Obj.get m r)
  let m := st m p rr.origin.x
  st m (p + 1) (rr.origin.y +. rr.size.height)
/-- `graphene_rect_get_bottom_right` (rect.c:336-348). -/
def rectGetBottomRight (m : Cells α) (r p : Nat) : Cells α :=
  let rr := Rect.normalize (Obj.get m r)
  let m := st m p (rr.origin.x +. rr.size.width)
  st m (p + 1) (rr.origin.y +. rr.size.height)
/-- `graphene_rect_union` (rect.c:472-490). -/
def rectUnion (m : Cells α) (a b res : Nat) : Cells α :=
  let ra := Rect.normalize (Obj.get m a)
  let rb := Rect.normalize (Obj.get m b)
  let m := st m res (cMin ra.origin.x rb.origin.x)
  let m := st m (res + 1) (cMin ra.origin.y rb.origin.y)
  let m := st m (res + 2)
    (cMax (ra.origin.x +. ra.size.width) (rb.origin.x +. rb.size.width) -. m res)
  let m := st m (res + 3)
    (cMax (ra.origin.y +. ra.size.height) (rb.origin.y +. rb.size.height) -. m (res + 1))
  m
/-- `graphene_rect_init` (rect.c:121-134): four stores, then normalisation in place. -/
def rectInit (m : Cells α) (r : Nat) (x y width height : α) : Cells α :=
  let m := st (st m r x) (r + 1) y
  let m := st (st m (r + 2) width) (r + 3) height
  rectNormalizeInPlace m r
/-- `graphene_rect_intersection` (rect.c:512-543), with a result. -/
def rectIntersection (m : Cells α) (a b res : Nat) : Bool × Cells α :=
  let ra := Rect.normalize (Obj.get m a)
  let rb := Rect.normalize (Obj.get m b)
  let x1 := cMax ra.origin.x rb.origin.x
  let y1 := cMax ra.origin.y rb.origin.y
  let x2 := cMin (ra.origin.x +. ra.size.width) (rb.origin.x +. rb.size.width)
  let y2 := cMin (ra.origin.y +. ra.size.height) (rb.origin.y +. rb.size.height)
  if x1 >=. x2 || y1 >=. y2 then (false, rectInit m res f0 f0 f0 f0)
  else (true, rectInit m res x1 y1 (x2 -. x1) (y2 -. y1))
/-- `graphene_rect_offset_r` (rect.c:632-642). -/
def rectOffsetR (m : Cells α) (r : Nat) (dx dy : α) (res : Nat) : Cells α :=
  let m := rectNormalizeR m r res
  let m := st m res (m res +. dx)
  let m := st m (res + 1) (m (res + 1) +. dy)
  m
/-- `graphene_rect_inset_r` (rect.c:703-729). -/
def rectInsetR (m : Cells α) (r : Nat) (dx dy : α) (res : Nat) : Cells α :=
  let m := rectNormalizeR m r res
  let m := st m res (m res +. dx)
  let m := st m (res + 1) (m (res + 1) +. dy)
  let m :=
    if dx >=. f0 then st m (res + 2) (m (res + 2) -. (dx *. f2))
    else st m (res + 2) (m (res + 2) +. (dx *. Scalar.lit (-2) 1))
  let m :=
    if dy >=. f0 then st m (res + 3) (m (res + 3) -. (dy *. f2))
    else st m (res + 3) (m (res + 3) +. (dy *. Scalar.lit (-2) 1))
  let m := if m (res + 2) <. f0 then st m (res + 2) f0 else m
  let m := if m (res + 3) <. f0 then st m (res + 3) f0 else m
  m
/-- `graphene_rect_round` (rect.c:773-784). -/
def rectRound (m : Cells α) (r res : Nat) : Cells α :=
  let m := rectNormalizeR m r res
  let m := st m res (Scalar.floor (m res))
  let m := st m (res + 1) (Scalar.floor (m (res + 1)))
  let m := st m (res + 2) (Scalar.ceil (m (res + 2)))
  let m := st m (res + 3) (Scalar.ceil (m (res + 3)))
  m
/-- `graphene_rect_round_extents` (rect.c:816-832). -/
def rectRoundExtents (m : Cells α) (r res : Nat) : Cells α :=
  let m := rectNormalizeR m r res
  let x2 := m res +. m (res + 2)
  let y2 := m (res + 1) +. m (res + 3)
  let m := st m res (Scalar.floor (m res))
  let m := st m (res + 1) (Scalar.floor (m (res + 1)))
  let m := st m (res + 2) (Scalar.ceil x2 -. m res)
  let m := st m (res + 3) (Scalar.ceil y2 -. m (res + 1))
  m
/-- `graphene_rect_expand` (rect.c:844-855): `tmp` is a local. -/
def rectExpand (m : Cells α) (r p res : Nat) : Cells α :=
  let tmp := Rect.init (m p) (m (p + 1)) f0 f0
  let ra := Rect.normalize (Obj.get m r)
  let rb := Rect.normalize tmp
  let m := st m res (cMin ra.origin.x rb.origin.x)
  let m := st m (res + 1) (cMin ra.origin.y rb.origin.y)
  let m := st m (res + 2)
    (cMax (ra.origin.x +. ra.size.width) (rb.origin.x +. rb.size.width) -. m res)
  let m := st m (res + 3)
    (cMax (ra.origin.y +. ra.size.height) (rb.origin.y +. rb.size.height) -. m (res + 1))
  rectNormalizeInPlace m res
/-- `graphene_rect_interpolate` (rect.c:870-888). -/
def rectInterpolate (m : Cells α) (a b : Nat) (factor : δ) (res : Nat) : Cells α :=
  let ra := Rect.normalize (Obj.get m a)
  let rb := Rect.normalize (Obj.get m b)
  let m := st m res (flerpf ra.origin.x rb.origin.x factor)
  let m := st m (res + 1) (flerpf ra.origin.y rb.origin.y factor)
  let m := st m (res + 2) (flerpf ra.size.width rb.size.width factor)
  let m := st m (res + 3) (flerpf ra.size.height rb.size.height factor)
  m
/-- `graphene_rect_scale` (rect.c:921-935). -/
def rectScale (m : Cells α) (r : Nat) (sh sv : α) (res : Nat) : Cells α :=
  let m := rectNormalizeR m r res
  let m := st m res (m res *. sh)
  let m := st m (res + 1) (m (res + 1) *. sv)
  let m := st m (res + 2) (m (res + 2) *. sh)
  let m := st m (res + 3) (m (res + 3) *. sv)
  rectNormalizeR m res res

/-! ### quads -/

/-- `graphene_quad_init` (quad.c:89-102): four structure assignments. -/
def quadInit (m : Cells α) (q p1 p2 p3 p4 : Nat) : Cells α :=
  let m := Obj.put m q (Obj.get m p1 : Point α)
  let m := Obj.put m (q + 2) (Obj.get m p2 : Point α)
  let m := Obj.put m (q + 4) (Obj.get m p3 : Point α)
  let m := Obj.put m (q + 6) (Obj.get m p4 : Point α)
  m
/-- `graphene_quad_init_from_rect` (quad.c:116-126). -/
def quadInitFromRect (m : Cells α) (q r : Nat) : Cells α :=
  let m := rectGetTopLeft m r q
  let m := rectGetTopRight m r (q + 2)
  let m := rectGetBottomRight m r (q + 4)
  let m := rectGetBottomLeft m r (q + 6)
  m
/-- `graphene_quad_bounds` (quad.c:185-203). -/
def quadBounds (bk : Backend) (m : Cells α) (q r : Nat) : Cells α :=
  let vx := Simd4f.init (m q) (m (q + 2)) (m (q + 4)) (m (q + 6))
  let vy := Simd4f.init (m (q + 1)) (m (q + 3)) (m (q + 5)) (m (q + 7))
  let minX := Simd4f.get (Simd4f.minVal bk vx) 0
  let minY := Simd4f.get (Simd4f.minVal bk vy) 0
  let maxX := Simd4f.get (Simd4f.maxVal bk vx) 0
  let maxY := Simd4f.get (Simd4f.maxVal bk vy) 0
  rectInit m r minX minY (maxX -. minX) (maxY -. minY)

/-! ### vectors -/

/-- one assignment `res->value = F (a->value)`: `graphene_vec{2,3,4}_scale`, `_negate`, `_get_xy`,
`_get_xy0`, `_get_xyz`, `_get_xyz0`, `_get_xyz1`, `_get_xyzw`, `_init_from_vec*` (vectors.c). -/
def vecUn (F : V4 α → V4 α) (m : Cells α) (a res : Nat) : Cells α := stV m res (F (ldV m a))
/-- one assignment `res->value = F (a->value, b->value)`: `graphene_vec{2,3,4}_add`, `_subtract`,
`_multiply`, `_divide`, `_min`, `_max`, `_interpolate`, `graphene_vec3_cross` (vectors.c). -/
def vecBin (F : V4 α → V4 α → V4 α) (m : Cells α) (a b res : Nat) : Cells α :=
  stV m res (F (ldV m a) (ldV m b))
/-- `graphene_vec3_normalize` (vectors.c:937-944); the length is read through `v`. -/
def vec3Normalize (bk : Backend) (m : Cells α) (v res : Nat) : Cells α :=
  if Scalar.abs (Vec3.length bk (Obj.get m v)) >. fltEps then stV m res (Simd4f.normalize3 bk (ldV m v))
  else stV m res Simd4f.initZero
/-- `graphene_vec2_normalize` (vectors.c:326-334). -/
def vec2Normalize (bk : Backend) (m : Cells α) (v res : Nat) : Cells α :=
  if Scalar.abs (Vec2.length bk (Obj.get m v)) >. fltEps then stV m res (Simd4f.normalize2 bk (ldV m v))
  else stV m res Simd4f.initZero
/-- `graphene_vec4_normalize` (vectors.c:1708-1716). -/
def vec4Normalize (bk : Backend) (m : Cells α) (v res : Nat) : Cells α :=
  if Scalar.abs (Vec4.length bk (Obj.get m v)) >. fltEps then stV m res (Simd4f.normalize4 bk (ldV m v))
  else stV m res Simd4f.initZero

/-! ### boxes -/

/-- `graphene_box_init_from_box` (box.c:190-198). -/
def boxInitFromBox (m : Cells α) (box src : Nat) : Cells α :=
  let m := stV m box (ldV m src)
  let m := stV m (box + 4) (ldV m (src + 4))
  m
/-- `graphene_box_expand_simd4f` (box.c:242-249). -/
def boxExpandSimd4f (bk : Backend) (m : Cells α) (box : Nat) (v : V4 α) (res : Nat) : Cells α :=
  let m := stV m res (Simd4f.min bk (ldV m box) v)
  let m := stV m (res + 4) (Simd4f.max bk (ldV m (box + 4)) v)
  m
/-- `graphene_box_expand_vec3` (box.c:262-268): `vec->value` is passed by value. -/
def boxExpandVec3 (bk : Backend) (m : Cells α) (box vec res : Nat) : Cells α :=
  boxExpandSimd4f bk m box (ldV m vec) res
/-- `graphene_box_expand` (box.c:280-288). -/
def boxExpand (bk : Backend) (m : Cells α) (box point res : Nat) : Cells α :=
  let v := Simd4f.init (m point) (m (point + 1)) (m (point + 2)) f0
  boxExpandSimd4f bk m box v res
/-- `graphene_box_expand_scalar` (box.c:303-313). -/
def boxExpandScalar (m : Cells α) (box : Nat) (scalar : α) (res : Nat) : Cells α :=
  let min := scalar *. Scalar.lit (-1) 1
  let max := scalar
  let m := stV m res (Simd4f.add (ldV m box) (Simd4f.splat min))
  let m := stV m (res + 4) (Simd4f.add (ldV m (box + 4)) (Simd4f.splat max))
  m
/-- `graphene_box_union` (box.c:325-332). -/
def boxUnion (bk : Backend) (m : Cells α) (a b res : Nat) : Cells α :=
  let m := stV m res (Simd4f.min bk (ldV m a) (ldV m b))
  let m := stV m (res + 4) (Simd4f.max bk (ldV m (a + 4)) (ldV m (b + 4)))
  m
/-- `graphene_box_intersection` (box.c:349-371), with a result. -/
def boxIntersection (bk : Backend) (m : Cells α) (a b res : Nat) : Bool × Cells α :=
  let min := Simd4f.max bk (ldV m a) (ldV m b)
  let max := Simd4f.min bk (ldV m (a + 4)) (ldV m (b + 4))
  if !Simd4f.cmpLe min max then (false, Obj.put m res (Box.empty : Box α))
  else (true, stV (stV m res min) (res + 4) max)
/-- `graphene_box_get_minmax` (box.c:526-535), with both results. -/
def boxGetMinmax (m : Cells α) (box min max : Nat) : Cells α :=
  let m := point3dFromSimd4f m min (ldV m box)
  let m := point3dFromSimd4f m max (ldV m (box + 4))
  m
/-- `graphene_box2d_init_from_simd4f` (box2d.c:178-186). -/
def box2dFromSimd4f (m : Cells α) (box : Nat) (min max : V4 α) : Cells α :=
  stV m box (Simd4f.mergeLow min max)
/-- `graphene_box2d_expand_simd4f` (box2d.c:236-250). -/
def box2dExpandSimd4f (bk : Backend) (m : Cells α) (box : Nat) (v : V4 α) (res : Nat) : Cells α :=
  let minV := Simd4f.mergeLow (ldV m box) Simd4f.initZero
  let maxV := Simd4f.mergeHigh (ldV m box) Simd4f.initZero
  box2dFromSimd4f m res (Simd4f.min bk minV v) (Simd4f.max bk maxV v)
/-- `graphene_box2d_expand_vec2` (box2d.c:263-269). -/
def box2dExpandVec2 (bk : Backend) (m : Cells α) (box vec res : Nat) : Cells α :=
  box2dExpandSimd4f bk m box (ldV m vec) res
/-- `graphene_box2d_expand` (box2d.c:281-289). -/
def box2dExpand (bk : Backend) (m : Cells α) (box point res : Nat) : Cells α :=
  box2dExpandSimd4f bk m box (Simd4f.init (m point) (m (point + 1)) f0 f0) res
/-- `graphene_box2d_expand_scalar` (box2d.c:304-320). -/
def box2dExpandScalar (m : Cells α) (box : Nat) (scalar : α) (res : Nat) : Cells α :=
  let minV := Simd4f.mergeLow (ldV m box) Simd4f.initZero
  let maxV := Simd4f.mergeHigh (ldV m box) Simd4f.initZero
  let min := scalar *. Scalar.lit (-1) 1
  let max := scalar
  box2dFromSimd4f m res (Simd4f.add minV (Simd4f.splat min)) (Simd4f.add maxV (Simd4f.splat max))
/-- `graphene_box2d_scale_offset` (box2d.c:337-362), both operands given. -/
def box2dScaleOffset (bk : Backend) (m : Cells α) (box scale offset res : Nat) : Cells α :=
  let scaleZwxy := Simd4f.shuffleZWXY (ldV m scale)
  let scaleFull := Simd4f.add (ldV m scale) scaleZwxy
  let offsetFull := Simd4f.init (m offset) (m (offset + 1)) (m offset) (m (offset + 1))
  stV m res (Simd4f.madd bk (ldV m box) scaleFull offsetFull)
/-- `graphene_box2d_union` (box2d.c:423-441). -/
def box2dUnion (bk : Backend) (m : Cells α) (a b res : Nat) : Cells α :=
  let va := Simd4f.mergeLow (ldV m a) Simd4f.initZero
  let vb := Simd4f.mergeLow (ldV m b) Simd4f.initZero
  let minV := Simd4f.min bk va vb
  let va := Simd4f.mergeHigh (ldV m a) Simd4f.initZero
  let vb := Simd4f.mergeHigh (ldV m b) Simd4f.initZero
  let maxV := Simd4f.max bk va vb
  box2dFromSimd4f m res minV maxV
/-- `graphene_box2d_intersection` (box2d.c:458-487), with a result. -/
def box2dIntersection (bk : Backend) (m : Cells α) (a b res : Nat) : Bool × Cells α :=
  let va := Simd4f.mergeLow (ldV m a) Simd4f.initZero
  let vb := Simd4f.mergeLow (ldV m b) Simd4f.initZero
  let minV := Simd4f.max bk va vb
  let va := Simd4f.mergeHigh (ldV m a) Simd4f.initZero
  let vb := Simd4f.mergeHigh (ldV m b) Simd4f.initZero
  let maxV := Simd4f.min bk va vb
  if !Simd4f.cmpLe minV maxV then (false, Obj.put m res (Box2d.empty : Box2d α))
  else (true, box2dFromSimd4f m res minV maxV)
/-- `graphene_box2d_get_minmax` (box2d.c:723-736), with both results. -/
def box2dGetMinmax (m : Cells α) (box min max : Nat) : Cells α :=
  let minV := Simd4f.mergeLow (ldV m box) Simd4f.initZero
  let maxV := Simd4f.mergeHigh (ldV m box) Simd4f.initZero
  let m := st (st m min minV.x) (min + 1) minV.y
  let m := st (st m max maxV.x) (max + 1) maxV.y
  m

/-! ### spheres, planes, rays -/

/-- `graphene_sphere_translate` (sphere.c:341-350): the radius of `res` is not written. -/
def sphereTranslate (m : Cells α) (s point res : Nat) : Cells α :=
  let tmp := Simd4f.init (m point) (m (point + 1)) (m (point + 2)) f0
  stV m res (Simd4f.add (ldV m s) tmp)
/-- `graphene_plane_init_from_plane` (plane.c:149-157). -/
def planeInitFromPlane (m : Cells α) (p src : Nat) : Cells α :=
  let m := stV m p (ldV m src)
  let m := st m (p + 4) (m (src + 4))
  m
/-- `graphene_plane_normalize` (plane.c:236-244). -/
def planeNormalize (bk : Backend) (m : Cells α) (p res : Nat) : Cells α :=
  let normalLength := Vec3.length bk (Obj.get m p)
  let m := vec3Normalize bk m p res
  let m := st m (res + 4) (m (p + 4) /. normalLength)
  m
/-- `graphene_plane_negate` (plane.c:256-262). -/
def planeNegate (bk : Backend) (m : Cells α) (p res : Nat) : Cells α :=
  let m := stV m res (Simd4f.neg bk (ldV m p))
  let m := st m (res + 4) (m (p + 4) *. Scalar.lit (-1) 1)
  m
/-- `graphene_plane_transform` (plane.c:367-407) given the normal matrix; `none` for the case that
reads the uninitialised `normal_m` (see `Plane.transform`).  The stores are those of
`graphene_plane_init` (plane.c:99-112) from locals. -/
def planeTransform (bk : Backend) (m : Cells α) (p matrix : Nat) (normalMatrix : Option Nat) (res : Nat) :
    Option (Cells α) := do
  let normalM : Option (M4 α) := normalMatrix.map (Obj.get m ·)
  let v ← Plane.transform bk (Obj.get m p) (Obj.get m matrix) normalM
  let m := stV m res v.normal.value
  let m := st m (res + 4) v.constant
  some m
/-- `graphene_ray_init_from_vec3` (ray.c:150-166), both vectors given. -/
def rayInitFromVec3 (bk : Backend) (m : Cells α) (r origin direction : Nat) : Cells α :=
  let m := stV m r (ldV m origin)
  let m := vec3Normalize bk m direction (r + 4)
  m
/-- `graphene_ray_init_from_ray` (ray.c:131-136). -/
def rayInitFromRay (bk : Backend) (m : Cells α) (r src : Nat) : Cells α :=
  rayInitFromVec3 bk m r src (src + 4)
/-- `graphene_triangle_get_uv` (triangle.c:382-419), for a point at `p`. -/
def triangleGetUv (bk : Backend) (m : Cells α) (t p uvA uvB uvC res : Nat) : Bool × Cells α :=
  let m := stV m res (Simd4f.init f0 f0 f0 f0)
  match Triangle.getBarycoords bk (Obj.get m t : Triangle α) (some (Obj.get m p)) with
  | none => (false, m)
  | some bc =>
    let u := Vec2.getX bc
    let v := Vec2.getY bc
    let b : Point3D α := ⟨(f1 -. u) -. v, v, u⟩
    let tmp := Simd4f.mul (ldV m uvA) (Simd4f.splat b.x)
    let m := stV m res (Simd4f.add (ldV m res) tmp)
    let tmp := Simd4f.mul (ldV m uvB) (Simd4f.splat b.y)
    let m := stV m res (Simd4f.add (ldV m res) tmp)
    let tmp := Simd4f.mul (ldV m uvC) (Simd4f.splat b.z)
    let m := stV m res (Simd4f.add (ldV m res) tmp)
    (true, m)

/-! ### quaternions -/

/-- the register `graphene_simd4f_init (q->x, q->y, q->z, q->w)` -/
def quatV (m : Cells α) (q : Nat) : V4 α := Simd4f.init (m q) (m (q + 1)) (m (q + 2)) (m (q + 3))
/-- `graphene_quaternion_init_from_simd4f` (quaternion.c:153-160): `dup_4f`. -/
def quatFromSimd4f (m : Cells α) (q : Nat) (v : V4 α) : Cells α := stV m q v
/-- `graphene_quaternion_invert` (quaternion.c:629-637). -/
def quatInvert (m : Cells α) (q res : Nat) : Cells α :=
  let m := st m res (Scalar.neg (m q))
  let m := st m (res + 1) (Scalar.neg (m (q + 1)))
  let m := st m (res + 2) (Scalar.neg (m (q + 2)))
  let m := st m (res + 3) (m (q + 3))
  m
/-- `graphene_quaternion_normalize` (quaternion.c:649-659). -/
def quatNormalize (bk : Backend) (m : Cells α) (q res : Nat) : Cells α :=
  quatFromSimd4f m res (Simd4f.normalize4 bk (quatV m q))
/-- `graphene_quaternion_multiply` (quaternion.c:671-686), storing through
`graphene_quaternion_init` (quaternion.c:77-90). -/
def quatMultiply (m : Cells α) (a b res : Nat) : Cells α :=
  let x := (((m a *. m (b + 3)) +. (m (a + 3) *. m b)) +. (m (a + 1) *. m (b + 2))) -. (m (a + 2) *. m (b + 1))
  let y := (((m (a + 1) *. m (b + 3)) +. (m (a + 3) *. m (b + 1))) +. (m (a + 2) *. m b)) -. (m a *. m (b + 2))
  let z := (((m (a + 2) *. m (b + 3)) +. (m (a + 3) *. m (b + 2))) +. (m a *. m (b + 1))) -. (m (a + 1) *. m b)
  let w := (((m (a + 3) *. m (b + 3)) -. (m a *. m b)) -. (m (a + 1) *. m (b + 1))) -. (m (a + 2) *. m (b + 2))
  st (st (st (st m res x) (res + 1) y) (res + 2) z) (res + 3) w
/-- `graphene_quaternion_scale` (quaternion.c:699-709). -/
def quatScale (m : Cells α) (q : Nat) (factor : α) (res : Nat) : Cells α :=
  quatFromSimd4f m res (Simd4f.mul (quatV m q) (Simd4f.splat factor))
/-- `graphene_quaternion_add` (quaternion.c:721-731). -/
def quatAdd (m : Cells α) (a b res : Nat) : Cells α :=
  quatFromSimd4f m res (Simd4f.add (quatV m a) (quatV m b))
/-- `graphene_quaternion_slerp` (quaternion.c:278-317): everything is read before `res` is
written, through `*res = *a` or `init_from_simd4f`; the value is that of `Quat.slerp`. -/
def quatSlerp (m : Cells α) (a b : Nat) (factor : α) (res : Nat) : Cells α :=
  Obj.put m res (Quat.slerp (Obj.get m a) (Obj.get m b) factor)

/-! ### matrices -/

/-- `graphene_simd4x4f_vec4_mul` (simd4x4f.h:269-284). -/
def vec4Mul (m : Cells α) (a b res : Nat) : Cells α :=
  let v := ldV m b
  let vx := Simd4f.splatX v
  let vy := Simd4f.splatY v
  let vz := Simd4f.splatZ v
  let vw := Simd4f.splatW v
  stV m res (Simd4f.add (Simd4f.add (Simd4f.mul (ldV m a) vx) (Simd4f.mul (ldV m (a + 4)) vy))
    (Simd4f.add (Simd4f.mul (ldV m (a + 8)) vz) (Simd4f.mul (ldV m (a + 12)) vw)))
/-- `graphene_simd4x4f_vec3_mul` (simd4x4f.h:320-334). -/
def vec3Mul (m : Cells α) (a b res : Nat) : Cells α :=
  let vx := Simd4f.splatX (ldV m b)
  let vy := Simd4f.splatY (ldV m b)
  let vz := Simd4f.splatZ (ldV m b)
  let r := Simd4f.add (Simd4f.add (Simd4f.mul (ldV m a) vx) (Simd4f.mul (ldV m (a + 4)) vy))
    (Simd4f.mul (ldV m (a + 8)) vz)
  stV m res (Simd4f.zeroW r)
/-- `graphene_simd4x4f_point3_mul` (simd4x4f.h:372-386). -/
def point3Mul (m : Cells α) (a p res : Nat) : Cells α :=
  let v := ldV m p
  let vx := Simd4f.splatX v
  let vy := Simd4f.splatY v
  let vz := Simd4f.splatZ v
  stV m res (Simd4f.add (Simd4f.add (Simd4f.mul (ldV m a) vx) (Simd4f.mul (ldV m (a + 4)) vy))
    (Simd4f.add (Simd4f.mul (ldV m (a + 8)) vz) (ldV m (a + 12))))
/-- `graphene_simd4x4f_transpose_in_place` (simd4x4f.h:160-172, the row-by-row flavour). -/
def transposeInPlace (m : Cells α) (s : Nat) : Cells α :=
  let sx := ldV m s
  let sy := ldV m (s + 4)
  let sz := ldV m (s + 8)
  let sw := ldV m (s + 12)
  let m := stV m s (Simd4f.init sx.x sy.x sz.x sw.x)
  let m := stV m (s + 4) (Simd4f.init sx.y sy.y sz.y sw.y)
  let m := stV m (s + 8) (Simd4f.init sx.z sy.z sz.z sw.z)
  let m := stV m (s + 12) (Simd4f.init sx.w sy.w sz.w sw.w)
  m
/-- `graphene_simd4x4f_transpose` (simd4x4f.h:397-403), `graphene_matrix_transpose`. -/
def transpose (m : Cells α) (s res : Nat) : Cells α :=
  let m := Obj.put m res (Obj.get m s : M4 α)
  transposeInPlace m res
/-- `graphene_simd4x4f_matrix_mul` (simd4x4f.h:486-545), `graphene_matrix_multiply`: four row
products into locals, then one assignment. -/
def matrixMul (m : Cells α) (a b res : Nat) : Cells α :=
  let M : M4 α := Obj.get m b
  let x := Simd4x4f.vec4Mul M (ldV m a)
  let y := Simd4x4f.vec4Mul M (ldV m (a + 4))
  let z := Simd4x4f.vec4Mul M (ldV m (a + 8))
  let w := Simd4x4f.vec4Mul M (ldV m (a + 12))
  Obj.put m res (Simd4x4f.init x y z w)
/-- the row-by-row combinators of `graphene_simd4x4f_add`/`_sub`/`_mul`/`_div`
(simd4x4f.h:879-953): `res->x = F (a->x, b->x)` and so on. -/
def rowwise (F : V4 α → V4 α → V4 α) (m : Cells α) (a b res : Nat) : Cells α :=
  let m := stV m res (F (ldV m a) (ldV m b))
  let m := stV m (res + 4) (F (ldV m (a + 4)) (ldV m (b + 4)))
  let m := stV m (res + 8) (F (ldV m (a + 8)) (ldV m (b + 8)))
  let m := stV m (res + 12) (F (ldV m (a + 12)) (ldV m (b + 12)))
  m
/-- `graphene_matrix_perspective` (matrix.c:1709-1718): a copy, then in place through
`graphene_simd4x4f_perspective` (simd4x4f.h:727-769). -/
def matrixPerspective (m : Cells α) (a : Nat) (depth : α) (res : Nat) : Cells α :=
  let m := Obj.put m res (Obj.get m a : M4 α)
  Obj.put m res (Simd4x4f.perspective (Obj.get m res) depth)
/-- `graphene_matrix_normalize` (matrix.c:1729-1745). -/
def matrixNormalize (m : Cells α) (a res : Nat) : Cells α :=
  let ww := Simd4f.get (ldV m (a + 12)) 3
  if approxVal ww f0 then m
  else
    let n := Simd4f.splat (f1 /. ww)
    let m := stV m res (Simd4f.mul (ldV m a) n)
    let m := stV m (res + 4) (Simd4f.mul (ldV m (a + 4)) n)
    let m := stV m (res + 8) (Simd4f.mul (ldV m (a + 8)) n)
    let m := stV m (res + 12) (Simd4f.mul (ldV m (a + 12)) n)
    m
/-- `graphene_matrix_inverse` (matrix.c:1691-1696, simd4x4f.h:966-1054): the rows are read into
locals first; the result is written by `graphene_simd4x4f_transpose` from a local. -/
def matrixInverse (bk : Backend) (m : Cells α) (a res : Nat) : Bool × Cells α :=
  match Simd4x4f.inverse bk (Obj.get m a : M4 α) with
  | some v => (true, Obj.put m res v)
  | none => (false, m)
/-- `graphene_matrix_transform_point` (matrix.c:914-926). -/
def transformPoint (m : Cells α) (a p res : Nat) : Cells α :=
  let v := Simd4f.init (m p) (m (p + 1)) f0 f1
  let v := Simd4x4f.point3Mul (Obj.get m a) v
  let m := st m res (Simd4f.get v 0)
  let m := st m (res + 1) (Simd4f.get v 1)
  m
/-- `graphene_matrix_transform_point3d` (matrix.c:944-957). -/
def transformPoint3D (m : Cells α) (a p res : Nat) : Cells α :=
  let v := Simd4f.init (m p) (m (p + 1)) (m (p + 2)) f1
  let v := Simd4x4f.point3Mul (Obj.get m a) v
  let m := st m res (Simd4f.get v 0)
  let m := st m (res + 1) (Simd4f.get v 1)
  let m := st m (res + 2) (Simd4f.get v 2)
  m
/-- `graphene_matrix_transform_bounds` (matrix.c:1019-1078): locals, then `graphene_rect_init`. -/
def transformBounds (bk : Backend) (m : Cells α) (a r res : Nat) : Cells α :=
  let rr := Rect.normalize (Obj.get m r)
  let M : M4 α := Obj.get m a
  let p0 := GMatrix.transformCorner M (Rect.getTopLeft rr)
  let p1 := GMatrix.transformCorner M (Rect.getTopRight rr)
  let p2 := GMatrix.transformCorner M (Rect.getBottomRight rr)
  let p3 := GMatrix.transformCorner M (Rect.getBottomLeft rr)
  let vx := Simd4f.init p0.x p1.x p2.x p3.x
  let vy := Simd4f.init p0.y p1.y p2.y p3.y
  let minX := Simd4f.get (Simd4f.minVal bk vx) 0
  let minY := Simd4f.get (Simd4f.minVal bk vy) 0
  let maxX := Simd4f.get (Simd4f.maxVal bk vx) 0
  let maxY := Simd4f.get (Simd4f.maxVal bk vy) 0
  rectInit m res minX minY (maxX -. minX) (maxY -. minY)
/-- `graphene_matrix_transform_sphere` (matrix.c:1092-1106): the radius is read after the centre
has been stored. -/
def transformSphere (bk : Backend) (m : Cells α) (a s res : Nat) : Cells α :=
  let m := point3Mul m a s res
  let d0 := Simd4f.dot3Scalar bk (ldV m a) (ldV m a)
  let d1 := fmaxf d0 (Simd4f.dot3Scalar bk (ldV m (a + 4)) (ldV m (a + 4)))
  let d2 := fmaxf d1 (Simd4f.dot3Scalar bk (ldV m (a + 8)) (ldV m (a + 8)))
  let m := st m (res + 4) (m (s + 4) *. Scalar.sqrt d2)
  m
/-- the loop of `graphene_box_init_from_vectors` (box.c:171-173) over vectors held in locals:
`graphene_box_expand_vec3 (box, &vectors[i], box)`. -/
def boxExpandAll (bk : Backend) (m : Cells α) (box : Nat) : List (Vec3 α) → Cells α
  | [] => m
  | v :: vs => boxExpandAll bk (boxExpandSimd4f bk m box v.value box) box vs
/-- `graphene_matrix_transform_box` (matrix.c:1122-1135): the eight vertices are transformed in a
local array; then `graphene_box_init_from_vectors` (box.c:165-176) fills `res`. -/
def transformBox (bk : Backend) (m : Cells α) (a b res : Nat) : Cells α :=
  let M : M4 α := Obj.get m a
  let points := (Box.getVertices (Obj.get m b : Box α)).map fun v => (⟨Simd4x4f.point3Mul M v.value⟩ : Vec3 α)
  let m := Obj.put m res (Box.empty : Box α)
  boxExpandAll bk m res points
/-- `graphene_matrix_transform_ray` (matrix.c:1148-1163): locals, then `graphene_ray_init_from_vec3`. -/
def transformRay (bk : Backend) (m : Cells α) (a r res : Nat) : Cells α :=
  let M : M4 α := Obj.get m a
  let origin4 := GMatrix.transformVec4 M (Vec4.initFromVec3 ⟨ldV m r⟩ f1)
  let origin := Vec4.getXYZ origin4
  let direction := GMatrix.transformVec3 M ⟨ldV m (r + 4)⟩
  let m := stV m res origin.value
  let m := stV m (res + 4) (Vec3.normalize bk direction).value
  m
/-- `graphene_matrix_skew_xy` (matrix.c:1608-1618). -/
def skewXY (bk : Backend) (m : Cells α) (a : Nat) (factor : α) : Cells α :=
  let mx := ldV m a
  let my := ldV m (a + 4)
  stV m (a + 4) (Simd4f.madd bk mx (Simd4f.splat factor) my)
/-- `graphene_matrix_skew_xz` (matrix.c:1629-1639). -/
def skewXZ (bk : Backend) (m : Cells α) (a : Nat) (factor : α) : Cells α :=
  let mx := ldV m a
  let mz := ldV m (a + 8)
  stV m (a + 8) (Simd4f.madd bk mx (Simd4f.splat factor) mz)
/-- `graphene_matrix_skew_yz` (matrix.c:1650-1660). -/
def skewYZ (bk : Backend) (m : Cells α) (a : Nat) (factor : α) : Cells α :=
  let my := ldV m (a + 4)
  let mz := ldV m (a + 8)
  stV m (a + 8) (Simd4f.madd bk my (Simd4f.splat factor) mz)

end Flat
end Graphene
