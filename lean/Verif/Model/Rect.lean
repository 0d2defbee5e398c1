/-
  Model of src/graphene-rect.c.  Each function is modelled on values; the ones
  whose result pointer may alias an argument and that write before their last
  read are modelled a second time as a sequence of stores on a memory (`…P`).
-/
import Verif.Model.Point

namespace Graphene

/-- Store `v` at address `a`. -/
def Mem.upd {T : Type} (m : Mem T) (a : Nat) (v : T) : Mem T := fun i => if i = a then v else m i

namespace Rect
variable {α : Type} [Scalar α]

/-- one axis of `graphene_rect_normalize_in_place` (rect.c:56-62, 64-70): new origin
coordinate and new size. -/
def normAxis (o s : α) : α × α :=
  if s <. f0 then (o -. Scalar.abs s, Scalar.abs s) else (o, s)
/-- `graphene_rect_normalize_in_place` (rect.c:53-71), as a function; also
`graphene_rect_normalize` (209-215). -/
def normalize (r : Rect α) : Rect α :=
  let h := normAxis r.origin.x r.size.width
  let v := normAxis r.origin.y r.size.height
  ⟨⟨h.1, v.1⟩, ⟨h.2, v.2⟩⟩
/-- `graphene_rect_init` (rect.c:121-134). -/
def init (x y width height : α) : Rect α := normalize ⟨Point.init x y, Size.init width height⟩
/-- `graphene_rect_init_from_rect` (rect.c:150-159). -/
def initFromRect (src : Rect α) : Rect α := normalize src
/-- `rect_equal` (rect.c:161-175).  The four pointers it compares are distinct locals'
fields, so the pointer shortcuts of point_equal and size_equal do not fire. -/
def equalV (a b : Rect α) : Bool :=
  let ra := normalize a
  let rb := normalize b
  Point.equalV ra.origin rb.origin && Size.equalV ra.size rb.size
/-- `graphene_rect_equal` (rect.c:188-193). -/
def equal (m : Mem (Rect α)) (p1 p2 : Ptr) : Bool := pointerEqual m p1 p2 equalV
/-- `graphene_rect_normalize_r` (rect.c:231-239) on memory. -/
def normalizeRP (m : Mem (Rect α)) (r res : Nat) : Mem (Rect α) :=
  let m := if res ≠ r then m.upd res (m r) else m
  m.upd res (normalize (m res))
/-- `graphene_rect_get_center` (rect.c:250-262). -/
def getCenter (r : Rect α) : Point α :=
  let rr := normalize r
  Point.init (rr.origin.x +. (rr.size.width /. f2)) (rr.origin.y +. (rr.size.height /. f2))
/-- `graphene_rect_get_top_left` (rect.c:273-283). -/
def getTopLeft (r : Rect α) : Point α := (normalize r).origin
/-- `graphene_rect_get_top_right` (rect.c:294-304). -/
def getTopRight (r : Rect α) : Point α :=
  let rr := normalize r
  Point.init (rr.origin.x +. rr.size.width) rr.origin.y
/-- `graphene_rect_get_bottom_left` (rect.c:315-325). -/
def getBottomLeft (r : Rect α) : Point α :=
  let rr := normalize r
  Point.init rr.origin.x (rr.origin.y +. rr.size.height)
/-- `graphene_rect_get_bottom_right` (rect.c:336-348). -/
def getBottomRight (r : Rect α) : Point α :=
  let rr := normalize r
  Point.init (rr.origin.x +. rr.size.width) (rr.origin.y +. rr.size.height)
/-- `graphene_rect_get_vertices` (rect.c:360-372): the four vertices in order. -/
def getVertices (r : Rect α) : List (Vec2 α) :=
  let rr := normalize r
  [Vec2.init rr.origin.x rr.origin.y,
   Vec2.init (rr.origin.x +. rr.size.width) rr.origin.y,
   Vec2.init (rr.origin.x +. rr.size.width) (rr.origin.y +. rr.size.height),
   Vec2.init rr.origin.x (rr.origin.y +. rr.size.height)]
/-- `graphene_rect_get_x` (rect.c:374-384, 397). -/
def getX (r : Rect α) : α := (normalize r).origin.x
/-- `graphene_rect_get_y` (rect.c:410). -/
def getY (r : Rect α) : α := (normalize r).origin.y
/-- `graphene_rect_get_width` (rect.c:422). -/
def getWidth (r : Rect α) : α := (normalize r).size.width
/-- `graphene_rect_get_height` (rect.c:434). -/
def getHeight (r : Rect α) : α := (normalize r).size.height
/-- `graphene_rect_get_area` (rect.c:448-456). -/
def getArea (r : Rect α) : α :=
  let rr := normalize r
  rr.size.width *. rr.size.height
/-- `graphene_rect_union` (rect.c:472-490).  `a` and `b` are copied before `res` is
written, so `res` may alias them. -/
def union (a b : Rect α) : Rect α :=
  let ra := normalize a
  let rb := normalize b
  let x := cMin ra.origin.x rb.origin.x
  let y := cMin ra.origin.y rb.origin.y
  ⟨⟨x, y⟩,
   ⟨cMax (ra.origin.x +. ra.size.width) (rb.origin.x +. rb.size.width) -. x,
    cMax (ra.origin.y +. ra.size.height) (rb.origin.y +. rb.size.height) -. y⟩⟩
/-- `graphene_rect_intersection` (rect.c:512-543): the returned boolean and `*res`. -/
def intersection (a b : Rect α) : Bool × Rect α :=
  let ra := normalize a
  let rb := normalize b
  let x1 := cMax ra.origin.x rb.origin.x
  let y1 := cMax ra.origin.y rb.origin.y
  let x2 := cMin (ra.origin.x +. ra.size.width) (rb.origin.x +. rb.size.width)
  let y2 := cMin (ra.origin.y +. ra.size.height) (rb.origin.y +. rb.size.height)
  if x1 >=. x2 || y1 >=. y2 then (false, init f0 f0 f0 f0)
  else (true, init x1 y1 (x2 -. x1) (y2 -. y1))
/-- `graphene_rect_contains_point` (rect.c:556-569). -/
def containsPoint (r : Rect α) (p : Point α) : Bool :=
  let rr := normalize r
  p.x >=. rr.origin.x && p.y >=. rr.origin.y &&
  p.x <=. (rr.origin.x +. rr.size.width) && p.y <=. (rr.origin.y +. rr.size.height)
/-- `graphene_rect_contains_rect` (rect.c:583-592); `&res` is a local, distinct from `a`. -/
def containsRect (a b : Rect α) : Bool := equalV a (union a b)
/-- `graphene_rect_offset_r` (rect.c:632-642); `graphene_rect_offset` (608-616). -/
def offset (r : Rect α) (dx dy : α) : Rect α :=
  let rr := normalize r
  ⟨⟨rr.origin.x +. dx, rr.origin.y +. dy⟩, rr.size⟩
/-- `graphene_rect_offset_r` (rect.c:632-642) on memory; `graphene_rect_offset` passes
`res = r`. -/
def offsetRP (m : Mem (Rect α)) (r : Nat) (dx dy : α) (res : Nat) : Mem (Rect α) :=
  let m := normalizeRP m r res
  let m := m.upd res { m res with origin := { (m res).origin with x := (m res).origin.x +. dx } }
  m.upd res { m res with origin := { (m res).origin with y := (m res).origin.y +. dy } }
/-- one axis of the size update of `graphene_rect_inset_r` (rect.c:714-717, 724-725). -/
def insetSize (s d : α) : α :=
  let s1 := if d >=. f0 then s -. (d *. f2) else s +. (d *. Scalar.lit (-2) 1)
  if s1 <. f0 then f0 else s1
/-- `graphene_rect_inset_r` (rect.c:703-729); `graphene_rect_inset` (669-677). -/
def inset (r : Rect α) (dx dy : α) : Rect α :=
  let rr := normalize r
  ⟨⟨rr.origin.x +. dx, rr.origin.y +. dy⟩, ⟨insetSize rr.size.width dx, insetSize rr.size.height dy⟩⟩
/-- `graphene_rect_inset_r` (rect.c:703-729) on memory. -/
def insetRP (m : Mem (Rect α)) (r : Nat) (dx dy : α) (res : Nat) : Mem (Rect α) :=
  let m := normalizeRP m r res
  let m := m.upd res { m res with origin := { (m res).origin with x := (m res).origin.x +. dx } }
  let m := m.upd res { m res with origin := { (m res).origin with y := (m res).origin.y +. dy } }
  let m := m.upd res { m res with size := { (m res).size with width :=
    if dx >=. f0 then (m res).size.width -. (dx *. f2)
    else (m res).size.width +. (dx *. Scalar.lit (-2) 1) } }
  let m := m.upd res { m res with size := { (m res).size with height :=
    if dy >=. f0 then (m res).size.height -. (dy *. f2)
    else (m res).size.height +. (dy *. Scalar.lit (-2) 1) } }
  let m := if (m res).size.width <. f0 then
    m.upd res { m res with size := { (m res).size with width := f0 } } else m
  if (m res).size.height <. f0 then
    m.upd res { m res with size := { (m res).size with height := f0 } } else m
/-- `graphene_rect_round` (rect.c:773-784); `graphene_rect_round_to_pixel` (745-751). -/
def round (r : Rect α) : Rect α :=
  let rr := normalize r
  ⟨⟨Scalar.floor rr.origin.x, Scalar.floor rr.origin.y⟩,
   ⟨Scalar.ceil rr.size.width, Scalar.ceil rr.size.height⟩⟩
/-- `graphene_rect_round` (rect.c:773-784) on memory. -/
def roundP (m : Mem (Rect α)) (r res : Nat) : Mem (Rect α) :=
  let m := normalizeRP m r res
  let m := m.upd res { m res with origin := { (m res).origin with x := Scalar.floor (m res).origin.x } }
  let m := m.upd res { m res with origin := { (m res).origin with y := Scalar.floor (m res).origin.y } }
  let m := m.upd res { m res with size := { (m res).size with width := Scalar.ceil (m res).size.width } }
  m.upd res { m res with size := { (m res).size with height := Scalar.ceil (m res).size.height } }
/-- `graphene_rect_round_extents` (rect.c:816-832). -/
def roundExtents (r : Rect α) : Rect α :=
  let rr := normalize r
  let x2 := rr.origin.x +. rr.size.width
  let y2 := rr.origin.y +. rr.size.height
  let x := Scalar.floor rr.origin.x
  let y := Scalar.floor rr.origin.y
  ⟨⟨x, y⟩, ⟨Scalar.ceil x2 -. x, Scalar.ceil y2 -. y⟩⟩
/-- `graphene_rect_round_extents` (rect.c:816-832) on memory. -/
def roundExtentsP (m : Mem (Rect α)) (r res : Nat) : Mem (Rect α) :=
  let m := normalizeRP m r res
  let x2 := (m res).origin.x +. (m res).size.width
  let y2 := (m res).origin.y +. (m res).size.height
  let m := m.upd res { m res with origin := { (m res).origin with x := Scalar.floor (m res).origin.x } }
  let m := m.upd res { m res with origin := { (m res).origin with y := Scalar.floor (m res).origin.y } }
  let m := m.upd res { m res with size := { (m res).size with width := Scalar.ceil x2 -. (m res).origin.x } }
  m.upd res { m res with size := { (m res).size with height := Scalar.ceil y2 -. (m res).origin.y } }
/-- `graphene_rect_expand` (rect.c:844-855). -/
def expand (r : Rect α) (p : Point α) : Rect α := normalize (union r (init p.x p.y f0 f0))
/-- `graphene_rect_interpolate` (rect.c:870-888). -/
def interpolate {δ : Type} [Scalar δ] [FloatConv α δ] (a b : Rect α) (factor : δ) : Rect α :=
  let ra := normalize a
  let rb := normalize b
  ⟨⟨flerpf ra.origin.x rb.origin.x factor, flerpf ra.origin.y rb.origin.y factor⟩,
   ⟨flerpf ra.size.width rb.size.width factor, flerpf ra.size.height rb.size.height factor⟩⟩
/-- `graphene_rect_zero` (rect.c:890, 902-906): a zero-initialised static. -/
def zero : Rect α := ⟨⟨f0, f0⟩, ⟨f0, f0⟩⟩
/-- `graphene_rect_scale` (rect.c:921-935). -/
def scale (r : Rect α) (sh sv : α) : Rect α :=
  let rr := normalize r
  normalize ⟨⟨rr.origin.x *. sh, rr.origin.y *. sv⟩, ⟨rr.size.width *. sh, rr.size.height *. sv⟩⟩
/-- `graphene_rect_scale` (rect.c:921-935) on memory. -/
def scaleP (m : Mem (Rect α)) (r : Nat) (sh sv : α) (res : Nat) : Mem (Rect α) :=
  let m := normalizeRP m r res
  let m := m.upd res { m res with origin := { (m res).origin with x := (m res).origin.x *. sh } }
  let m := m.upd res { m res with origin := { (m res).origin with y := (m res).origin.y *. sv } }
  let m := m.upd res { m res with size := { (m res).size with width := (m res).size.width *. sh } }
  let m := m.upd res { m res with size := { (m res).size with height := (m res).size.height *. sv } }
  normalizeRP m res res
/-- `graphene_rect_union` (rect.c:472-490) on memory: `a` and `b` are copied to locals,
then the four fields of `res` are stored one by one, re-reading `res->origin`. -/
def unionP (m : Mem (Rect α)) (a b res : Nat) : Mem (Rect α) :=
  let ra := normalize (m a)
  let rb := normalize (m b)
  let right := cMax (ra.origin.x +. ra.size.width) (rb.origin.x +. rb.size.width)
  let bottom := cMax (ra.origin.y +. ra.size.height) (rb.origin.y +. rb.size.height)
  let m := m.upd res { m res with origin := { (m res).origin with x := cMin ra.origin.x rb.origin.x } }
  let m := m.upd res { m res with origin := { (m res).origin with y := cMin ra.origin.y rb.origin.y } }
  let m := m.upd res { m res with size := { (m res).size with width := right -. (m res).origin.x } }
  m.upd res { m res with size := { (m res).size with height := bottom -. (m res).origin.y } }

end Rect
end Graphene
