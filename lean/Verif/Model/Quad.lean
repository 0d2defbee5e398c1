/-
  Model of src/graphene-line-segment-private.h and src/graphene-quad.c.
-/
import Verif.Model.Rect

namespace Graphene

/-- `graphene_line_segment_t` (line-segment-private.h:30-33). -/
@[ext] structure LineSegment (α : Type) where
  start : Point α
  stop : Point α
deriving DecidableEq

/-- `graphene_line_segment_points_on_same_side` (line-segment-private.h:46-61). -/
def LineSegment.pointsOnSameSide {α : Type} [Scalar α] (s : LineSegment α) (a b : Point α) : Bool :=
  let deltaX := s.stop.x -. s.start.x
  let deltaY := s.stop.y -. s.start.y
  let one := deltaX *. (a.y -. s.start.y) -. deltaY *. (a.x -. s.start.x)
  let two := deltaX *. (b.y -. s.start.y) -. deltaY *. (b.x -. s.start.x)
  (one >=. f0 && two >=. f0) || (one <=. f0 && two <=. f0)

/-- `graphene_quad_t`: `graphene_point_t points[4]` (include/graphene-quad.h). -/
@[ext] structure Quad (α : Type) where
  p0 : Point α
  p1 : Point α
  p2 : Point α
  p3 : Point α
deriving DecidableEq

namespace Quad
variable {α : Type} [Scalar α]

/-- `graphene_quad_init` (quad.c:89-102). -/
def init (p1 p2 p3 p4 : Point α) : Quad α := ⟨p1, p2, p3, p4⟩
/-- `graphene_quad_init_from_rect` (quad.c:116-126). -/
def initFromRect (r : Rect α) : Quad α :=
  ⟨r.getTopLeft, r.getTopRight, r.getBottomRight, r.getBottomLeft⟩
/-- `graphene_quad_init_from_points` (quad.c:139-146): `memcpy` of 4 points; `none` when
the array is shorter (out-of-bounds read). -/
def initFromPoints : List (Point α) → Option (Quad α)
  | a :: b :: c :: d :: _ => some ⟨a, b, c, d⟩
  | _ => none
/-- `graphene_quad_contains` (quad.c:159-174). -/
def contains (q : Quad α) (p : Point α) : Bool :=
  (LineSegment.mk q.p0 q.p1).pointsOnSameSide p q.p2 &&
  (LineSegment.mk q.p1 q.p2).pointsOnSameSide p q.p3 &&
  (LineSegment.mk q.p2 q.p3).pointsOnSameSide p q.p0 &&
  (LineSegment.mk q.p3 q.p0).pointsOnSameSide p q.p1
/-- `graphene_quad_bounds` (quad.c:185-203). -/
def bounds (bk : Backend) (q : Quad α) : Rect α :=
  let vx := Simd4f.init q.p0.x q.p1.x q.p2.x q.p3.x
  let vy := Simd4f.init q.p0.y q.p1.y q.p2.y q.p3.y
  let minX := (Simd4f.minVal bk vx).x
  let minY := (Simd4f.minVal bk vy).x
  let maxX := (Simd4f.maxVal bk vx).x
  let maxY := (Simd4f.maxVal bk vy).x
  Rect.init minX minY (maxX -. minX) (maxY -. minY)
/-- `graphene_quad_get_point` (quad.c:216-221): no bounds check, `none` is the
out-of-bounds access. -/
def getPoint (q : Quad α) (index : Nat) : Option (Point α) :=
  [q.p0, q.p1, q.p2, q.p3][index]?

end Quad
end Graphene
