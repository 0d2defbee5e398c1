/-
  C127: a call stores its result as if the operands had been read first, whichever of them the
  result pointer is (points, sizes, rectangles, quads).
-/
import Verif.Model.Memory

namespace Graphene
open Scalar Flat

/-- The object of `n` cells at `a` is the one of `k` cells at `b`, or they do not overlap. -/
def Spec.SameOrApart (a n b k : Nat) : Prop := a = b ∨ a + n ≤ b ∨ b + k ≤ a
/-- The objects do not overlap. -/
def Spec.Disjoint (a n b k : Nat) : Prop := a + n ≤ b ∨ b + k ≤ a
/-- `after` is `before` with the value `v` stored in the object at `res`: nothing else is written. -/
def Spec.Stored {T α : Type} [Obj T α] (before : Cells α) (res : Nat) (v : T) (after : Cells α) : Prop :=
  (Obj.get after res : T) = v ∧
    ∀ i, (i < res ∨ res + Obj.size T ≤ i) → after i = before i

section basics
variable {α : Type}
theorem st_eq (m : Cells α) (a : Nat) (v : α) : st m a v a = v := by simp [st]
theorem st_ne (m : Cells α) (a i : Nat) (v : α) (h : i ≠ a) : st m a v i = m i := by simp [st, h]
end basics

/-- reads of a sequence of stores, with distinct cells told apart by linear arithmetic -/
macro "cells" : tactic => `(tactic|
  simp (disch := omega) only [Obj.get, Obj.put, Obj.size, ldV, stV, st_eq, st_ne])
/-- a value and a frame -/
macro "stored" : tactic => `(tactic|
  (refine ⟨?_, fun i hi => ?_⟩ <;> (try simp only [Obj.size] at hi) <;> (try cells) <;> (try rfl)))

variable {α : Type} [Scalar α] {δ : Type} [Scalar δ] [FloatConv α δ]

/-- C127 for points, sizes and 3D points, the componentwise functions: either operand may be the result. -/
theorem C127_componentwise (m : Cells α) (a b res : Nat) (f : δ) (k : α)
    (ha : Spec.SameOrApart a 2 res 2) (hb : Spec.SameOrApart b 2 res 2) :
    Spec.Stored m res (Point.interpolate (Obj.get m a) (Obj.get m b) f) (pointInterpolate m a b f res)
    ∧ Spec.Stored m res (Size.interpolate (Obj.get m a) (Obj.get m b) f) (sizeInterpolate m a b f res)
    ∧ Spec.Stored m res (Size.scale (Obj.get m a) k) (sizeScale m a k res) := by
  simp only [Spec.SameOrApart] at ha hb
  simp only [pointInterpolate, sizeInterpolate, sizeScale]
  refine ⟨?_, ?_, ?_⟩ <;> stored

/-- C127 for 3D points: any operand may be the result. -/
theorem C127_points3d (bk : Backend) (m : Cells α) (a b res : Nat) (f : δ) (k : α)
    (ha : Spec.SameOrApart a 3 res 3) (hb : Spec.SameOrApart b 3 res 3) :
    Spec.Stored m res (Point3D.interpolate (Obj.get m a) (Obj.get m b) f) (point3dInterpolate m a b f res)
    ∧ Spec.Stored m res (Point3D.scale (Obj.get m a) k) (point3dScale m a k res)
    ∧ Spec.Stored m res (Point3D.cross bk (Obj.get m a) (Obj.get m b)) (point3dCross bk m a b res)
    ∧ Spec.Stored m res (Point3D.normalize bk (Obj.get m a)) (point3dNormalize bk m a res) := by
  simp only [Spec.SameOrApart] at ha hb
  simp only [point3dInterpolate, point3dScale, point3dCross, point3dNormalize, point3dFromSimd4f]
  refine ⟨?_, ?_, ?_, ?_⟩ <;> stored

/-- C127, normalising a point to a viewport, in place or not; the viewport is another object. -/
theorem C127_viewport (m : Cells α) (p v res : Nat) (near far : α)
    (hp : Spec.SameOrApart p 3 res 3) (hv : Spec.Disjoint v 4 res 3) :
    Spec.Stored m res (Point3D.normalizeViewport (Obj.get m p) (Obj.get m v) near far)
      (point3dNormalizeViewport m p v near far res) := by
  simp only [Spec.SameOrApart, Spec.Disjoint] at hp hv
  simp only [point3dNormalizeViewport]
  stored

section
omit [Scalar α]
theorem st_same (m : Cells α) (a : Nat) : st m a (m a) = m := by
  funext i; by_cases h : i = a
  · subst h; rw [st_eq]
  · rw [st_ne _ _ _ _ h]
theorem put_rect_get (m : Cells α) (r : Nat) (v : Rect α) : (Obj.get (Obj.put m r v) r : Rect α) = v := by cells
theorem put_rect_put (m : Cells α) (r : Nat) (v w : Rect α) : Obj.put (Obj.put m r v) r w = Obj.put m r w := by
  funext i
  by_cases h0 : i = r
  · subst h0; cells
  by_cases h1 : i = r + 1
  · subst h1; cells
  by_cases h2 : i = r + 2
  · subst h2; cells
  by_cases h3 : i = r + 3
  · subst h3; cells
  cells
theorem put_rect_stored (m : Cells α) (r : Nat) (v : Rect α) : Spec.Stored m r v (Obj.put m r v) := by stored
end

theorem normalizeInPlace_put (m : Cells α) (r : Nat) :
    rectNormalizeInPlace m r = Obj.put m r (Rect.normalize (Obj.get m r)) := by
  by_cases hw : (f0 >. m (r + 2)) = true <;> by_cases hh : (f0 >. m (r + 3)) = true <;> funext i
  all_goals
    by_cases h0 : i = r
    · subst h0
      simp (disch := omega) [rectNormalizeInPlace, Rect.normalize, Rect.normAxis, Obj.get, Obj.put, st_eq, st_ne, hw, hh]
    by_cases h1 : i = r + 1
    · subst h1
      simp (disch := omega) [rectNormalizeInPlace, Rect.normalize, Rect.normAxis, Obj.get, Obj.put, st_eq, st_ne, hw, hh]
    by_cases h2 : i = r + 2
    · subst h2
      simp (disch := omega) [rectNormalizeInPlace, Rect.normalize, Rect.normAxis, Obj.get, Obj.put, st_eq, st_ne, hw, hh]
    by_cases h3 : i = r + 3
    · subst h3
      simp (disch := omega) [rectNormalizeInPlace, Rect.normalize, Rect.normAxis, Obj.get, Obj.put, st_eq, st_ne, hw, hh]
    simp (disch := omega) [rectNormalizeInPlace, Rect.normalize, Rect.normAxis, Obj.get, Obj.put, st_ne, hw, hh]

theorem normalizeR_put (m : Cells α) (r res : Nat) :
    rectNormalizeR m r res = Obj.put m res (Rect.normalize (Obj.get m r)) := by
  simp only [rectNormalizeR]
  split
  · rw [normalizeInPlace_put, put_rect_get, put_rect_put]
  · rename_i h
    obtain rfl : res = r := by simpa using h
    exact normalizeInPlace_put m res

theorem rectInit_put (m : Cells α) (r : Nat) (x y w h : α) :
    rectInit m r x y w h = Obj.put m r (Rect.init x y w h) := by
  have : rectInit m r x y w h = rectNormalizeInPlace (Obj.put m r (⟨⟨x, y⟩, ⟨w, h⟩⟩ : Rect α)) r := rfl
  rw [this, normalizeInPlace_put, put_rect_get, put_rect_put]; rfl

/-- four separate stores -/
theorem put_rect_of (m : Cells α) (r : Nat) (a b c d : α) :
    st (st (st (st m r a) (r + 1) b) (r + 2) c) (r + 3) d = Obj.put m r (⟨⟨a, b⟩, ⟨c, d⟩⟩ : Rect α) := rfl

/-- C127 for rectangles: whatever object `res` is — an operand, part of one, or another — the call
stores the rectangle computed from the operands as they were, and nothing else.  (`r`, `a`, `b` and `res` are arbitrary.) -/
theorem C127_rects (m : Cells α) (a b r p res : Nat) (dx dy sh sv : α) (f : δ) :
    Spec.Stored m res (Rect.normalize (Obj.get m r)) (rectNormalizeR m r res)
    ∧ Spec.Stored m res (Rect.offset (Obj.get m r) dx dy) (rectOffsetR m r dx dy res)
    ∧ Spec.Stored m res (Rect.inset (Obj.get m r) dx dy) (rectInsetR m r dx dy res)
    ∧ Spec.Stored m res (Rect.round (Obj.get m r)) (rectRound m r res)
    ∧ Spec.Stored m res (Rect.roundExtents (Obj.get m r)) (rectRoundExtents m r res)
    ∧ Spec.Stored m res (Rect.scale (Obj.get m r) sh sv) (rectScale m r sh sv res)
    ∧ Spec.Stored m res (Rect.expand (Obj.get m r) (Obj.get m p)) (rectExpand m r p res)
    ∧ Spec.Stored m res (Rect.union (Obj.get m a) (Obj.get m b)) (rectUnion m a b res)
    ∧ Spec.Stored m res (Rect.interpolate (Obj.get m a) (Obj.get m b) f) (rectInterpolate m a b f res)
    ∧ ((rectIntersection m a b res).1 = (Rect.intersection (Obj.get m a) (Obj.get m b)).1
      ∧ Spec.Stored m res (Rect.intersection (Obj.get m a) (Obj.get m b)).2 (rectIntersection m a b res).2) := by
  refine ⟨?_, ?_, ?_, ?_, ?_, ?_, ?_, ?_, ?_, ?_, ?_⟩
  · rw [normalizeR_put]; exact put_rect_stored _ _ _
  · simp only [rectOffsetR, normalizeR_put]; stored
  · simp only [rectInsetR, normalizeR_put, Rect.inset, Rect.insetSize]
    generalize Rect.normalize (Obj.get m r) = v
    obtain ⟨⟨x, y⟩, ⟨w, h⟩⟩ := v
    by_cases hx : (dx >=. f0) = true <;> by_cases hy : (dy >=. f0) = true <;>
      simp only [hx, hy, if_true, if_false, Bool.false_eq_true] <;>
      refine ⟨?_, fun i hi => ?_⟩ <;> (try simp only [Obj.size] at hi) <;>
      cells <;> split <;> (try cells) <;> split <;> cells
  · simp only [rectRound, normalizeR_put]; stored
  · simp only [rectRoundExtents, normalizeR_put]; stored
  · simp only [rectScale, normalizeR_put]
    refine ⟨?_, fun i hi => ?_⟩
    · rw [put_rect_get]; cells; rfl
    · simp only [Obj.size] at hi; cells
  · simp only [rectExpand, normalizeInPlace_put]
    refine ⟨?_, fun i hi => ?_⟩
    · rw [put_rect_get]; cells; rfl
    · simp only [Obj.size] at hi; cells
  · simp only [rectUnion]; stored
  · simp only [rectInterpolate]; stored
  · simp only [rectIntersection, Rect.intersection]; split <;> rfl
  · simp only [rectIntersection, Rect.intersection]
    split <;> simp only [rectInit_put] <;> exact put_rect_stored _ _ _

/-- C127, the getters of a rectangle that store a point: the point may be the rectangle's own origin. -/
theorem C127_rect_points (m : Cells α) (r p : Nat) :
    Spec.Stored m p (Rect.getCenter (Obj.get m r)) (rectGetCenter m r p)
    ∧ Spec.Stored m p (Rect.getTopLeft (Obj.get m r)) (rectGetTopLeft m r p)
    ∧ Spec.Stored m p (Rect.getTopRight (Obj.get m r)) (rectGetTopRight m r p)
    ∧ Spec.Stored m p (Rect.getBottomLeft (Obj.get m r)) (rectGetBottomLeft m r p)
    ∧ Spec.Stored m p (Rect.getBottomRight (Obj.get m r)) (rectGetBottomRight m r p) := by
  simp only [rectGetCenter, rectGetTopLeft, rectGetTopRight, rectGetBottomLeft, rectGetBottomRight]
  refine ⟨?_, ?_, ?_, ?_, ?_⟩ <;> stored

/-- C127 for quads.  `graphene_quad_init` may be given the corner it is about to fill (or any point outside the quad), and a
rectangle's quad and a quad's bounds never read what they have written. -/
theorem C127_quads (bk : Backend) (m : Cells α) (q p1 p2 p3 p4 r res : Nat)
    (h1 : p1 = q ∨ Spec.Disjoint p1 2 q 8) (h2 : p2 = q + 2 ∨ Spec.Disjoint p2 2 q 8)
    (h3 : p3 = q + 4 ∨ Spec.Disjoint p3 2 q 8) (h4 : p4 = q + 6 ∨ Spec.Disjoint p4 2 q 8) (hr : Spec.Disjoint r 4 q 8) :
    Spec.Stored m q (Quad.init (Obj.get m p1) (Obj.get m p2) (Obj.get m p3) (Obj.get m p4)) (quadInit m q p1 p2 p3 p4)
    ∧ Spec.Stored m q (Quad.initFromRect (Obj.get m r)) (quadInitFromRect m q r)
    ∧ Spec.Stored m res (Quad.bounds bk (Obj.get m q)) (quadBounds bk m q res) := by
  simp only [Spec.Disjoint] at h1 h2 h3 h4 hr
  refine ⟨?_, ?_, ?_⟩
  · simp only [quadInit]
    refine ⟨?_, fun i hi => ?_⟩
    · cells; rfl
    · simp only [Obj.size] at hi; cells
  · simp only [quadInitFromRect, rectGetTopLeft, rectGetTopRight, rectGetBottomLeft, rectGetBottomRight]
    refine ⟨?_, fun i hi => ?_⟩
    · cells; rfl
    · simp only [Obj.size] at hi; cells
  · simp only [quadBounds, rectInit_put]
    exact put_rect_stored _ _ _

/-- C127 delimited: `graphene_quad_init` given its own corners in another order loses one of them — the corners are stored one
by one.  Exchanging the first two corners stores the second twice, for every quad. -/
theorem C127_quad_own_corners (m : Cells α) (q : Nat) :
    (Obj.get (quadInit m q (q + 2) q (q + 4) (q + 6)) q : Quad α)
      = Quad.init (Obj.get m (q + 2)) (Obj.get m (q + 2)) (Obj.get m (q + 4)) (Obj.get m (q + 6)) := by
  simp only [quadInit]; cells; rfl

end Graphene
