/-
  What a rectangle means: the closed set of points it covers, whatever the signs of its
  width and height.
-/
import Verif.Model.Rect
import Verif.Model.RealScalar
import Mathlib.Order.Interval.Set.Basic

namespace Graphene.Spec

/-- smallest abscissa of the rectangle -/
noncomputable def left (r : Rect ℝ) : ℝ := min r.origin.x (r.origin.x + r.size.width)
/-- largest abscissa -/
noncomputable def right (r : Rect ℝ) : ℝ := max r.origin.x (r.origin.x + r.size.width)
/-- smallest ordinate -/
noncomputable def top (r : Rect ℝ) : ℝ := min r.origin.y (r.origin.y + r.size.height)
/-- largest ordinate -/
noncomputable def bottom (r : Rect ℝ) : ℝ := max r.origin.y (r.origin.y + r.size.height)

/-- the closed set of points covered by a rectangle -/
def area (r : Rect ℝ) : Set (Point ℝ) :=
  {p | left r ≤ p.x ∧ p.x ≤ right r ∧ top r ≤ p.y ∧ p.y ≤ bottom r}
/-- its interior -/
def interior (r : Rect ℝ) : Set (Point ℝ) :=
  {p | left r < p.x ∧ p.x < right r ∧ top r < p.y ∧ p.y < bottom r}

end Graphene.Spec
