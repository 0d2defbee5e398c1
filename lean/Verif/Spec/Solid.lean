/-
  Real-number meaning of the solid objects: the closed box between two corners and the closed
  ball around a centre.
-/
import Verif.Model.Box
import Verif.Model.RealScalar

namespace Graphene.Spec

/-- the points between two opposite corners -/
def between (lo hi : Point3D ℝ) : Set (Point3D ℝ) :=
  {p | lo.x ≤ p.x ∧ p.x ≤ hi.x ∧ lo.y ≤ p.y ∧ p.y ≤ hi.y ∧ lo.z ≤ p.z ∧ p.z ≤ hi.z}
/-- the points between two opposite corners, in the plane -/
def between2 (lo hi : Point ℝ) : Set (Point ℝ) :=
  {p | lo.x ≤ p.x ∧ p.x ≤ hi.x ∧ lo.y ≤ p.y ∧ p.y ≤ hi.y}
/-- every coordinate of `lo` is at most that of `hi` -/
def CornersLe (lo hi : Point3D ℝ) : Prop := lo.x ≤ hi.x ∧ lo.y ≤ hi.y ∧ lo.z ≤ hi.z
/-- squared Euclidean distance -/
def distSq (p q : Point3D ℝ) : ℝ := (p.x - q.x) ^ 2 + (p.y - q.y) ^ 2 + (p.z - q.z) ^ 2
/-- Euclidean distance of two points -/
noncomputable def eucl (p q : Point3D ℝ) : ℝ := √(distSq p q)

end Graphene.Spec
