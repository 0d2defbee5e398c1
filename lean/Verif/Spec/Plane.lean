/- What a plane means: the signed value `n·q + c` of its equation at a point. -/
import Verif.Model.Plane
import Verif.Spec.Solid

namespace Graphene.Spec

/-- the value of the plane equation at a point; the plane is its zero set, the half-space in front
of it where it is positive -/
noncomputable def side (p : Plane ℝ) (q : Point3D ℝ) : ℝ :=
  p.normal.getX * q.x + p.normal.getY * q.y + p.normal.getZ * q.z + p.constant
/-- the set of points of the plane -/
def planePts (p : Plane ℝ) : Set (Point3D ℝ) := {q | side p q = 0}
/-- the normal has length one -/
def UnitNormal (p : Plane ℝ) : Prop :=
  p.normal.getX ^ 2 + p.normal.getY ^ 2 + p.normal.getZ ^ 2 = 1

end Graphene.Spec
