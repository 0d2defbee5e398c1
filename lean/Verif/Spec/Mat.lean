/-
  What the 4×4 matrices and vectors of the library denote: Mathlib matrices and row vectors.
-/
import Verif.Model.GMatrix
import Verif.Model.RealScalar
import Mathlib.LinearAlgebra.Matrix.Determinant.Basic
import Mathlib.LinearAlgebra.Matrix.Notation

namespace Graphene.Spec

/-- the four components of a vector -/
def vec {α : Type} (v : V4 α) : Fin 4 → α := ![v.x, v.y, v.z, v.w]

/-- the matrix whose rows are the four stored vectors -/
def mat {α : Type} (m : M4 α) : Matrix (Fin 4) (Fin 4) α :=
  Matrix.of ![vec m.x, vec m.y, vec m.z, vec m.w]

/-- the homogeneous coordinates `(x, y, z, 1)` of a point -/
def hom (p : Point3D ℝ) : Fin 4 → ℝ := ![p.x, p.y, p.z, 1]

/-- the homogeneous coordinates `(x, y, z, 0)` of a direction -/
def dir (p : Point3D ℝ) : Fin 4 → ℝ := ![p.x, p.y, p.z, 0]

/-- affine matrices: the last column is `(0, 0, 0, 1)` -/
def Affine (m : M4 ℝ) : Prop := m.x.w = 0 ∧ m.y.w = 0 ∧ m.z.w = 0 ∧ m.w.w = 1

end Graphene.Spec
