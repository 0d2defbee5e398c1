/-
  Specification vocabulary for floating-point accuracy: the real number a float stands for,
  the unit roundoff and the smallest positive values of binary32.
-/
import Verif.Model.Fp
import Mathlib.Data.Real.Basic

namespace Graphene
namespace Fp
variable {f : Fmt}

/-- The real number a finite datum stands for (an infinity is placed just above the
largest finite value, so that the order is right; NaN is irrelevant). -/
noncomputable def val (a : Fp f) : ℝ := (a.key : ℝ) / 2 ^ f.ubit

end Fp

/-- Largest finite value of a format. -/
noncomputable def Fmt.maxVal (f : Fmt) : ℝ := (2 ^ f.prec - 1) * 2 ^ (f.top - f.prec) / 2 ^ f.ubit

/-- Unit roundoff: half the distance from 1 to the next value. -/
noncomputable def Fmt.u (f : Fmt) : ℝ := 1 / 2 ^ f.prec

/-- Half of the smallest positive value. -/
noncomputable def Fmt.eta (f : Fmt) : ℝ := 1 / 2 / 2 ^ f.ubit

end Graphene
