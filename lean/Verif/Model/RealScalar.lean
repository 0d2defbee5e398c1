/-
  Exact interpretation of the model's arithmetic: C `float` and `double` are both
  the real numbers.

  Simplifications, all recorded in DESIGN.md: no rounding, no NaN, no infinities
  (`INFINITY`, `isnan` and `isinf` are never relied on by a theorem stated over ℝ),
  `GRAPHENE_PI` is π, the hardware estimates are exact, and Lean's `x / 0 = 0`
  (theorems over ℝ state the divisor guards explicitly).
-/
import Verif.Model.Scalar
import Mathlib.Analysis.SpecialFunctions.Trigonometric.Inverse
import Mathlib.Analysis.SpecialFunctions.Trigonometric.Arctan
import Mathlib.Analysis.SpecialFunctions.Complex.Arg
import Mathlib.Analysis.Real.Sqrt

namespace Graphene

open Classical in
/-- Exact real arithmetic. `atan2 y x` is the argument of `x + iy`. -/
noncomputable instance instScalarReal : Scalar ℝ where
  lit n d := (n : ℝ) / (d : ℝ)
  inf := 0
  add := (· + ·)
  sub := (· - ·)
  mul := (· * ·)
  div := (· / ·)
  fma a b c := a * b + c
  neg a := -a
  abs a := |a|
  sqrt := Real.sqrt
  floor a := (⌊a⌋ : ℝ)
  ceil a := (⌈a⌉ : ℝ)
  copysign a b := if b < 0 then -|a| else |a|
  lt a b := decide (a < b)
  le a b := decide (a ≤ b)
  feq a b := decide (a = b)
  isNaN _ := false
  isInf _ := false
  signbit a := decide (a < 0)
  pi := Real.pi
  sin := Real.sin
  cos := Real.cos
  tan := Real.tan
  asin := Real.arcsin
  acos := Real.arccos
  atan2 y x := Complex.arg ⟨x, y⟩
  rcpEst a := a⁻¹
  rsqrtEst a := (Real.sqrt a)⁻¹

instance : FloatConv ℝ ℝ where
  widen := id
  narrow := id

namespace RealScalar
variable (a b c : ℝ)

@[simp] theorem lit_eq (n : Int) (d : Nat) : (Scalar.lit n d : ℝ) = (n : ℝ) / (d : ℝ) := rfl
@[simp] theorem add_eq : a +. b = a + b := rfl
@[simp] theorem sub_eq : a -. b = a - b := rfl
@[simp] theorem mul_eq : a *. b = a * b := rfl
@[simp] theorem div_eq : a /. b = a / b := rfl
@[simp] theorem fma_eq : Scalar.fma a b c = a * b + c := rfl
@[simp] theorem neg_eq : Scalar.neg a = -a := rfl
@[simp] theorem abs_eq : Scalar.abs a = |a| := rfl
@[simp] theorem sqrt_eq : Scalar.sqrt a = Real.sqrt a := rfl
@[simp] theorem floor_eq : Scalar.floor a = (⌊a⌋ : ℝ) := rfl
@[simp] theorem ceil_eq : Scalar.ceil a = (⌈a⌉ : ℝ) := rfl
@[simp] theorem lt_eq : (a <. b) = true ↔ a < b := by
  show decide _ = true ↔ _; simp
@[simp] theorem le_eq : (a <=. b) = true ↔ a ≤ b := by
  show decide _ = true ↔ _; simp
@[simp] theorem feq_eq : Scalar.feq a b = true ↔ a = b := by
  show decide _ = true ↔ _; simp
@[simp] theorem lt_eq_false : (a <. b) = false ↔ b ≤ a := by
  rw [← Bool.not_eq_true, lt_eq, not_lt]
@[simp] theorem le_eq_false : (a <=. b) = false ↔ b < a := by
  rw [← Bool.not_eq_true, le_eq, not_le]
@[simp] theorem isNaN_eq : Scalar.isNaN a = false := rfl
@[simp] theorem isInf_eq : Scalar.isInf a = false := rfl
@[simp] theorem signbit_eq : Scalar.signbit a = true ↔ a < 0 := by
  show decide _ = true ↔ _; simp
@[simp] theorem pi_eq : (Scalar.pi : ℝ) = Real.pi := rfl
@[simp] theorem sin_eq : Scalar.sin a = Real.sin a := rfl
@[simp] theorem cos_eq : Scalar.cos a = Real.cos a := rfl
@[simp] theorem tan_eq : Scalar.tan a = Real.tan a := rfl
@[simp] theorem asin_eq : Scalar.asin a = Real.arcsin a := rfl
@[simp] theorem acos_eq : Scalar.acos a = Real.arccos a := rfl
@[simp] theorem atan2_eq : Scalar.atan2 a b = Complex.arg ⟨b, a⟩ := rfl
@[simp] theorem rcpEst_eq : Scalar.rcpEst a = a⁻¹ := rfl
@[simp] theorem rsqrtEst_eq : Scalar.rsqrtEst a = (Real.sqrt a)⁻¹ := rfl
@[simp] theorem f0_eq : (f0 : ℝ) = 0 := by simp [f0]
@[simp] theorem f1_eq : (f1 : ℝ) = 1 := by simp [f1]
@[simp] theorem f2_eq : (f2 : ℝ) = 2 := by simp [f2]
@[simp] theorem widen_eq : (FloatConv.widen a : ℝ) = a := rfl
@[simp] theorem narrow_eq : (FloatConv.narrow a : ℝ) = a := rfl

end RealScalar
end Graphene
