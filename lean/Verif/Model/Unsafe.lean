/-
  What the compiler may do to straight-line arithmetic.

  meson.build:87-94 passes `-fno-math-errno -funsafe-math-optimizations -fno-rounding-math` where the compiler supports them, and GCC
  contracts by default.  So the C text `a*b + c*d` may be evaluated in another order, factored, or with fused multiply-adds.  The rest
  of the model evaluates strictly as written; this file models the freedom.

  The model is generic over the type of scalars, so instantiating a function at the type `FExpr` of expressions yields its syntax: the
  expression the C text writes for each lane of the result.
-/
import Verif.Model.Fp

namespace Graphene

/-- Expressions over the components of the arguments (`var`).  Division, roots, comparisons and library functions are not represented
(`junk`); functions that use them have no meaning here. -/
inductive FExpr where
  | var (i : Nat)
  | lit (n : Int) (d : Nat)
  | add (a b : FExpr)
  | sub (a b : FExpr)
  | mul (a b : FExpr)
  | neg (a : FExpr)
  | fma (a b c : FExpr)
  | junk

/-- The syntax of the model's functions (`Scalar` interpretation in expressions). -/
instance : Scalar FExpr where
  lit := .lit
  inf := .junk
  add := .add
  sub := .sub
  mul := .mul
  div _ _ := .junk
  fma := .fma
  neg := .neg
  abs _ := .junk
  sqrt _ := .junk
  floor _ := .junk
  ceil _ := .junk
  copysign _ _ := .junk
  lt _ _ := false
  le _ _ := false
  feq _ _ := false
  isNaN _ := false
  isInf _ := false
  signbit _ := false
  pi := .junk
  sin _ := .junk
  cos _ := .junk
  tan _ := .junk
  asin _ := .junk
  acos _ := .junk
  atan2 _ _ := .junk
  rcpEst _ := .junk
  rsqrtEst _ := .junk

namespace FExpr

/-- Evaluation in single precision, one rounding per operation, in the order written. -/
def eval (env : Nat → F32) : FExpr → F32
  | var i => env i
  | lit n d => Fp.lit n d
  | add a b => Fp.add (eval env a) (eval env b)
  | sub a b => Fp.sub (eval env a) (eval env b)
  | mul a b => Fp.mul (eval env a) (eval env b)
  | neg a => Fp.neg (eval env a)
  | fma a b c => Fp.fma (eval env a) (eval env b) (eval env c)
  | junk => .nan

/-- One rewriting of `-funsafe-math-optimizations` (meson.build:89: `-fassociative-math`, `-fno-signed-zeros`, `-fno-trapping-math`) or
of contraction, at the root.  Not included, because they need `-ffinite-math-only`, which meson.build:90 leaves out: `x - x` to 0 and
`0 * x` to 0.  Constants are folded (`fold`) when the product is exact. -/
inductive Rule : FExpr → FExpr → Prop
  | add_comm a b : Rule (add a b) (add b a)
  | add_assoc a b c : Rule (add (add a b) c) (add a (add b c))
  | add_assoc' a b c : Rule (add a (add b c)) (add (add a b) c)
  | mul_comm a b : Rule (mul a b) (mul b a)
  | mul_assoc a b c : Rule (mul (mul a b) c) (mul a (mul b c))
  | mul_assoc' a b c : Rule (mul a (mul b c)) (mul (mul a b) c)
  | distrib a b c : Rule (mul a (add b c)) (add (mul a b) (mul a c))
  | factor a b c : Rule (add (mul a b) (mul a c)) (mul a (add b c))
  | sub_add a b : Rule (sub a b) (add a (neg b))
  | add_sub a b : Rule (add a (neg b)) (sub a b)
  | neg_neg a : Rule (neg (neg a)) a
  | neg_add a b : Rule (neg (add a b)) (add (neg a) (neg b))
  | add_neg a b : Rule (add (neg a) (neg b)) (neg (add a b))
  | neg_mul a b : Rule (neg (mul a b)) (mul (neg a) b)
  | mul_neg a b : Rule (mul (neg a) b) (neg (mul a b))
  | contract a b c : Rule (add (mul a b) c) (fma a b c)
  | expand a b c : Rule (fma a b c) (add (mul a b) c)
  | add_zero a : Rule (add a (lit 0 1)) a
  | mul_one a : Rule (mul a (lit 1 1)) a
  | double a : Rule (add a a) (mul (lit 2 1) a)
  | twice a : Rule (mul (lit 2 1) a) (add a a)
  | fold n d m e : n ≠ 0 → m ≠ 0 → (n * m).natAbs ≤ 2 ^ 24 → d * e ∣ 2 ^ 149 → Rule (mul (lit n d) (lit m e)) (lit (n * m) (d * e))
  | cancel a b : Rule (sub (add a b) a) b
  | cancel' a b : Rule (add (sub a b) b) a

/-- One rewriting anywhere in an expression. -/
inductive Step : FExpr → FExpr → Prop
  | root {a b} : Rule a b → Step a b
  | add_left {a b} (c) : Step a b → Step (add a c) (add b c)
  | add_right {a b} (c) : Step a b → Step (add c a) (add c b)
  | sub_left {a b} (c) : Step a b → Step (sub a c) (sub b c)
  | sub_right {a b} (c) : Step a b → Step (sub c a) (sub c b)
  | mul_left {a b} (c) : Step a b → Step (mul a c) (mul b c)
  | mul_right {a b} (c) : Step a b → Step (mul c a) (mul c b)
  | neg_in {a b} : Step a b → Step (neg a) (neg b)
  | fma_1 {a b} (c d) : Step a b → Step (fma a c d) (fma b c d)
  | fma_2 {a b} (c d) : Step a b → Step (fma c a d) (fma c b d)
  | fma_3 {a b} (c d) : Step a b → Step (fma c d a) (fma c d b)

/-- The compiler may emit `b` for `a`: any number of rewritings. -/
inductive Emits (a : FExpr) : FExpr → Prop
  | source : Emits a a
  | step {b c} : Emits a b → Step b c → Emits a c

end FExpr
end Graphene
