/-
  The scalar arithmetic the model is written against.

  Every definition of the graphene model is written ONCE, generically over a
  type `α` of C `float` values with the operations below.  It is then
  interpreted in two ways:

  * `α := Fp binary32` (file `Verif/Model/Fp.lean`): IEEE-754 binary32 with NaN,
    infinities, signed zeros, subnormals and round-to-nearest-even;
  * `α := ℝ` (file `Verif/Model/RealScalar.lean`): exact arithmetic ("no rounding").

  No laws are assumed here: this class is only a signature.
-/
namespace Graphene

/-- Signature of C `float` arithmetic as used by graphene: the operators of the
C language plus the `<math.h>` functions called in /repo/src and /repo/include
(`fabsf`, `sqrtf`, `floorf`, `ceilf`, `sinf`, `cosf`, `tanf`, `asinf`, `acosf`,
`atan2f`, `copysignf`, `isnan`, `isinf`, `signbit`) and the two hardware
estimate instructions used by the SSE and NEON backends
(include/graphene-simd4f.h:303-322, 1291-1331). -/
class Scalar (α : Type) where
  /-- the literal `n / d` (e.g. `0.5f` is `lit 1 2`) -/
  lit : Int → Nat → α
  /-- `INFINITY` -/
  inf : α
  add : α → α → α
  sub : α → α → α
  mul : α → α → α
  div : α → α → α
  /-- fused multiply-add (`_mm_fmadd_ps`) -/
  fma : α → α → α → α
  neg : α → α
  abs : α → α
  sqrt : α → α
  floor : α → α
  ceil : α → α
  copysign : α → α → α
  lt : α → α → Bool
  le : α → α → Bool
  /-- C `==` -/
  feq : α → α → Bool
  isNaN : α → Bool
  isInf : α → Bool
  signbit : α → Bool
  /-- `GRAPHENE_PI` (include/graphene-macros.h:108) -/
  pi : α
  sin : α → α
  cos : α → α
  tan : α → α
  asin : α → α
  acos : α → α
  atan2 : α → α → α
  /-- `_mm_rcp_ps` / `vrecpeq_f32`, one lane -/
  rcpEst : α → α
  /-- `_mm_rsqrt_ps` / `vrsqrteq_f32`, one lane -/
  rsqrtEst : α → α

/-- Conversions between C `float` (`α`) and C `double` (`δ`). -/
class FloatConv (α : Type) (δ : outParam Type) where
  widen : α → δ
  narrow : δ → α

infixl:65 " +. " => Scalar.add
infixl:65 " -. " => Scalar.sub
infixl:70 " *. " => Scalar.mul
infixl:70 " /. " => Scalar.div
infix:50 " <. " => Scalar.lt
infix:50 " <=. " => Scalar.le
/-- C `a > b` is C `b < a` (also for NaN operands). -/
notation:50 a:51 " >. " b:51 => Scalar.lt b a
/-- C `a >= b` is C `b <= a` (also for NaN operands). -/
notation:50 a:51 " >=. " b:51 => Scalar.le b a

section
variable {α : Type} [Scalar α]

/-- `0.f` -/
def f0 : α := Scalar.lit 0 1
/-- `1.f` -/
def f1 : α := Scalar.lit 1 1
/-- `2.f` -/
def f2 : α := Scalar.lit 2 1
/-- `FLT_EPSILON` = 2^-23 (C `<float.h>`; src/graphene-private.h:38) -/
def fltEps : α := Scalar.lit 1 8388608

/-- `MIN (a, b)`: `a < b ? a : b` (src/graphene-private.h:40-51). -/
def cMin (a b : α) : α := if a <. b then a else b
/-- `MAX (a, b)`: `a > b ? a : b` (src/graphene-private.h:53-64). -/
def cMax (a b : α) : α := if a >. b then a else b
/-- `CLAMP (v, min, max)` (src/graphene-private.h:66-78). -/
def cClamp (v lo hi : α) : α := if v <. lo then lo else if v >. hi then hi else v

/-- `fmaxf` of `<math.h>`: a NaN operand is ignored.  (The sign of `fmaxf (+0, -0)` is
unspecified in C and not modelled.) -/
def fmaxf (a b : α) : α :=
  if Scalar.isNaN a then b else if Scalar.isNaN b then a else cMax a b

/-- `GRAPHENE_DEG_TO_RAD(x)`: `x * (PI / 180.f)` (src/graphene-private.h:88). -/
def degToRad (x : α) : α := x *. (Scalar.pi /. Scalar.lit 180 1)
/-- `GRAPHENE_RAD_TO_DEG(x)`: `x * (180.f / PI)` (src/graphene-private.h:89). -/
def radToDeg (x : α) : α := x *. (Scalar.lit 180 1 /. Scalar.pi)

/-- `graphene_fuzzy_equals (n1, n2, epsilon)` (src/graphene-private.h:91-106). -/
def fuzzyEquals (n1 n2 epsilon : α) : Bool :=
  (if n1 >. n2 then n1 -. n2 else n2 -. n1) <. epsilon

/-- `graphene_approx_val` (src/graphene-private.h:116-120). -/
def approxVal (a b : α) : Bool := fuzzyEquals a b fltEps

end

/-- `graphene_flerpf` (src/graphene-private.h:122-126); `graphene_lerp` on `float`
operands is this function (146-157).  The arithmetic is done in `double`. -/
def flerpf {α δ : Type} [Scalar δ] [FloatConv α δ] (a b : α) (factor : δ) : α :=
  FloatConv.narrow
    (((Scalar.lit 1 1 -. factor) *. FloatConv.widen a) +. (factor *. FloatConv.widen b))

/-- A typed memory: what a pointer to a `T` dereferences to. -/
abbrev Mem (T : Type) := Nat → T
/-- A C pointer: `none` is `NULL`, `some a` the address `a`. -/
abbrev Ptr := Option Nat

/-- `graphene_pointer_equal` (src/graphene-private.h:174-189); the comparison
function is never `NULL` at its call sites. -/
def pointerEqual {T : Type} (m : Mem T) (p1 p2 : Ptr) (func : T → T → Bool) : Bool :=
  if p1 = p2 then true
  else match p1, p2 with
    | some a, some b => func (m a) (m b)
    | _, _ => false

end Graphene
