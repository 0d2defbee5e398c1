/-
  IEEE-754 binary floating point (round-to-nearest-even), as an executable model.

  A finite value of a format is an integer number of "units" (the smallest
  positive subnormal), together with a sign.  binary32: unit = 2^-149; binary64:
  unit = 2^-1074.  All arithmetic is exact rational arithmetic followed by one
  rounding.  NaN payloads and signs are not modelled (there is one NaN).
-/
import Verif.Model.Scalar
import Mathlib.Data.Nat.Log

namespace Graphene

/-- A binary interchange format: precision, number of fractional bits of the
smallest positive value, and the overflow threshold `2^top` counted in units. -/
structure Fmt where
  prec : Nat
  ubit : Nat
  top : Nat
  prec_pos : 0 < prec

/-- IEEE-754 binary32, C `float`. -/
@[reducible] def binary32 : Fmt := ⟨24, 149, 277, by decide⟩
/-- IEEE-754 binary64, C `double`. -/
@[reducible] def binary64 : Fmt := ⟨53, 1074, 2098, by decide⟩

/-- Exponent (in units) of the last place of a magnitude whose integer part is `q`. -/
def Fmt.ulpExp (f : Fmt) (q : Nat) : Nat := q.log2 + 1 - f.prec

/-- Round the rational `num / den` (in units) to nearest, ties to even,
with an unbounded exponent range. -/
def Fmt.rnd (f : Fmt) (num den : Nat) : Nat :=
  let u := 2 ^ f.ulpExp (num / den)
  let d := den * u
  let q := num / d
  let r := num % d
  (if 2 * r < d then q else if d < 2 * r then q + 1 else q + q % 2) * u

/-- `m` units is a finite value of the format. -/
def Fmt.Rep (f : Fmt) (m : Nat) : Prop := m < 2 ^ f.top ∧ 2 ^ f.ulpExp m ∣ m

instance (f : Fmt) (m : Nat) : Decidable (f.Rep m) := by unfold Fmt.Rep; infer_instance

/-- The rounded magnitude is a multiple of its own unit in the last place. -/
theorem Fmt.rnd_dvd (f : Fmt) (num den : Nat) :
    2 ^ f.ulpExp (f.rnd num den) ∣ f.rnd num den := by
  have key : ∀ (t q : Nat), q ≤ 2 ^ f.prec →
      2 ^ f.ulpExp (q * 2 ^ t) ∣ q * 2 ^ t := by
    intro t q hq
    rcases Nat.lt_or_ge q (2 ^ f.prec) with h | h
    · rcases Nat.eq_zero_or_pos q with h0 | h0
      · subst h0; simp
      · have hlt : q * 2 ^ t < 2 ^ (f.prec + t) := by
          rw [Nat.pow_add]; exact Nat.mul_lt_mul_of_pos_right h (Nat.two_pow_pos t)
        have hne : q * 2 ^ t ≠ 0 := by
          have := Nat.two_pow_pos t; exact Nat.ne_of_gt (Nat.mul_pos h0 this)
        have : (q * 2 ^ t).log2 < f.prec + t := (Nat.log2_lt hne).2 hlt
        have hle : f.ulpExp (q * 2 ^ t) ≤ t := by unfold Fmt.ulpExp; omega
        exact Nat.dvd_trans (Nat.pow_dvd_pow 2 hle) (Nat.dvd_mul_left _ _)
    · have hq' : q = 2 ^ f.prec := Nat.le_antisymm hq h
      subst hq'
      rw [← Nat.pow_add]
      apply Nat.pow_dvd_pow
      unfold Fmt.ulpExp
      rw [Nat.log2_two_pow]
      have := f.prec_pos
      omega
  unfold Fmt.rnd
  simp only
  apply key
  -- the quotient fits in `prec` bits
  have hq : num / (den * 2 ^ f.ulpExp (num / den)) < 2 ^ f.prec := by
    rw [← Nat.div_div_eq_div_mul]
    generalize num / den = n
    rw [Nat.div_lt_iff_lt_mul (Nat.two_pow_pos _), ← Nat.pow_add]
    have hlog : n < 2 ^ (n.log2 + 1) := Nat.lt_log2_self
    refine Nat.lt_of_lt_of_le hlog (Nat.pow_le_pow_right (by decide) ?_)
    unfold Fmt.ulpExp; omega
  split
  · omega
  · split
    · omega
    · have : num / (den * 2 ^ f.ulpExp (num / den)) % 2 < 2 := Nat.mod_lt _ (by decide)
      omega

/-- A floating point datum of format `f`. -/
inductive Fp (f : Fmt) where
  | nan
  | inf (neg : Bool)
  | fin (neg : Bool) (mag : Nat) (h : f.Rep mag)

namespace Fp
variable {f : Fmt}

instance : DecidableEq (Fp f) := fun a b =>
  match a, b with
  | .nan, .nan => isTrue rfl
  | .inf s, .inf t => if h : s = t then isTrue (by rw [h]) else isFalse (by simpa using h)
  | .fin s m _, .fin t n _ =>
    if h : s = t ∧ m = n then isTrue (by obtain ⟨rfl, rfl⟩ := h; rfl)
    else isFalse (by simpa using h)
  | .nan, .inf _ => isFalse (by simp)
  | .nan, .fin .. => isFalse (by simp)
  | .inf _, .nan => isFalse (by simp)
  | .inf _, .fin .. => isFalse (by simp)
  | .fin .., .nan => isFalse (by simp)
  | .fin .., .inf _ => isFalse (by simp)

/-- Round `± num/den` units into the format; too large rounds to infinity. -/
def ofMag (f : Fmt) (neg : Bool) (num den : Nat) : Fp f :=
  if h : f.rnd num den < 2 ^ f.top then .fin neg (f.rnd num den) ⟨h, f.rnd_dvd num den⟩
  else .inf neg

theorem rep_zero (f : Fmt) : f.Rep 0 := ⟨Nat.two_pow_pos _, by simp⟩

/-- Signed zero. -/
def zero (neg : Bool) : Fp f := .fin neg 0 (rep_zero f)

/-- The signed integer number of units. -/
def sgn (neg : Bool) (m : Nat) : Int := if neg then -(m : Int) else m

/-- The literal `n / d` (a zero denominator never occurs in the sources). -/
def lit (n : Int) (d : Nat) : Fp f :=
  if 0 < d then ofMag f (decide (n < 0)) (n.natAbs * 2 ^ f.ubit) d else .nan

/-- Round an exact signed integer number of units over `den`; an exact zero
gets the sign `zneg`. -/
def ofInt (z : Int) (den : Nat) (zneg : Bool) : Fp f :=
  if z = 0 then zero zneg else ofMag f (decide (z < 0)) z.natAbs den

def neg : Fp f → Fp f
  | .nan => .nan
  | .inf s => .inf (!s)
  | .fin s m h => .fin (!s) m h

def abs : Fp f → Fp f
  | .nan => .nan
  | .inf _ => .inf false
  | .fin _ m h => .fin false m h

def signbit : Fp f → Bool
  | .nan => false
  | .inf s => s
  | .fin s _ _ => s

def isNaN : Fp f → Bool
  | .nan => true
  | _ => false

def isInf : Fp f → Bool
  | .inf _ => true
  | _ => false

def isFin : Fp f → Bool
  | .fin .. => true
  | _ => false

/-- `copysign (x, y)`: magnitude of `x`, sign of `y`. -/
def copysign (x y : Fp f) : Fp f := if signbit y then neg (abs x) else abs x

/-- IEEE addition: the sum of two zeros or an exact cancellation is `+0`
unless both operands are negative zero. -/
def add : Fp f → Fp f → Fp f
  | .nan, _ => .nan
  | _, .nan => .nan
  | .inf s, .inf t => if s = t then .inf s else .nan
  | .inf s, .fin .. => .inf s
  | .fin .., .inf t => .inf t
  | .fin s m _, .fin t n _ => ofInt (sgn s m + sgn t n) 1 (s && t)

def sub (a b : Fp f) : Fp f := add a (neg b)

def mul : Fp f → Fp f → Fp f
  | .nan, _ => .nan
  | _, .nan => .nan
  | .inf s, .inf t => .inf (s ^^ t)
  | .inf s, .fin t n _ => if n = 0 then .nan else .inf (s ^^ t)
  | .fin s m _, .inf t => if m = 0 then .nan else .inf (s ^^ t)
  | .fin s m _, .fin t n _ => ofMag f (s ^^ t) (m * n) (2 ^ f.ubit)

def div : Fp f → Fp f → Fp f
  | .nan, _ => .nan
  | _, .nan => .nan
  | .inf _, .inf _ => .nan
  | .inf s, .fin t _ _ => .inf (s ^^ t)
  | .fin s _ _, .inf t => zero (s ^^ t)
  | .fin s m _, .fin t n _ =>
    if 0 < n then ofMag f (s ^^ t) (m * 2 ^ f.ubit) n
    else if m = 0 then .nan else .inf (s ^^ t)

/-- fused multiply-add: one rounding of `a * b + c`. -/
def fma : Fp f → Fp f → Fp f → Fp f
  | .fin s m _, .fin t n _, .fin u k _ =>
    ofInt (sgn (s ^^ t) (m * n) + sgn u (k * 2 ^ f.ubit)) (2 ^ f.ubit) ((s ^^ t) && u)
  | .fin _ _ _, .fin _ _ _, c => c
  | a, b, c => add (mul a b) c

/-- Correctly rounded square root: `√N` is never a rounding tie, so rounding
`⌊√N⌋ + 1/2` in place of an inexact `√N` gives the same result (`√N` has at least
`ubit / 2` integer bits, far more than `prec`). -/
def sqrt : Fp f → Fp f
  | .nan => .nan
  | .inf s => if s then .nan else .inf s
  | .fin s m h =>
    if m = 0 then .fin s m h
    else if s then .nan
    else
      let N := m * 2 ^ f.ubit
      let r := Nat.sqrt N
      ofMag f false (2 * r + (if r * r = N then 0 else 1)) 2

/-- Round to an integer value, toward `-∞` when `down`, toward `+∞` otherwise;
the sign (also of a zero result) is the sign of the operand. -/
def toIntegral (down : Bool) : Fp f → Fp f
  | .nan => .nan
  | .inf s => .inf s
  | .fin s m _ =>
    let q := m / 2 ^ f.ubit
    let r := m % 2 ^ f.ubit
    let q' := if r ≠ 0 ∧ s = down then q + 1 else q
    ofMag f s (q' * 2 ^ f.ubit) 1

def floor (x : Fp f) : Fp f := toIntegral true x
def ceil (x : Fp f) : Fp f := toIntegral false x

/-- Position of a non-NaN value on the number line (in units). -/
def key : Fp f → Int
  | .nan => 0
  | .inf s => sgn s (2 ^ f.top)
  | .fin s m _ => sgn s m

def lt (a b : Fp f) : Bool := !a.isNaN && !b.isNaN && decide (a.key < b.key)
def le (a b : Fp f) : Bool := !a.isNaN && !b.isNaN && decide (a.key ≤ b.key)
def feq (a b : Fp f) : Bool := !a.isNaN && !b.isNaN && decide (a.key = b.key)

/-- Conversion between formats: exact value, one rounding. -/
def convert (g : Fmt) : Fp f → Fp g
  | .nan => .nan
  | .inf s => .inf s
  | .fin s m _ => ofMag g s (m * 2 ^ g.ubit) (2 ^ f.ubit)

end Fp

/-- C `float`. -/
abbrev F32 := Fp binary32
/-- C `double`. -/
abbrev F64 := Fp binary64

/-- The parts of the platform's libm and of the CPU that IEEE-754 does not
determine.  They are arbitrary functions: every theorem about the `Fp`
interpretation holds for all of them. -/
class Libm (f : Fmt) where
  sin : Fp f → Fp f
  cos : Fp f → Fp f
  tan : Fp f → Fp f
  asin : Fp f → Fp f
  acos : Fp f → Fp f
  atan2 : Fp f → Fp f → Fp f
  rcpEst : Fp f → Fp f
  rsqrtEst : Fp f → Fp f

/-- IEEE interpretation of the model's arithmetic.  Simplification: strict
evaluation in the written order, no contraction, no `-funsafe-math-optimizations`
rewriting (see DESIGN.md, trusted base). -/
instance instScalarFp (f : Fmt) [L : Libm f] : Scalar (Fp f) where
  lit := Fp.lit
  inf := .inf false
  add := Fp.add
  sub := Fp.sub
  mul := Fp.mul
  div := Fp.div
  fma := Fp.fma
  neg := Fp.neg
  abs := Fp.abs
  sqrt := Fp.sqrt
  floor := Fp.floor
  ceil := Fp.ceil
  copysign := Fp.copysign
  lt := Fp.lt
  le := Fp.le
  feq := Fp.feq
  isNaN := Fp.isNaN
  isInf := Fp.isInf
  signbit := Fp.signbit
  pi := Fp.lit 31415926535897932384626434 10000000000000000000000000
  sin := L.sin
  cos := L.cos
  tan := L.tan
  asin := L.asin
  acos := L.acos
  atan2 := L.atan2
  rcpEst := L.rcpEst
  rsqrtEst := L.rsqrtEst

/-- `float` ↔ `double` conversion. -/
instance : FloatConv F32 F64 where
  widen := Fp.convert binary64
  narrow := Fp.convert binary32

end Graphene
