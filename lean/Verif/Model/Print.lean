/-
  The debugging output of matrices.
-/
import Verif.Model.GMatrix
import Verif.Model.Fp

namespace Graphene
variable [Libm binary32]

/-- One decimal digit. -/
def digitChar (n : Nat) : Char := Char.ofNat (48 + n % 10)

/-- A natural number in decimal, without leading zeros: part of the C library's `%f` conversion (called from matrix.c:2305-2310). -/
def decimal (n : Nat) : List Char :=
  if h : n < 10 then [digitChar n] else decimal (n / 10) ++ [digitChar n]
termination_by n

/-- The last `k` decimal digits of a number, with leading zeros: part of the C library's `%f` conversion (called from
matrix.c:2305-2310). -/
def lastDigits : Nat → Nat → List Char
  | 0, _ => []
  | k + 1, n => lastDigits k (n / 10) ++ [digitChar n]

/-- A quotient of naturals rounded to an integer, ties to even: the rounding of the C library's `%f` conversion (called from
matrix.c:2305-2310) in the default rounding mode. -/
def nearestNat (a b : Nat) : Nat :=
  let q := a / b
  let r := a % b
  if 2 * r < b then q else if b < 2 * r then q + 1 else q + q % 2

/-- The C library's `%+.6f` of a `float` (promoted to `double`, which is exact), called from matrix.c:2305-2310.  Simplification:
not-a-numbers have one sign. -/
def plusFixed6 : F32 → List Char
  | .nan => ['+', 'n', 'a', 'n']
  | .inf s => [if s then '-' else '+', 'i', 'n', 'f']
  | .fin s m _ =>
    let n := nearestNat (m * 10 ^ 6) (2 ^ 149)
    (if s then '-' else '+') :: decimal (n / 10 ^ 6) ++ '.' :: lastDigits 6 n

/-- One line of `graphene_matrix_print` (matrix.c:2305-2310). -/
def GMatrix.printRow (m : M4 F32) (i : Nat) : List Char :=
  ['|', ' '] ++ plusFixed6 (GMatrix.getValue m i 0) ++ [' '] ++ plusFixed6 (GMatrix.getValue m i 1) ++ [' '] ++
    plusFixed6 (GMatrix.getValue m i 2) ++ [' '] ++ plusFixed6 (GMatrix.getValue m i 3) ++ [' ', '|', '\n']

/-- What `graphene_matrix_print` (matrix.c:2300-2312) writes to the standard error stream. -/
def GMatrix.print (m : M4 F32) : List Char := (List.range 4).flatMap (GMatrix.printRow m)

end Graphene
