import Mathlib.Algebra.Order.Field.Rat
import Mathlib.Data.Nat.Digits.Defs
import Verif.Convertors
/-!
# Specification vocabulary: decimal numbers and their texts
-/

namespace Solsab.Spec

/-- A decimal number as written: a sign, the digits before the point and, if there is a point, those after it, most
significant digit first. -/
structure Decimal where
  neg : Bool
  int : List (Fin 10)
  frac : Option (List (Fin 10))

/-- The character of a digit. -/
def digit (d : Fin 10) : Char := ['0', '1', '2', '3', '4', '5', '6', '7', '8', '9'].get d

/-- How the number is written. -/
def Decimal.write (x : Decimal) : List Char :=
  (if x.neg then ['-'] else []) ++ x.int.map digit ++
    (match x.frac with
    | none => []
    | some f => '.' :: f.map digit)

/-- The number a row of digits stands for. -/
def numeral (ds : List (Fin 10)) : Nat := Nat.ofDigits 10 (ds.reverse.map Fin.val)

/-- The digits after the point. -/
def Decimal.places (x : Decimal) : List (Fin 10) := x.frac.getD []

/-- The number that is meant. -/
def Decimal.value (x : Decimal) : ℚ :=
  (if x.neg then -1 else 1) * (numeral x.int + numeral x.places / 10 ^ x.places.length)

open Convert in
/-- The three functions with the decimals of their tokens. -/
def converters (j : Rounding) : List ((Amount → Except Convert.Err Int) × Nat) := [(dai j, 9), (sol j, 9), (usdc j, 6)]

end Solsab.Spec
