/-!
# Amounts as clients write them

`lib/convertors.ts`: `dai`, `sol` and `usdc` turn a number or a decimal text into base units.  The text goes through
viem's `parseUnits` (external, as of viem 2.33, named in `package.json:33`).
-/

namespace Solsab.Convert

/-- A JavaScript number or string. `lib/convertors.ts:21`. -/
inductive Amount
  | integer (n : Int)
  /-- not an integer: a fraction, an infinity or NaN -/
  | nonInteger
  | text (s : List Char)

inductive Err
  /-- `Amount must be an integer`, `lib/convertors.ts:24-26` -/
  | notInteger
  /-- bn.js: `new BN(number)` asserts that the number is below 2^53 -/
  | unsafeNumber
  /-- viem: `InvalidDecimalNumberError` -/
  | notDecimal
  deriving DecidableEq

/-- `Decimals`, `lib/constants.ts:13-17`. -/
def DAI : Nat := 9
def SOL : Nat := 9
def USDC : Nat := 6

/-- `Math.round(Number("u.rest"))`, for the last digit kept `u` and the digits after it. `Number` yields a double nearest
to the text and is monotone; `u` and `u + 1/2` are doubles. So the result is `u` or `u + 1`; it is `u + 1` if the first
digit of `rest` is at least 5, and `u` if it is at most 3. In between (`u.4…`) the choice is left open: `u.49999999999999999999`
is read as `u.5`. External (JavaScript), no line of /repo. -/
structure Rounding where
  round : Nat → List Char → Nat
  near : ∀ u r, round u r = u ∨ round u r = u + 1
  up : ∀ u c r, '5' ≤ c → round u (c :: r) = u + 1
  down : ∀ u c r, c ≤ '3' → round u (c :: r) = u

/-- `BigInt` of a text of digits. External (JavaScript), no line of /repo. -/
def bigInt (s : List Char) : Nat := s.foldl (fun n c => 10 * n + (c.toNat - 48)) 0

/-- The digits of a number, in `k` places at least (template literal and `padStart`). External (JavaScript), no line of
/repo. -/
def padStart (k n : Nat) : List Char :=
  let s := Nat.toDigits 10 n
  List.replicate (k - s.length) '0' ++ s

/-- The fraction without its trailing zeros: `fraction.replace(/(0+)$/, '')`. External (viem), no line of /repo. -/
def trim (s : List Char) : List Char := (s.reverse.dropWhile (· = '0')).reverse

/-- `/^(-?)([0-9]*)\.?([0-9]*)$/` and `value.split('.')`: the sign, the integer and the fraction ("0" if there is no
point). External (viem), no line of /repo. -/
def split (s : List Char) : Option (Bool × List Char × List Char) :=
  let (neg, s) := match s with
    | '-' :: s => (true, s)
    | s => (false, s)
  let int := s.takeWhile Char.isDigit
  match s.dropWhile Char.isDigit with
  | [] => some (neg, int, ['0'])
  | '.' :: frac => if frac.all Char.isDigit then some (neg, int, frac) else none
  | _ => none

/-- `parseUnits`, from "round off if the fraction is larger than the number of decimals" on: the integer and the fraction,
the latter brought to `decimals` digits. External (viem), no line of /repo. -/
def scale (j : Rounding) (int frac : List Char) (decimals : Nat) : List Char × List Char :=
  if frac.length > decimals then
    let left := frac.take (decimals - 1)
    let unit := (frac.drop (decimals - 1)).take 1
    let right := frac.drop decimals
    let rounded := j.round (bigInt unit) right
    let frac :=
      if rounded > 9 then padStart (left.length + 1) (10 * (bigInt left + 1))
      else left ++ padStart 1 rounded
    if frac.length > decimals then (Nat.toDigits 10 (bigInt int + 1), (frac.drop 1).take decimals)
    else (int, frac.take decimals)
  else (int, frac ++ List.replicate (decimals - frac.length) '0')

/-- `parseUnits(value, decimals)` for `decimals > 0` (`Decimals` has no zero). External (viem), no line of /repo. -/
def parseUnits (j : Rounding) (s : List Char) (decimals : Nat) : Except Err Int :=
  match split s with
  | none => .error .notDecimal
  | some (neg, int, frac) =>
    let p := scale j int (trim frac) decimals
    let n := bigInt (p.1 ++ p.2)
    .ok (if neg then -(n : Int) else n)

/-- `convertTokenAmount`, `lib/convertors.ts:21-32`. -/
def convertTokenAmount (j : Rounding) (amount : Amount) (decimals : Nat) : Except Err Int :=
  match amount with
  | .nonInteger => .error .notInteger
  | .integer n => if n.natAbs < 2 ^ 53 then .ok (n * 10 ^ decimals) else .error .unsafeNumber
  | .text s => parseUnits j s decimals

/-- `dai`, `sol`, `usdc`, `lib/convertors.ts:34-44`. -/
def dai (j : Rounding) (a : Amount) : Except Err Int := convertTokenAmount j a DAI
def sol (j : Rounding) (a : Amount) : Except Err Int := convertTokenAmount j a SOL
def usdc (j : Rounding) (a : Amount) : Except Err Int := convertTokenAmount j a USDC

end Solsab.Convert
