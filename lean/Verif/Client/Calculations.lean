import Verif.Lockup.State
/-!
# `tests/lockup/utils/calculations.ts`

The TypeScript replica of `get_streamed_amount`.  `BN` values are unbounded signed integers, `div` truncates
towards zero and throws on a zero divisor.  `Amounts` and `Timestamps` hold the decoded (non-negative) numbers.
-/

namespace Solsab.Client

open Solsab.Lockup (Timestamps Amounts)

/-- `SCALING_FACTOR`, `lib/constants.ts:10`. -/
def SCALING_FACTOR : Int := 1000000000000000000

/-- `BN.prototype.div` (bn.js): throws on zero, otherwise truncating division. External, used at
`tests/lockup/utils/calculations.ts:30-33`. -/
def bnDiv (a b : Int) : Option Int := if b = 0 then none else some (Int.tdiv a b)

/-- `getStreamedAmount`, `tests/lockup/utils/calculations.ts:10-40`; `none` is an exception. -/
def getStreamedAmount (amounts : Amounts) (now : Int) (timestamps : Timestamps) : Option Int :=
  if (timestamps.start : Int) > now then some 0
  else if (timestamps.cliff : Int) > now then some amounts.startUnlock
  else if (timestamps.end : Int) ≤ now then some amounts.deposited
  else
    let unlockAmountsSum : Int := amounts.startUnlock + amounts.cliffUnlock
    if unlockAmountsSum ≥ amounts.deposited then some amounts.deposited
    else do
      let streamingStartTime : Int := if timestamps.cliff = 0 then timestamps.start else timestamps.cliff
      let elapsedTime := (now - streamingStartTime) * SCALING_FACTOR
      let streamableTimeRange := (timestamps.end : Int) - streamingStartTime
      let streamedPercentage ← bnDiv elapsedTime streamableTimeRange
      let streamableAmount := (amounts.deposited : Int) - unlockAmountsSum
      let streamedPortion ← bnDiv (streamedPercentage * streamableAmount) SCALING_FACTOR
      let streamedAmount := unlockAmountsSum + streamedPortion
      if streamedAmount > amounts.deposited then some amounts.deposited else some streamedAmount

end Solsab.Client
