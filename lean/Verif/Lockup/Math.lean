import Verif.Lockup.State
/-!
# `programs/lockup/src/utils/lockup_math.rs`

`now` is the value `get_current_time().unwrap()` returns.  Every `+ - * /` is the checked operation of
its Rust type; `unwrap()` on the clock does not fail on chain.
-/

namespace Solsab.Lockup

/-- `SCALING_FACTOR`, `lockup_math.rs:47`. -/
def SCALING_FACTOR : Nat := 1000000000000000000

/-- `get_streamed_amount`, `lockup_math.rs:6-68`. -/
def getStreamedAmount (now : Nat) (ts : Timestamps) (am : Amounts) (isDepleted wasCanceled : Bool) :
    Res Nat :=
  if isDepleted then
    .ok am.withdrawn
  else if wasCanceled then
    subU64 am.deposited am.refunded
  else if ts.start > now then
    .ok 0
  else if ts.cliff > now then
    .ok am.startUnlock
  else if ts.end ≤ now then
    .ok am.deposited
  else do
    let unlockAmountsSum ← addU64 am.startUnlock am.cliffUnlock
    if unlockAmountsSum ≥ am.deposited then
      .ok am.deposited
    else do
      let streamingStartTime := if ts.cliff = 0 then ts.start else ts.cliff
      let elapsed ← subU64 now streamingStartTime
      let elapsedTime ← mulU128 elapsed SCALING_FACTOR
      let streamableRange ← subU64 ts.end streamingStartTime
      let elapsedTimePercentage ← divChecked elapsedTime streamableRange
      let streamableAmount ← subU64 am.deposited unlockAmountsSum
      let product ← mulU128 elapsedTimePercentage streamableAmount
      let quotient ← divChecked product SCALING_FACTOR
      let streamedAmount ← addU64 unlockAmountsSum (asU64 quotient)
      if streamedAmount > am.deposited then
        .ok am.withdrawn
      else
        .ok streamedAmount

/-- `get_refundable_amount`, `lockup_math.rs:70-85`. -/
def getRefundableAmount (now : Nat) (ts : Timestamps) (am : Amounts)
    (isCancelable isDepleted wasCanceled : Bool) : Res Nat :=
  if isCancelable && !isDepleted then do
    let streamed ← getStreamedAmount now ts am isDepleted wasCanceled
    subU64 am.deposited streamed
  else
    .ok 0

/-- `get_withdrawable_amount`, `lockup_math.rs:87-94`. -/
def getWithdrawableAmount (now : Nat) (ts : Timestamps) (am : Amounts)
    (isDepleted wasCanceled : Bool) : Res Nat := do
  let streamed ← getStreamedAmount now ts am isDepleted wasCanceled
  subU64 streamed am.withdrawn

end Solsab.Lockup
