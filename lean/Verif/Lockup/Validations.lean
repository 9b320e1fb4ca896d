import Verif.Lockup.State
/-!
# `programs/lockup/src/utils/validations.rs`
-/

namespace Solsab.Lockup

/-- `check_cancel`, `validations.rs:6-31`. -/
def checkCancel (isCancelable isDepleted wasCanceled : Bool) (streamedAmount depositedAmount : Nat) :
    Res Unit :=
  if isDepleted then .error (.lockup .streamDepleted)
  else if wasCanceled then .error (.lockup .streamCanceled)
  else if !isCancelable then .error (.lockup .streamIsNotCancelable)
  else if streamedAmount ≥ depositedAmount then .error (.lockup .streamSettled)
  else .ok ()

/-- `check_collect_fees`, `validations.rs:34-41`. -/
def checkCollectFees (collectibleAmount : Nat) : Res Unit :=
  if collectibleAmount = 0 then .error (.lockup .cantCollectZeroFees) else .ok ()

/-- `check_create`, `validations.rs:44-92`.  `checked_add(..).ok_or(UnlockAmountsSumTooHigh)` is the
overflow branch. -/
def checkCreate (depositAmount startTime cliffTime endTime startUnlockAmount cliffUnlockAmount : Nat) :
    Res Unit :=
  if depositAmount = 0 then .error (.lockup .depositAmountZero)
  else if startTime = 0 then .error (.lockup .startTimeZero)
  else if startTime ≥ endTime then .error (.lockup .startTimeNotLessThanEndTime)
  else do
    if cliffTime > 0 then
      if startTime ≥ cliffTime then .error (.lockup .startTimeNotLessThanCliffTime)
      else if cliffTime ≥ endTime then .error (.lockup .cliffTimeNotLessThanEndTime)
      else .ok ()
    else if cliffUnlockAmount > 0 then .error (.lockup .cliffTimeZeroUnlockAmountNotZero)
    else .ok ()
    if startUnlockAmount + cliffUnlockAmount < 2 ^ 64 then
      let totalUnlockAmount := startUnlockAmount + cliffUnlockAmount
      if totalUnlockAmount > depositAmount then .error (.lockup .unlockAmountsSumTooHigh)
      else .ok ()
    else .error (.lockup .unlockAmountsSumTooHigh)

/-- `check_renounce`, `validations.rs:95-102`. -/
def checkRenounce (isCancelable : Bool) (depositedAmount streamedAmount : Nat) : Res Unit :=
  if !isCancelable || decide (streamedAmount ≥ depositedAmount) then
    .error (.lockup .streamAlreadyNonCancelable)
  else .ok ()

/-- `check_withdraw`, `validations.rs:105-122`. -/
def checkWithdraw (isDepleted : Bool) (amount withdrawableAmount : Nat) : Res Unit :=
  if isDepleted then .error (.lockup .streamDepleted)
  else if amount = 0 then .error (.lockup .withdrawAmountZero)
  else if amount > withdrawableAmount then .error (.lockup .overdraw)
  else .ok ()

end Solsab.Lockup
