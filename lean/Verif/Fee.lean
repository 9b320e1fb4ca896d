import Verif.World
/-!
# `utils/fee_calculation.rs` and fee collection arithmetic (both programs)
-/

namespace Solsab

/-- `LAMPORTS_PER_SOL`, `programs/lockup/src/utils/constants.rs:5`,
`programs/merkle_instant/src/utils/constants.rs:5`. -/
def LAMPORTS_PER_SOL : Nat := 1000000000

/-- `SECONDS_IN_24_HOURS`, `fee_calculation.rs:46` (lockup), `:45` (merkle_instant). -/
def SECONDS_IN_24_HOURS : Nat := 86400

/-- `convert_usd_fee_to_lamports`, `programs/lockup/src/utils/fee_calculation.rs:12-69`; the
merkle_instant copy (`programs/merkle_instant/src/utils/fee_calculation.rs:12-68`) differs only in
writing the clock access inline.  `now` is the current time as `u64`; the two oracle CPIs are the data
`o` (a failing CPI is `none`). -/
def convertUsdFeeToLamports (feeUsd now : Nat) (o : OracleData) : Res Nat :=
  if feeUsd = 0 then .ok 0
  else
    match o.round with
    | none => .ok 0
    | some round =>
      if round.answer > 0 then
        let price := intAsU64 round.answer
        let currentTimestamp := asU32 now
        if currentTimestamp < round.timestamp then .ok 0
        else if currentTimestamp - round.timestamp > SECONDS_IN_24_HOURS then .ok 0
        else
          match o.decimals with
          | none => .ok 0
          | some decimals =>
            if decimals = 8 then do
              let x ← mulU64 feeUsd LAMPORTS_PER_SOL
              divChecked x price
            else do
              let p ← pow10U128 (1 + decimals)
              let x ← mulU128 feeUsd p
              let q ← divChecked x price
              .ok (asU64 q)
      else .ok 0

/-- Charging a fee (`charge_withdrawal_fee`, `programs/lockup/src/instructions/withdraw.rs:186-203`;
`charge_claim_fee`, `programs/merkle_instant/src/instructions/claim.rs:180-196`): convert the constant
`feeUsd`, and if the result is positive transfer it from the signer to the treasury. -/
def chargeFee (w : World) (feeUsd : Nat) (chainlinkProgram feed signer treasury : Addr) :
    Res (World × Nat) := do
  let fee ← convertUsdFeeToLamports feeUsd w.now (w.oracle chainlinkProgram feed)
  if fee > 0 then do
    let w ← w.systemTransfer signer treasury fee
    pure (w, fee)
  else
    pure (w, fee)

/-- The buffer kept in a treasury: `collect_fees.rs:72` (lockup), `:73` (merkle_instant). -/
def REDUNDANCY_BUFFER : Nat := 1000000

/-- `safe_collectible_amount`, `programs/lockup/src/instructions/collect_fees.rs:59-77`,
`programs/merkle_instant/src/instructions/collect_fees.rs:60-78`: `saturating_sub` of the balance and
`rent minimum + buffer` (the `checked_add(..).unwrap()` panics on overflow). -/
def safeCollectibleAmount (rt : Runtime) (balance dataLen : Nat) : Res Nat := do
  let safeMinimum ← addU64 (rt.rent dataLen) REDUNDANCY_BUFFER
  .ok (balance - safeMinimum)

end Solsab
