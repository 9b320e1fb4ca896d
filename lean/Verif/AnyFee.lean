import Verif.Lockup.Instructions
import Verif.Merkle.Instructions
/-!
# The two programs with another fee constant

`WITHDRAWAL_FEE_USD` and `CLAIM_FEE_USD` are compile-time constants, 0 in the pinned commit.  Here the three instructions
that charge a fee and the two views of it are written with the constant as a parameter; the `_shipped` theorems say that the shipped programs are
the instances with the shipped constants.
-/

namespace Solsab

namespace Lockup

/-- `withdraw::handler`, `programs/lockup/src/instructions/withdraw.rs:136-184`, with `WITHDRAWAL_FEE_USD = feeUsd`. -/
def withdrawHandlerWith (feeUsd : Nat) (w : World) (c : WithdrawAccts) (sd : StreamData) (dm : MintData) (amount : Nat) :
    Res World := do
  let withdrawable ← getWithdrawableAmount w.now sd.timestamps sd.amounts sd.isDepleted sd.wasCanceled
  checkWithdraw sd.isDepleted amount withdrawable
  let sd' ← sd.withdraw amount
  let (w, fee) ← chargeFee w feeUsd c.chainlinkProgram c.chainlinkSolUsdFeed c.signer c.treasury
  let w ← w.transferTokens c.streamDataAta c.withdrawalRecipientAta c.streamData c.depositedTokenMint
    c.depositedTokenProgram amount dm.decimals
  let w := { w with lk := { w.lk with streams := upd w.lk.streams c.streamData (some sd') } }
  pure (w.emit (.withdrawFromLockupStream c.depositedTokenMint fee c.streamData c.streamNftMint amount))

/-- `withdraw`, `programs/lockup/src/lib.rs:236-238`, with `WITHDRAWAL_FEE_USD = feeUsd`. -/
def withdrawWith (feeUsd : Nat) (rt : Runtime) (w : World) (c : WithdrawAccts) (amount : Nat) : Res World := do
  let (w, sd, dm) ← withdrawAccounts rt w c
  withdrawHandlerWith feeUsd w c sd dm amount

/-- `withdraw_max`, `programs/lockup/src/instructions/withdraw_max.rs:5-14`, with `WITHDRAWAL_FEE_USD = feeUsd`. -/
def withdrawMaxWith (feeUsd : Nat) (rt : Runtime) (w : World) (c : WithdrawAccts) : Res World := do
  let (w, sd, dm) ← withdrawAccounts rt w c
  let amount ← getWithdrawableAmount w.now sd.timestamps sd.amounts sd.isDepleted sd.wasCanceled
  withdrawHandlerWith feeUsd w c sd dm amount

/-- `withdrawal_fee_in_lamports`, `view/withdrawal_fee_in_lamports.rs:11-39`, with `WITHDRAWAL_FEE_USD = feeUsd`. -/
def withdrawalFeeInLamportsWith (feeUsd : Nat) (rt : Runtime) (w : World) (treasury chainlinkProgram feed : Addr) :
    Res Nat := do
  let tr ← loadTreasury rt w treasury
  require (chainlinkProgram = tr.chainlinkProgram) (.anchor .constraintAddress)
  require (feed = tr.chainlinkSolUsdFeed) (.anchor .constraintAddress)
  convertUsdFeeToLamports feeUsd w.now (w.oracle chainlinkProgram feed)

theorem withdrawalFeeInLamportsWith_shipped :
    withdrawalFeeInLamportsWith WITHDRAWAL_FEE_USD = withdrawalFeeInLamports := rfl
theorem withdrawWith_shipped : withdrawWith WITHDRAWAL_FEE_USD = withdraw := rfl
theorem withdrawMaxWith_shipped : withdrawMaxWith WITHDRAWAL_FEE_USD = withdrawMax := rfl

end Lockup

namespace Merkle

/-- `claim::handler`, `programs/merkle_instant/src/instructions/claim.rs:117-177`, with `CLAIM_FEE_USD = feeUsd`. -/
def claimHandlerWith (feeUsd : Nat) (rt : Runtime) (w : World) (c : ClaimAccts) (cd : Campaign) (dm : MintData)
    (index amount : Nat) (proof : List Bytes32) : Res World := do
  checkClaim rt w.now amount cd.campaignStartTime cd.expirationTime index proof cd.merkleRoot c.recipient
  let cd' := cd.claim w.now
  let (w, fee) ← chargeFee w feeUsd c.chainlinkProgram c.chainlinkSolUsdFeed c.claimer c.treasury
  let w ← campaignTransfer rt w cd c.campaign c.campaignAta c.recipientAta c.airdropTokenMint
    c.airdropTokenProgram amount dm.decimals
  let w := { w with mi := { w.mi with campaigns := upd w.mi.campaigns c.campaign (some cd') } }
  pure (w.emit (.claim amount c.campaign c.claimer c.claimReceipt fee index c.recipient))

/-- `claim`, `programs/merkle_instant/src/lib.rs:52-54`, with `CLAIM_FEE_USD = feeUsd`. -/
def claimWith (feeUsd : Nat) (rt : Runtime) (w : World) (c : ClaimAccts) (index amount : Nat) (proof : List Bytes32) :
    Res World := do
  let (w, cd, dm) ← claimAccounts rt w c index
  claimHandlerWith feeUsd rt w c cd dm index amount proof

/-- `claim_fee_in_lamports`, `view/claim_fee_in_lamports.rs:11-39`, with `CLAIM_FEE_USD = feeUsd`. -/
def claimFeeInLamportsWith (feeUsd : Nat) (rt : Runtime) (w : World) (treasury chainlinkProgram feed : Addr) :
    Res Nat := do
  let tr ← loadTreasury rt w treasury
  require (chainlinkProgram = tr.chainlinkProgram) (.anchor .constraintAddress)
  require (feed = tr.chainlinkSolUsdFeed) (.anchor .constraintAddress)
  convertUsdFeeToLamports feeUsd w.now (w.oracle chainlinkProgram feed)

theorem claimFeeInLamportsWith_shipped : claimFeeInLamportsWith CLAIM_FEE_USD = claimFeeInLamports := rfl
theorem claimWith_shipped : claimWith CLAIM_FEE_USD = claim := rfl

end Merkle
end Solsab
