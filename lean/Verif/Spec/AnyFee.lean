import Verif.Spec.Treasury
/-!
# Specification vocabulary: what a fee changes
-/

namespace Solsab.Spec

open Lockup Merkle

/-- The world after the same withdrawal with a fee of `x` lamports. -/
def feeWithdrawn (w w₀ : World) (c : WithdrawAccts) (amount x : Nat) : World :=
  { w₀ with
    lamports := moved w₀.lamports c.signer (.treasury .lockup) x
    log := ⟨w.now, .withdrawFromLockupStream c.depositedTokenMint x c.streamData c.streamNftMint amount⟩ :: w.log }

/-- The world after the same claim with a fee of `x` lamports. -/
def feeClaimed (w w₀ : World) (c : ClaimAccts) (index amount x : Nat) : World :=
  { w₀ with
    lamports := moved w₀.lamports c.claimer (.treasury .merkle) x
    log := ⟨w.now, .claim amount c.campaign c.claimer c.claimReceipt x index c.recipient⟩ :: w.log }

/-- The oracle gives no usable price: it fails, reports a price that is not positive, or a time that is in the future
or more than a day old (`now` is the time of the chain). -/
def NoPrice (o : OracleData) (now : Nat) : Prop :=
  o.round = none ∨ o.decimals = none ∨
    ∃ r, o.round = some r ∧ (r.answer ≤ 0 ∨ now < r.timestamp ∨ now - r.timestamp > 86400)

end Solsab.Spec
