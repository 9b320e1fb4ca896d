import Verif.Machine
/-!
# Who signed

The signature an instruction carries, read off its account list (the `Signer` of each `#[derive(Accounts)]` struct; for
other programs the authority they ask for).  Reads only the syntax of instructions.
-/

namespace Solsab.Spec

open Solsab

/-- The signer of an instruction; `none` where no signature matters (time, oracle updates, new key-pair accounts). -/
def signerOf : Ix → Option Addr
  | .lockup (.initialize c _ _ _) => some c.initializer
  | .lockup (.createWithTimestamps c ..) => some c.creator
  | .lockup (.createWithDurations c ..) => some c.creator
  | .lockup (.withdraw c _) => some c.signer
  | .lockup (.withdrawMax c) => some c.signer
  | .lockup (.cancel c) => some c.sender
  | .lockup (.renounce c) => some c.sender
  | .lockup (.collectFees c) => some c.feeCollector
  | .merkle (.initialize c _ _ _) => some c.initializer
  | .merkle (.createCampaign c ..) => some c.creator
  | .merkle (.claim c ..) => some c.claimer
  | .merkle (.clawback c _) => some c.campaignCreator
  | .merkle (.collectFees c) => some c.feeCollector
  | .env (.sendLamports src _ _) => some src
  | .env (.setMintAuthority _ x _) => some x
  | .env (.setFreezeAuthority _ x _) => some x
  | .env (.mintTo _ _ x _ _) => some x
  | .env (.transfer _ _ x _ _ _ _) => some x
  | .env (.delegateTransfer _ _ x _ _ _) => some x
  | .env (.burn _ x _) => some x
  | .env (.delegateBurn _ x _) => some x
  | .env (.approve _ x _ _) => some x
  | .env (.revoke _ x) => some x
  | .env (.changeSettings _ x _) => some x
  | .env (.approvedTransfer _ _ x _ _ _ _) => some x
  | .env (.approvedBurn _ x _) => some x
  | .env (.metaplexFreeze _ x _) => some x
  | .env (.metaplexBurn _ x _) => some x
  | .env (.metaplexCreate _ x _ _ _) => some x
  | .env (.metaplexUpdate _ x _ _ _) => some x
  | .env (.metaplexSign _ x) => some x
  | .env (.metaplexVerify _ _ x) => some x
  | .env (.metaplexUnverify _ _ x) => some x
  | .env (.createAta x _ _ _ _) => some x
  | .env (.setOwner _ x _) => some x
  | .env (.closeToken _ x _) => some x
  | .env (.setFrozen _ x _) => some x
  | .env _ => none

/-- A history in which `p` signs nothing. -/
inductive StepsUnsignedBy (rt : Runtime) (p : Addr) : World → World → Prop
  | refl (w) : StepsUnsignedBy rt p w w
  | tail {w w₁ w₂} (ix : Ix) (h : StepsUnsignedBy rt p w w₁) (hs : step rt w₁ ix = .ok w₂) (hn : signerOf ix ≠ some p) :
      StepsUnsignedBy rt p w w₂

/-- What somebody other than its owner may still take out of a token account: the approved amount, nothing if there is
no delegate. -/
def allowance (w : World) (a : Addr) : Nat :=
  match w.approvals a with
  | some (_, k) => k
  | none => 0

/-- The token deposit an instruction asks for: `(creator, token, amount)`. -/
def depositOf : Ix → Option (Addr × Addr × Nat)
  | .lockup (.createWithTimestamps c _ dep ..) => some (c.creator, c.depositTokenMint, dep.toNat)
  | .lockup (.createWithDurations c _ dep ..) => some (c.creator, c.depositTokenMint, dep.toNat)
  | _ => none

/-- An instruction of one of the two Sablier programs. -/
def isSablier : Ix → Bool
  | .env _ => false
  | _ => true

end Solsab.Spec
