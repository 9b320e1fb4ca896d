import Verif.Machine
/-!
# Specification vocabulary: the terms of a stream, the rent of a claim
-/

namespace Solsab

open Lockup

/-- The two records of a stream agree on its terms: who, what, when, how much. -/
structure SameTerms (sd sd' : StreamData) : Prop where
  sender : sd'.sender = sd.sender
  mint : sd'.depositedTokenMint = sd.depositedTokenMint
  salt : sd'.salt = sd.salt
  bump : sd'.bump = sd.bump
  timestamps : sd'.timestamps = sd.timestamps
  startUnlock : sd'.amounts.startUnlock = sd.amounts.startUnlock
  cliffUnlock : sd'.amounts.cliffUnlock = sd.amounts.cliffUnlock
  deposited : sd'.amounts.deposited = sd.amounts.deposited

/-- What the token account of the recipient and the claim receipt cost at most. -/
def claimRent (rt : Runtime) (m : Addr) (tp : TokenProgram) : Nat :=
  max (rt.rent (World.tokenSpace rt m tp)) 1 + max (rt.rent 8) 1

end Solsab
