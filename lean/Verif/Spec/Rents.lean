import Verif.Spec.Accounts
/-!
# Specification vocabulary: what initialising the programs and running the scripts costs
-/

namespace Solsab.Spec

open Lockup

/-- What the six accounts of `initialize` cost at most. -/
def initRent (rt : Runtime) (tp : TokenProgram) : Nat :=
  max (rt.rent Lockup.treasurySpace) 1 + max (rt.rent nftCollectionDataSpace) 1 + max (rt.rent World.mintSpace) 1 +
    max (rt.rent (World.tokenSpace rt .nftCollectionMint tp)) 1 + metaplexRent rt

/-- What the lockup script needs of its signer: the rent of `initialize`, of one token account and of three streams. -/
def scriptRent (rt : Runtime) (mint : Addr) : Nat :=
  initRent rt .token + max (rt.rent (World.tokenSpace rt mint .token)) 1 + 3 * createRent rt .token mint .token

/-- The new token of the script. -/
def scriptToken (signer : Addr) : MintData := ⟨.token, 9, some signer, none, 1000000000000000, none, none, false, false⟩

/-- What the campaign script needs of its signer. -/
def campaignScriptRent (rt : Runtime) (mint : Addr) : Nat :=
  max (rt.rent Merkle.treasurySpace) 1 + max (rt.rent Merkle.campaignSpace) 1 +
    max (rt.rent (World.tokenSpace rt mint .token)) 1

end Solsab.Spec
