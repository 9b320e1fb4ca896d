import Verif.Machine
/-!
# Tokens that nobody can block

Reads only the ledger of the model, none of its instruction handlers.
-/

namespace Solsab.Spec

/-- The mint `m` belongs to the classic token program and has no freeze authority: no extension can tax, pause or
seize the token, and nobody can freeze an account of it. -/
def UnblockableToken (w : World) (m : Addr) : Prop :=
  ∃ md, w.bank.mints m = some md ∧ md.program = .token ∧ md.freezeAuthority = none

/-- `owner`'s associated account of the classic token `m` can receive: it exists, belongs to `owner` and is not frozen,
or it does not exist and `payer` has the lamports to create it. -/
def CanReceive (rt : Runtime) (w : World) (payer owner m : Addr) : Prop :=
  (∃ t, w.bank.tokens (.ata owner .token m) = some t ∧ t.owner = owner ∧ t.frozen = false) ∨
  (w.bank.tokens (.ata owner .token m) = none ∧
    max (rt.rent (World.tokenSpace rt m .token)) 1 - w.lamports (.ata owner .token m) ≤ w.lamports payer)

end Solsab.Spec
