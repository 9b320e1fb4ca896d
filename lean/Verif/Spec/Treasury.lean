import Verif.Spec.Api
import Verif.Spec.History
/-!
# Specification vocabulary: treasuries and fees
-/

namespace Solsab

/-- The program, fee collector, oracle program and oracle feed named by an `initialize`. -/
def Ix.initializes : Ix → Option (Prog × Addr × Addr × Addr)
  | .lockup (.initialize _ f p s) => some (.lockup, f, p, s)
  | .merkle (.initialize _ f p s) => some (.merkle, f, p, s)
  | _ => none

/-- The fee collector and recipient named by a `collect_fees` of program `p`. -/
def Ix.collectAccts (p : Prog) : Ix → Option (Addr × Addr)
  | .lockup (.collectFees c) => if p = .lockup ∧ c.treasury = .treasury .lockup then some (c.feeCollector, c.feeRecipient) else none
  | .merkle (.collectFees c) => if p = .merkle ∧ c.treasury = .treasury .merkle then some (c.feeCollector, c.feeRecipient) else none
  | _ => none

namespace Spec

/-- What `treasury_view` of the program returns. -/
def configView (rt : Runtime) (w : World) : Prog → Res Treasury
  | .lockup => Lockup.treasuryView rt w (.treasury .lockup)
  | .merkle => Merkle.treasuryView rt w (.treasury .merkle)

/-- The program's own error for "nothing to collect". -/
def zeroFees : Prog → Err
  | .lockup => .lockup .cantCollectZeroFees
  | .merkle => .merkle .cantCollectZeroFees

/-- What `collect_fees` leaves in a treasury: the rent minimum of the 105-byte account plus 1,000,000. -/
def keep (rt : Runtime) : Nat := rt.rent 105 + 1000000

/-- The lamports after moving `x` from `a` to `b`. -/
def moved (l : Addr → Nat) (a b : Addr) (x : Nat) : Addr → Nat := fun y =>
  if a = b then l y else if y = a then l y - x else if y = b then l y + x else l y

/-- The lamports after `payer` tops the account `a` up to the rent minimum of `space` bytes. -/
def rentPaid (rt : Runtime) (l : Addr → Nat) (payer a : Addr) (space : Nat) : Addr → Nat :=
  moved l payer a (max (rt.rent space) 1 - l a)

end Spec
end Solsab
