import Verif.Spec.Surplus
import Verif.Spec.Terms
import Verif.Spec.Api
/-!
# Specification vocabulary: everything that is owed or held in one token
-/

namespace Solsab.Spec

/-- A stream, by its sender and salt: what its terms promise and has not been paid out or refunded; 0 if there is no such
stream. -/
def unpaid (w : World) (p : Addr × Nat) : Nat :=
  match w.lk.streams (streamAddr p.1 p.2) with
  | some sd => sd.amounts.deposited - sd.amounts.withdrawn - sd.amounts.refunded
  | none => 0

/-- How many of token `m` the account at `a` holds; 0 if it is an account of another token or does not exist. -/
def heldIn (w : World) (m a : Addr) : Nat :=
  match w.bank.tokens a with
  | some t => if t.mint = m then t.amount else 0
  | none => 0

end Solsab.Spec
