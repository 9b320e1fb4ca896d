import Verif.Spec.History
import Verif.Machine
/-!
# Specification vocabulary: what a stream still owes
-/

namespace Solsab.Spec

/-- What is still to be paid out of a stream of `deposited` tokens at `x`, computed from the published events alone:
deposit − withdrawals − refunds. -/
def stillOwed (w : World) (x : Addr) (deposited : Nat) : Nat :=
  deposited - total (withdrawnBy x) w.log - total (refundedBy x) w.log

/-- The account holds (at least) `k` tokens more than it owes. -/
def Surplus (w : World) (vault : Addr) (owed k : Nat) : Prop := owed + k ≤ w.bank.balance vault

end Solsab.Spec
