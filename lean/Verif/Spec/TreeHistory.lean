import Verif.Spec.Tree
import Verif.Machine
/-!
# Specification vocabulary: hash collisions exhibited by a history
-/

namespace Solsab.Spec

/-- Some `claim` instruction of the history for the campaign at `x` made the program hash a string that is
different from, but has the same Keccak hash as, one of the strings hashed for the tree. -/
def CollisionInHistory (rt : Runtime) (t : MTree) (x : Addr) (history : List Ix) : Prop :=
  ∃ c i a p, Ix.merkle (.claim c i a p) ∈ history ∧ c.campaign = x ∧
    CollisionIn rt.keccak (t.inputs rt.keccak) (checkInputs rt.keccak ⟨i, rt.keyBytes c.recipient, a⟩ p)

/-- The vault still holds at least what has not been claimed yet: balance + claimed so far ≥ all allocations. -/
def Funded (w : World) (vault : Addr) (claimed : Nat) (t : MTree) : Prop :=
  t.totalAmount ≤ w.bank.balance vault + claimed

end Solsab.Spec
