import Verif.Spec.Lamports
/-!
# Specification vocabulary: the rent rule of the Solana runtime

After a transaction the runtime compares, for every writable account, the rent state before and after
(`get_account_rent_state`, `transition_allowed` of the runtime's rent code) and throws the transaction away if one of
the changes is not allowed. Nothing of it is in /repo: it is a rule the two programs have to live with.
-/

namespace Solsab.Spec

/-- The rent state of an account: empty, above the rent minimum of its size, or in between. -/
inductive RentState
  | uninitialized
  | rentPaying (lamports size : Nat)
  | rentExempt

/-- The rent state of an account with `lamports` lamports and `size` bytes of data. -/
def rentState (rt : Runtime) (lamports size : Nat) : RentState :=
  if lamports = 0 then .uninitialized
  else if rt.rent size ≤ lamports then .rentExempt
  else .rentPaying lamports size

/-- The changes the runtime lets pass: an account may become empty or rent exempt in any way; one that is neither may
stay so only if it was before, has not been resized and has not been given lamports. -/
def RentState.MayBecome : RentState → RentState → Prop
  | _, .uninitialized => True
  | _, .rentExempt => True
  | .rentPaying l k, .rentPaying l' k' => k' = k ∧ l' ≤ l
  | _, .rentPaying _ _ => False

/-- The sizes of the accounts after a successful `ix`: those it creates have the size it creates them with, all others
keep theirs (no instruction resizes an account). -/
def sizesAfter (rt : Runtime) (w : World) (ix : Ix) (size : Addr → Nat) (a : Addr) : Nat :=
  ((opens rt w ix).lookup a).getD (size a)

/-- The rent rule for account `a` when `ix` takes `w` to `w'`; `size` gives the sizes of all accounts before. -/
structure RentRule (rt : Runtime) (size : Addr → Nat) (w : World) (ix : Ix) (w' : World) (a : Addr) : Prop where
  ok : (rentState rt (w.lamports a) (size a)).MayBecome (rentState rt (w'.lamports a) (sizesAfter rt w ix size a))

/-- The most that an instruction can cost its payer in rent and charges. -/
def rentCost (rt : Runtime) (w : World) (ix : Ix) : Nat :=
  ((opens rt w ix).map fun x => charge rt x.1 + max (rt.rent x.2) 1).sum

end Solsab.Spec
