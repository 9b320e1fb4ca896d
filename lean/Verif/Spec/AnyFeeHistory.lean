import Verif.AnyFee
import Verif.Machine
import Verif.Spec.History
/-!
# Specification vocabulary: histories of a deployment with other fee constants
-/

namespace Solsab

/-- One instruction of the programs compiled with `WITHDRAWAL_FEE_USD = Fw` (`programs/lockup/src/utils/constants.rs`)
and `CLAIM_FEE_USD = Fc` (`programs/merkle_instant/src/utils/constants.rs`): the three instructions that charge a fee
are those of `Verif/AnyFee.lean`, all others are the shipped ones. Entry points
`programs/lockup/src/lib.rs:236-255`, `programs/merkle_instant/src/lib.rs:52-54`. -/
def stepWith (Fw Fc : Nat) (rt : Runtime) (w : World) : Ix → Res World
  | .lockup (.withdraw c a) => Lockup.withdrawWith Fw rt w c a.toNat
  | .lockup (.withdrawMax c) => Lockup.withdrawMaxWith Fw rt w c
  | .merkle (.claim c i a p) => Merkle.claimWith Fc rt w c i.toNat a.toNat p
  | ix => step rt w ix

/-- Any number of successful instructions of that deployment and of everybody else. No line of /repo. -/
inductive StepsWith (Fw Fc : Nat) (rt : Runtime) : World → World → Prop
  | refl (w : World) : StepsWith Fw Fc rt w w
  | tail {w w' w'' : World} (ix : Ix) : StepsWith Fw Fc rt w w' → stepWith Fw Fc rt w' ix = .ok w'' →
      StepsWith Fw Fc rt w w''

/-- States of all histories of that deployment. No line of /repo. -/
def ReachableWith (Fw Fc : Nat) (rt : Runtime) (w : World) : Prop := ∃ w₀, Genesis w₀ ∧ StepsWith Fw Fc rt w₀ w

namespace Spec

/-- The same event without the fee it reports. -/
def Event.noFee : Event → Event
  | .withdrawFromLockupStream m _ s n a => .withdrawFromLockupStream m 0 s n a
  | .claim a x cl rc _ i r => .claim a x cl rc 0 i r
  | e => e

/-- The same world, but the emitted events do not say what fee was paid. -/
def forgetFees (w : World) : World := { w with log := w.log.map fun e => ⟨e.time, Event.noFee e.event⟩ }

/-- The fee an event says was paid to the treasury of program `p`. -/
def feePaidTo (p : Prog) : Event → Nat
  | .withdrawFromLockupStream _ f _ _ _ => if p = .lockup then f else 0
  | .claim _ _ _ _ f _ _ => if p = .merkle then f else 0
  | _ => 0

end Spec
end Solsab
