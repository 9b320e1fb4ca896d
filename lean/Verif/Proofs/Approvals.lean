import Verif.Proofs.Did
import Verif.Spec.Signers
/-!
# Sablier instructions do not touch delegate approvals
-/

namespace Solsab

open Spec

theorem Did.approvals {rt : Runtime} {w w' : World} {ix : Ix} (h : Did rt w ix w') (hix : isSablier ix = true) :
    w'.approvals = w.approvals := by
  cases h with
  | init _ h => rw [h.result]
  | create _ _ h => rw [h.result]
  | withdraw _ h => rw [h.result]
  | cancel _ h => rw [h.result]
  | renounce _ h => rw [h.result]
  | collect _ _ h => rw [h.result]
  | miInit _ _ _ _ h => rw [h]
  | campaign _ _ h => rw [h.result]
  | claim _ h => rw [h.result]
  | clawback _ h => rw [h.result]
  | miCollect _ _ h => rw [h.result]
  | env i hi h => rw [hi] at hix; cases hix

end Solsab
