import Verif.Lockup.Instructions
/-!
# Specification vocabulary: the life cycle of a stream
-/

namespace Solsab.Spec

open Lockup (StreamStatus)

/-- `canFollow a b`: a stream whose status is `a` may have status `b` at the same time or later.
Pending → Streaming → Settled → Depleted, Pending/Streaming → Canceled → Depleted, skipping allowed. -/
def canFollow : StreamStatus → StreamStatus → Bool
  | .pending, _ => true
  | .streaming, .pending => false
  | .streaming, _ => true
  | .settled, .settled => true
  | .settled, .depleted => true
  | .settled, _ => false
  | .canceled, .canceled => true
  | .canceled, .depleted => true
  | .canceled, _ => false
  | .depleted, .depleted => true
  | .depleted, _ => false

end Solsab.Spec
