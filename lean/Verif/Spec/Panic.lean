import Verif.Spec.History
import Verif.Spec.Api
/-!
# Specification vocabulary: when an instruction may abort by a Rust panic

Everything else is reported as an error value.
-/

namespace Solsab.Spec

/-- The only instructions, arguments and states for which a Rust panic is possible:

* creating a stream when `2^64 - 1` streams exist already (the counter of the collection overflows);
* `create_with_durations` with durations that take the clock past `2^64`;
* `collect_fees` on a chain whose rent minimum of a treasury is within 1,000,000 lamports of `2^64`. -/
def MayPanic (rt : Runtime) (w : World) : Ix → Prop
  | .lockup (.createWithTimestamps ..) => 2 ^ 64 ≤ total creation w.log + 1
  | .lockup (.createWithDurations _ _ _ cliff dur _ _ _) =>
      2 ^ 64 ≤ total creation w.log + 1 ∨ (0 < cliff.toNat ∧ 2 ^ 64 ≤ w.now + cliff.toNat) ∨ 2 ^ 64 ≤ w.now + dur.toNat
  | .lockup (.collectFees _) => 2 ^ 64 ≤ rt.rent 105 + 1000000
  | .merkle (.collectFees _) => 2 ^ 64 ≤ rt.rent 105 + 1000000
  | _ => False

end Solsab.Spec
