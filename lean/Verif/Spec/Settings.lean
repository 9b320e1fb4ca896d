import Verif.Spec.Accounts
import Verif.Spec.Signers
/-!
# Specification vocabulary: the token transfer an instruction makes

Reads only the account lists of the instructions.
-/

namespace Solsab.Spec

open Solsab

/-- The token account an instruction of the two programs takes tokens from. -/
def paysFrom : Ix → Option Addr
  | .lockup (.createWithTimestamps c ..) => some c.creatorAta
  | .lockup (.createWithDurations c ..) => some c.creatorAta
  | .lockup (.withdraw c _) => some c.streamDataAta
  | .lockup (.withdrawMax c) => some c.streamDataAta
  | .lockup (.cancel c) => some c.streamDataAta
  | .merkle (.claim c ..) => some c.campaignAta
  | .merkle (.clawback c _) => some c.campaignAta
  | _ => none

/-- The token account an instruction of the two programs pays into. -/
def paysInto : Ix → Option Addr
  | .lockup (.createWithTimestamps c ..) => some c.streamDataAta
  | .lockup (.createWithDurations c ..) => some c.streamDataAta
  | .lockup (.withdraw c _) => some c.withdrawalRecipientAta
  | .lockup (.withdrawMax c) => some c.withdrawalRecipientAta
  | .lockup (.cancel c) => some c.senderAta
  | .merkle (.claim c ..) => some c.recipientAta
  | .merkle (.clawback c _) => some c.clawbackRecipientAta
  | _ => none

end Solsab.Spec
