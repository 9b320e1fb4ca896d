import Verif.Machine
/-!
# Specification vocabulary: which accounts an instruction names

Used by the statements "only a withdraw of this stream can ...".  Purely syntactic.
-/

namespace Solsab

/-- The stream account named by a withdraw / withdraw_max. -/
def Ix.withdrawsFrom : Ix → Option Addr
  | .lockup (.withdraw c _) => some c.streamData
  | .lockup (.withdrawMax c) => some c.streamData
  | _ => none

/-- The accounts passed to a withdraw or withdraw_max. -/
def Ix.withdrawAccts : Ix → Option Lockup.WithdrawAccts
  | .lockup (.withdraw c _) => some c
  | .lockup (.withdrawMax c) => some c
  | _ => none

/-- The stream account named by a cancel. -/
def Ix.cancels : Ix → Option Addr
  | .lockup (.cancel c) => some c.streamData
  | _ => none

/-- The stream account named by a renounce. -/
def Ix.renounces : Ix → Option Addr
  | .lockup (.renounce c) => some c.streamData
  | _ => none

/-- The stream account named by a create. -/
def Ix.creates : Ix → Option Addr
  | .lockup (.createWithTimestamps c _ _ _ _ _ _ _ _) => some c.streamData
  | .lockup (.createWithDurations c _ _ _ _ _ _ _) => some c.streamData
  | _ => none

/-- The campaign account named by a claim. -/
def Ix.claimsFrom : Ix → Option Addr
  | .merkle (.claim c _ _ _) => some c.campaign
  | _ => none

/-- The campaign account named by a clawback. -/
def Ix.clawsBack : Ix → Option Addr
  | .merkle (.clawback c _) => some c.campaign
  | _ => none

/-- The program whose fees the instruction collects. -/
def Ix.collects : Ix → Option Prog
  | .lockup (.collectFees _) => some .lockup
  | .merkle (.collectFees _) => some .merkle
  | _ => none

/-- The instruction is not a withdraw, cancel or renounce of the stream at `x`. -/
structure Ix.Spares (ix : Ix) (x : Addr) : Prop where
  w : ix.withdrawsFrom ≠ some x
  c : ix.cancels ≠ some x
  r : ix.renounces ≠ some x

/-- The instruction is neither a claim from nor a clawback of the campaign at `x`. -/
structure Ix.SparesC (ix : Ix) (x : Addr) : Prop where
  c : ix.claimsFrom ≠ some x
  b : ix.clawsBack ≠ some x

namespace Spec

/-- The account of the stream created for `(sender, salt)`. -/
def streamAddr (sender : Addr) (salt : Nat) : Addr := .streamData (.streamNftMint sender salt)

/-- The accounts a view takes for the stream of `(sender, salt)`. -/
def viewOf (sender : Addr) (salt : Nat) : Lockup.StreamViewAccts :=
  ⟨.streamData (.streamNftMint sender salt), .streamNftMint sender salt⟩

end Spec
end Solsab
