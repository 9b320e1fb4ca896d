import Verif.World
/-!
# Specification vocabulary: what the history (the list of emitted events) says

Independent of the programs' accounts.
-/

namespace Solsab.Spec

/-- Sum of a quantity over all events of a history. -/
def total (f : Event → Nat) (log : List LogEntry) : Nat := (log.map fun e => f e.event).sum

/-- Tokens paid to recipients of the stream at `x` by withdrawals. -/
def withdrawnBy (x : Addr) : Event → Nat
  | .withdrawFromLockupStream _ _ s _ a => if s = x then a else 0
  | _ => 0

/-- Tokens refunded to the sender of the stream at `x` by cancellations. -/
def refundedBy (x : Addr) : Event → Nat
  | .cancelLockupStream _ _ a s _ => if s = x then a else 0
  | _ => 0

/-- 1 for a cancellation of the stream at `x`. -/
def cancelOf (x : Addr) : Event → Nat
  | .cancelLockupStream _ _ _ s _ => if s = x then 1 else 0
  | _ => 0

/-- 1 for the creation of the stream of `(sender, salt)`. -/
def creationOf (sender : Addr) (salt : Nat) : Event → Nat
  | .createLockupLinearStream _ _ _ _ _ m => if m = .streamNftMint sender salt then 1 else 0
  | _ => 0

/-- 1 for the creation of any stream. -/
def creation : Event → Nat
  | .createLockupLinearStream .. => 1
  | _ => 0

/-- 1 for the creation of a stream whose NFT still has metadata under `metas` (was not burned through Metaplex). -/
def liveNft (metas : Addr → Option Metadata) : Event → Nat
  | .createLockupLinearStream _ _ _ _ _ m => if (metas m).isSome then 1 else 0
  | _ => 0

/-- 1 for a claim of `index` in the campaign at `x`. -/
def claimOf (x : Addr) (index : Nat) : Event → Nat
  | .claim _ c _ _ _ i _ => if c = x ∧ i = index then 1 else 0
  | _ => 0

/-- Tokens claimed from the campaign at `x`. -/
def claimedFrom (x : Addr) : Event → Nat
  | .claim a c _ _ _ _ _ => if c = x then a else 0
  | _ => 0

/-- 1 for any claim from the campaign at `x`. -/
def claimAt (x : Addr) : Event → Nat
  | .claim _ c _ _ _ _ _ => if c = x then 1 else 0
  | _ => 0

/-- Tokens clawed back from the campaign at `x`. -/
def clawedFrom (x : Addr) : Event → Nat
  | .clawback a c _ _ => if c = x then a else 0
  | _ => 0

/-- 1 for the creation of the campaign at `x`. -/
def campaignCreation (x : Addr) : Event → Nat
  | .createCampaign _ c _ _ _ _ _ _ _ _ _ => if c = x then 1 else 0
  | _ => 0

/-- Lamports collected from the treasury of program `p`. -/
def collectedFrom (p : Prog) : Event → Nat
  | .feesCollected q a _ _ => if q = p then a else 0
  | _ => 0

/-- Does the event concern the campaign at `x`? -/
def concerns (x : Addr) : Event → Bool
  | .claim _ c _ _ _ _ _ => decide (c = x)
  | .clawback _ c _ _ => decide (c = x)
  | .createCampaign _ c _ _ _ _ _ _ _ _ _ => decide (c = x)
  | _ => false

/-- The time of the earliest claim from the campaign at `x` (histories list the newest event first). -/
def firstClaim (x : Addr) : List LogEntry → Option Nat
  | [] => none
  | e :: older =>
    match firstClaim x older with
    | some t => some t
    | none => if claimAt x e.event = 1 then some e.time else none

theorem total_nil (f : Event → Nat) : total f [] = 0 := rfl

theorem total_cons (f : Event → Nat) (e : LogEntry) (log : List LogEntry) :
    total f (e :: log) = f e.event + total f log := by
  simp [total]

end Solsab.Spec
