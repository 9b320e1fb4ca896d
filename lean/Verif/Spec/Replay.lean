import Verif.World
/-!
# Rebuilding accounts from the emitted events

What an indexer that sees only the events (with the block time of each) would compute.  The history is a list,
newest event first.
-/

namespace Solsab.Spec

open Solsab.Lockup (StreamData)
open Solsab.Merkle (Campaign)

/-- The effect of one event on the stream at `x`: a withdrawal adds up, and exhausts the stream when nothing is left;
a cancellation fixes the refund and exhausts the stream if nothing is left for the recipient; a renouncement clears
the cancelable flag. -/
def replayStreamEvent (x : Addr) (sd : StreamData) : Event → StreamData
  | .withdrawFromLockupStream _ _ y _ a =>
    if y = x then
      let empty := decide (sd.amounts.withdrawn + a + sd.amounts.refunded = sd.amounts.deposited)
      { sd with
        amounts := { sd.amounts with withdrawn := sd.amounts.withdrawn + a }
        isDepleted := empty
        isCancelable := sd.isCancelable && !empty }
    else sd
  | .cancelLockupStream _ forRecipient forSender y _ =>
    if y = x then
      { sd with
        amounts := { sd.amounts with refunded := forSender }
        wasCanceled := true
        isDepleted := decide (forRecipient = 0)
        isCancelable := false }
    else sd
  | .renounceLockupStream _ y _ => if y = x then { sd with isCancelable := false } else sd
  | _ => sd

/-- All events, oldest first, applied to a snapshot of the stream's account. -/
def replayStream (x : Addr) (snapshot : StreamData) (log : List LogEntry) : StreamData :=
  log.foldr (fun e sd => replayStreamEvent x sd e.event) snapshot

/-- The effect of one event on the campaign accounts. -/
def replayCampaignEvent (rt : Runtime) (m : Addr → Option Campaign) (e : LogEntry) : Addr → Option Campaign :=
  match e.event with
  | .createCampaign _ y name start creator expiration cid root _ _ mint => fun z =>
    if z = y then
      some { airdropTokenMint := mint, bump := rt.bump y, campaignStartTime := start, creator := creator,
             expirationTime := expiration, firstClaimTime := 0, ipfsCid := cid, merkleRoot := root, name := name }
    else m z
  | .claim _ y _ _ _ _ _ => fun z =>
    if z = y then (m z).map fun cd => if cd.firstClaimTime = 0 then { cd with firstClaimTime := e.time } else cd
    else m z
  | _ => m

/-- All campaign accounts, from the history alone. -/
def replayCampaigns (rt : Runtime) (log : List LogEntry) : Addr → Option Campaign :=
  log.foldr (fun e m => replayCampaignEvent rt m e) fun _ => none

/-- All claim receipts, from the history alone. -/
def replayReceipts (log : List LogEntry) (r : Addr) : Bool :=
  log.any fun e => match e.event with
    | .claim _ _ _ receipt _ _ _ => decide (receipt = r)
    | _ => false

end Solsab.Spec
