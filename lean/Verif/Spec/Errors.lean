import Verif.Machine
import Verif.Spec.Api
import Verif.Spec.Stream
import Verif.Spec.Tree
/-!
# What the error codes of the two programs mean (C72)

`programs/lockup/src/utils/errors.rs`, `programs/merkle_instant/src/utils/errors.rs`.
-/

namespace Solsab.Spec

open Lockup

/-- The error codes declared by the programs themselves (`#[error_code]`). -/
def _root_.Solsab.Err.custom : Err → Bool
  | .lockup _ => true
  | .merkle _ => true
  | _ => false

/-- Anchor numbers the variants of `#[error_code]` from 6000 in the order of declaration
(`programs/lockup/src/utils/errors.rs:3-58`). -/
def _root_.Solsab.LockupErr.code : LockupErr → Nat
  | .streamDepleted => 6000
  | .streamCanceled => 6001
  | .streamIsNotCancelable => 6002
  | .streamSettled => 6003
  | .cantCollectZeroFees => 6004
  | .cliffTimeNotLessThanEndTime => 6005
  | .cliffTimeZeroUnlockAmountNotZero => 6006
  | .depositAmountZero => 6007
  | .startTimeNotLessThanCliffTime => 6008
  | .startTimeNotLessThanEndTime => 6009
  | .startTimeZero => 6010
  | .unlockAmountsSumTooHigh => 6011
  | .streamAlreadyNonCancelable => 6012
  | .overdraw => 6013
  | .withdrawAmountZero => 6014

/-- `programs/merkle_instant/src/utils/errors.rs:3-28`. -/
def _root_.Solsab.MerkleErr.code : MerkleErr → Nat
  | .campaignExpired => 6000
  | .invalidMerkleProof => 6001
  | .campaignNotStarted => 6002
  | .clawbackNotAllowed => 6003
  | .cantCollectZeroFees => 6004

/-- The stream named by a withdrawal, as the views take it. -/
def _root_.Solsab.Lockup.WithdrawAccts.view (c : WithdrawAccts) : StreamViewAccts := ⟨c.streamData, c.streamNftMint⟩
def _root_.Solsab.Lockup.CancelAccts.view (c : CancelAccts) : StreamViewAccts := ⟨c.streamData, c.streamNftMint⟩
def _root_.Solsab.Lockup.RenounceAccts.view (c : RenounceAccts) : StreamViewAccts := ⟨c.streamData, c.streamNftMint⟩

/-- The terms a creation asks for: (deposit, start, cliff, end, unlock at start, unlock at cliff). The durations
variant starts now, and has no cliff if the cliff duration is 0. -/
def _root_.Solsab.Ix.asksFor (w : World) : Ix → Option (Nat × Nat × Nat × Nat × Nat × Nat)
  | .lockup (.createWithTimestamps _ _ dep st cl en su cu _) =>
    some (dep.toNat, st.toNat, cl.toNat, en.toNat, su.toNat, cu.toNat)
  | .lockup (.createWithDurations _ _ dep cd td su cu _) =>
    some (dep.toNat, w.now, if cd.toNat = 0 then 0 else w.now + cd.toNat, w.now + td.toNat, su.toNat, cu.toNat)
  | _ => none

/-- `Justified rt w ix e`: instruction `ix` may report the program error `e` in state `w`, because what `e` says is
true of `w` and of the arguments. -/
inductive Justified (rt : Runtime) (w : World) : Ix → Err → Prop
  -- withdraw, withdraw_max
  | withdrawDepleted {ix c} (hi : Ix.withdrawAccts ix = some c) (h : statusOf rt w c.view = .ok .depleted) :
      Justified rt w ix (.lockup .streamDepleted)
  | withdrawZero {c a} (h : a.toNat = 0) : Justified rt w (.lockup (.withdraw c a)) (.lockup .withdrawAmountZero)
  | withdrawNothing {c} (h : withdrawableAmountOf rt w c.view = .ok 0) :
      Justified rt w (.lockup (.withdrawMax c)) (.lockup .withdrawAmountZero)
  | overdraw {c a x} (h : withdrawableAmountOf rt w c.view = .ok x) (hx : x < a.toNat) :
      Justified rt w (.lockup (.withdraw c a)) (.lockup .overdraw)
  -- cancel
  | cancelDepleted {c} (h : statusOf rt w c.view = .ok .depleted) :
      Justified rt w (.lockup (.cancel c)) (.lockup .streamDepleted)
  | cancelCanceled {c} (h : statusOf rt w c.view = .ok .canceled) :
      Justified rt w (.lockup (.cancel c)) (.lockup .streamCanceled)
  | cancelNot {c sd} (h : w.lk.streams c.streamData = some sd) (hc : sd.isCancelable = false) :
      Justified rt w (.lockup (.cancel c)) (.lockup .streamIsNotCancelable)
  | cancelSettled {c} (h : statusOf rt w c.view = .ok .settled) :
      Justified rt w (.lockup (.cancel c)) (.lockup .streamSettled)
  -- renounce
  | renounceNot {c sd} (h : w.lk.streams c.streamData = some sd)
      (hc : sd.isCancelable = false ∨ statusOf rt w c.view = .ok .settled) :
      Justified rt w (.lockup (.renounce c)) (.lockup .streamAlreadyNonCancelable)
  -- create
  | depositZero {ix st cl en su cu} (h : ix.asksFor w = some (0, st, cl, en, su, cu)) :
      Justified rt w ix (.lockup .depositAmountZero)
  | startZero {ix dep cl en su cu} (h : ix.asksFor w = some (dep, 0, cl, en, su, cu)) :
      Justified rt w ix (.lockup .startTimeZero)
  | startEnd {ix dep st cl en su cu} (h : ix.asksFor w = some (dep, st, cl, en, su, cu)) (hx : en ≤ st) :
      Justified rt w ix (.lockup .startTimeNotLessThanEndTime)
  | startCliff {ix dep st cl en su cu} (h : ix.asksFor w = some (dep, st, cl, en, su, cu)) (h0 : cl ≠ 0) (hx : cl ≤ st) :
      Justified rt w ix (.lockup .startTimeNotLessThanCliffTime)
  | cliffEnd {ix dep st cl en su cu} (h : ix.asksFor w = some (dep, st, cl, en, su, cu)) (h0 : cl ≠ 0) (hx : en ≤ cl) :
      Justified rt w ix (.lockup .cliffTimeNotLessThanEndTime)
  | cliffUnlock {ix dep st en su cu} (h : ix.asksFor w = some (dep, st, 0, en, su, cu)) (hx : cu ≠ 0) :
      Justified rt w ix (.lockup .cliffTimeZeroUnlockAmountNotZero)
  | unlockSum {ix dep st cl en su cu} (h : ix.asksFor w = some (dep, st, cl, en, su, cu)) (hx : dep < su + cu) :
      Justified rt w ix (.lockup .unlockAmountsSumTooHigh)
  -- collect_fees: the treasury holds no more than its rent-exempt minimum and the buffer of 0.001 SOL
  | collectNothing {c} (h : w.lamports (.treasury .lockup) ≤ rt.rent 105 + 1000000) :
      Justified rt w (.lockup (.collectFees c)) (.lockup .cantCollectZeroFees)
  | miCollectNothing {c} (h : w.lamports (.treasury .merkle) ≤ rt.rent 105 + 1000000) :
      Justified rt w (.merkle (.collectFees c)) (.merkle .cantCollectZeroFees)
  -- claim (`badProof`: `p` is not the proof of this allocation in any tree with the published root)
  | notStarted {c i a p cd} (h : Merkle.campaignView w c.campaign = .ok cd) (hx : w.now < cd.campaignStartTime) :
      Justified rt w (.merkle (.claim c i a p)) (.merkle .campaignNotStarted)
  | expired {c i a p cd} (h : Merkle.campaignView w c.campaign = .ok cd) (h0 : cd.expirationTime ≠ 0)
      (hx : cd.expirationTime ≤ w.now) :
      Justified rt w (.merkle (.claim c i a p)) (.merkle .campaignExpired)
  | badProof {c i a p cd} (h : Merkle.campaignView w c.campaign = .ok cd)
      (hx : ∀ t : MTree, t.root rt.keccak = cd.merkleRoot → ¬ t.Proof rt.keccak ⟨i, rt.keyBytes c.recipient, a⟩ p) :
      Justified rt w (.merkle (.claim c i a p)) (.merkle .invalidMerkleProof)
  -- clawback: more than seven days after the first claim, and not expired
  | clawbackLate {c a cd} (h : Merkle.campaignView w c.campaign = .ok cd) (h0 : cd.firstClaimTime ≠ 0)
      (hx : cd.firstClaimTime + 7 * 86400 < w.now) (he : cd.expirationTime = 0 ∨ w.now < cd.expirationTime) :
      Justified rt w (.merkle (.clawback c a)) (.merkle .clawbackNotAllowed)

end Solsab.Spec
