import Verif.Spec.Replay
import Verif.Proofs.StreamSteps
import Verif.Proofs.CampaignInv
import Verif.Demo
/-!
# C67: the events are a complete audit trail
-/

namespace Solsab

open Spec Lockup Merkle

theorem replayStream_cons (x : Addr) (sd : StreamData) (e : LogEntry) (l : List LogEntry) :
    replayStream x sd (e :: l) = replayStreamEvent x (replayStream x sd l) e.event := rfl

theorem replayStream_append (x : Addr) (sd : StreamData) (l l' : List LogEntry) :
    replayStream x sd (l ++ l') = replayStream x (replayStream x sd l') l := by
  unfold replayStream; rw [List.foldr_append]

/-- One step: the new events, replayed, give the new account. -/
theorem Did.replay {rt : Runtime} {w w' : World} {ix : Ix} (hr : Reachable rt w) (h : Did rt w ix w') {x : Addr}
    {sd : StreamData} (hx : w.lk.streams x = some sd) :
    ∃ new, w'.log = new ++ w.log ∧ w'.lk.streams x = some (replayStream x sd new) := by
  have hok := hr.streamOK hx
  cases h with
  | init hix h => exact ⟨[], by rw [h.result]; rfl, by rw [h.result]; exact hx⟩
  | @create c p nd dm md cm k name b₁ b₂ b₃ b₄ b₆ l hix hp h =>
    refine ⟨[_], congrArg World.log h.result, ?_⟩
    rw [h.result]
    by_cases he : x = c.streamData
    · rw [he, h.fresh] at hx; cases hx
    · simp only [upd_ne _ _ he]; exact hx
  | @withdraw c amount sd₀ sd' dm b₁ b₂ l hix h =>
    refine ⟨[_], congrArg World.log h.result, ?_⟩
    rw [h.result]
    by_cases he : x = c.streamData
    · subst he
      cases hx.symm.trans h.accts.stream
      have hd := h.data
      have hle := hok.sum_le
      have hdep := hok.depleted
      rw [h.notDepleted] at hdep
      have hca := hok.cancelable
      obtain ⟨x, hx1, hx2⟩ := h.withdrawable
      have hgw := hok.getWithdrawable
      rw [hx1] at hgw
      cases hgw
      have hst := hok.streamed
      have hcl : sd.amounts.withdrawn + amount + sd.amounts.refunded ≤ sd.amounts.deposited := by
        have : streamedNow w.now sd + sd.amounts.refunded ≤ sd.amounts.deposited := by
          unfold streamedNow
          cases hc : sd.wasCanceled with
          | true => simp only [if_true]; omega
          | false =>
            have := (hok.live hc).1
            have := scheduled_le hok.terms w.now
            simp only [Bool.false_eq_true, if_false]; omega
        omega
      simp only [StreamData.withdraw, bind_ok, addU64_ok, subU64_ok] at hd
      obtain ⟨a, ⟨_, rfl⟩, b, ⟨_, rfl⟩, hd⟩ := hd
      simp only [upd_same, replayStream, List.foldr, replayStreamEvent, if_true]
      congr 1
      split at hd
      · cases hd
        have : sd.amounts.withdrawn + amount + sd.amounts.refunded = sd.amounts.deposited := by omega
        simp [this]
      · cases hd
        have : ¬ sd.amounts.withdrawn + amount + sd.amounts.refunded = sd.amounts.deposited := by omega
        simp [this, h.notDepleted]
    · simp only [upd_ne _ _ he, replayStream, List.foldr, replayStreamEvent, if_neg (Ne.symm he)]
      exact hx
  | @cancel c sd₀ dm streamed b₁ b₂ l hix h =>
    refine ⟨[_], congrArg World.log h.result, ?_⟩
    rw [h.result]
    by_cases he : x = c.streamData
    · subst he
      cases hx.symm.trans h.accts.stream
      simp only [upd_same, replayStreamEvent, if_true, replayStream, List.foldr, StreamData.cancel, h.notDepleted]
      by_cases h0 : streamed - sd.amounts.withdrawn = 0 <;> simp [h0]
    · simp only [upd_ne _ _ he, replayStream, List.foldr, replayStreamEvent, if_neg (Ne.symm he)]
      exact hx
  | @renounce c sd₀ streamed hix h =>
    refine ⟨[_], congrArg World.log h.result, ?_⟩
    rw [h.result]
    by_cases he : x = c.streamData
    · subst he
      cases hx.symm.trans h.stream
      simp only [upd_same, replayStream, List.foldr, replayStreamEvent, if_true]
      rfl
    · simp only [upd_ne _ _ he, replayStream, List.foldr, replayStreamEvent, if_neg (Ne.symm he)]
      exact hx
  | collect hix _ h => exact ⟨[_], congrArg World.log h.result, by rw [h.result]; exact hx⟩
  | miInit hix _ _ _ h => exact ⟨[], by rw [h]; rfl, by rw [h]; exact hx⟩
  | campaign _ hix h => exact ⟨[_], congrArg World.log h.result, by rw [h.result]; exact hx⟩
  | claim hix h => exact ⟨[_], congrArg World.log h.result, by rw [h.result]; exact hx⟩
  | clawback hix h => exact ⟨[_], congrArg World.log h.result, by rw [h.result]; exact hx⟩
  | miCollect hix _ h => exact ⟨[_], congrArg World.log h.result, by rw [h.result]; exact hx⟩
  | env i hix h =>
    have he := env_ok h
    exact ⟨[], he.log, by rw [he.lk]; exact hx⟩

theorem Steps.replay {rt : Runtime} {w w' : World} (hr : Reachable rt w) (hs : Steps rt w w') {x : Addr}
    {sd : StreamData} (hx : w.lk.streams x = some sd) :
    ∃ new, w'.log = new ++ w.log ∧ w'.lk.streams x = some (replayStream x sd new) := by
  induction hs with
  | refl => exact ⟨[], rfl, hx⟩
  | tail ix hst h ih =>
    obtain ⟨new, hl, hx'⟩ := ih
    obtain ⟨new', hl', hx''⟩ := (step_did h).replay (hr.steps hst) hx'
    exact ⟨new' ++ new, by rw [hl', hl, List.append_assoc], by rw [hx'', replayStream_append]⟩

theorem replayCampaigns_cons (rt : Runtime) (e : LogEntry) (l : List LogEntry) :
    replayCampaigns rt (e :: l) = replayCampaignEvent rt (replayCampaigns rt l) e := rfl

/-- The rebuilt campaign accounts and receipts agree with the stored ones, step by step. -/
theorem Did.replayMerkle {rt : Runtime} {w w' : World} {ix : Ix} (h : Did rt w ix w')
    (h1 : w.mi.campaigns = replayCampaigns rt w.log) (h2 : w.mi.receipts = replayReceipts w.log) :
    w'.mi.campaigns = replayCampaigns rt w'.log ∧ w'.mi.receipts = replayReceipts w'.log := by
  have other : ∀ e : LogEntry, (replayCampaignEvent rt (replayCampaigns rt w.log) e = replayCampaigns rt w.log) →
      replayReceipts (e :: w.log) = replayReceipts w.log →
      w.mi.campaigns = replayCampaigns rt (e :: w.log) ∧ w.mi.receipts = replayReceipts (e :: w.log) :=
    fun e e1 e2 => ⟨h1.trans e1.symm, h2.trans e2.symm⟩
  cases h with
  | init hix h => rw [h.result]; exact ⟨h1, h2⟩
  | create hix hp h => rw [h.result]; exact other _ rfl rfl
  | withdraw hix h => rw [h.result]; exact other _ rfl rfl
  | cancel hix h => rw [h.result]; exact other _ rfl rfl
  | renounce hix h => rw [h.result]; exact other _ rfl rfl
  | collect hix _ h => rw [h.result]; exact other _ rfl rfl
  | miInit hix _ _ _ h => rw [h]; exact ⟨h1, h2⟩
  | campaign _ hix h =>
    rw [h.result]
    refine ⟨?_, h2.trans rfl⟩
    dsimp only
    rw [replayCampaigns_cons, ← h1]
    rfl
  | @claim c index amount proof cd dm b₁ b₂ l hix h =>
    rw [h.result]
    constructor
    · dsimp only
      rw [replayCampaigns_cons, ← h1]
      funext z
      simp only [replayCampaignEvent, upd_apply]
      by_cases e : z = c.campaign
      · rw [if_pos e, if_pos e, e, h.accts.campaign]
        rfl
      · rw [if_neg e, if_neg e]
    · dsimp only
      funext z
      show (if z = c.claimReceipt then true else w.mi.receipts z) = (decide (c.claimReceipt = z) || replayReceipts w.log z)
      rw [h2]
      by_cases e : z = c.claimReceipt
      · rw [if_pos e, decide_eq_true e.symm]; rfl
      · rw [if_neg e, decide_eq_false (Ne.symm e)]; rfl
  | clawback hix h => rw [h.result]; exact other _ rfl rfl
  | miCollect hix _ h => rw [h.result]; exact other _ rfl rfl
  | env i hix h =>
    have he := env_ok h
    rw [he.mi, he.log]; exact ⟨h1, h2⟩

end Solsab

namespace Solsab.Props

open Lockup Spec Demo

/-- **C67**, streams: take a snapshot of a stream's account at any time; at any later time, the account is the
snapshot with the events emitted since replayed on it. -/
theorem C67_stream {rt : Runtime} {w w' : World} (hr : Reachable rt w) (hs : Steps rt w w') {s : Addr} {n : Nat}
    {sd : StreamData} (hx : w.lk.streams (streamAddr s n) = some sd) :
    ∃ new, w'.log = new ++ w.log ∧
      w'.lk.streams (streamAddr s n) = some (replayStream (streamAddr s n) sd new) :=
  hs.replay hr hx

/-- From the account at creation and the events of the demo history: 200 withdrawn, canceled with 467 refunded, the
rest withdrawn, depleted. -/
example : ∃ new, world8.log = new ++ world1.log ∧
    world8.lk.streams (streamAddr alice 1) = some (replayStream (streamAddr alice 1)
      ⟨⟨100, 200, 1000, 0, 0⟩, mint, 255, 1, true, false, ⟨3000, 6000, 2000⟩, alice, false⟩ new) :=
  C67_stream (w := world1) (w' := world8) reach1
    (steps12.trans (steps23.trans (steps34.trans (steps45.trans (steps56.trans (steps67.trans steps78))))))
    (by decide +kernel)

example : replayStream (streamAddr alice 1)
      ⟨⟨100, 200, 1000, 0, 0⟩, mint, 255, 1, true, false, ⟨3000, 6000, 2000⟩, alice, false⟩ world8.log =
    ⟨⟨100, 200, 1000, 467, 533⟩, mint, 255, 1, false, true, ⟨3000, 6000, 2000⟩, alice, true⟩ := by decide +kernel

/-- **C67**, airdrops: all campaign accounts and all claim receipts are what the events alone say. -/
theorem C67_campaigns {rt : Runtime} {w : World} (hr : Reachable rt w) :
    w.mi.campaigns = replayCampaigns rt w.log ∧ w.mi.receipts = replayReceipts w.log := by
  obtain ⟨w₀, hg, hs⟩ := hr
  induction hs with
  | refl =>
    rw [hg.no_log]
    exact ⟨funext hg.no_campaigns, funext hg.no_receipts⟩
  | tail ix hst h ih => exact (step_did h).replayMerkle ih.1 ih.2

example : replayCampaigns rt world8.log camp = some ⟨mint, 255, 1500, alice, 800000, 4000, [81, 109], root, campaignName⟩ ∧
    replayReceipts world8.log (.claimReceipt camp 0) = true ∧ replayReceipts world8.log (.claimReceipt camp 5) = false := by
  decide +kernel

example : world8.mi.campaigns = replayCampaigns rt world8.log := (C67_campaigns reach8).1

/-- **C67**, limits: for streams the snapshot is needed.  The creation event says neither the amounts nor the times,
so two histories with the same events can have different streams. -/
theorem C67_snapshot_needed : ∃ rt w w' s n sd sd', Reachable rt w ∧ Reachable rt w' ∧ w.log = w'.log ∧
    w.lk.streams (streamAddr s n) = some sd ∧ w'.lk.streams (streamAddr s n) = some sd' ∧
    sd.amounts.deposited ≠ sd'.amounts.deposited ∧ sd.timestamps ≠ sd'.timestamps ∧
    sd.isCancelable ≠ sd'.isCancelable := by
  let i := Ix.lockup (.createWithTimestamps (createAccts 7) 7 1000 2000 3000 6000 100 200 true)
  let j := Ix.lockup (.createWithTimestamps (createAccts 7) 7 5000 2000 0 9000 0 0 false)
  exact ⟨rt, after world1 [i], after world1 [j], alice, 7,
    ⟨⟨100, 200, 1000, 0, 0⟩, mint, 255, 7, true, false, ⟨3000, 6000, 2000⟩, alice, false⟩,
    ⟨⟨0, 0, 5000, 0, 0⟩, mint, 255, 7, false, false, ⟨0, 9000, 2000⟩, alice, false⟩,
    reach1.steps (steps_after (by decide +kernel)), reach1.steps (steps_after (by decide +kernel)),
    by decide +kernel, by decide +kernel, by decide +kernel, by decide, by decide, by decide⟩

end Solsab.Props
