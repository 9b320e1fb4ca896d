import Verif.Proofs.Truthful
import Verif.Proofs.Tree
import Verif.Demo
import Mathlib.Tactic.IntervalCases
/-!
# C72: error reports are truthful
-/

namespace Solsab.Props

open Lockup Spec Demo

/-- Errors that are program errors are justified. -/
def Told (rt : Runtime) (w : World) (ix : Ix) (e : Err) : Prop := e.custom = true → Justified rt w ix e

theorem Told.quiet {rt : Runtime} {w : World} {ix : Ix} : ∀ e, e.custom = false → Told rt w ix e :=
  fun e h h' => by rw [h] at h'; cases h'

theorem view_stream {rt : Runtime} {w : World} (hr : Reachable rt w) {a m : Addr} {sd : StreamData}
    (h1 : w.lk.streams a = some sd) (h2 : a = .streamData m) :
    ViewsAt rt w sd.sender sd.salt sd ∧ (⟨a, m⟩ : StreamViewAccts) = viewOf sd.sender sd.salt := by
  have h3 := (hr.streamOK h1).addr
  subst h2
  injection h3 with h3
  subst h3
  exact ⟨hr.viewsOf h1, rfl⟩

theorem withdrawHandler_told {rt : Runtime} {w w₁ : World} (hr : Reachable rt w) {ix : Ix} {c : WithdrawAccts}
    (hi : ix.withdrawAccts = some c) {sd : StreamData} {dm : MintData} {amount : Nat} {b : Bank}
    (ha : WithdrawAccountsOk rt w c sd dm b) (hw : w₁.now = w.now)
    (h0 : amount = 0 → Justified rt w ix (.lockup .withdrawAmountZero))
    (hx : streamedNow w.now sd - sd.amounts.withdrawn < amount → Justified rt w ix (.lockup .overdraw)) :
    Fails (Told rt w ix) (withdrawHandler w₁ c sd dm amount) := by
  obtain ⟨hv, he⟩ := view_stream hr ha.stream ha.streamAddr
  have he : c.view = viewOf sd.sender sd.salt := he
  unfold withdrawHandler
  rw [hw, hv.ok.getWithdrawable]
  refine Fails.bind (Fails.ok _) fun y hy => ?_
  cases hy
  refine Fails.bind ?_ fun _ _ => ?_
  · unfold checkWithdraw
    split
    · rename_i hd
      refine Fails.error fun _ => .withdrawDepleted hi ?_
      rw [he, hv.status, if_pos hd]
    · split
      · rename_i h; exact Fails.error fun _ => h0 h
      · split
        · rename_i h; exact Fails.error fun _ => hx h
        · exact Fails.ok _
  · refine Fails.bind (?_ : Fails _ _) fun sd' _ => ?_
    · refine Fails.mono (P := fun e => e.custom = false) ?_ Told.quiet
      unfold StreamData.withdraw
      refine Fails.bind addU64_quiet fun _ _ => ?_
      refine Fails.bind subU64_quiet fun _ _ => ?_
      split <;> quiet
    · have : WITHDRAWAL_FEE_USD = 0 := rfl
      rw [this, chargeFee_zero]
      refine Fails.bind (Fails.ok _) fun y hy => ?_
      cases hy
      exact Fails.bind (transferTokens_quiet.mono Told.quiet) fun y hy => Fails.pure _

/-- `check_create` reports only what is true of the terms. -/
theorem checkCreate_told {rt : Runtime} {w : World} {ix : Ix} {dep st cl en su cu : Nat}
    (h : ix.asksFor w = some (dep, st, cl, en, su, cu)) (hd : dep < 2 ^ 64) :
    Fails (Told rt w ix) (checkCreate dep st cl en su cu) := by
  have hsum : Fails (Told rt w ix)
      (if su + cu < 2 ^ 64 then
        (let totalUnlockAmount := su + cu
         if totalUnlockAmount > dep then .error (.lockup .unlockAmountsSumTooHigh) else .ok ())
       else .error (.lockup .unlockAmountsSumTooHigh) : Res Unit) := by
    split
    · dsimp only
      split
      · rename_i h1; exact Fails.error fun _ => .unlockSum h h1
      · exact Fails.ok _
    · exact Fails.error fun _ => .unlockSum h (by omega)
  unfold checkCreate
  split
  · rename_i h1; subst h1; exact Fails.error fun _ => .depositZero h
  split
  · rename_i h1; subst h1; exact Fails.error fun _ => .startZero h
  split
  · rename_i h1; exact Fails.error fun _ => .startEnd h h1
  dsimp only at hsum ⊢
  split
  · split
    · rename_i h1 h2
      exact Fails.bind (Fails.error fun _ => .startCliff h (by omega) h2) fun _ _ => hsum
    · split
      · rename_i h1 h2 h3
        exact Fails.bind (Fails.error fun _ => .cliffEnd h (by omega) h3) fun _ _ => hsum
      · exact Fails.bind (Fails.ok _) fun _ _ => hsum
  · split
    · rename_i h1 h2
      have : cl = 0 := by omega
      subst this
      exact Fails.bind (Fails.error fun _ => .cliffUnlock h (by omega)) fun _ _ => hsum
    · exact Fails.bind (Fails.ok _) fun _ _ => hsum

theorem collectible_zero {rt : Runtime} {b k : Nat} (h : safeCollectibleAmount rt b k = .ok 0) :
    b ≤ rt.rent k + 1000000 := by
  unfold safeCollectibleAmount at h
  obtain ⟨m, hm, h⟩ := bind_ok.1 h
  have h1 : m = rt.rent k + 1000000 := (addU64_ok.1 hm).2
  have h2 : b - m = 0 := by injection h
  omega

/-- **C72**: whatever accounts and arguments an instruction is called with in a reachable state, if it fails with
one of the programs' own error codes then what the code says is true. -/
theorem C72_truthful {rt : Runtime} {w : World} (hr : Reachable rt w) {ix : Ix} {e : Err}
    (h : step rt w ix = .error e) (he : e.custom = true) : Justified rt w ix e := by
  suffices hf : Fails (Told rt w ix) (step rt w ix) from hf e h he
  match ix with
  | .env i => exact (env_quiet i).mono Told.quiet
  | .lockup (.initialize c f p s) => exact Lockup.initialize_quiet.mono Told.quiet
  | .merkle (.initialize c f p s) => exact Merkle.initialize_quiet.mono Told.quiet
  | .merkle (.createCampaign c root st ex name cid agg cnt) => exact Merkle.createCampaign_quiet.mono Told.quiet
  | .lockup (.createWithTimestamps c salt dep st cl en su cu ca) =>
    exact create_fails Told.quiet (checkCreate_told rfl dep.toNat_lt)
  | .lockup (.createWithDurations c salt dep cd td su cu ca) =>
    show Fails _ (createWithDurations rt w c _)
    unfold createWithDurations
    dsimp only
    have e0 : Fails (Told rt w (.lockup (.createWithDurations c salt dep cd td su cu ca)))
        (if cd.toNat > 0 then addU64 w.now cd.toNat else .ok 0) := by
      split
      · exact addU64_quiet.mono Told.quiet
      · exact Fails.ok _
    refine Fails.bind e0 fun cl hcl => ?_
    refine Fails.bind (addU64_quiet.mono Told.quiet) fun en hen => ?_
    refine create_fails Told.quiet (checkCreate_told ?_ dep.toNat_lt)
    obtain ⟨_, rfl⟩ := addU64_ok.1 hen
    simp only [Ix.asksFor]
    split at hcl
    · rename_i hc
      obtain ⟨_, rfl⟩ := addU64_ok.1 hcl
      rw [if_neg (by omega)]
    · rename_i hc
      cases hcl
      rw [if_pos (by omega)]
  | .lockup (.withdraw c a) =>
    show Fails _ (withdraw rt w c _)
    unfold withdraw
    refine Fails.bind (withdrawAccounts_quiet.mono Told.quiet) fun y hy => ?_
    obtain ⟨w₁, sd, dm⟩ := y
    obtain ⟨b, l, ha, _, rfl⟩ := withdrawAccounts_ok hy
    obtain ⟨hv, hx⟩ := view_stream hr ha.stream ha.streamAddr
    refine withdrawHandler_told hr rfl ha rfl (fun h0 => .withdrawZero h0) fun h1 => .overdraw ?_ h1
    rw [show c.view = _ from hx]; exact hv.withdrawable
  | .lockup (.withdrawMax c) =>
    show Fails _ (withdrawMax rt w c)
    unfold withdrawMax
    refine Fails.bind (withdrawAccounts_quiet.mono Told.quiet) fun y hy => ?_
    obtain ⟨w₁, sd, dm⟩ := y
    obtain ⟨b, l, ha, _, rfl⟩ := withdrawAccounts_ok hy
    obtain ⟨hv, hx⟩ := view_stream hr ha.stream ha.streamAddr
    dsimp only
    have hg : getWithdrawableAmount w.now sd.timestamps sd.amounts sd.isDepleted sd.wasCanceled = _ := hv.ok.getWithdrawable
    show Fails _ (getWithdrawableAmount w.now sd.timestamps sd.amounts sd.isDepleted sd.wasCanceled >>= _)
    rw [hg]
    refine Fails.bind (Fails.ok _) fun y hy => ?_
    cases hy
    refine withdrawHandler_told hr rfl ha rfl (fun h0 => .withdrawNothing ?_) fun h1 => absurd h1 (Nat.lt_irrefl _)
    rw [show c.view = _ from hx, hv.withdrawable, h0]
  | .lockup (.cancel c) =>
    show Fails _ (cancel rt w c)
    unfold cancel
    refine Fails.bind (cancelAccounts_quiet.mono Told.quiet) fun y hy => ?_
    obtain ⟨w₁, sd, dm⟩ := y
    obtain ⟨b, l, ha, _, rfl⟩ := cancelAccounts_ok hy
    obtain ⟨hv, hx⟩ := view_stream hr ha.stream ha.streamAddr
    have hx : c.view = viewOf sd.sender sd.salt := hx
    unfold cancelHandler
    have hg : getStreamedAmount w.now _ _ _ _ = _ := hv.ok.getStreamed
    show Fails _ (getStreamedAmount w.now _ _ _ _ >>= _)
    rw [hg]
    refine Fails.bind (Fails.ok _) fun y hy => ?_
    cases hy
    refine Fails.bind ?_ fun _ _ => ?_
    · unfold checkCancel
      split
      · rename_i h1
        exact Fails.error fun _ => .cancelDepleted (by rw [hx, hv.status, if_pos h1])
      rename_i h1
      split
      · rename_i h2
        exact Fails.error fun _ => .cancelCanceled (by rw [hx, hv.status, if_neg h1, if_pos h2])
      rename_i h2
      split
      · rename_i h3
        exact Fails.error fun _ => .cancelNot ha.stream (by simpa using h3)
      rename_i h3
      split
      · rename_i h4
        refine Fails.error fun _ => .cancelSettled ?_
        have h5 : ¬ w.now < sd.timestamps.start := by
          intro hlt
          have h6 : streamedNow w.now sd = 0 := by
            unfold streamedNow
            rw [if_neg h2]
            unfold scheduled; rw [if_pos hlt]
          have := hv.ok.terms.1
          omega
        rw [hx, hv.status, if_neg h1, if_neg h2, if_neg h5, if_neg (by omega)]
      · exact Fails.ok _
    · refine Fails.bind (subU64_quiet.mono Told.quiet) fun _ _ => ?_
      refine Fails.bind (subU64_quiet.mono Told.quiet) fun _ _ => ?_
      exact Fails.bind (transferTokens_quiet.mono Told.quiet) fun _ _ => Fails.pure _
  | .lockup (.renounce c) =>
    show Fails _ (renounce rt w c)
    unfold renounce
    refine Fails.bind (Fails.require (Told.quiet _ rfl)) fun y hy => ?_
    refine Fails.bind (loadStream_quiet.mono Told.quiet) fun sd hy => ?_
    obtain ⟨hs, hm, _, _⟩ := loadStream_ok.1 hy
    obtain ⟨hv, hx⟩ := view_stream hr hs hm
    have hx : c.view = viewOf sd.sender sd.salt := hx
    refine Fails.bind (Fails.require (Told.quiet _ rfl)) fun y hy => ?_
    rw [hv.ok.getStreamed]
    refine Fails.bind (Fails.ok _) fun y hy => ?_
    cases hy
    refine Fails.bind ?_ fun _ _ => Fails.pure _
    unfold checkRenounce
    split
    · rename_i h1
      refine Fails.error fun _ => .renounceNot hs ?_
      cases hca : sd.isCancelable with
      | false => exact .inl rfl
      | true =>
        right
        obtain ⟨h2, h3⟩ := hv.ok.cancelable hca
        rw [hca] at h1
        have h4 : sd.amounts.deposited ≤ streamedNow w.now sd := by simpa using h1
        have h5 : ¬ w.now < sd.timestamps.start := by
          intro hlt
          have h6 : streamedNow w.now sd = 0 := by
            unfold streamedNow
            rw [if_neg (by rw [h2]; simp)]
            unfold scheduled; rw [if_pos hlt]
          have := hv.ok.terms.1
          omega
        rw [hx, hv.status, if_neg (by rw [h3]; simp), if_neg (by rw [h2]; simp), if_neg h5, if_neg (by omega)]
    · exact Fails.ok _
  | .lockup (.collectFees c) =>
    show Fails _ (Lockup.collectFees rt w c)
    unfold Lockup.collectFees
    refine Fails.bind (Fails.require (Told.quiet _ rfl)) fun _ _ => ?_
    refine Fails.bind (Lockup.loadTreasury_quiet.mono Told.quiet) fun _ ht => ?_
    refine Fails.bind (Fails.require (Told.quiet _ rfl)) fun _ _ => ?_
    refine Fails.bind (safeCollectible_quiet.mono Told.quiet) fun x hx => ?_
    refine Fails.bind ?_ fun _ _ => ?_
    · unfold Lockup.checkCollectFees
      split
      · rename_i h0
        refine Fails.error fun _ => .collectNothing ?_
        have := collectible_zero (h0 ▸ hx)
        rwa [(Lockup.loadTreasury_ok.1 ht).2.1] at this
      · exact Fails.ok _
    refine Fails.bind (Fails.require (Told.quiet _ rfl)) fun _ _ => ?_
    exact Fails.bind (Fails.require (Told.quiet _ rfl)) fun _ _ => Fails.pure _
  | .merkle (.collectFees c) =>
    show Fails _ (Merkle.collectFees rt w c)
    unfold Merkle.collectFees
    refine Fails.bind (Fails.require (Told.quiet _ rfl)) fun _ _ => ?_
    refine Fails.bind (Merkle.loadTreasury_quiet.mono Told.quiet) fun _ ht => ?_
    refine Fails.bind (Fails.require (Told.quiet _ rfl)) fun _ _ => ?_
    refine Fails.bind (safeCollectible_quiet.mono Told.quiet) fun x hx => ?_
    refine Fails.bind ?_ fun _ _ => ?_
    · unfold Merkle.checkCollectFees
      split
      · rename_i h0
        refine Fails.error fun _ => .miCollectNothing ?_
        have := collectible_zero (h0 ▸ hx)
        rwa [(Merkle.loadTreasury_ok.1 ht).2.1] at this
      · exact Fails.ok _
    refine Fails.bind (Fails.require (Told.quiet _ rfl)) fun _ _ => ?_
    exact Fails.bind (Fails.require (Told.quiet _ rfl)) fun _ _ => Fails.pure _
  | .merkle (.claim c i a p) =>
    show Fails _ (Merkle.claim rt w c _ _ p)
    unfold Merkle.claim
    refine Fails.bind (Merkle.claimAccounts_quiet.mono Told.quiet) fun y hy => ?_
    obtain ⟨w₁, cd, dm⟩ := y
    have hw : w₁.now = w.now ∧ w.mi.campaigns c.campaign = some cd := by
      simp only [Merkle.claimAccounts, bind_ok, require_ok, fetch_ok, pure_ok, Prod.mk.injEq] at hy
      obtain ⟨_, _, tr, _, cd', h1, _, _, dm', h2, _, _, _, _, _, _, w₂, h3, _, _, _, _, w₃, h4, rfl, rfl, rfl⟩ := hy
      obtain ⟨b, l, _, _, rfl⟩ := ensureAta_ok h3
      obtain ⟨l, rfl, _⟩ := payRent_ok h4
      exact ⟨rfl, h1⟩
    have hc : Merkle.campaignView w c.campaign = .ok cd := fetch_ok.2 hw.2
    show Fails _ (Merkle.claimHandler rt w₁ c cd dm _ _ p)
    unfold Merkle.claimHandler
    refine Fails.bind ?_ fun _ _ => ?_
    · unfold Merkle.checkClaim
      rw [hw.1]
      split
      · rename_i h1
        exact Fails.error fun _ => .notStarted hc (by simpa [Merkle.hasCampaignStarted] using h1)
      split
      · rename_i h1
        simp only [Merkle.hasExpired, Bool.and_eq_true, decide_eq_true_eq] at h1
        exact Fails.error fun _ => .expired hc (by omega) h1.2
      split
      · rename_i h1
        refine Fails.error fun _ => .badProof hc fun t ht hp => h1 ?_
        rw [Merkle.leafHash_eq, ← ht]; exact Merkle.proof_computes hp
      · exact Fails.ok _
    have : Merkle.CLAIM_FEE_USD = 0 := rfl
    rw [this, chargeFee_zero]
    refine Fails.bind (Fails.ok _) fun y hy => ?_
    cases hy
    exact Fails.bind (Merkle.campaignTransfer_quiet.mono Told.quiet) fun _ _ => Fails.pure _
  | .merkle (.clawback c a) =>
    show Fails _ (Merkle.clawback rt w c _)
    unfold Merkle.clawback
    refine Fails.bind (Merkle.clawbackAccounts_quiet.mono Told.quiet) fun y hy => ?_
    obtain ⟨w₁, cd, dm⟩ := y
    have hw : w₁.now = w.now ∧ w.mi.campaigns c.campaign = some cd := by
      simp only [Merkle.clawbackAccounts, bind_ok, require_ok, fetch_ok, pure_ok, Prod.mk.injEq] at hy
      obtain ⟨_, _, cd', h1, _, _, _, _, dm', h2, _, _, w₂, h3, rfl, rfl, rfl⟩ := hy
      obtain ⟨b, l, _, _, rfl⟩ := ensureAta_ok h3
      exact ⟨rfl, h1⟩
    have hc : Merkle.campaignView w c.campaign = .ok cd := fetch_ok.2 hw.2
    have hok := hr.campaignOK hw.2
    show Fails _ (Merkle.clawbackHandler rt w₁ c cd dm _)
    unfold Merkle.clawbackHandler
    refine Fails.bind ?_ fun _ _ => ?_
    · unfold Merkle.checkClawback
      rw [hw.1, Merkle.hasGrace_ok hok.first_le (now_lt63 hr.clockOk)]
      refine Fails.bind (Fails.ok _) fun y hy => ?_
      cases hy
      split
      · rename_i h1
        simp only [Merkle.hasExpired, Bool.and_eq_true, decide_eq_true_eq, Bool.not_eq_true', Bool.and_eq_false_iff,
          decide_eq_false_iff_not] at h1
        have hg : Merkle.GRACE_PERIOD = 604800 := rfl
        obtain ⟨⟨h2, h3⟩, h4⟩ := h1
        exact Fails.error fun _ => .clawbackLate hc (by omega) (by omega) (by omega)
      · exact Fails.ok _
    exact Fails.bind (Merkle.campaignTransfer_quiet.mono Told.quiet) fun _ _ => Fails.pure _

/-- The program error an instruction reports in a state, if any. -/
def reports (w : World) (ix : Ix) : Option Err :=
  match step rt w ix with
  | .error e => if e.custom then some e else none
  | .ok _ => none

/-- Every declared error is reported by some call in some reachable state. -/
example :
    reports world5 ixWithdrawMax = some (.lockup .streamDepleted) ∧
    reports world4 ixCancel = some (.lockup .streamCanceled) ∧
    reports world7 ixCancel = some (.lockup .streamDepleted) ∧
    reports world6 (.lockup (.cancel (cancelAccts 2))) = some (.lockup .streamIsNotCancelable) ∧
    reports (after world3 [.env (.tick 6000)]) ixCancel = some (.lockup .streamSettled) ∧
    reports (after world3 [.env (.tick 6000)]) (.lockup (.renounce ⟨alice, str 1, nft 1⟩)) =
      some (.lockup .streamAlreadyNonCancelable) ∧
    reports world6 ixRenounce = some (.lockup .streamAlreadyNonCancelable) ∧
    reports world2 (.lockup (.withdraw (withdrawAccts bob 1) 0)) = some (.lockup .withdrawAmountZero) ∧
    reports (after world3 [ixWithdrawMax]) ixWithdrawMax = some (.lockup .withdrawAmountZero) ∧
    reports world3 (.lockup (.withdraw (withdrawAccts bob 1) 334)) = some (.lockup .overdraw) ∧
    reports world3 ixCollect = some (.lockup .cantCollectZeroFees) := by
  decide +kernel

example :
    reports world2 (.lockup (.createWithTimestamps (createAccts 9) 9 0 2000 3000 6000 10 20 true)) =
      some (.lockup .depositAmountZero) ∧
    reports world2 (.lockup (.createWithTimestamps (createAccts 9) 9 100 0 3000 6000 10 20 true)) =
      some (.lockup .startTimeZero) ∧
    reports world2 (.lockup (.createWithTimestamps (createAccts 9) 9 100 6000 3000 6000 10 20 true)) =
      some (.lockup .startTimeNotLessThanEndTime) ∧
    reports world2 (.lockup (.createWithTimestamps (createAccts 9) 9 100 3000 3000 6000 10 20 true)) =
      some (.lockup .startTimeNotLessThanCliffTime) ∧
    reports world2 (.lockup (.createWithTimestamps (createAccts 9) 9 100 2000 6000 6000 10 20 true)) =
      some (.lockup .cliffTimeNotLessThanEndTime) ∧
    reports world2 (.lockup (.createWithTimestamps (createAccts 9) 9 100 2000 0 6000 10 20 true)) =
      some (.lockup .cliffTimeZeroUnlockAmountNotZero) ∧
    reports world2 (.lockup (.createWithTimestamps (createAccts 9) 9 100 2000 3000 6000 81 20 true)) =
      some (.lockup .unlockAmountsSumTooHigh) ∧
    reports world2 (.lockup (.createWithDurations (createAccts 9) 9 100 60 60 10 20 true)) =
      some (.lockup .cliffTimeNotLessThanEndTime) := by
  decide +kernel

example :
    reports world2 (.merkle (.claim (claimAccts bob 0) 0 501 [leaf1])) = some (.merkle .invalidMerkleProof) ∧
    reports world8 (.merkle (.claim (claimAccts carol 1) 1 300 [leaf0])) = some (.merkle .campaignExpired) ∧
    reports world7 ixClawback = some (.merkle .clawbackNotAllowed) ∧
    reports world3 (.merkle (.collectFees ⟨collector, bob, .treasury .merkle⟩)) = some (.merkle .cantCollectZeroFees) := by
  decide +kernel

/-- A campaign that starts at 5000. -/
example : reports (after world2 [.merkle (.createCampaign ⟨alice, mint, .campaign alice root 5000 0 campaignName mint,
      .ata (.campaign alice root 5000 0 campaignName mint) tok mint, tok⟩ root 5000 0 campaignName [] 800 2)])
    (.merkle (.claim { claimAccts bob 0 with
      campaign := .campaign alice root 5000 0 campaignName mint
      campaignAta := .ata (.campaign alice root 5000 0 campaignName mint) tok mint
      claimReceipt := .claimReceipt (.campaign alice root 5000 0 campaignName mint) 0 } 0 500 [leaf1])) =
    some (.merkle .campaignNotStarted) := by decide +kernel

theorem reports_step {w : World} {ix : Ix} {e : Err} (h : reports w ix = some e) :
    step rt w ix = .error e ∧ e.custom = true := by
  unfold reports at h
  split at h
  · rename_i e' he
    split at h
    · rename_i hc; cases h; exact ⟨he, hc⟩
    · cases h
  · cases h

example : Justified rt world4 ixCancel (.lockup .streamCanceled) :=
  have h := reports_step (w := world4) (ix := ixCancel) (e := .lockup .streamCanceled) (by decide +kernel)
  C72_truthful reach4 h.1 h.2

/-- **C72**: within each program the numeric code sent to the client determines the error; Anchor's numbering starts
at 6000 and has no gaps. -/
theorem C72_codes :
    (∀ e e' : LockupErr, e.code = e'.code → e = e') ∧ (∀ e e' : MerkleErr, e.code = e'.code → e = e') ∧
    (∀ k, 6000 ≤ k ∧ k < 6015 ↔ ∃ e : LockupErr, e.code = k) ∧
    (∀ k, 6000 ≤ k ∧ k < 6005 ↔ ∃ e : MerkleErr, e.code = k) := by
  refine ⟨fun e e' => ?_, fun e e' => ?_, fun k => ⟨fun h => ?_, ?_⟩, fun k => ⟨fun h => ?_, ?_⟩⟩
  · cases e <;> cases e' <;> simp [LockupErr.code]
  · cases e <;> cases e' <;> simp [MerkleErr.code]
  · obtain ⟨j, rfl⟩ := Nat.exists_eq_add_of_le h.1
    have hj : j < 15 := by omega
    interval_cases j
    exacts [⟨.streamDepleted, rfl⟩, ⟨.streamCanceled, rfl⟩, ⟨.streamIsNotCancelable, rfl⟩, ⟨.streamSettled, rfl⟩,
      ⟨.cantCollectZeroFees, rfl⟩, ⟨.cliffTimeNotLessThanEndTime, rfl⟩, ⟨.cliffTimeZeroUnlockAmountNotZero, rfl⟩,
      ⟨.depositAmountZero, rfl⟩, ⟨.startTimeNotLessThanCliffTime, rfl⟩, ⟨.startTimeNotLessThanEndTime, rfl⟩,
      ⟨.startTimeZero, rfl⟩, ⟨.unlockAmountsSumTooHigh, rfl⟩, ⟨.streamAlreadyNonCancelable, rfl⟩, ⟨.overdraw, rfl⟩,
      ⟨.withdrawAmountZero, rfl⟩]
  · rintro ⟨e, rfl⟩; cases e <;> simp [LockupErr.code]
  · obtain ⟨j, rfl⟩ := Nat.exists_eq_add_of_le h.1
    have hj : j < 5 := by omega
    interval_cases j
    exacts [⟨.campaignExpired, rfl⟩, ⟨.invalidMerkleProof, rfl⟩, ⟨.campaignNotStarted, rfl⟩, ⟨.clawbackNotAllowed, rfl⟩,
      ⟨.cantCollectZeroFees, rfl⟩]
  · rintro ⟨e, rfl⟩; cases e <;> simp [MerkleErr.code]

end Solsab.Props
