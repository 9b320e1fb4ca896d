import Verif.Proofs.Frame
import Verif.Proofs.Math
import Verif.Spec.History
/-!
# The stream invariant
-/

namespace Solsab

open Spec Lockup

/-! ## Time -/

def ClockOk (w : World) : Prop := 0 ≤ w.clock ∧ w.clock < 2 ^ 63

/-- The clock after a step. -/
theorem Did.clock {rt : Runtime} {w w' : World} {ix : Ix} (h : Did rt w ix w') :
    w'.clock = w.clock ∨ (w.clock ≤ w'.clock ∧ w'.clock < 2 ^ 63 ∧ ∃ i, ix = .env i) := by
  cases h with
  | init _ h => left; rw [h.result]
  | create _ _ h => left; rw [h.result]
  | withdraw _ h => left; rw [h.result]
  | cancel _ h => left; rw [h.result]
  | renounce _ h => left; rw [h.result]
  | collect _ _ h => left; rw [h.result]
  | miInit _ _ _ _ h => left; rw [h]
  | campaign _ _ h => left; rw [h.result]
  | claim _ h => left; rw [h.result]
  | clawback _ h => left; rw [h.result]
  | miCollect _ _ h => left; rw [h.result]
  | env i hix h =>
    have he := env_ok h
    rcases he.clock_lt with h1 | h1
    · exact .inl h1
    · exact .inr ⟨he.clock, h1, i, hix⟩

theorem Reachable.clockOk {rt : Runtime} {w : World} (h : Reachable rt w) : ClockOk w :=
  h.induct (fun _ hg => ⟨hg.clock_nonneg, hg.clock_lt⟩) (fun _ _ _ _ hp hd => by
    unfold ClockOk at *
    rcases hd.clock with h | ⟨h1, h2, _⟩
    · rw [h]; exact hp
    · omega)

theorem ClockOk.now {w : World} (h : ClockOk w) : (w.now : Int) = w.clock := by
  unfold World.now intAsU64 ClockOk at *
  rw [Int.emod_eq_of_lt h.1 (by omega)]
  omega

theorem Did.now_le {rt : Runtime} {w w' : World} {ix : Ix} (hw : ClockOk w) (h : Did rt w ix w') :
    w.now ≤ w'.now := by
  rcases h.clock with h1 | ⟨h1, h2, _⟩
  · unfold World.now; rw [h1]
  · have := hw.now
    have hw' : ClockOk w' := by unfold ClockOk at *; omega
    have := hw'.now
    omega

theorem Steps.now_le {rt : Runtime} {w w' : World} (hw : Reachable rt w) (h : Steps rt w w') : w.now ≤ w'.now := by
  induction h with
  | refl => exact Nat.le_refl _
  | tail ix hst hs ih => exact Nat.le_trans ih ((step_did hs).now_le (hw.steps hst).clockOk)

/-! ## How a step changes one stream account -/

/-- Nothing about the stream at `x` changed. -/
structure QuietStream (w w' : World) (x : Addr) : Prop where
  data : w'.lk.streams x = w.lk.streams x
  withdrawn : total (withdrawnBy x) w'.log = total (withdrawnBy x) w.log
  refunded : total (refundedBy x) w'.log = total (refundedBy x) w.log
  cancels : total (cancelOf x) w'.log = total (cancelOf x) w.log
  created : ∀ s n, x = .streamData (.streamNftMint s n) →
    total (creationOf s n) w'.log = total (creationOf s n) w.log

theorem QuietStream.ofEq {w w' : World} {x : Addr} (h : w'.lk.streams x = w.lk.streams x) (hl : w'.log = w.log) :
    QuietStream w w' x := by
  refine ⟨h, ?_, ?_, ?_, fun _ _ _ => ?_⟩ <;> rw [hl]

theorem Ix.creates_spares {ix : Ix} {y : Addr} (h : ix.creates = some y) (x : Addr) : ix.Spares x := by
  cases ix with
  | lockup i =>
    cases i <;> first | (cases h; done) | exact ⟨nofun, nofun, nofun⟩
  | merkle i => cases h
  | env i => cases h

theorem Ix.withdraws_spares {ix : Ix} {y : Addr} (h : ix.withdrawsFrom = some y) {x : Addr} (hx : y ≠ x) :
    ix.Spares x := by
  cases ix with
  | lockup i =>
    cases i <;> simp only [Ix.withdrawsFrom, reduceCtorEq, Option.some.injEq] at h <;>
      refine ⟨?_, nofun, nofun⟩ <;> simpa [Ix.withdrawsFrom, h] using hx
  | merkle i => cases h
  | env i => cases h

theorem Did.stream {rt : Runtime} {w w' : World} {ix : Ix} (h : Did rt w ix w') (x : Addr) :
    (QuietStream w w' x ∧ ix.Spares x) ∨
    (∃ c p nd dm md cm k name b₁ b₂ b₃ b₄ b₆ l, c.streamData = x ∧ ix.creates = some x ∧ ParamsBounded p ∧
      CreateOk rt w c p w' nd dm md cm k name b₁ b₂ b₃ b₄ b₆ l) ∨
    (∃ c amount sd sd' dm b₁ b₂ l, c.streamData = x ∧ ix.withdrawsFrom = some x ∧
      WithdrawOk rt w c amount w' sd sd' dm b₁ b₂ l) ∨
    (∃ c sd dm streamed b₁ b₂ l, c.streamData = x ∧ ix = .lockup (.cancel c) ∧
      CancelOk rt w c w' sd dm streamed b₁ b₂ l) ∨
    (∃ c sd streamed, c.streamData = x ∧ ix = .lockup (.renounce c) ∧ RenounceOk rt w c w' sd streamed) := by
  cases h with
  | init hix h => left; refine ⟨?_, by rw [hix]; exact ⟨nofun, nofun, nofun⟩⟩; rw [h.result]; exact .ofEq rfl rfl
  | @create c p nd dm md cm k name b₁ b₂ b₃ b₄ b₆ l hix hp h =>
    by_cases hx : c.streamData = x
    · right; left; rw [hx] at hix
      exact ⟨c, p, nd, dm, md, cm, k, name, b₁, b₂, b₃, b₄, b₆, l, hx, hix, hp, h⟩
    · left
      refine ⟨?_, Ix.creates_spares hix x⟩
      rw [h.result]
      refine ⟨by simp [upd_ne _ _ (Ne.symm hx)], ?_, ?_, ?_, fun s n he => ?_⟩
      · simp [total_cons, withdrawnBy]
      · simp [total_cons, refundedBy]
      · simp [total_cons, cancelOf]
      · simp only [total_cons, creationOf]
        rw [if_neg, Nat.zero_add]
        intro hm; rw [he, ← hm, ← h.streamAddr] at hx; exact hx rfl
  | @withdraw c amount sd sd' dm b₁ b₂ l hix h =>
    by_cases hx : c.streamData = x
    · right; right; left; rw [hx] at hix; exact ⟨c, amount, sd, sd', dm, b₁, b₂, l, hx, hix, h⟩
    · left
      refine ⟨?_, Ix.withdraws_spares hix hx⟩
      rw [h.result]
      refine ⟨by simp [upd_ne _ _ (Ne.symm hx)], ?_, ?_, ?_, fun s n he => ?_⟩
      · simp [total_cons, withdrawnBy, hx]
      · simp [total_cons, refundedBy]
      · simp [total_cons, cancelOf]
      · simp [total_cons, creationOf]
  | @cancel c sd dm streamed b₁ b₂ l hix h =>
    by_cases hx : c.streamData = x
    · right; right; right; left; exact ⟨c, sd, dm, streamed, b₁, b₂, l, hx, hix, h⟩
    · left
      refine ⟨?_, by rw [hix]; exact ⟨nofun, by simpa [Ix.cancels] using hx, nofun⟩⟩
      rw [h.result]
      refine ⟨by simp [upd_ne _ _ (Ne.symm hx)], ?_, ?_, ?_, fun s n he => ?_⟩
      · simp [total_cons, withdrawnBy]
      · simp [total_cons, refundedBy, hx]
      · simp [total_cons, cancelOf, hx]
      · simp [total_cons, creationOf]
  | @renounce c sd streamed hix h =>
    by_cases hx : c.streamData = x
    · right; right; right; right; exact ⟨c, sd, streamed, hx, hix, h⟩
    · left
      refine ⟨?_, by rw [hix]; exact ⟨nofun, nofun, by simpa [Ix.renounces] using hx⟩⟩
      rw [h.result]
      refine ⟨by simp [upd_ne _ _ (Ne.symm hx)], ?_, ?_, ?_, fun s n he => ?_⟩
      · simp [total_cons, withdrawnBy]
      · simp [total_cons, refundedBy]
      · simp [total_cons, cancelOf]
      · simp [total_cons, creationOf]
  | collect hix _ h =>
    left; refine ⟨?_, by rw [hix]; exact ⟨nofun, nofun, nofun⟩⟩; rw [h.result]
    exact ⟨rfl, by simp [total_cons, withdrawnBy], by simp [total_cons, refundedBy],
      by simp [total_cons, cancelOf], fun _ _ _ => by simp [total_cons, creationOf]⟩
  | miInit hix _ _ _ h => left; refine ⟨?_, by rw [hix]; exact ⟨nofun, nofun, nofun⟩⟩; rw [h]; exact .ofEq rfl rfl
  | campaign _ hix h =>
    left; refine ⟨?_, by obtain ⟨_, _, _, _, _, _, _, rfl⟩ := hix; exact ⟨nofun, nofun, nofun⟩⟩; rw [h.result]
    exact ⟨rfl, by simp [total_cons, withdrawnBy], by simp [total_cons, refundedBy],
      by simp [total_cons, cancelOf], fun _ _ _ => by simp [total_cons, creationOf]⟩
  | claim hix h =>
    left; refine ⟨?_, by obtain ⟨_, _, rfl, _⟩ := hix; exact ⟨nofun, nofun, nofun⟩⟩; rw [h.result]
    exact ⟨rfl, by simp [total_cons, withdrawnBy], by simp [total_cons, refundedBy],
      by simp [total_cons, cancelOf], fun _ _ _ => by simp [total_cons, creationOf]⟩
  | clawback hix h =>
    left; refine ⟨?_, by obtain ⟨_, rfl, _⟩ := hix; exact ⟨nofun, nofun, nofun⟩⟩; rw [h.result]
    exact ⟨rfl, by simp [total_cons, withdrawnBy], by simp [total_cons, refundedBy],
      by simp [total_cons, cancelOf], fun _ _ _ => by simp [total_cons, creationOf]⟩
  | miCollect hix _ h =>
    left; refine ⟨?_, by rw [hix]; exact ⟨nofun, nofun, nofun⟩⟩; rw [h.result]
    exact ⟨rfl, by simp [total_cons, withdrawnBy], by simp [total_cons, refundedBy],
      by simp [total_cons, cancelOf], fun _ _ _ => by simp [total_cons, creationOf]⟩
  | env i hix h =>
    left
    refine ⟨?_, by rw [hix]; exact ⟨nofun, nofun, nofun⟩⟩
    have he := env_ok h
    exact .ofEq (by rw [he.lk]) he.log

/-! ## The accounting invariant of one stream -/

/-- What the data of the stream at `x` satisfies in every reachable state. -/
structure StreamOK (rt : Runtime) (now : Nat) (log : List LogEntry) (x : Addr) (sd : StreamData) : Prop where
  addr : x = .streamData (.streamNftMint sd.sender sd.salt)
  bump : sd.bump = rt.bump x
  salt : sd.salt < 2 ^ 128
  terms : ValidTerms sd.timestamps sd.amounts
  dep64 : sd.amounts.deposited < 2 ^ 64
  end64 : sd.timestamps.end < 2 ^ 64
  cancelable : sd.isCancelable = true → sd.wasCanceled = false ∧ sd.isDepleted = false
  live : sd.wasCanceled = false → sd.amounts.refunded = 0 ∧
    sd.amounts.withdrawn ≤ scheduled sd.timestamps sd.amounts now
  canceled : sd.wasCanceled = true → 0 < sd.amounts.refunded ∧
    sd.amounts.deposited - sd.amounts.refunded ≤ scheduled sd.timestamps sd.amounts now
  sum_le : sd.amounts.withdrawn + sd.amounts.refunded ≤ sd.amounts.deposited
  depleted : sd.isDepleted = true ↔ sd.amounts.withdrawn + sd.amounts.refunded = sd.amounts.deposited
  logW : total (withdrawnBy x) log = sd.amounts.withdrawn
  logR : total (refundedBy x) log = sd.amounts.refunded
  logC : total (cancelOf x) log = if sd.wasCanceled then 1 else 0
  logN : total (creationOf sd.sender sd.salt) log = 1

/-- The amount streamed, as a plain number. -/
def streamedNow (now : Nat) (sd : StreamData) : Nat :=
  if sd.wasCanceled then sd.amounts.deposited - sd.amounts.refunded
  else scheduled sd.timestamps sd.amounts now

theorem StreamOK.streamed {rt now log x sd} (h : StreamOK rt now log x sd) :
    sd.amounts.withdrawn ≤ streamedNow now sd ∧ streamedNow now sd ≤ sd.amounts.deposited := by
  unfold streamedNow
  have := h.sum_le
  split
  · omega
  · rename_i hc
    simp only [Bool.not_eq_true] at hc
    exact ⟨(h.live hc).2, scheduled_le h.terms _⟩

theorem StreamOK.sched_full {rt now log x sd} (h : StreamOK rt now log x sd) (hd : sd.isDepleted = true) :
    streamedNow now sd = sd.amounts.withdrawn := by
  have h1 := h.depleted.1 hd
  have h2 := h.streamed
  unfold streamedNow at *
  split
  · omega
  · rename_i hc
    rw [if_neg hc] at h2
    simp only [Bool.not_eq_true] at hc
    have := (h.live hc).1
    omega

theorem StreamOK.getStreamed {rt now log x sd} (h : StreamOK rt now log x sd) :
    getStreamedAmount now sd.timestamps sd.amounts sd.isDepleted sd.wasCanceled = .ok (streamedNow now sd) := by
  cases hd : sd.isDepleted with
  | true =>
    rw [h.sched_full hd]; unfold getStreamedAmount; rfl
  | false =>
    unfold streamedNow
    cases hc : sd.wasCanceled with
    | true =>
      have := h.sum_le
      unfold getStreamedAmount
      simp only [Bool.false_eq_true, if_false, if_true]
      exact subU64_ok.2 ⟨by omega, rfl⟩
    | false =>
      simp only [Bool.false_eq_true, if_false]
      exact getStreamedAmount_live h.terms h.dep64 h.end64 now

theorem StreamOK.getWithdrawable {rt now log x sd} (h : StreamOK rt now log x sd) :
    getWithdrawableAmount now sd.timestamps sd.amounts sd.isDepleted sd.wasCanceled =
      .ok (streamedNow now sd - sd.amounts.withdrawn) := by
  unfold getWithdrawableAmount
  exact bind_ok.2 ⟨_, h.getStreamed, subU64_ok.2 ⟨h.streamed.1, rfl⟩⟩

theorem StreamOK.getRefundable {rt now log x sd} (h : StreamOK rt now log x sd) :
    getRefundableAmount now sd.timestamps sd.amounts sd.isCancelable sd.isDepleted sd.wasCanceled =
      .ok (if sd.isCancelable then sd.amounts.deposited - streamedNow now sd else 0) := by
  unfold getRefundableAmount
  cases hc : sd.isCancelable with
  | false => simp
  | true =>
    have := (h.cancelable hc).2
    rw [this]
    simp only [Bool.not_false, Bool.and_self, if_true]
    rw [← this]
    exact bind_ok.2 ⟨_, h.getStreamed, subU64_ok.2 ⟨h.streamed.2, rfl⟩⟩

/-- Only the clock may advance and only unrelated events may be added. -/
theorem StreamOK.mono {rt now now' log log' x sd} (h : StreamOK rt now log x sd) (hn : now ≤ now')
    (hW : total (withdrawnBy x) log' = total (withdrawnBy x) log)
    (hR : total (refundedBy x) log' = total (refundedBy x) log)
    (hC : total (cancelOf x) log' = total (cancelOf x) log)
    (hN : total (creationOf sd.sender sd.salt) log' = total (creationOf sd.sender sd.salt) log) :
    StreamOK rt now' log' x sd := by
  refine { h with
    live := fun hc => ⟨(h.live hc).1, Nat.le_trans (h.live hc).2 (scheduled_mono h.terms hn)⟩
    canceled := fun hc => ⟨(h.canceled hc).1, Nat.le_trans (h.canceled hc).2 (scheduled_mono h.terms hn)⟩
    logW := by rw [hW, h.logW]
    logR := by rw [hR, h.logR]
    logC := by rw [hC, h.logC]
    logN := by rw [hN, h.logN] }

/-- `check_create` accepts exactly the valid terms. -/
theorem checkCreate_ok {dep st cl en su cu : Nat} (hd : dep < 2 ^ 64) {u : Unit} :
    checkCreate dep st cl en su cu = .ok u ↔
      ValidTerms ⟨cl, en, st⟩ ⟨su, cu, dep, 0, 0⟩ := by
  unfold checkCreate ValidTerms
  simp only
  by_cases h1 : dep = 0
  · rw [if_pos h1]; constructor
    · intro h; cases h
    · intro h; omega
  rw [if_neg h1]
  by_cases h2 : st = 0
  · rw [if_pos h2]; constructor
    · intro h; cases h
    · intro h; omega
  rw [if_neg h2]
  by_cases h3 : st ≥ en
  · rw [if_pos h3]; constructor
    · intro h; cases h
    · intro h; omega
  rw [if_neg h3]
  have tail : ∀ {u : Unit}, (if su + cu < 2 ^ 64 then
      if su + cu > dep then (.error (.lockup .unlockAmountsSumTooHigh) : Res Unit) else .ok ()
      else .error (.lockup .unlockAmountsSumTooHigh)) = .ok u ↔ su + cu ≤ dep := by
    intro u
    by_cases h5 : su + cu ≤ dep
    · rw [if_pos (by omega), if_neg (by omega)]
      exact ⟨fun _ => h5, fun _ => rfl⟩
    · constructor
      · intro h
        split at h
        · split at h
          · cases h
          · omega
        · cases h
      · intro h; exact absurd h h5
  by_cases h4 : cl > 0
  · rw [if_pos h4]
    by_cases h5 : st ≥ cl
    · rw [if_pos h5, bind_ok]
      constructor
      · rintro ⟨_, h, _⟩; cases h
      · intro h; omega
    · rw [if_neg h5]
      by_cases h6 : cl ≥ en
      · rw [if_pos h6, bind_ok]
        constructor
        · rintro ⟨_, h, _⟩; cases h
        · intro h; omega
      · rw [if_neg h6, bind_ok]
        constructor
        · rintro ⟨_, _, h⟩
          have := tail.1 h
          omega
        · intro h
          exact ⟨(), rfl, tail.2 (by omega)⟩
  · rw [if_neg h4]
    by_cases h5 : cu > 0
    · rw [if_pos h5, bind_ok]
      constructor
      · rintro ⟨_, h, _⟩; cases h
      · intro h; omega
    · rw [if_neg h5, bind_ok]
      constructor
      · rintro ⟨_, _, h⟩
        have := tail.1 h
        omega
      · intro h
        exact ⟨(), rfl, tail.2 (by omega)⟩

theorem withdraw_data {sd sd' : StreamData} {amount : Nat} (h : sd.withdraw amount = .ok sd') :
    sd.amounts.withdrawn + amount < 2 ^ 64 ∧ sd.amounts.refunded ≤ sd.amounts.deposited ∧
    sd' = { sd with
      amounts := { sd.amounts with withdrawn := sd.amounts.withdrawn + amount }
      isCancelable := if sd.amounts.withdrawn + amount ≥ sd.amounts.deposited - sd.amounts.refunded
        then false else sd.isCancelable
      isDepleted := if sd.amounts.withdrawn + amount ≥ sd.amounts.deposited - sd.amounts.refunded
        then true else sd.isDepleted } := by
  simp only [StreamData.withdraw, bind_ok, addU64_ok, subU64_ok] at h
  obtain ⟨_, ⟨h1, rfl⟩, _, ⟨h2, rfl⟩, h3⟩ := h
  refine ⟨h1, h2, ?_⟩
  split at h3
  · rename_i hc
    rw [if_pos hc, if_pos hc]
    exact (pure_ok.1 h3).symm
  · rename_i hc
    rw [if_neg hc, if_neg hc]
    exact (pure_ok.1 h3).symm

theorem StreamOK.ofCreate {rt w c p w' nd dm md cm k name b₁ b₂ b₃ b₄ b₆ l} (hp : ParamsBounded p)
    (h : CreateOk rt w c p w' nd dm md cm k name b₁ b₂ b₃ b₄ b₆ l)
    (hW : total (withdrawnBy c.streamData) w.log = 0) (hR : total (refundedBy c.streamData) w.log = 0)
    (hC : total (cancelOf c.streamData) w.log = 0) (hN : total (creationOf c.sender p.salt) w.log = 0) :
    StreamOK rt w'.now w'.log c.streamData (StreamData.create c.depositTokenMint (rt.bump c.streamData) p.cliffTime
      p.cliffUnlockAmount p.depositAmount p.endTime p.salt p.isCancelable c.sender p.startTime p.startUnlockAmount) := by
  have hv := (checkCreate_ok hp.dep).1 h.check
  have hpos := hv.1
  simp only at hpos
  rw [h.result]
  refine ⟨?_, rfl, hp.salt, hv, hp.dep, hp.end, fun _ => ⟨rfl, rfl⟩, fun _ => ⟨rfl, Nat.zero_le _⟩,
    fun hc => (by cases hc), Nat.zero_le _, ?_, ?_, ?_, ?_, ?_⟩
  · rw [h.streamAddr, h.nftMintAddr]; rfl
  · simp only [StreamData.create]
    constructor
    · intro h; cases h
    · intro h; omega
  · simp [total_cons, withdrawnBy, hW, StreamData.create]
  · simp [total_cons, refundedBy, hR, StreamData.create]
  · simp [total_cons, cancelOf, hC, StreamData.create]
  · simp [total_cons, creationOf, StreamData.create, h.nftMintAddr, hN]

theorem StreamOK.ofWithdraw {rt w c amount w' sd sd' dm b₁ b₂ l}
    (h : WithdrawOk rt w c amount w' sd sd' dm b₁ b₂ l) (hs : StreamOK rt w.now w.log c.streamData sd) :
    StreamOK rt w'.now w'.log c.streamData sd' := by
  obtain ⟨y, hy, hle⟩ := h.withdrawable
  rw [hs.getWithdrawable] at hy
  cases hy
  obtain ⟨e1, e2, rfl⟩ := withdraw_data h.data
  have hst := hs.streamed
  have hsum := hs.sum_le
  have hnd := h.notDepleted
  have hpos := h.pos
  have hstr : streamedNow w.now sd + sd.amounts.refunded ≤ sd.amounts.deposited := by
    unfold streamedNow at *
    split
    · omega
    · rename_i hc
      simp only [Bool.not_eq_true] at hc
      have := (hs.live hc).1
      rw [if_neg (by simp [hc])] at hst
      omega
  have hnow : w'.now = w.now := by rw [h.result]; rfl
  rw [hnow]
  have hlog : w'.log = ⟨w.now, .withdrawFromLockupStream c.depositedTokenMint 0 c.streamData c.streamNftMint amount⟩ :: w.log := by
    rw [h.result]
  rw [hlog]
  refine ⟨hs.addr, hs.bump, hs.salt, hs.terms, hs.dep64, hs.end64, ?_, ?_, hs.canceled, ?_, ?_, ?_, ?_, ?_, ?_⟩
  · intro hc
    simp only at hc ⊢
    split at hc
    · cases hc
    · rename_i hge; rw [if_neg hge]; exact hs.cancelable hc
  · intro hc
    refine ⟨(hs.live hc).1, ?_⟩
    have hc' : sd.wasCanceled = false := hc
    have : streamedNow w.now sd = scheduled sd.timestamps sd.amounts w.now := by simp [streamedNow, hc']
    show sd.amounts.withdrawn + amount ≤ scheduled sd.timestamps sd.amounts w.now
    omega
  · show sd.amounts.withdrawn + amount + sd.amounts.refunded ≤ sd.amounts.deposited
    omega
  · show (if _ then true else sd.isDepleted) = true ↔ sd.amounts.withdrawn + amount + sd.amounts.refunded = sd.amounts.deposited
    split
    · simp; omega
    · rw [hnd]; simp; omega
  · simp [total_cons, withdrawnBy, hs.logW]; omega
  · simp [total_cons, refundedBy, hs.logR]
  · simp [total_cons, cancelOf, hs.logC]
  · simp [total_cons, creationOf, hs.logN]

theorem StreamOK.ofCancel {rt w c w' sd dm streamed b₁ b₂ l}
    (h : CancelOk rt w c w' sd dm streamed b₁ b₂ l) (hs : StreamOK rt w.now w.log c.streamData sd) :
    streamed = scheduled sd.timestamps sd.amounts w.now ∧ sd.amounts.refunded = 0 ∧
    StreamOK rt w'.now w'.log c.streamData
      (sd.cancel (sd.amounts.deposited - streamed) (streamed - sd.amounts.withdrawn)) := by
  have hy := h.streamed_eq
  rw [hs.getStreamed] at hy
  cases hy
  have hnc := h.notCanceled
  have hnd := h.notDepleted
  have hlive := hs.live hnc
  have hst := hs.streamed
  have heq : streamedNow w.now sd = scheduled sd.timestamps sd.amounts w.now := by simp [streamedNow, hnc]
  have hns := h.notSettled
  refine ⟨heq, hlive.1, ?_⟩
  have hnow : w'.now = w.now := by rw [h.result]; rfl
  rw [hnow]
  have hlog : w'.log = ⟨w.now, .cancelLockupStream c.depositedTokenMint (streamedNow w.now sd - sd.amounts.withdrawn)
      (sd.amounts.deposited - streamedNow w.now sd) c.streamData c.streamNftMint⟩ :: w.log := by
    rw [h.result]
  rw [hlog]
  refine ⟨hs.addr, hs.bump, hs.salt, hs.terms, hs.dep64, hs.end64, ?_, ?_, ?_, ?_, ?_, ?_, ?_, ?_, ?_⟩
  · intro hc; cases hc
  · intro hc; cases hc
  · intro _
    show 0 < sd.amounts.deposited - streamedNow w.now sd ∧
      sd.amounts.deposited - (sd.amounts.deposited - streamedNow w.now sd) ≤ scheduled sd.timestamps sd.amounts w.now
    omega
  · show sd.amounts.withdrawn + (sd.amounts.deposited - streamedNow w.now sd) ≤ sd.amounts.deposited
    omega
  · show (if _ then true else sd.isDepleted) = true ↔
      sd.amounts.withdrawn + (sd.amounts.deposited - streamedNow w.now sd) = sd.amounts.deposited
    split
    · simp; omega
    · rw [hnd]; simp; omega
  · simp [total_cons, withdrawnBy, hs.logW, StreamData.cancel]
  · simp [total_cons, refundedBy, hs.logR, StreamData.cancel, hlive.1]
  · simp [total_cons, cancelOf, hs.logC, StreamData.cancel, hnc]
  · simp [total_cons, creationOf, hs.logN, StreamData.cancel]

theorem StreamOK.ofRenounce {rt w c w' sd streamed}
    (h : RenounceOk rt w c w' sd streamed) (hs : StreamOK rt w.now w.log c.streamData sd) :
    StreamOK rt w'.now w'.log c.streamData sd.renounce := by
  have hnow : w'.now = w.now := by rw [h.result]; rfl
  rw [hnow]
  have hlog : w'.log = ⟨w.now, .renounceLockupStream sd.depositedTokenMint c.streamData c.streamNftMint⟩ :: w.log := by
    rw [h.result]
  rw [hlog]
  refine ⟨hs.addr, hs.bump, hs.salt, hs.terms, hs.dep64, hs.end64, ?_, hs.live, hs.canceled, hs.sum_le, hs.depleted,
    ?_, ?_, ?_, ?_⟩
  · intro hc; cases hc
  · simp [total_cons, withdrawnBy, hs.logW, StreamData.renounce]
  · simp [total_cons, refundedBy, hs.logR, StreamData.renounce]
  · rw [total_cons, hs.logC]; simp only [cancelOf, Nat.zero_add]; rfl
  · simp [total_cons, creationOf, hs.logN, StreamData.renounce]

/-- The invariant over all stream addresses. -/
def StreamsOK (rt : Runtime) (w : World) : Prop := ∀ x,
  match w.lk.streams x with
  | some sd => StreamOK rt w.now w.log x sd
  | none => total (withdrawnBy x) w.log = 0 ∧ total (refundedBy x) w.log = 0 ∧ total (cancelOf x) w.log = 0 ∧
      ∀ s n, x = .streamData (.streamNftMint s n) → total (creationOf s n) w.log = 0

theorem StreamsOK.some {rt w} (h : StreamsOK rt w) {x sd} (hx : w.lk.streams x = some sd) :
    StreamOK rt w.now w.log x sd := by
  have := h x; rw [hx] at this; exact this

theorem Reachable.streamsOK {rt : Runtime} {w : World} (h : Reachable rt w) : StreamsOK rt w := by
  refine h.induct ?_ ?_
  · intro w hg x
    rw [hg.no_streams, hg.no_log]
    exact ⟨rfl, rfl, rfl, fun _ _ _ => rfl⟩
  · intro w ix w' hr hs hd x
    have hn := hd.now_le hr.clockOk
    rcases hd.stream x with ⟨hq, _⟩ | ⟨c, p, nd, dm, md, cm, k, name, b₁, b₂, b₃, b₄, b₆, l, hx, _, hp, hok⟩ |
      ⟨c, amount, sd, sd', dm, b₁, b₂, l, hx, _, hok⟩ | ⟨c, sd, dm, streamed, b₁, b₂, l, hx, _, hok⟩ |
      ⟨c, sd, streamed, hx, _, hok⟩
    · have hsx := hs x
      rw [hq.data]
      cases hsd : w.lk.streams x with
      | none =>
        rw [hsd] at hsx
        exact ⟨by rw [hq.withdrawn]; exact hsx.1, by rw [hq.refunded]; exact hsx.2.1,
          by rw [hq.cancels]; exact hsx.2.2.1, fun s n he => by rw [hq.created s n he]; exact hsx.2.2.2 s n he⟩
      | some sd =>
        rw [hsd] at hsx
        exact hsx.mono hn hq.withdrawn hq.refunded hq.cancels (hq.created _ _ hsx.addr)
    · subst hx
      have hsx := hs c.streamData
      rw [hok.fresh] at hsx
      have : w'.lk.streams c.streamData = some (StreamData.create c.depositTokenMint (rt.bump c.streamData) p.cliffTime
        p.cliffUnlockAmount p.depositAmount p.endTime p.salt p.isCancelable c.sender p.startTime p.startUnlockAmount) := by
        rw [hok.result]; simp
      rw [this]
      refine StreamOK.ofCreate hp hok hsx.1 hsx.2.1 hsx.2.2.1 (hsx.2.2.2 _ _ ?_)
      rw [hok.streamAddr, hok.nftMintAddr]
    · subst hx
      have : w'.lk.streams c.streamData = some sd' := by rw [hok.result]; simp
      rw [this]
      exact .ofWithdraw hok (hs.some hok.accts.stream)
    · subst hx
      have : w'.lk.streams c.streamData = some
        (sd.cancel (sd.amounts.deposited - streamed) (streamed - sd.amounts.withdrawn)) := by rw [hok.result]; simp
      rw [this]
      exact (StreamOK.ofCancel hok (hs.some hok.accts.stream)).2.2
    · subst hx
      have : w'.lk.streams c.streamData = some sd.renounce := by rw [hok.result]; simp
      rw [this]
      exact .ofRenounce hok (hs.some hok.stream)

theorem Reachable.streamOK {rt : Runtime} {w : World} (h : Reachable rt w) {x : Addr} {sd : StreamData}
    (hx : w.lk.streams x = some sd) : StreamOK rt w.now w.log x sd := h.streamsOK.some hx

end Solsab
