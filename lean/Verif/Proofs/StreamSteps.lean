import Verif.Proofs.ConfigInv
/-!
# Streams along histories, and the views on existing streams
-/

namespace Solsab

open Lockup Spec

theorem Reachable.exists_iff {rt : Runtime} {w : World} (h : Reachable rt w) {s : Addr} {n : Nat} :
    streamExists w s n = true ↔ ∃ sd, w.lk.streams (streamAddr s n) = some sd := by
  unfold streamExists streamAddr
  rw [h.nftMintsOK s n, Option.isSome_iff_exists]

/-- Everything the views say about an existing stream. -/
structure ViewsAt (rt : Runtime) (w : World) (s : Addr) (n : Nat) (sd : StreamData) : Prop where
  stream : w.lk.streams (streamAddr s n) = some sd
  ok : StreamOK rt w.now w.log (streamAddr s n) sd
  streamed : streamedAmountOf rt w (viewOf s n) = .ok (streamedNow w.now sd)
  withdrawable : withdrawableAmountOf rt w (viewOf s n) = .ok (streamedNow w.now sd - sd.amounts.withdrawn)
  refundable : refundableAmountOf rt w (viewOf s n) =
    .ok (if sd.isCancelable then sd.amounts.deposited - streamedNow w.now sd else 0)
  status : statusOf rt w (viewOf s n) = .ok
    (if sd.isDepleted then .depleted else if sd.wasCanceled then .canceled
     else if w.now < sd.timestamps.start then .pending
     else if streamedNow w.now sd < sd.amounts.deposited then .streaming else .settled)

theorem Reachable.viewsOf {rt : Runtime} {w : World} (h : Reachable rt w) {s : Addr} {n : Nat}
    {sd : StreamData} (hx : w.lk.streams (streamAddr s n) = some sd) : ViewsAt rt w s n sd := by
  have hok := h.streamOK hx
  have hl : loadStream rt w (viewOf s n).streamData (viewOf s n).streamNftMint = .ok sd := h.load hx
  refine ⟨hx, hok, ?_, ?_, ?_, ?_⟩
  · unfold streamedAmountOf; rw [hl]; exact hok.getStreamed
  · unfold withdrawableAmountOf; rw [hl]; exact hok.getWithdrawable
  · unfold refundableAmountOf; rw [hl]; exact hok.getRefundable
  · unfold statusOf
    rw [hl]
    show (if sd.isDepleted = true then _ else _ : Res StreamStatus) = _
    rw [hok.getStreamed]
    split
    · rfl
    · split
      · rfl
      · split
        · rfl
        · show (if _ then _ else _ : Res StreamStatus) = _
          split <;> rfl

theorem Reachable.views {rt : Runtime} {w : World} (h : Reachable rt w) {s : Addr} {n : Nat}
    (hx : streamExists w s n = true) : ∃ sd, ViewsAt rt w s n sd := by
  obtain ⟨sd, hsd⟩ := h.exists_iff.1 hx
  exact ⟨sd, h.viewsOf hsd⟩

/-- What a history can do to a stream's data. -/
structure Later (sd sd' : StreamData) : Prop where
  terms : SameTerms sd sd'
  withdrawn : sd.amounts.withdrawn ≤ sd'.amounts.withdrawn
  canceled : sd.wasCanceled = true → sd'.wasCanceled = true ∧ sd'.amounts.refunded = sd.amounts.refunded
  depleted : sd.isDepleted = true → sd' = sd
  locked : sd.isCancelable = false → sd'.isCancelable = false ∧ sd'.wasCanceled = sd.wasCanceled ∧
    sd'.amounts.refunded = sd.amounts.refunded

theorem Later.refl (sd : StreamData) : Later sd sd :=
  ⟨.refl sd, Nat.le_refl _, fun h => ⟨h, rfl⟩, fun _ => rfl, fun h => ⟨h, rfl, rfl⟩⟩

theorem Later.trans {a b c : StreamData} (h : Later a b) (h' : Later b c) : Later a c :=
  ⟨h.terms.trans h'.terms, Nat.le_trans h.withdrawn h'.withdrawn,
   fun hc => ⟨(h'.canceled (h.canceled hc).1).1, (h'.canceled (h.canceled hc).1).2.trans (h.canceled hc).2⟩,
   fun hd => by
     have h1 := h.depleted hd
     subst h1
     exact h'.depleted hd,
   fun hl => ⟨(h'.locked (h.locked hl).1).1, (h'.locked (h.locked hl).1).2.1.trans (h.locked hl).2.1,
     (h'.locked (h.locked hl).1).2.2.trans (h.locked hl).2.2⟩⟩

theorem Evolves.later {rt now log x sd sd'} (hok : StreamOK rt now log x sd) (h : Evolves now sd sd') :
    Later sd sd' := by
  have ht := h.terms
  cases h with
  | same => exact .refl _
  | withdraw hd hp hle h =>
    obtain ⟨_, _, rfl⟩ := withdraw_data h
    refine ⟨ht, by simp, fun hc => ⟨hc, rfl⟩, fun h => (by rw [hd] at h; cases h), fun hl => ?_⟩
    refine ⟨?_, rfl, rfl⟩
    show (if _ then _ else _) = false
    split <;> simp [hl]
  | cancel hc hn hd hlt =>
    refine ⟨ht, by simp [StreamData.cancel], fun h => ?_, fun h => ?_, fun h => ?_⟩
    · rw [hn] at h; cases h
    · rw [hd] at h; cases h
    · rw [hc] at h; cases h
  | renounce hc hlt =>
    refine ⟨ht, by simp [StreamData.renounce], fun h => ?_, fun h => ?_, fun h => ?_⟩
    · exact ⟨h, rfl⟩
    · have := (hok.cancelable hc).2
      rw [this] at h; cases h
    · rw [hc] at h; cases h

theorem Steps.stream {rt : Runtime} {w w' : World} (hr : Reachable rt w) (h : Steps rt w w') {x : Addr}
    {sd : StreamData} (hx : w.lk.streams x = some sd) :
    ∃ sd', w'.lk.streams x = some sd' ∧ Later sd sd' := by
  induction h with
  | refl => exact ⟨sd, hx, .refl sd⟩
  | tail ix hst hs ih =>
    obtain ⟨sd₁, h1, h2⟩ := ih
    have hr1 := hr.steps hst
    obtain ⟨sd₂, h3, h4, _⟩ := (step_did hs).evolves hr1 h1
    exact ⟨sd₂, h3, h2.trans (h4.later (hr1.streamOK h1))⟩

/-- Whatever is done to a stream at one instant, its streamed amount at that instant does not drop. -/
theorem Evolves.streamedNow {rt now log x sd sd'} (hok : StreamOK rt now log x sd) (h : Evolves now sd sd') :
    Solsab.streamedNow now sd' = Solsab.streamedNow now sd := by
  cases h with
  | same => rfl
  | withdraw hd hp hle h =>
    obtain ⟨_, _, rfl⟩ := withdraw_data h
    rfl
  | cancel hc hn hd hlt =>
    have := hok.streamed
    unfold Solsab.streamedNow at *
    simp only [StreamData.cancel, hn] at *
    simp at *
    omega
  | renounce hc hlt => rfl

theorem streamedNow_mono {rt now log x sd} (hok : StreamOK rt now log x sd) {now' : Nat} (h : now ≤ now') :
    streamedNow now sd ≤ streamedNow now' sd := by
  unfold streamedNow
  split
  · exact Nat.le_refl _
  · exact scheduled_mono hok.terms h

theorem Steps.streamed_mono {rt : Runtime} {w w' : World} (hr : Reachable rt w) (h : Steps rt w w') {x : Addr}
    {sd sd' : StreamData} (hx : w.lk.streams x = some sd) (hx' : w'.lk.streams x = some sd') :
    streamedNow w.now sd ≤ streamedNow w'.now sd' := by
  induction h generalizing sd' with
  | refl => rw [hx] at hx'; cases hx'; exact Nat.le_refl _
  | tail ix hst hs ih =>
    obtain ⟨sd₁, h1, _⟩ := hst.stream hr hx
    have hr1 := hr.steps hst
    have hd := step_did hs
    obtain ⟨sd₂, h3, h4, _⟩ := hd.evolves hr1 h1
    rw [hx'] at h3; cases h3
    refine Nat.le_trans (ih h1) ?_
    rw [← h4.streamedNow (hr1.streamOK h1)]
    have hr2 := hr1.step hs
    have hn : _ ≤ _ := hd.now_le hr1.clockOk
    unfold Solsab.streamedNow
    split
    · exact Nat.le_refl _
    · exact scheduled_mono (hr2.streamOK hx').terms hn

theorem Steps.exists {rt : Runtime} {w w' : World} (hr : Reachable rt w) (h : Steps rt w w') {s : Addr}
    {n : Nat} (hx : streamExists w s n = true) : streamExists w' s n = true := by
  obtain ⟨sd, hsd⟩ := hr.exists_iff.1 hx
  obtain ⟨sd', h', _⟩ := h.stream hr hsd
  exact (hr.steps h).exists_iff.2 ⟨sd', h'⟩

end Solsab
