import Verif.Spec.Status
import Verif.Props.Solvency
/-!
# C22–C24: status and immutability of the terms
-/

namespace Solsab.Props

open Lockup Spec Demo

/-- **C22**: `status_of` of an existing stream, in terms of its events, its terms, the clock and
`streamed_amount_of`. -/
theorem C22_status_exact {rt : Runtime} {w : World} (hr : Reachable rt w) {s : Addr} {n : Nat} {sd : StreamData}
    (hs : w.lk.streams (streamAddr s n) = some sd) :
    ∃ st x, statusOf rt w (viewOf s n) = .ok st ∧ streamedAmountOf rt w (viewOf s n) = .ok x ∧
      -- fully paid out
      (st = .depleted ↔ total (withdrawnBy (streamAddr s n)) w.log + total (refundedBy (streamAddr s n)) w.log =
        sd.amounts.deposited) ∧
      -- canceled, with something left for the recipient
      (st = .canceled ↔ total (cancelOf (streamAddr s n)) w.log = 1 ∧
        total (withdrawnBy (streamAddr s n)) w.log + total (refundedBy (streamAddr s n)) w.log <
          sd.amounts.deposited) ∧
      (st = .pending ↔ total (cancelOf (streamAddr s n)) w.log = 0 ∧ w.now < sd.timestamps.start) ∧
      (st = .streaming ↔ total (cancelOf (streamAddr s n)) w.log = 0 ∧ sd.timestamps.start ≤ w.now ∧
        x < sd.amounts.deposited) ∧
      (st = .settled ↔ total (cancelOf (streamAddr s n)) w.log = 0 ∧ x = sd.amounts.deposited ∧
        total (withdrawnBy (streamAddr s n)) w.log < sd.amounts.deposited) := by
  have hv := hr.viewsOf hs
  have hok := hv.ok
  refine ⟨_, _, hv.status, hv.streamed, ?_⟩
  rw [hok.logW, hok.logR, hok.logC]
  have h1 := hok.depleted
  have h2 := hok.sum_le
  have h3 := hok.streamed
  have h4 := hok.live
  have h5 := hok.canceled
  have h6 : w.now < sd.timestamps.start → sd.wasCanceled = false → streamedNow w.now sd = 0 := by
    intro h h'
    simp [streamedNow, h', scheduled, h]
  have h7 := hok.terms.1
  cases hd : sd.isDepleted with
  | true =>
    have h8 := h1.1 hd
    cases hc : sd.wasCanceled with
    | true => simp only [if_true]; simp; omega
    | false =>
      have h9 := (h4 hc).1
      have h10 := hok.sched_full hd
      have h11 : ¬ w.now < sd.timestamps.start := fun h => by have := h6 h hc; omega
      simp only [if_true]; simp; omega
  | false =>
    have h8 : ¬ (sd.amounts.withdrawn + sd.amounts.refunded = sd.amounts.deposited) := fun h => by
      have := h1.2 h; rw [hd] at this; cases this
    cases hc : sd.wasCanceled with
    | true => simp only [if_true]; simp; omega
    | false =>
      have h9 := (h4 hc).1
      by_cases hp : w.now < sd.timestamps.start
      · have := h6 hp hc
        simp [hp]; omega
      · by_cases hlt : streamedNow w.now sd < sd.amounts.deposited
        · simp [hp, hlt]; omega
        · simp [hp, hlt]; omega

example := C22_status_exact reach2 (s := alice) (n := 1)
  (sd := ⟨⟨100, 200, 1000, 0, 0⟩, Demo.mint, 255, 1, true, false, ⟨3000, 6000, 2000⟩, alice, false⟩)
  (by decide +kernel)

/-- All five statuses occur in the demo history. -/
example : (statusOf rt world1 (viewOf alice 1)).toOption = some .pending ∧
    (statusOf rt world3 (viewOf alice 1)).toOption = some .streaming ∧
    (statusOf rt world4 (viewOf alice 1)).toOption = some .canceled ∧
    (statusOf rt world5 (viewOf alice 1)).toOption = some .depleted ∧
    (statusOf rt world7 (viewOf alice 2)).toOption = some .settled := by decide +kernel

/-- **C23**: along any history the status only moves forward. -/
theorem C23_status_forward {rt : Runtime} {w w' : World} (hr : Reachable rt w) (hs : Steps rt w w') {s : Addr}
    {n : Nat} {st : StreamStatus} (hst : statusOf rt w (viewOf s n) = .ok st) :
    ∃ st', statusOf rt w' (viewOf s n) = .ok st' ∧ canFollow st st' = true := by
  have hx : ∃ sd, w.lk.streams (streamAddr s n) = some sd := by
    unfold statusOf at hst
    obtain ⟨sd, h, _⟩ := bind_ok.1 hst
    exact ⟨sd, (loadStream_ok.1 h).1⟩
  obtain ⟨sd, hx⟩ := hx
  have hv := hr.viewsOf hx
  obtain ⟨sd', hx', hl⟩ := hs.stream hr hx
  have hv' := (hr.steps hs).viewsOf hx'
  refine ⟨_, hv'.status, ?_⟩
  rw [hv.status] at hst
  cases hst
  have hmono := hs.streamed_mono hr hx hx'
  have hnow := hs.now_le hr
  have hstart : sd'.timestamps.start = sd.timestamps.start := by rw [hl.terms.timestamps]
  have hdep := hl.terms.deposited
  have hok := hv.ok
  have hok' := hv'.ok
  have hb' := hok'.streamed
  cases hd : sd.isDepleted with
  | true =>
    have := hl.depleted hd
    subst this
    simp [hd, canFollow]
  | false =>
    cases hc : sd.wasCanceled with
    | true =>
      have := (hl.canceled hc).1
      simp only [this, if_true]
      cases sd'.isDepleted <;> simp [canFollow]
    | false =>
      by_cases hp : w.now < sd.timestamps.start
      · simp [hp, canFollow]
      · have hp' : ¬ w'.now < sd'.timestamps.start := by omega
        by_cases hlt : streamedNow w.now sd < sd.amounts.deposited
        · cases sd'.isDepleted <;> cases sd'.wasCanceled <;> simp [hp, hp', hlt] <;>
            first | rfl | (split <;> rfl)
        · have hlt' : ¬ streamedNow w'.now sd' < sd'.amounts.deposited := by omega
          have hnc : sd'.wasCanceled = false := by
            cases h : sd'.wasCanceled with
            | false => rfl
            | true =>
              have h1 := (hok'.canceled h).1
              have h2 := hok'.terms.1
              have : streamedNow w'.now sd' = sd'.amounts.deposited - sd'.amounts.refunded := by
                simp [streamedNow, h]
              omega
          cases sd'.isDepleted <;> simp [hp, hp', hlt, hlt', hnc] <;> rfl

example := C23_status_forward reach1 (s := alice) (n := 1) (st := .pending) (w' := world4)
  (steps12.trans (steps23.trans steps34))
  (by rw [(reach1.viewsOf (s := alice) (n := 1)
        (sd := ⟨⟨100, 200, 1000, 0, 0⟩, Demo.mint, 255, 1, true, false, ⟨3000, 6000, 2000⟩, alice, false⟩)
        (by decide +kernel)).status]
      exact congrArg Except.ok (by decide +kernel))

/-- `canFollow` is not a blanket permission: e.g. nothing leads back to Streaming, and Settled never becomes
Canceled. -/
example : canFollow .settled .canceled = false ∧ canFollow .canceled .streaming = false ∧
    canFollow .depleted .canceled = false ∧ canFollow .streaming .pending = false ∧
    (∀ a b c, canFollow a b = true → canFollow b c = true → canFollow a c = true) :=
  ⟨rfl, rfl, rfl, rfl, by intro a b c; cases a <;> cases b <;> cases c <;> simp [canFollow]⟩

/-- **C24**: the terms of a stream never change and the stream never disappears. -/
theorem C24_terms_immutable {rt : Runtime} {w w' : World} (hr : Reachable rt w) (hs : Steps rt w w') {s : Addr}
    {n : Nat} {sd : StreamData} (hx : w.lk.streams (streamAddr s n) = some sd) :
    ∃ sd', w'.lk.streams (streamAddr s n) = some sd' ∧ sd'.sender = sd.sender ∧ sd.sender = s ∧
      sd'.depositedTokenMint = sd.depositedTokenMint ∧ sd'.salt = sd.salt ∧ sd.salt = n ∧
      sd'.timestamps = sd.timestamps ∧ sd'.amounts.startUnlock = sd.amounts.startUnlock ∧
      sd'.amounts.cliffUnlock = sd.amounts.cliffUnlock ∧ sd'.amounts.deposited = sd.amounts.deposited ∧
      sd'.bump = sd.bump := by
  obtain ⟨sd', hx', hl⟩ := hs.stream hr hx
  obtain ⟨h1, h2⟩ := streamAddr_inj (hr.streamOK hx).addr
  exact ⟨sd', hx', hl.terms.sender, h1.symm, hl.terms.mint, hl.terms.salt, h2.symm, hl.terms.timestamps,
    hl.terms.startUnlock, hl.terms.cliffUnlock, hl.terms.deposited, hl.terms.bump⟩

example := C24_terms_immutable reach1 (s := alice) (n := 1) (w' := world5)
  (sd := ⟨⟨100, 200, 1000, 0, 0⟩, Demo.mint, 255, 1, true, false, ⟨3000, 6000, 2000⟩, alice, false⟩)
  (steps12.trans (steps23.trans (steps34.trans steps45))) (by decide +kernel)

end Solsab.Props
