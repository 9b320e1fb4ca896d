import Verif.Props.Schedule
import Verif.Props.Cancel
import Verif.Props.Withdraw
/-!
# C82 — the books of a stream balance; C83 — the algebra of the schedule
-/

namespace Solsab.Props

open Solsab Spec Lockup Demo

/-- **C82**: what the three views answer, together with what has been paid out, accounts for the whole
deposit.  `x`, `y`, `z` are the streamed, withdrawable and refundable amounts. -/
theorem C82_books {rt : Runtime} {w : World} (hr : Reachable rt w) {s : Addr} {n : Nat} {sd : StreamData}
    (hs : w.lk.streams (streamAddr s n) = some sd) :
    ∃ x y z, streamedAmountOf rt w (viewOf s n) = .ok x ∧ withdrawableAmountOf rt w (viewOf s n) = .ok y ∧
      refundableAmountOf rt w (viewOf s n) = .ok z ∧
      sd.amounts.withdrawn + y = x ∧
      -- a stream that can be canceled splits its deposit in three
      (sd.isCancelable = true → sd.amounts.withdrawn + y + z = sd.amounts.deposited ∧
        sd.amounts.refunded = 0) ∧
      -- a canceled one too
      (sd.wasCanceled = true → sd.amounts.withdrawn + y + sd.amounts.refunded = sd.amounts.deposited ∧
        0 < sd.amounts.refunded ∧ z = 0) ∧
      -- in any other nothing is ever the sender's
      (sd.isCancelable = false → sd.wasCanceled = false → z = 0 ∧ sd.amounts.refunded = 0) ∧
      -- and depleted means that nothing is left to anyone
      (sd.isDepleted = true ↔ sd.amounts.withdrawn + sd.amounts.refunded = sd.amounts.deposited) ∧
      (sd.isDepleted = true → y = 0 ∧ z = 0) := by
  have hv := hr.viewsOf hs
  have h1 := hv.ok.streamed
  refine ⟨_, _, _, hv.streamed, hv.withdrawable, hv.refundable, by omega, ?_, ?_, ?_, hv.ok.depleted, ?_⟩
  · intro hc
    have h2 := hv.ok.live (hv.ok.cancelable hc).1
    rw [if_pos hc]
    exact ⟨by omega, h2.1⟩
  · intro hc
    have hn : sd.isCancelable = false := by
      cases h : sd.isCancelable
      · rfl
      · have := (hv.ok.cancelable h).1; rw [hc] at this; cases this
    have h2 := hv.ok.sum_le
    have h3 : streamedNow w.now sd = sd.amounts.deposited - sd.amounts.refunded := by
      unfold streamedNow; rw [if_pos hc]
    simp only [hn, Bool.false_eq_true, if_false, and_true]
    exact ⟨by omega, (hv.ok.canceled hc).1⟩
  · intro hn hc
    simp only [hn, Bool.false_eq_true, if_false, true_and]
    exact (hv.ok.live hc).1
  · intro hd
    have hn : sd.isCancelable = false := by
      cases h : sd.isCancelable
      · rfl
      · have := (hv.ok.cancelable h).2; rw [hd] at this; cases this
    simp only [hn, Bool.false_eq_true, if_false, and_true]
    rw [hv.ok.sched_full hd]; omega

/-- The demo stream 1: live with 200 withdrawn, then canceled, then emptied. -/
example := C82_books reach3 (s := alice) (n := 1) (sd :=
  ⟨⟨100, 200, 1000, 0, 200⟩, Demo.mint, 255, 1, true, false, ⟨3000, 6000, 2000⟩, alice, false⟩) (by decide +kernel)
example := C82_books reach4 (s := alice) (n := 1) (sd :=
  ⟨⟨100, 200, 1000, 467, 200⟩, Demo.mint, 255, 1, false, false, ⟨3000, 6000, 2000⟩, alice, true⟩) (by decide +kernel)
example := C82_books reach5 (s := alice) (n := 1) (sd :=
  ⟨⟨100, 200, 1000, 467, 533⟩, Demo.mint, 255, 1, false, true, ⟨3000, 6000, 2000⟩, alice, true⟩) (by decide +kernel)

/-- **C82**, from the events alone: someone who has only the event log and the three views can reconstruct
the deposit of every stream that is cancelable or was canceled. -/
theorem C82_history {rt : Runtime} {w : World} (hr : Reachable rt w) {s : Addr} {n : Nat} {sd : StreamData}
    (hs : w.lk.streams (streamAddr s n) = some sd) (hc : sd.isCancelable = true ∨ sd.wasCanceled = true) :
    ∃ y z, withdrawableAmountOf rt w (viewOf s n) = .ok y ∧ refundableAmountOf rt w (viewOf s n) = .ok z ∧
      total (withdrawnBy (streamAddr s n)) w.log + y + (total (refundedBy (streamAddr s n)) w.log + z) =
        sd.amounts.deposited := by
  obtain ⟨x, y, z, _, h2, h3, h4, h5, h6, _⟩ := C82_books hr hs
  have hk := hr.streamOK hs
  refine ⟨y, z, h2, h3, ?_⟩
  rw [hk.logW, hk.logR]
  rcases hc with hc | hc
  · have := h5 hc; omega
  · have := h6 hc; omega

example := C82_history reach4 (s := alice) (n := 1) (sd :=
  ⟨⟨100, 200, 1000, 467, 200⟩, Demo.mint, 255, 1, false, false, ⟨3000, 6000, 2000⟩, alice, true⟩) (by decide +kernel)
  (.inr rfl)

/-- **C82**, before the start: no withdrawal of any positive amount is possible, and a cancel gives the whole
deposit back and leaves the stream depleted. -/
theorem C82_before_start {rt : Runtime} {w w' : World} (hr : Reachable rt w) {c : CancelAccts} {s : Addr}
    {n : Nat} {sd : StreamData} (hc : c.streamData = streamAddr s n)
    (hs : w.lk.streams (streamAddr s n) = some sd) (hb : w.now < sd.timestamps.start)
    (h : step rt w (.lockup (.cancel c)) = .ok w') :
    ∃ sd' md, w'.lk.streams (streamAddr s n) = some sd' ∧ w.bank.mints sd.depositedTokenMint = some md ∧
      sd'.amounts.refunded = sd.amounts.deposited ∧ sd'.amounts.withdrawn = 0 ∧ sd'.isDepleted = true ∧
      c.senderAta = .ata s md.program sd.depositedTokenMint ∧
      w'.bank.balance c.senderAta =
        w.bank.balance c.senderAta + (sd.amounts.deposited - md.fee sd.amounts.deposited) := by
  obtain ⟨s', n', sd₀, sd', md, x, y, e1, e2, e3, e4, e5, e6, e7, e8, e9, e10, e11, e12, e13, e14, e15, e16,
    e17, e18, e19, _⟩ := C14_cancel_effect hr h
  obtain ⟨rfl, rfl⟩ := streamAddr_inj (hc.symm.trans e1)
  rw [hs] at e2; cases e2
  have hv := hr.viewsOf hs
  have hnc : sd.wasCanceled = false := by
    cases hq : sd.wasCanceled
    · rfl
    · have := (hv.ok.canceled hq).1; omega
  have hz : streamedNow w.now sd = 0 := by
    simp [streamedNow, hnc, scheduled, hb]
  have h1 := hv.ok.streamed
  rw [hz] at h1
  have hw := hv.withdrawable
  rw [e7, hz] at hw
  have hy : y = 0 := by injection hw with hw; omega
  have hx : x = sd.amounts.deposited := by
    have hf := hv.refundable
    rw [e5, hz] at hf
    injection hf with hf
    split at hf
    · omega
    · omega
  refine ⟨sd', md, e3, e4, by rw [e9, hx], by rw [e13]; omega, by rw [e12, hy]; rfl, e15, by rw [e19, hx]⟩

/-- alice cancels stream 1 at 1000, before its start at 2000. -/
example := C82_before_start reach1 (c := cancelAccts 1) (s := alice) (n := 1) (sd :=
  ⟨⟨100, 200, 1000, 0, 0⟩, Demo.mint, 255, 1, true, false, ⟨3000, 6000, 2000⟩, alice, false⟩) rfl
  (by decide +kernel) (by decide +kernel) (step_after (ix := ixCancel) (by decide +kernel))

/-- **C82**, before the start, the other half: every withdrawal fails. -/
theorem C82_no_early_withdrawal {rt : Runtime} {w : World} (hr : Reachable rt w) {ix : Ix} {s : Addr} {n : Nat}
    {sd : StreamData} (hix : ix.withdrawsFrom = some (streamAddr s n))
    (hs : w.lk.streams (streamAddr s n) = some sd) (hb : w.now < sd.timestamps.start) :
    ∃ e, step rt w ix = .error e := by
  cases hw : step rt w ix with
  | error e => exact ⟨e, rfl⟩
  | ok w' =>
    exfalso
    obtain ⟨c, hc, hcs⟩ : ∃ c, ix.withdrawAccts = some c ∧ c.streamData = streamAddr s n := by
      match ix, hix with
      | .lockup (.withdraw c _), hix => exact ⟨c, rfl, by injection hix⟩
      | .lockup (.withdrawMax c), hix => exact ⟨c, rfl, by injection hix⟩
    obtain ⟨amount, h⟩ := withdrawIx hr hc hw
    obtain ⟨s', n', sd₀, sd', dm, b₁, b₂, l, h1, _, hv, hk⟩ := withdraw_stream hr h
    obtain ⟨rfl, rfl⟩ := streamAddr_inj (hcs.symm.trans h1)
    have hst := hv.stream
    rw [hs] at hst; cases hst
    obtain ⟨x, hx, hle⟩ := hk.withdrawable
    rw [hv.ok.getWithdrawable] at hx
    cases hx
    have hsc : scheduled sd.timestamps sd.amounts w.now = 0 := by simp [scheduled, hb]
    have hz : streamedNow w.now sd = 0 := by
      unfold streamedNow
      split
      · rename_i hq
        have := (hv.ok.canceled hq).2; omega
      · exact hsc
    have := hk.pos
    omega

example := C82_no_early_withdrawal reach1 (ix := ixWithdraw) (s := alice) (n := 1) (sd :=
  ⟨⟨100, 200, 1000, 0, 0⟩, Demo.mint, 255, 1, true, false, ⟨3000, 6000, 2000⟩, alice, false⟩) rfl
  (by decide +kernel) (by decide +kernel)

/-! ## C83 -/

/-- The schedule depends on time differences only. -/
theorem scheduled_shift {ts ts' : Timestamps} (am : Amounts) (t d : Nat)
    (h1 : ts'.start = ts.start + d) (h2 : ts'.end = ts.end + d)
    (h3 : ts'.cliff = if ts.cliff = 0 then 0 else ts.cliff + d) :
    scheduled ts' am (t + d) = scheduled ts am t := by
  have hl : linearStart ts' = linearStart ts + d := by
    unfold linearStart
    rw [h3, h1]
    by_cases hc : ts.cliff = 0
    · simp [hc]
    · simp [hc]
  unfold scheduled
  rw [hl, h1, h2, h3]
  have e1 : (t + d < ts.start + d) ↔ t < ts.start := by omega
  have e2 : (ts.end + d ≤ t + d) ↔ ts.end ≤ t := by omega
  have e3 : ((if ts.cliff = 0 then 0 else ts.cliff + d) ≠ 0 ∧ t + d < if ts.cliff = 0 then 0 else ts.cliff + d) ↔
      (ts.cliff ≠ 0 ∧ t < ts.cliff) := by
    by_cases hc : ts.cliff = 0
    · simp [hc]
    · simp [hc]
  simp only [e1, e2, e3, Nat.add_sub_add_right]

/-- The linear part, as one floor. -/
theorem scheduled_linear {ts : Timestamps} {am : Amounts} (hv : ValidTerms ts am) {t : Nat}
    (h1 : ¬ t < ts.start) (h2 : ¬ (ts.cliff ≠ 0 ∧ t < ts.cliff)) (h3 : ¬ ts.end ≤ t) :
    ∃ P, P ≤ 10 ^ 18 ∧ P = (t - linearStart ts) * 10 ^ 18 / (ts.end - linearStart ts) ∧
      scheduled ts am t = ((am.startUnlock + am.cliffUnlock) * (10 ^ 18 - P) + P * am.deposited) / 10 ^ 18 := by
  have hb := linearStart_bounds hv
  have h5 := hv.2.2.2.2
  refine ⟨_, ?_, rfl, ?_⟩
  · apply Nat.div_le_of_le_mul
    exact Nat.mul_le_mul_right _ (by omega)
  · have hP : (t - linearStart ts) * 10 ^ 18 / (ts.end - linearStart ts) ≤ 10 ^ 18 := by
      apply Nat.div_le_of_le_mul
      exact Nat.mul_le_mul_right _ (by omega)
    unfold scheduled
    simp only [h1, h2, h3, if_false]
    generalize (t - linearStart ts) * 10 ^ 18 / (ts.end - linearStart ts) = P at *
    generalize am.startUnlock + am.cliffUnlock = u at *
    obtain ⟨k, hk⟩ := Nat.exists_eq_add_of_le h5
    obtain ⟨Q, hQ⟩ := Nat.exists_eq_add_of_le hP
    rw [hk, Nat.add_sub_cancel_left]
    have : u * (10 ^ 18 - P) + P * (u + k) = P * k + 10 ^ 18 * u := by
      rw [hQ, Nat.add_sub_cancel_left]; ring
    rw [this, Nat.add_mul_div_left _ _ (by norm_num), Nat.add_comm]

/-- **C83**, translation: only time differences matter.  Two streams (possibly on different chains, in
different histories) with the same amounts, whose dates and whose clocks are `d` seconds apart, have streamed
the same. -/
theorem C83_translation {rt rt' : Runtime} {w w' : World} (hr : Reachable rt w) (hr' : Reachable rt' w')
    {s s' : Addr} {n n' : Nat} {sd sd' : StreamData}
    (hs : w.lk.streams (streamAddr s n) = some sd) (hs' : w'.lk.streams (streamAddr s' n') = some sd')
    (hc : sd.wasCanceled = false) (hc' : sd'.wasCanceled = false) (d : Nat)
    (hnow : w'.now = w.now + d) (h1 : sd'.timestamps.start = sd.timestamps.start + d)
    (h2 : sd'.timestamps.end = sd.timestamps.end + d)
    (h3 : sd'.timestamps.cliff = if sd.timestamps.cliff = 0 then 0 else sd.timestamps.cliff + d)
    (a1 : sd'.amounts.deposited = sd.amounts.deposited) (a2 : sd'.amounts.startUnlock = sd.amounts.startUnlock)
    (a3 : sd'.amounts.cliffUnlock = sd.amounts.cliffUnlock) :
    ∃ x, streamedAmountOf rt w (viewOf s n) = .ok x ∧ streamedAmountOf rt' w' (viewOf s' n') = .ok x := by
  have hv := hr.viewsOf hs
  have hv' := hr'.viewsOf hs'
  refine ⟨_, hv.streamed, ?_⟩
  rw [hv'.streamed]
  simp only [streamedNow, hc, hc', Bool.false_eq_true, if_false]
  have := scheduled_shift sd.amounts w.now d h1 h2 h3
  rw [hnow, ← this]
  unfold scheduled
  rw [a1, a2, a3]

/-- **C83**, monotone in the money: with the same dates, a stream with a larger deposit and larger unlocks has
never streamed less. -/
theorem C83_monotone {rt rt' : Runtime} {w w' : World} (hr : Reachable rt w) (hr' : Reachable rt' w')
    {s s' : Addr} {n n' : Nat} {sd sd' : StreamData}
    (hs : w.lk.streams (streamAddr s n) = some sd) (hs' : w'.lk.streams (streamAddr s' n') = some sd')
    (hc : sd.wasCanceled = false) (hc' : sd'.wasCanceled = false)
    (hnow : w'.now = w.now) (ht : sd'.timestamps = sd.timestamps)
    (a1 : sd.amounts.deposited ≤ sd'.amounts.deposited) (a2 : sd.amounts.startUnlock ≤ sd'.amounts.startUnlock)
    (a3 : sd.amounts.cliffUnlock ≤ sd'.amounts.cliffUnlock) :
    ∃ x x', streamedAmountOf rt w (viewOf s n) = .ok x ∧ streamedAmountOf rt' w' (viewOf s' n') = .ok x' ∧
      x ≤ x' := by
  have hv := hr.viewsOf hs
  have hv' := hr'.viewsOf hs'
  refine ⟨_, _, hv.streamed, hv'.streamed, ?_⟩
  simp only [streamedNow, hc, hc', Bool.false_eq_true, if_false]
  have hT := hv.ok.terms
  have hT' := hv'.ok.terms
  rw [ht] at hT'
  rw [hnow, ht]
  by_cases h1 : w.now < sd.timestamps.start
  · simp [scheduled, h1]
  by_cases h2 : sd.timestamps.cliff ≠ 0 ∧ w.now < sd.timestamps.cliff
  · unfold scheduled
    simp only [h1, h2, if_false, if_true, ne_eq, not_false_eq_true, and_self]
    exact a2
  by_cases h3 : sd.timestamps.end ≤ w.now
  · rw [scheduled_end hT h3, scheduled_end hT' h3]; exact a1
  obtain ⟨P, hP, hP', e⟩ := scheduled_linear hT h1 h2 h3
  obtain ⟨P', _, hP'', e'⟩ := scheduled_linear hT' h1 h2 h3
  rw [← hP'] at hP''
  subst hP''
  rw [e, e']
  apply Nat.div_le_div_right
  exact Nat.add_le_add (Nat.mul_le_mul_right _ (Nat.add_le_add a2 a3)) (Nat.mul_le_mul_left _ a1)

/-- **C83**, splitting: cutting a stream into two with the same dates, whose deposits and unlocks add up to
those of the original, costs the recipient at most one unit at any moment, and never gains any. -/
theorem C83_split {rt : Runtime} {w : World} (hr : Reachable rt w)
    {s s₁ s₂ : Addr} {n n₁ n₂ : Nat} {sd sd₁ sd₂ : StreamData}
    (hs : w.lk.streams (streamAddr s n) = some sd) (hs₁ : w.lk.streams (streamAddr s₁ n₁) = some sd₁)
    (hs₂ : w.lk.streams (streamAddr s₂ n₂) = some sd₂)
    (hc : sd.wasCanceled = false) (hc₁ : sd₁.wasCanceled = false) (hc₂ : sd₂.wasCanceled = false)
    (ht₁ : sd₁.timestamps = sd.timestamps) (ht₂ : sd₂.timestamps = sd.timestamps)
    (a1 : sd.amounts.deposited = sd₁.amounts.deposited + sd₂.amounts.deposited)
    (a2 : sd.amounts.startUnlock = sd₁.amounts.startUnlock + sd₂.amounts.startUnlock)
    (a3 : sd.amounts.cliffUnlock = sd₁.amounts.cliffUnlock + sd₂.amounts.cliffUnlock) :
    ∃ x x₁ x₂, streamedAmountOf rt w (viewOf s n) = .ok x ∧ streamedAmountOf rt w (viewOf s₁ n₁) = .ok x₁ ∧
      streamedAmountOf rt w (viewOf s₂ n₂) = .ok x₂ ∧ x₁ + x₂ ≤ x ∧ x ≤ x₁ + x₂ + 1 := by
  have hv := hr.viewsOf hs
  have hv₁ := hr.viewsOf hs₁
  have hv₂ := hr.viewsOf hs₂
  refine ⟨_, _, _, hv.streamed, hv₁.streamed, hv₂.streamed, ?_⟩
  simp only [streamedNow, hc, hc₁, hc₂, Bool.false_eq_true, if_false]
  have hT := hv.ok.terms
  have hT₁ := hv₁.ok.terms
  have hT₂ := hv₂.ok.terms
  rw [ht₁] at hT₁ ⊢
  rw [ht₂] at hT₂ ⊢
  by_cases h1 : w.now < sd.timestamps.start
  · simp [scheduled, h1]
  by_cases h2 : sd.timestamps.cliff ≠ 0 ∧ w.now < sd.timestamps.cliff
  · unfold scheduled
    simp only [h1, h2, if_false, if_true, ne_eq, not_false_eq_true, and_self]
    omega
  by_cases h3 : sd.timestamps.end ≤ w.now
  · rw [scheduled_end hT h3, scheduled_end hT₁ h3, scheduled_end hT₂ h3]; omega
  obtain ⟨P, hP, hP', e⟩ := scheduled_linear hT h1 h2 h3
  obtain ⟨P₁, _, hP₁, e₁⟩ := scheduled_linear hT₁ h1 h2 h3
  obtain ⟨P₂, _, hP₂, e₂⟩ := scheduled_linear hT₂ h1 h2 h3
  rw [← hP'] at hP₁ hP₂
  subst hP₁ hP₂
  rw [e, e₁, e₂]
  have hsum : (sd.amounts.startUnlock + sd.amounts.cliffUnlock) * (10 ^ 18 - P₂) + P₂ * sd.amounts.deposited =
      ((sd₁.amounts.startUnlock + sd₁.amounts.cliffUnlock) * (10 ^ 18 - P₂) + P₂ * sd₁.amounts.deposited) +
      ((sd₂.amounts.startUnlock + sd₂.amounts.cliffUnlock) * (10 ^ 18 - P₂) + P₂ * sd₂.amounts.deposited) := by
    rw [a1, a2, a3]; ring
  rw [hsum]
  generalize (sd₁.amounts.startUnlock + sd₁.amounts.cliffUnlock) * (10 ^ 18 - P₂) +
    P₂ * sd₁.amounts.deposited = A
  generalize (sd₂.amounts.startUnlock + sd₂.amounts.cliffUnlock) * (10 ^ 18 - P₂) +
    P₂ * sd₂.amounts.deposited = B
  omega

/-- **C83**, no jumps: between two moments of the linear phase of a stream the streamed amount grows by its
share of the elapsed time, up to the same rounding unit as in C04, whatever happened in between. -/
theorem C83_rate {rt : Runtime} {w w' : World} (hr : Reachable rt w) (hst : Steps rt w w') {s : Addr} {n : Nat}
    {sd sd' : StreamData} (hs : w.lk.streams (streamAddr s n) = some sd)
    (hs' : w'.lk.streams (streamAddr s n) = some sd') (hc' : sd'.wasCanceled = false)
    (h1 : linearStart sd.timestamps ≤ w.now) (h2 : w'.now ≤ sd.timestamps.end) :
    let range : ℚ := sd.amounts.deposited - (sd.amounts.startUnlock + sd.amounts.cliffUnlock)
    let share : ℚ := range * (w'.now - w.now) / (sd.timestamps.end - linearStart sd.timestamps)
    ∃ x x', streamedAmountOf rt w (viewOf s n) = .ok x ∧ streamedAmountOf rt w' (viewOf s n) = .ok x' ∧
      share - (1 + range / 10 ^ 18) < (x' : ℚ) - x ∧ (x' : ℚ) - x < share + (1 + range / 10 ^ 18) := by
  intro range share
  have hle := hst.now_le hr
  have hl := hst.stream hr hs
  obtain ⟨sd₂, e2, hl⟩ := hl
  rw [hs'] at e2; cases e2
  have hT := hl.terms
  have hc : sd.wasCanceled = false := by
    cases hq : sd.wasCanceled
    · rfl
    · have := (hl.canceled hq).1; rw [hc'] at this; cases this
  obtain ⟨x, k1, k2, k3⟩ := C04_linear_accuracy hr hs hc h1 (by omega)
  obtain ⟨x', k1', k2', k3'⟩ := C04_linear_accuracy (hr.steps hst) hs' hc' (by rw [hT.timestamps]; omega)
    (by rw [hT.timestamps]; exact h2)
  rw [hT.timestamps, hT.startUnlock, hT.cliffUnlock, hT.deposited] at k2' k3'
  refine ⟨x, x', k1, k1', ?_⟩
  set T : ℚ := (sd.timestamps.end : ℚ) - linearStart sd.timestamps with hTd
  set u : ℚ := (sd.amounts.startUnlock : ℚ) + sd.amounts.cliffUnlock with hu
  have hsh : share = range * ((w'.now : ℚ) - linearStart sd.timestamps) / T -
      range * ((w.now : ℚ) - linearStart sd.timestamps) / T := by
    show range * (w'.now - w.now) / T = _
    ring
  change (x : ℚ) ≤ u + range * (w.now - linearStart sd.timestamps) / T at k2
  change u + range * (w.now - linearStart sd.timestamps) / T < x + (1 + range / 10 ^ 18) at k3
  change (x' : ℚ) ≤ u + range * (w'.now - linearStart sd.timestamps) / T at k2'
  change u + range * (w'.now - linearStart sd.timestamps) / T < x' + (1 + range / 10 ^ 18) at k3'
  rw [hsh]
  constructor <;> linarith

/-! ### Examples -/

/-- alice adds the two halves 600 + 400 of stream 1 as streams 3 and 4, and stream 5, which is stream 1 moved
by 500 seconds. -/
def moreStreams : List Ix :=
  [ .lockup (.createWithTimestamps (createAccts 3) 3 600 2000 3000 6000 60 120 true),
    .lockup (.createWithTimestamps (createAccts 4) 4 400 2000 3000 6000 40 80 true),
    .lockup (.createWithTimestamps (createAccts 5) 5 1000 2500 3500 6500 100 200 true),
    .env (.tick 4000) ]

def worldB : World := after world1 moreStreams
def worldB' : World := after worldB [.env (.tick 4500)]

theorem stepsB : Steps rt world1 worldB := steps_after (by decide +kernel)
theorem stepsB' : Steps rt worldB worldB' := steps_after (by decide +kernel)
theorem reachB : Reachable rt worldB := reach1.steps stepsB
theorem reachB' : Reachable rt worldB' := reachB.steps stepsB'

def sdB (n dep su cu d : Nat) : StreamData :=
  ⟨⟨su, cu, dep, 0, 0⟩, Demo.mint, 255, n, true, false, ⟨3000 + d, 6000 + d, 2000 + d⟩, alice, false⟩

theorem atB1 : worldB.lk.streams (streamAddr alice 1) = some (sdB 1 1000 100 200 0) := by decide +kernel
theorem atB3 : worldB.lk.streams (streamAddr alice 3) = some (sdB 3 600 60 120 0) := by decide +kernel
theorem atB4 : worldB.lk.streams (streamAddr alice 4) = some (sdB 4 400 40 80 0) := by decide +kernel
theorem atB1' : worldB'.lk.streams (streamAddr alice 1) = some (sdB 1 1000 100 200 0) := by decide +kernel
theorem atB5' : worldB'.lk.streams (streamAddr alice 5) = some (sdB 5 1000 100 200 500) := by decide +kernel

example := C83_translation reachB reachB' atB1 atB5' rfl rfl 500 (by decide +kernel) rfl rfl rfl rfl rfl rfl
example := C83_monotone reachB reachB atB3 atB1 rfl rfl rfl rfl (by decide) (by decide) (by decide)
example := C83_split reachB atB1 atB3 atB4 rfl rfl rfl rfl rfl rfl rfl rfl
example := C83_rate reachB stepsB' atB1 atB1' rfl (by decide +kernel) (by decide +kernel)

/-- The unit that splitting can cost is really lost here: 533 against 319 + 213. -/
example : (streamedAmountOf rt worldB (viewOf alice 1)).toOption = some 533 ∧
    (streamedAmountOf rt worldB (viewOf alice 3)).toOption = some 319 ∧
    (streamedAmountOf rt worldB (viewOf alice 4)).toOption = some 213 ∧
    (streamedAmountOf rt worldB' (viewOf alice 5)).toOption = some 533 := by decide +kernel

end Solsab.Props
