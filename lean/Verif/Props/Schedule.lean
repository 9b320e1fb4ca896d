import Verif.Proofs.StreamSteps
import Verif.Demo
import Mathlib.Tactic.Linarith
import Mathlib.Tactic.FieldSimp
import Mathlib.Tactic.Positivity
import Mathlib.Tactic.Ring
import Mathlib.Algebra.Order.Field.Rat
/-!
# C01–C05, C10, C11: the streamed amount

`Reachable rt w`: `w` is the state after some history.  `streamExists w s n`: the view `stream_exists`
answers yes for sender `s` and salt `n`.  `viewOf s n`: the accounts of the views for that stream.
-/

namespace Solsab.Props

open Lockup Spec Demo

/-- **C01.** -/
theorem C01_streamed_between {rt : Runtime} {w : World} (hr : Reachable rt w) {s : Addr} {n : Nat}
    (he : streamExists w s n = true) :
    ∃ sd x, w.lk.streams (streamAddr s n) = some sd ∧ streamedAmountOf rt w (viewOf s n) = .ok x ∧
      sd.amounts.withdrawn ≤ x ∧ x ≤ sd.amounts.deposited := by
  obtain ⟨sd, hv⟩ := hr.views he
  exact ⟨sd, _, hv.stream, hv.streamed, hv.ok.streamed.1, hv.ok.streamed.2⟩

example : ∃ sd x, world3.lk.streams (streamAddr alice 1) = some sd ∧
    streamedAmountOf rt world3 (viewOf alice 1) = .ok x ∧ sd.amounts.withdrawn ≤ x ∧ x ≤ sd.amounts.deposited :=
  C01_streamed_between reach3 (by decide +kernel)

/-- The example is not degenerate: 200 of 1000 withdrawn, 533 streamed. -/
example : (streamedAmountOf rt world3 (viewOf alice 1)).toOption = some 533 ∧
    (world3.lk.streams (streamAddr alice 1)).map (fun sd => (sd.amounts.withdrawn, sd.amounts.deposited))
      = some (200, 1000) := by decide +kernel

/-- **C02** (and more: not even a cancellation makes the streamed amount drop). -/
theorem C02_streamed_mono {rt : Runtime} {w w' : World} (hr : Reachable rt w) (h : Steps rt w w') {s : Addr}
    {n : Nat} (he : streamExists w s n = true) :
    ∃ x x', streamedAmountOf rt w (viewOf s n) = .ok x ∧ streamedAmountOf rt w' (viewOf s n) = .ok x' ∧
      x ≤ x' := by
  obtain ⟨sd, hv⟩ := hr.views he
  obtain ⟨sd', hv'⟩ := (hr.steps h).views (h.exists hr he)
  exact ⟨_, _, hv.streamed, hv'.streamed, h.streamed_mono hr hv.stream hv'.stream⟩

example : ∃ x x', streamedAmountOf rt world1 (viewOf alice 1) = .ok x ∧
    streamedAmountOf rt world5 (viewOf alice 1) = .ok x' ∧ x ≤ x' :=
  C02_streamed_mono reach1 (steps12.trans (steps23.trans (steps34.trans steps45))) (by decide +kernel)

/-- **C03**: the four phases of an uncanceled stream. -/
theorem C03_schedule {rt : Runtime} {w : World} (hr : Reachable rt w) {s : Addr} {n : Nat} {sd : StreamData}
    (hs : w.lk.streams (streamAddr s n) = some sd) (hc : sd.wasCanceled = false) :
    ∃ x, streamedAmountOf rt w (viewOf s n) = .ok x ∧
      (w.now < sd.timestamps.start → x = 0) ∧
      (sd.timestamps.start ≤ w.now → w.now < sd.timestamps.cliff → x = sd.amounts.startUnlock) ∧
      (sd.timestamps.start ≤ w.now → sd.timestamps.cliff ≤ w.now →
        sd.amounts.startUnlock + sd.amounts.cliffUnlock ≤ x) ∧
      (sd.timestamps.end ≤ w.now → x = sd.amounts.deposited) := by
  have hv := hr.viewsOf hs
  refine ⟨_, hv.streamed, ?_, ?_, ?_, ?_⟩ <;> simp only [streamedNow, hc, Bool.false_eq_true, if_false]
  · intro h; simp [scheduled, h]
  · intro h1 h2
    have h3 : ¬ w.now < sd.timestamps.start := by omega
    have h4 : sd.timestamps.cliff ≠ 0 := by omega
    simp [scheduled, h3, h4, h2]
  · intro h1 h2
    have h3 : ¬ w.now < sd.timestamps.start := by omega
    have h4 : ¬ w.now < sd.timestamps.cliff := by omega
    obtain ⟨_, _, _, _, h5⟩ := hv.ok.terms
    unfold scheduled
    rw [if_neg h3, if_neg (fun h => h4 h.2)]
    split
    · exact h5
    · exact Nat.le_add_right _ _
  · intro h
    exact scheduled_end hv.ok.terms h

example : ∃ sd, world2.lk.streams (streamAddr alice 1) = some sd ∧ sd.wasCanceled = false ∧
    sd.timestamps.cliff ≤ world2.now ∧ world2.now < sd.timestamps.end :=
  ⟨_, show world2.lk.streams (streamAddr alice 1) =
      some ⟨⟨100, 200, 1000, 0, 0⟩, Demo.mint, 255, 1, true, false, ⟨3000, 6000, 2000⟩, alice, false⟩ by decide +kernel,
    by decide +kernel⟩

/-- **C04**: the linear part is the exact line rounded down, losing less than `1 + range/10^18` units. -/
theorem C04_linear_accuracy {rt : Runtime} {w : World} (hr : Reachable rt w) {s : Addr} {n : Nat}
    {sd : StreamData} (hs : w.lk.streams (streamAddr s n) = some sd) (hc : sd.wasCanceled = false)
    (h1 : linearStart sd.timestamps ≤ w.now) (h2 : w.now ≤ sd.timestamps.end) :
    let unlocks : ℚ := sd.amounts.startUnlock + sd.amounts.cliffUnlock
    let line : ℚ := unlocks + (sd.amounts.deposited - unlocks) * (w.now - linearStart sd.timestamps) /
      (sd.timestamps.end - linearStart sd.timestamps)
    ∃ x, streamedAmountOf rt w (viewOf s n) = .ok x ∧
      (x : ℚ) ≤ line ∧ line < x + (1 + (sd.amounts.deposited - unlocks) / 10 ^ 18) := by
  have hv := hr.viewsOf hs
  obtain ⟨hb1, hb2⟩ := linearStart_bounds hv.ok.terms
  have h5 := hv.ok.terms.2.2.2.2
  intro unlocks line
  refine ⟨_, hv.streamed, ?_⟩
  simp only [streamedNow, hc, Bool.false_eq_true, if_false]
  have hR : (0 : ℚ) < sd.timestamps.end - linearStart sd.timestamps := by
    have : (linearStart sd.timestamps : ℚ) < sd.timestamps.end := by exact_mod_cast hb2
    linarith
  have hA : (0 : ℚ) ≤ sd.amounts.deposited - unlocks := by
    have : ((sd.amounts.startUnlock + sd.amounts.cliffUnlock : Nat) : ℚ) ≤ sd.amounts.deposited := by
      exact_mod_cast h5
    push_cast at this
    simp only [unlocks]; linarith
  have hn1 : ¬ w.now < sd.timestamps.start := by omega
  have hn2 : ¬ (sd.timestamps.cliff ≠ 0 ∧ w.now < sd.timestamps.cliff) := by
    rintro ⟨ha, hb⟩
    unfold linearStart at h1
    rw [if_neg ha] at h1
    omega
  unfold scheduled
  rw [if_neg hn1, if_neg hn2]
  by_cases he : sd.timestamps.end ≤ w.now
  · rw [if_pos he]
    have hw : w.now = sd.timestamps.end := by omega
    have hl : line = sd.amounts.deposited := by
      simp only [line]
      rw [hw, mul_div_assoc, div_self (ne_of_gt hR)]
      ring
    rw [hl]
    exact ⟨le_refl _, by have : 0 ≤ (sd.amounts.deposited - unlocks) / 10 ^ 18 := by positivity
                         linarith⟩
  · rw [if_neg he]
    have acc := linear_accuracy (e := w.now - linearStart sd.timestamps)
      (R := sd.timestamps.end - linearStart sd.timestamps)
      (A := sd.amounts.deposited - (sd.amounts.startUnlock + sd.amounts.cliffUnlock)) (by omega)
    generalize hq : (w.now - linearStart sd.timestamps) * 10 ^ 18 /
      (sd.timestamps.end - linearStart sd.timestamps) *
      (sd.amounts.deposited - (sd.amounts.startUnlock + sd.amounts.cliffUnlock)) / 10 ^ 18 = q at *
    obtain ⟨ha, hb⟩ := acc
    have ha' : (q : ℚ) * (sd.timestamps.end - linearStart sd.timestamps) ≤
        (sd.amounts.deposited - unlocks) * (w.now - linearStart sd.timestamps) := by
      have : ((q * (sd.timestamps.end - linearStart sd.timestamps) : Nat) : ℚ) ≤
          (((sd.amounts.deposited - (sd.amounts.startUnlock + sd.amounts.cliffUnlock)) *
            (w.now - linearStart sd.timestamps) : Nat) : ℚ) := by exact_mod_cast ha
      rw [Nat.cast_mul, Nat.cast_mul, Nat.cast_sub hb2.le, Nat.cast_sub h5, Nat.cast_sub h1] at this
      push_cast at this
      simpa [unlocks] using this
    have hb' : (sd.amounts.deposited - unlocks) * (w.now - linearStart sd.timestamps) * 10 ^ 18 <
        ((q : ℚ) + 1) * (sd.timestamps.end - linearStart sd.timestamps) * 10 ^ 18 +
          (sd.amounts.deposited - unlocks) * (sd.timestamps.end - linearStart sd.timestamps) := by
      have : (((sd.amounts.deposited - (sd.amounts.startUnlock + sd.amounts.cliffUnlock)) *
            (w.now - linearStart sd.timestamps) * 10 ^ 18 : Nat) : ℚ) <
          (((q + 1) * (sd.timestamps.end - linearStart sd.timestamps) * 10 ^ 18 +
            (sd.amounts.deposited - (sd.amounts.startUnlock + sd.amounts.cliffUnlock)) *
            (sd.timestamps.end - linearStart sd.timestamps) : Nat) : ℚ) := by exact_mod_cast hb
      rw [Nat.cast_add, Nat.cast_mul, Nat.cast_mul, Nat.cast_mul, Nat.cast_mul, Nat.cast_mul,
        Nat.cast_sub hb2.le, Nat.cast_sub h5, Nat.cast_sub h1] at this
      push_cast at this
      simp only [unlocks]
      norm_num at this ⊢
      linarith [this]
    generalize hRr : (sd.timestamps.end - linearStart sd.timestamps : ℚ) = R at *
    generalize hEe : (w.now - linearStart sd.timestamps : ℚ) = E at *
    generalize hAa : (sd.amounts.deposited - unlocks : ℚ) = A at *
    have hline : line = unlocks + A * E / R := by simp only [line, hAa, hEe, hRr]
    have hx : (((sd.amounts.startUnlock + sd.amounts.cliffUnlock + q : Nat)) : ℚ) = unlocks + q := by
      push_cast; rfl
    rw [hline, hx]
    constructor
    · have : (q : ℚ) ≤ A * E / R := by rw [le_div_iff₀ hR]; exact ha'
      linarith
    · have : A * E / R < q + (1 + A / 10 ^ 18) := by
        rw [div_lt_iff₀ hR]
        nlinarith [hb']
      linarith

/-- The demo stream at 4000 is inside the linear part. -/
example : linearStart ⟨3000, 6000, 2000⟩ ≤ world2.now ∧ world2.now ≤ 6000 ∧
    (streamedAmountOf rt world2 (viewOf alice 1)).toOption = some 533 := by decide +kernel

/-- **C05**, views: they always answer for an existing stream. -/
theorem C05_views_total {rt : Runtime} {w : World} (hr : Reachable rt w) {s : Addr} {n : Nat}
    (he : streamExists w s n = true) :
    (∃ x, streamedAmountOf rt w (viewOf s n) = .ok x) ∧ (∃ x, withdrawableAmountOf rt w (viewOf s n) = .ok x) ∧
    (∃ x, refundableAmountOf rt w (viewOf s n) = .ok x) ∧ (∃ x, statusOf rt w (viewOf s n) = .ok x) := by
  obtain ⟨sd, hv⟩ := hr.views he
  exact ⟨⟨_, hv.streamed⟩, ⟨_, hv.withdrawable⟩, ⟨_, hv.refundable⟩, ⟨_, hv.status⟩⟩

example := C05_views_total reach4 (s := alice) (n := 1) (by decide +kernel)

/-- **C10**: withdrawn so far plus withdrawable is what the schedule has released, however the withdrawals
were split and whoever triggered them. -/
theorem C10_path_independent {rt : Runtime} {w : World} (hr : Reachable rt w) {s : Addr} {n : Nat}
    {sd : StreamData} (hs : w.lk.streams (streamAddr s n) = some sd)
    (hc : total (cancelOf (streamAddr s n)) w.log = 0) :
    ∃ x, withdrawableAmountOf rt w (viewOf s n) = .ok x ∧
      total (withdrawnBy (streamAddr s n)) w.log + x = scheduled sd.timestamps sd.amounts w.now := by
  have hv := hr.viewsOf hs
  refine ⟨_, hv.withdrawable, ?_⟩
  rw [hv.ok.logW]
  have h := hv.ok.logC
  rw [hc] at h
  have hc' : sd.wasCanceled = false := by
    cases hh : sd.wasCanceled with
    | false => rfl
    | true => rw [hh] at h; simp at h
  have hw := hv.ok.streamed.1
  simp only [streamedNow, hc', Bool.false_eq_true, if_false] at *
  omega

example : total (cancelOf (streamAddr alice 1)) world3.log = 0 ∧
    total (withdrawnBy (streamAddr alice 1)) world3.log = 200 ∧
    (withdrawableAmountOf rt world3 (viewOf alice 1)).toOption = some 333 := by decide +kernel

/-- **C11**: recorded withdrawals are exactly the emitted ones and never ahead of the schedule (also after
a cancellation). -/
theorem C11_never_ahead {rt : Runtime} {w : World} (hr : Reachable rt w) {s : Addr} {n : Nat}
    {sd : StreamData} (hs : w.lk.streams (streamAddr s n) = some sd) :
    total (withdrawnBy (streamAddr s n)) w.log = sd.amounts.withdrawn ∧
    (∃ x, streamedAmountOf rt w (viewOf s n) = .ok x ∧ sd.amounts.withdrawn ≤ x) ∧
    sd.amounts.withdrawn ≤ scheduled sd.timestamps sd.amounts w.now := by
  have hv := hr.viewsOf hs
  refine ⟨hv.ok.logW, ⟨_, hv.streamed, hv.ok.streamed.1⟩, ?_⟩
  cases hc : sd.wasCanceled with
  | false => exact (hv.ok.live hc).2
  | true =>
    have := (hv.ok.canceled hc).2
    have := hv.ok.sum_le
    omega

example : ∃ sd, world5.lk.streams (streamAddr alice 1) = some sd ∧ sd.amounts.withdrawn = 533 ∧
    sd.amounts.refunded = 467 :=
  ⟨_, show world5.lk.streams (streamAddr alice 1) =
      some ⟨⟨100, 200, 1000, 467, 533⟩, Demo.mint, 255, 1, false, true, ⟨3000, 6000, 2000⟩, alice, true⟩ by decide +kernel,
    rfl, rfl⟩

end Solsab.Props
