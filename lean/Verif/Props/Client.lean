import Verif.Client.Calculations
import Verif.Proofs.StreamSteps
import Verif.Demo
/-!
# C66: the TypeScript replica of the schedule predicts the view
-/

namespace Solsab

open Spec Lockup

theorem Client.bnDiv_nat (a b : Nat) (hb : b ≠ 0) : Client.bnDiv (a : Int) (b : Int) = some ((a / b : Nat) : Int) := by
  unfold Client.bnDiv
  rw [if_neg (by omega)]
  simp

theorem Client.scale : Client.SCALING_FACTOR = ((10 ^ 18 : Nat) : Int) := by norm_num [Client.SCALING_FACTOR]

/-- On valid terms the replica computes the schedule and never throws. -/
theorem Client.getStreamedAmount_eq {ts : Timestamps} {am : Amounts} (hv : ValidTerms ts am) (now : Nat) :
    Client.getStreamedAmount am now ts = some ((scheduled ts am now : Nat) : Int) := by
  have hb := linearStart_bounds hv
  have hle := scheduled_le hv now
  obtain ⟨h1, h2, h3, h4, h5⟩ := hv
  unfold Client.getStreamedAmount
  rw [Client.scale]
  unfold scheduled at *
  have hK : (10 ^ 18 : Nat) ≠ 0 := by norm_num
  revert hle hK
  generalize (10 ^ 18 : Nat) = K
  intro hle hK
  have n2 : ∀ h : ¬ now < ts.cliff, ¬ (ts.cliff ≠ 0 ∧ now < ts.cliff) := fun h h' => h h'.2
  by_cases c1 : now < ts.start
  · rw [if_pos (show (ts.start : Int) > now by omega), if_pos c1]; rfl
  rw [if_neg (show ¬ (ts.start : Int) > now by omega), if_neg c1]
  rw [if_neg c1] at hle
  by_cases c2 : now < ts.cliff
  · rw [if_pos (show (ts.cliff : Int) > now by omega),
      if_pos (show ts.cliff ≠ 0 ∧ now < ts.cliff from ⟨by omega, c2⟩)]
  rw [if_neg (show ¬ (ts.cliff : Int) > now by omega), if_neg (n2 c2)]
  rw [if_neg (n2 c2)] at hle
  by_cases c3 : ts.end ≤ now
  · rw [if_pos (show (ts.end : Int) ≤ now by omega), if_pos c3]
  rw [if_neg (show ¬ (ts.end : Int) ≤ now by omega), if_neg c3]
  rw [if_neg c3] at hle
  dsimp only
  by_cases c4 : am.deposited ≤ am.startUnlock + am.cliffUnlock
  · rw [if_pos (show (am.startUnlock : Int) + am.cliffUnlock ≥ am.deposited by omega)]
    have : am.deposited = am.startUnlock + am.cliffUnlock := by omega
    rw [this, Nat.sub_self, Nat.mul_zero, Nat.zero_div, Nat.add_zero]
  rw [if_neg (show ¬ (am.startUnlock : Int) + am.cliffUnlock ≥ am.deposited by omega)]
  have e0 : (if ts.cliff = 0 then (ts.start : Int) else (ts.cliff : Int)) = ((linearStart ts : Nat) : Int) := by
    unfold linearStart; split <;> rfl
  have hstart : linearStart ts ≤ now := by unfold linearStart; split <;> omega
  have e1 : ((now : Int) - (linearStart ts : Nat)) * (K : Int) =
      (((now - linearStart ts) * K : Nat) : Int) := by
    rw [Nat.cast_mul, Nat.cast_sub hstart]
  have e2 : (ts.end : Int) - (linearStart ts : Nat) = ((ts.end - linearStart ts : Nat) : Int) := by
    rw [Nat.cast_sub (by omega)]
  have e3 : (am.deposited : Int) - (am.startUnlock + am.cliffUnlock) =
      ((am.deposited - (am.startUnlock + am.cliffUnlock) : Nat) : Int) := by
    omega
  rw [e0, e1, e2, e3, Client.bnDiv_nat _ _ (by omega), Option.bind_eq_bind, Option.bind_some, ← Nat.cast_mul,
    Client.bnDiv_nat _ _ hK, Option.bind_some, ← Nat.cast_add, ← Nat.cast_add, if_neg (by
      intro hc
      have := Int.ofNat_lt.1 hc
      omega)]

end Solsab

namespace Solsab.Props

open Lockup Spec Demo

/-- **C66.** Read the terms of a stream in any reachable state.  At every later moment the replica, applied to those
terms and the clock of that moment, returns without exception; it is exactly what `streamed_amount_of` returns,
unless the stream has been canceled, and then it is an upper bound. -/
theorem C66_replica {rt : Runtime} {w w' : World} (hr : Reachable rt w) (hs : Steps rt w w') {s : Addr} {n : Nat}
    {sd : StreamData} (hx : w.lk.streams (streamAddr s n) = some sd) :
    ∃ r x, Client.getStreamedAmount sd.amounts w'.now sd.timestamps = some (r : Nat) ∧
      streamedAmountOf rt w' (viewOf s n) = .ok x ∧ x ≤ r ∧
      (∀ sd', w'.lk.streams (streamAddr s n) = some sd' → sd'.wasCanceled = false → x = r) := by
  obtain ⟨sd', hx', hl⟩ := Steps.stream hr hs hx
  have hv := (hr.steps hs).viewsOf hx'
  have hok := hr.streamOK hx
  have hsch : scheduled sd'.timestamps sd'.amounts w'.now = scheduled sd.timestamps sd.amounts w'.now := by
    unfold scheduled
    rw [hl.terms.timestamps, hl.terms.startUnlock, hl.terms.cliffUnlock, hl.terms.deposited]
  refine ⟨_, _, Client.getStreamedAmount_eq hok.terms w'.now, hv.streamed, ?_, ?_⟩
  · rw [← hsch]
    have h2 := ((hr.steps hs).streamOK hx').canceled
    unfold streamedNow
    split
    · exact h2 (by assumption)  |>.2
    · exact Nat.le_refl (scheduled sd'.timestamps sd'.amounts w'.now)
  · intro sd'' h'' hc
    cases h''.symm.trans hx'
    rw [← hsch]
    unfold streamedNow
    rw [if_neg (by rw [hc]; exact Bool.false_ne_true)]

/-- Stream 1 of the demo history: the view and the replica agree at time 4000; canceled then, the view stays at 533
while the replica goes on to the deposit. -/
example : world3.now = 4000 ∧ streamedAmountOf rt world3 (viewOf alice 1) = .ok 533 ∧
    Client.getStreamedAmount ⟨100, 200, 1000, 0, 200⟩ 4000 ⟨3000, 6000, 2000⟩ = some 533 ∧
    Client.getStreamedAmount ⟨100, 200, 1000, 0, 200⟩ 1999 ⟨3000, 6000, 2000⟩ = some 0 ∧
    Client.getStreamedAmount ⟨100, 200, 1000, 0, 200⟩ 2999 ⟨3000, 6000, 2000⟩ = some 100 ∧
    world7.now = 700000 ∧ streamedAmountOf rt world7 (viewOf alice 1) = .ok 533 ∧
    Client.getStreamedAmount ⟨100, 200, 1000, 0, 200⟩ 700000 ⟨3000, 6000, 2000⟩ = some 1000 := by decide +kernel

example : ∃ r x, Client.getStreamedAmount ⟨100, 200, 1000, 0, 200⟩ world7.now ⟨3000, 6000, 2000⟩ = some (r : Nat) ∧
    streamedAmountOf rt world7 (viewOf alice 1) = .ok x ∧ x ≤ r := by
  obtain ⟨r, x, h1, h2, h3, _⟩ := C66_replica (w := world3) (w' := world7) (s := alice) (n := 1)
    (sd := ⟨⟨100, 200, 1000, 0, 200⟩, mint, 255, 1, true, false, ⟨3000, 6000, 2000⟩, alice, false⟩)
    reach3 (steps34.trans (steps45.trans (steps56.trans steps67))) (by decide +kernel)
  exact ⟨r, x, h1, h2, h3⟩

end Solsab.Props
