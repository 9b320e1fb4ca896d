import Verif.Lockup.Math
import Verif.Spec.Stream
import Mathlib.Tactic.Ring
import Mathlib.Tactic.Linarith
/-!
# `get_streamed_amount` computes the schedule
-/

namespace Solsab

open Spec Lockup

/-- The linear share is at most the amount to be shared. -/
theorem linear_le {e R A : Nat} (he : e ≤ R) : (e * 10 ^ 18 / R) * A / 10 ^ 18 ≤ A := by
  have h1 : e * 10 ^ 18 / R ≤ 10 ^ 18 := by
    apply Nat.div_le_of_le_mul
    exact Nat.mul_le_mul_right _ he
  apply Nat.div_le_of_le_mul
  exact Nat.mul_le_mul_right _ h1

theorem linear_mono {e e' R A : Nat} (he : e ≤ e') :
    (e * 10 ^ 18 / R) * A / 10 ^ 18 ≤ (e' * 10 ^ 18 / R) * A / 10 ^ 18 := by
  apply Nat.div_le_div_right
  apply Nat.mul_le_mul_right
  apply Nat.div_le_div_right
  exact Nat.mul_le_mul_right _ he

theorem linearStart_bounds {ts : Timestamps} {am : Amounts} (hv : ValidTerms ts am) :
    ts.start ≤ linearStart ts ∧ linearStart ts < ts.end := by
  obtain ⟨_, _, h3, h4, _⟩ := hv
  unfold linearStart
  split
  · omega
  · omega

theorem scheduled_le {ts : Timestamps} {am : Amounts} (hv : ValidTerms ts am) (t : Nat) :
    scheduled ts am t ≤ am.deposited := by
  have hb := linearStart_bounds hv
  obtain ⟨h1, h2, h3, h4, h5⟩ := hv
  unfold scheduled
  split
  · omega
  split
  · omega
  split
  · omega
  · have := linear_le (e := t - linearStart ts) (R := ts.end - linearStart ts)
      (A := am.deposited - (am.startUnlock + am.cliffUnlock)) (by omega)
    omega

theorem scheduled_mono {ts : Timestamps} {am : Amounts} (hv : ValidTerms ts am) {t t' : Nat} (ht : t ≤ t') :
    scheduled ts am t ≤ scheduled ts am t' := by
  have hle := scheduled_le hv t
  have hb := linearStart_bounds hv
  obtain ⟨h1, h2, h3, h4, h5⟩ := hv
  have hlin := linear_mono (e := t - linearStart ts) (e' := t' - linearStart ts) (R := ts.end - linearStart ts)
    (A := am.deposited - (am.startUnlock + am.cliffUnlock)) (by omega)
  unfold scheduled at *
  by_cases c1 : t < ts.start
  · rw [if_pos c1]; exact Nat.zero_le _
  have c1' : ¬ t' < ts.start := by omega
  rw [if_neg c1] at hle ⊢
  rw [if_neg c1']
  by_cases c2 : ts.cliff ≠ 0 ∧ t < ts.cliff
  · rw [if_pos c2]
    split
    · exact Nat.le_refl _
    · split <;> omega
  have c2' : ¬ (ts.cliff ≠ 0 ∧ t' < ts.cliff) := by omega
  rw [if_neg c2] at hle ⊢
  rw [if_neg c2']
  by_cases c3 : ts.end ≤ t
  · have c3' : ts.end ≤ t' := by omega
    rw [if_pos c3, if_pos c3']
  rw [if_neg c3] at hle ⊢
  split
  · exact hle
  · omega

theorem scheduled_end {ts : Timestamps} {am : Amounts} (hv : ValidTerms ts am) {t : Nat} (ht : ts.end ≤ t) :
    scheduled ts am t = am.deposited := by
  obtain ⟨h1, h2, h3, h4, h5⟩ := hv
  unfold scheduled
  have c1 : ¬ t < ts.start := by omega
  have c2 : ¬ (ts.cliff ≠ 0 ∧ t < ts.cliff) := by omega
  rw [if_neg c1, if_neg c2, if_pos ht]

/-- On valid terms, for a stream that is neither depleted nor canceled, the code computes the schedule, with no
panic at any time. -/
theorem getStreamedAmount_live {ts : Timestamps} {am : Amounts} (hv : ValidTerms ts am)
    (hd : am.deposited < 2 ^ 64) (he : ts.end < 2 ^ 64) (now : Nat) :
    getStreamedAmount now ts am false false = .ok (scheduled ts am now) := by
  have hb := linearStart_bounds hv
  obtain ⟨h1, h2, h3, h4, h5⟩ := hv
  unfold getStreamedAmount
  simp only [Bool.false_eq_true, if_false]
  unfold scheduled at *
  by_cases c1 : now < ts.start
  · rw [if_pos (by omega), if_pos c1]
  rw [if_neg (by omega), if_neg c1]
  by_cases c2 : ts.cliff > now
  · have c2' : ts.cliff ≠ 0 ∧ now < ts.cliff := by omega
    rw [if_pos c2, if_pos c2']
  have c2' : ¬ (ts.cliff ≠ 0 ∧ now < ts.cliff) := by omega
  rw [if_neg c2, if_neg c2']
  by_cases c3 : ts.end ≤ now
  · rw [if_pos c3, if_pos c3]
  rw [if_neg c3, if_neg c3]
  have hS : (10 : Nat) ^ 18 = SCALING_FACTOR := by decide
  have hSpos : 0 < SCALING_FACTOR := by decide
  have hSlt : SCALING_FACTOR < 2 ^ 60 := by decide
  rw [hS]
  clear hS
  revert hSpos hSlt
  generalize SCALING_FACTOR = S
  intro hSpos hSlt
  have e1 : addU64 am.startUnlock am.cliffUnlock = .ok (am.startUnlock + am.cliffUnlock) :=
    addU64_ok.2 ⟨by omega, rfl⟩
  refine bind_ok.2 ⟨_, e1, ?_⟩
  by_cases c4 : am.startUnlock + am.cliffUnlock ≥ am.deposited
  · rw [if_pos c4]
    have : am.deposited - (am.startUnlock + am.cliffUnlock) = 0 := by omega
    rw [this, Nat.mul_zero, Nat.zero_div, Nat.add_zero]
    exact congrArg _ (by omega)
  rw [if_neg c4]
  have hst : (if ts.cliff = 0 then ts.start else ts.cliff) = linearStart ts := by unfold linearStart; rfl
  rw [hst]
  have hls : linearStart ts ≤ now := by
    unfold linearStart; split <;> omega
  generalize linearStart ts = ls at *
  have e3 : (now - ls) * S < 2 ^ 128 := by
    have : (now - ls) * S ≤ 2 ^ 64 * 2 ^ 60 := Nat.mul_le_mul (by omega) (by omega)
    omega
  have hq : (now - ls) * S / (ts.end - ls) ≤ S := by
    apply Nat.div_le_of_le_mul
    exact Nat.mul_le_mul_right _ (by omega)
  refine bind_ok.2 ⟨_, subU64_ok.2 ⟨hls, rfl⟩, ?_⟩
  refine bind_ok.2 ⟨_, mulU128_ok.2 ⟨e3, rfl⟩, ?_⟩
  refine bind_ok.2 ⟨_, subU64_ok.2 ⟨by omega, rfl⟩, ?_⟩
  refine bind_ok.2 ⟨_, divChecked_ok.2 ⟨by omega, rfl⟩, ?_⟩
  refine bind_ok.2 ⟨_, subU64_ok.2 ⟨by omega, rfl⟩, ?_⟩
  generalize (now - ls) * S / (ts.end - ls) = q at *
  generalize hA : am.deposited - (am.startUnlock + am.cliffUnlock) = A at *
  have e7 : q * A < 2 ^ 128 := by
    have : q * A ≤ 2 ^ 60 * 2 ^ 64 := Nat.mul_le_mul (by omega) (by omega)
    omega
  have hqa : q * A / S ≤ A := by
    apply Nat.div_le_of_le_mul
    exact Nat.mul_le_mul_right _ hq
  refine bind_ok.2 ⟨_, mulU128_ok.2 ⟨e7, rfl⟩, ?_⟩
  refine bind_ok.2 ⟨_, divChecked_ok.2 ⟨by omega, rfl⟩, ?_⟩
  generalize q * A / S = x at *
  have e9 : asU64 x = x := by unfold asU64; exact Nat.mod_eq_of_lt (by omega)
  rw [e9]
  refine bind_ok.2 ⟨_, addU64_ok.2 ⟨by omega, rfl⟩, ?_⟩
  rw [if_neg (by omega)]

/-- The rounding bound of the linear part: with `x` the computed share of `A` after `e` of `R` seconds,
`x ≤ A·e/R < x + 1 + A/10^18` (cross-multiplied). -/
theorem linear_accuracy {e R A : Nat} (hR : 0 < R) :
    let x := (e * 10 ^ 18 / R) * A / 10 ^ 18
    x * R ≤ A * e ∧ A * e * 10 ^ 18 < (x + 1) * R * 10 ^ 18 + A * R := by
  intro x
  set q := e * 10 ^ 18 / R with hq
  have h1 : q * R ≤ e * 10 ^ 18 := Nat.div_mul_le_self _ _
  have h2 : e * 10 ^ 18 < (q + 1) * R := by
    have := Nat.lt_div_mul_add hR (a := e * 10 ^ 18)
    rw [← hq] at this
    rw [Nat.add_mul, Nat.one_mul]; exact this
  have h3 : x * 10 ^ 18 ≤ q * A := Nat.div_mul_le_self _ _
  have h4 : q * A < (x + 1) * 10 ^ 18 := by
    have := Nat.lt_div_mul_add (b := 10 ^ 18) (by decide) (a := q * A)
    rw [Nat.add_mul, Nat.one_mul]; exact this
  constructor
  · have a1 : x * 10 ^ 18 * R ≤ q * A * R := Nat.mul_le_mul_right _ h3
    have a2 : q * R * A ≤ e * 10 ^ 18 * A := Nat.mul_le_mul_right _ h1
    have a3 : x * R * 10 ^ 18 ≤ A * e * 10 ^ 18 := by
      calc x * R * 10 ^ 18 = x * 10 ^ 18 * R := by ring
        _ ≤ q * A * R := a1
        _ = q * R * A := by ring
        _ ≤ e * 10 ^ 18 * A := a2
        _ = A * e * 10 ^ 18 := by ring
    exact Nat.le_of_mul_le_mul_right a3 (by decide)
  · have b1 : A * (e * 10 ^ 18) ≤ A * ((q + 1) * R) := Nat.mul_le_mul_left _ (Nat.le_of_lt h2)
    have b2 : q * A * R < (x + 1) * 10 ^ 18 * R := Nat.mul_lt_mul_of_pos_right h4 hR
    calc A * e * 10 ^ 18 = A * (e * 10 ^ 18) := by ring
      _ ≤ A * ((q + 1) * R) := b1
      _ = q * A * R + A * R := by ring
      _ < (x + 1) * 10 ^ 18 * R + A * R := by omega
      _ = (x + 1) * R * 10 ^ 18 + A * R := by ring

end Solsab
