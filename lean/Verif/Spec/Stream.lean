import Verif.Lockup.State
/-!
# Specification of a linear stream, independent of the code

A stream with terms `start`, `cliff` (0 = none), `end`, `startUnlock`, `cliffUnlock`, `deposit`.
-/

namespace Solsab.Spec

open Solsab.Lockup (Timestamps Amounts)

/-- The terms the documentation allows: a positive deposit, `0 < start < end`, either no cliff (and then no
cliff unlock) or `start < cliff < end`, and unlocks that do not exceed the deposit (over the integers). -/
def ValidTerms (ts : Timestamps) (am : Amounts) : Prop :=
  0 < am.deposited ∧ 0 < ts.start ∧ ts.start < ts.end ∧
  ((ts.cliff = 0 ∧ am.cliffUnlock = 0) ∨ (ts.start < ts.cliff ∧ ts.cliff < ts.end)) ∧
  am.startUnlock + am.cliffUnlock ≤ am.deposited

/-- When the linear part begins: at the cliff, or at the start when there is no cliff. -/
def linearStart (ts : Timestamps) : Nat := if ts.cliff = 0 then ts.start else ts.cliff

/-- What has been released at time `t` by the schedule: nothing before the start, the start unlock until the
cliff, everything from the end on, and in between both unlocks plus the linear share, computed with an
18-decimal percentage rounded down. -/
def scheduled (ts : Timestamps) (am : Amounts) (t : Nat) : Nat :=
  if t < ts.start then 0
  else if ts.cliff ≠ 0 ∧ t < ts.cliff then am.startUnlock
  else if ts.end ≤ t then am.deposited
  else am.startUnlock + am.cliffUnlock +
    ((t - linearStart ts) * 10 ^ 18 / (ts.end - linearStart ts)) *
      (am.deposited - (am.startUnlock + am.cliffUnlock)) / 10 ^ 18

end Solsab.Spec
