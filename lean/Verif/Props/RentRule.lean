import Verif.Spec.RentRule
import Verif.Props.Flows
/-!
# C90: the runtime's rent rule
-/

namespace Solsab

open Spec Demo

namespace Spec

theorem RentState.MayBecome.refl (s : RentState) : s.MayBecome s := by
  cases s <;> simp [RentState.MayBecome]

theorem mayBecome_of_rent {rt : Runtime} {s : RentState} {l k : Nat} (h : rt.rent k ≤ l) :
    s.MayBecome (rentState rt l k) := by
  unfold rentState
  rw [if_pos h]
  split <;> cases s <;> trivial

/-- What the payer is left with. -/
theorem RentFlow.left {rt : Runtime} {p : Addr} {xs : List (Addr × Nat)} {l l' : Addr → Nat}
    (h : RentFlow rt p xs l l') : l p ≤ l' p + (xs.map fun x => charge rt x.1 + max (rt.rent x.2) 1).sum := by
  induction h with
  | nil l => simp
  | @cons a k xs l l' ac af _ ih =>
    rw [List.map_cons, List.sum_cons]
    have key : ∀ (l : Addr → Nat) (x : Nat), l p ≤ moved l p a x p + x := by
      intro l x
      unfold moved
      by_cases h : p = a
      · simp only [if_pos h]; omega
      · simp only [if_neg h, if_true]; omega
    have k1 := key l (charge rt a)
    have k2 := key (moved l p a (charge rt a)) (max (rt.rent k) 1 - moved l p a (charge rt a) a)
    unfold rentPaid at ih
    simp only at ih ⊢
    omega

end Spec

namespace Props

/-- **C90**: with the rent rule of the runtime. Of all accounts, the payer's is the only one it can object to after a
successful instruction (`collect_fees` apart, see below): everything an instruction opens is rent exempt at once, and it
neither resizes nor gives lamports to any other account. -/
theorem C90_rule {rt : Runtime} {w w' : World} {ix : Ix} {p : Addr} (hp : ix.payer = some p) (hc : ix.collects = none)
    (hs : step rt w ix = .ok w') (size : Addr → Nat) {a : Addr} (ha : a ≠ p) : RentRule rt size w ix w' a := by
  obtain ⟨_, hf⟩ := C60_rent_only hp hc hs
  refine ⟨?_⟩
  unfold sizesAfter
  cases hl : (opens rt w ix).lookup a with
  | some k =>
    have hm : (a, k) ∈ opens rt w ix := by
      obtain ⟨l₁, l₂, h, _⟩ := List.lookup_eq_some_iff.1 hl
      rw [h]; simp
    exact mayBecome_of_rent (hf.paid ha hm)
  | none =>
    rw [hf.other ha fun k hm => ?_]
    · exact RentState.MayBecome.refl _
    · have := List.lookup_eq_none_iff.1 hl _ hm
      simp at this

example (size : Addr → Nat) := C90_rule (ix := ixWithdraw) (w := world2) (p := bob) rfl rfl
  (step_after (by decide +kernel)) size (a := camp) (by intro h; cases h)

/-- **C90**: and it cannot object to the payer if the payer has the rent of everything that may have to be opened and,
on top, the rent minimum of its own account (of size 0 for a plain wallet). -/
theorem C90_payer {rt : Runtime} {w w' : World} {ix : Ix} {p : Addr} (hp : ix.payer = some p) (hc : ix.collects = none)
    (hs : step rt w ix = .ok w') (size : Addr → Nat)
    (hl : rentCost rt w ix + rt.rent (sizesAfter rt w ix size p) ≤ w.lamports p) : ∀ a, RentRule rt size w ix w' a := by
  intro a
  by_cases ha : a = p
  · subst ha
    have h := (C60_rent_only hp hc hs).2.left
    refine ⟨mayBecome_of_rent ?_⟩
    unfold rentCost at hl
    omega
  · exact C90_rule hp hc hs size ha

example := C90_payer (ix := ixClaim) (w := world2) (p := carol) rfl rfl (step_after (by decide +kernel)) (fun _ => 0)
  (by decide +kernel)

/-- **C90**: nor if it opens nothing, whatever the payer has (for example a withdrawal to an existing account, or a
renunciation). -/
theorem C90_free {rt : Runtime} {w w' : World} {ix : Ix} {p : Addr} (hp : ix.payer = some p) (hc : ix.collects = none)
    (hs : step rt w ix = .ok w') (size : Addr → Nat) (ho : opens rt w ix = []) : ∀ a, RentRule rt size w ix w' a := by
  intro a
  obtain ⟨_, hf⟩ := C60_rent_only hp hc hs
  refine ⟨?_⟩
  unfold sizesAfter
  rw [ho] at hf ⊢
  have hl : w'.lamports = w.lamports := by
    generalize w'.lamports = l', w.lamports = l at hf
    cases hf
    rfl
  rw [hl]
  exact RentState.MayBecome.refl _

example (size : Addr → Nat) := C90_free (ix := ixRenounce) (w := world5) (p := alice) rfl rfl
  (step_after (by decide +kernel)) size rfl

/-- **C90**: under `collect_fees` the fee recipient's account is the only one it can object to: the treasury stays rent
exempt. -/
theorem C90_collect {rt : Runtime} {w w' : World} (hr : Reachable rt w) {ix : Ix} {q : Prog} {cl rc : Addr}
    (hi : ix.collectAccts q = some (cl, rc)) (hs : step rt w ix = .ok w') (size : Addr → Nat)
    (ht : size (.treasury q) = 105) {a : Addr} (ha : a ≠ rc) : RentRule rt size w ix w' a := by
  have hopen : opens rt w ix = [] := by
    cases ix with
    | env i => rfl
    | lockup i => cases i <;> first | rfl | cases hi
    | merkle i => cases i <;> first | rfl | cases hi
  obtain ⟨tr, _, _, _, hk, rfl, h6⟩ := C34_collect hr hi hs
  refine ⟨?_⟩
  unfold sizesAfter
  rw [hopen]
  show RentState.MayBecome _ (rentState rt _ (size a))
  by_cases h : a = .treasury q
  · subst h
    apply mayBecome_of_rent
    rw [ht, h6 (Ne.symm ha)]
    unfold keep
    omega
  · have : moved w.lamports (.treasury q) rc (w.lamports (.treasury q) - keep rt) a = w.lamports a := by
      unfold moved
      simp only [if_neg h, if_neg ha, ite_self]
    show RentState.MayBecome _ (rentState rt (moved _ _ _ _ a) (size a))
    rw [this]
    exact RentState.MayBecome.refl _

example (size : Addr → Nat) (ht : size (.treasury .lockup) = 105) := C90_collect reach7 (ix := ixCollect) (q := .lockup)
  rfl (step_after (by decide +kernel)) size ht (a := carol) (by intro h; cases h)

/-- **C90**: so collecting goes through if the recipient, with what it receives, has the rent minimum of its size. -/
theorem C90_recipient {rt : Runtime} {w w' : World} (hr : Reachable rt w) {ix : Ix} {q : Prog} {cl rc : Addr}
    (hi : ix.collectAccts q = some (cl, rc)) (hs : step rt w ix = .ok w') (size : Addr → Nat)
    (ht : size (.treasury q) = 105)
    (hl : rt.rent (size rc) ≤ w.lamports rc + (w.lamports (.treasury q) - keep rt)) :
    ∀ a, RentRule rt size w ix w' a := by
  intro a
  by_cases ha : a = rc
  · subst ha
    have hopen : opens rt w ix = [] := by
      cases ix with
      | env i => rfl
      | lockup i => cases i <;> first | rfl | cases hi
      | merkle i => cases i <;> first | rfl | cases hi
    obtain ⟨tr, _, _, _, hk, rfl, h6⟩ := C34_collect hr hi hs
    refine ⟨?_⟩
    unfold sizesAfter
    rw [hopen]
    show RentState.MayBecome _ (rentState rt (moved _ _ _ _ a) (size a))
    by_cases h : Addr.treasury q = a
    · have : moved w.lamports (.treasury q) a (w.lamports (.treasury q) - keep rt) a = w.lamports a := by
        unfold moved; rw [if_pos h]
      rw [this]
      exact RentState.MayBecome.refl _
    · have : moved w.lamports (.treasury q) a (w.lamports (.treasury q) - keep rt) a =
          w.lamports a + (w.lamports (.treasury q) - keep rt) := by
        unfold moved; simp only [if_neg h, if_neg (Ne.symm h), if_true]
      rw [this]
      generalize w.lamports a + (w.lamports (.treasury q) - keep rt) = l at hl
      exact mayBecome_of_rent hl
  · exact C90_collect hr hi hs size ht ha

example := C90_recipient reach7 (ix := ixCollect) (q := .lockup) rfl (step_after (by decide +kernel))
  (fun a => if a = .treasury .lockup then 105 else 0) rfl (by decide +kernel)

/-- **C90**: and it does not if the recipient was empty and the fees are less than that: the collector has to wait for
more fees or name a funded recipient. -/
theorem C90_dust {rt : Runtime} {w w' : World} (hr : Reachable rt w) {ix : Ix} {q : Prog} {cl rc : Addr}
    (hi : ix.collectAccts q = some (cl, rc)) (hs : step rt w ix = .ok w') (size : Addr → Nat)
    (h0 : w.lamports rc = 0) (hl : w.lamports (.treasury q) - keep rt < rt.rent (size rc)) :
    ¬ RentRule rt size w ix w' rc := by
  have hopen : opens rt w ix = [] := by
    cases ix with
    | env i => rfl
    | lockup i => cases i <;> first | rfl | cases hi
    | merkle i => cases i <;> first | rfl | cases hi
  obtain ⟨tr, _, _, _, hk, rfl, h6⟩ := C34_collect hr hi hs
  have hne : Addr.treasury q ≠ rc := by
    intro e
    rw [← e] at h0
    omega
  refine mt RentRule.ok ?_
  unfold sizesAfter
  rw [hopen]
  show ¬ RentState.MayBecome _ (rentState rt (moved _ _ _ _ rc) (size rc))
  have : moved w.lamports (.treasury q) rc (w.lamports (.treasury q) - keep rt) rc =
      w.lamports (.treasury q) - keep rt := by
    unfold moved; rw [if_neg hne, if_neg (Ne.symm hne), if_pos rfl, h0]; omega
  rw [this, h0]
  unfold rentState
  rw [if_pos rfl, if_neg (by omega), if_neg (by omega)]
  exact id

/-- Dave has given all his lamports away; the lockup treasury holds 2 lamports more than it keeps. -/
def dave : Addr := .key 77
def worldD : World := after world6
  [.env (.sendLamports dave carol (world6.lamports dave)), .env (.sendLamports bob (.treasury .lockup) 1000002)]

theorem reachD : Reachable rt worldD := reach6.steps (steps_after (by decide +kernel))

def ixDust : Ix := .lockup (.collectFees ⟨collector, dave, .treasury .lockup⟩)

/-- `collect_fees` itself succeeds with dave as the recipient, the runtime then refuses. -/
example := C90_dust reachD (ix := ixDust) (q := .lockup) (cl := collector) (rc := dave) rfl
  (step_after (by decide +kernel)) (fun _ => 0) (by decide +kernel) (by decide +kernel)

end Props
end Solsab
