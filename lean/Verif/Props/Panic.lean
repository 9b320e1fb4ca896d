import Verif.Proofs.Panic
import Verif.Demo
/-!
# C05 for every instruction
-/

namespace Solsab.Props

open Lockup Spec Demo

/-- **C05**, all instructions: in no reachable state does any instruction panic, whatever its arguments and
accounts, except in the cases listed by `MayPanic`. -/
theorem C05_panics_only {rt : Runtime} {w : World} (hr : Reachable rt w) (ix : Ix)
    (h : step rt w ix = .error .panic) : MayPanic rt w ix := by
  revert h
  match ix with
  | .lockup (.initialize ..) => exact fun h => initialize_no_panic h
  | .lockup (.createWithTimestamps ..) =>
    intro h
    by_contra hn
    exact create_no_panic hr (Nat.lt_of_not_le hn) h
  | .lockup (.createWithDurations c salt dep cliff dur su cu ca) =>
    intro h
    by_contra hn
    have hn' := not_or.1 hn
    have hn2 := not_or.1 hn'.2
    have h' : createWithDurations rt w c _ = .error .panic := h
    unfold createWithDurations at h'
    dsimp only at h'
    have h1 : ∃ x, (if cliff.toNat > 0 then addU64 w.now cliff.toNat else .ok 0) = .ok x := by
      split
      · rename_i hc
        exact ⟨_, addU64_ok.2 ⟨Nat.lt_of_not_le fun hx => hn2.1 ⟨hc, hx⟩, rfl⟩⟩
      · exact ⟨0, rfl⟩
    obtain ⟨x, hx⟩ := h1
    rw [hx, ok_bind, addU64_ok.2 ⟨Nat.lt_of_not_le hn2.2, rfl⟩, ok_bind] at h'
    exact create_no_panic hr (Nat.lt_of_not_le hn'.1) h'
  | .lockup (.withdraw c a) => exact fun h => withdraw_no_panic hr c _ h
  | .lockup (.withdrawMax c) => exact fun h => withdrawMax_no_panic hr c h
  | .lockup (.cancel c) => exact fun h => cancel_no_panic hr c h
  | .lockup (.renounce c) => exact fun h => renounce_no_panic hr c h
  | .lockup (.collectFees c) =>
    intro h
    by_contra hn
    exact collect_no_panic (Nat.lt_of_not_le hn) h
  | .merkle (.initialize ..) => exact fun h => miInitialize_no_panic h
  | .merkle (.createCampaign ..) => exact fun h => createCampaign_no_panic h
  | .merkle (.claim c i a p) => exact fun h => Merkle.claim_no_panic c _ _ p h
  | .merkle (.clawback c a) => exact fun h => Merkle.clawback_no_panic hr c _ h
  | .merkle (.collectFees c) =>
    intro h
    by_contra hn
    exact miCollect_no_panic (Nat.lt_of_not_le hn) h
  | .env i => exact fun h => env_no_panic i h

/-- **C05**: the listed overflow of `create_with_durations` is real: such a call always aborts. -/
theorem C05_durations_overflow {rt : Runtime} {w : World} (c : CreateAccts) (salt : Fin (2 ^ 128))
    (dep cliff dur su cu : UInt64) (ca : Bool) (h : 2 ^ 64 ≤ w.now + dur.toNat) (hc : cliff = 0) :
    step rt w (.lockup (.createWithDurations c salt dep cliff dur su cu ca)) = .error .panic := by
  subst hc
  show createWithDurations rt w c _ = _
  unfold createWithDurations addU64
  dsimp only
  rw [if_neg (Nat.not_lt.2 h)]
  rfl

example : step rt world1 (.lockup (.createWithDurations (createAccts 7) 7 1000 0 18446744073709551615 0 0 true)) =
    .error .panic := C05_durations_overflow _ _ _ _ _ _ _ _ (by decide +kernel) rfl

/-- With ordinary durations nothing panics: the hypothesis of the theorem is refuted by its conclusion. -/
example : step rt world1 (.lockup (.createWithDurations (createAccts 7) 7 1000 50 100 0 0 true)) ≠ .error .panic :=
  fun h => absurd (C05_panics_only reach1 _ h) (by unfold MayPanic; decide +kernel)

end Solsab.Props
