import Verif.Props.Abi
import Verif.Props.Status
/-!
# C65: the log of a history as bytes
-/

namespace Solsab.Props

open Spec Abi Demo

/-- The numbers fit their fields. -/
def Fits : Event → Prop
  | .cancelLockupStream _ a b _ _ => a < 2 ^ 64 ∧ b < 2 ^ 64
  | .createLockupLinearStream _ _ _ salt _ _ => salt < 2 ^ 128
  | .withdrawFromLockupStream _ f _ _ a => f < 2 ^ 64 ∧ a < 2 ^ 64
  | .claim a _ _ _ f i _ => a < 2 ^ 64 ∧ f < 2 ^ 64 ∧ i < 2 ^ 32
  | .clawback a _ _ _ => a < 2 ^ 64
  | .createCampaign a _ nm s _ e cid _ c _ _ =>
      a < 2 ^ 64 ∧ s < 2 ^ 64 ∧ e < 2 ^ 64 ∧ c < 2 ^ 32 ∧ nm.length < 2 ^ 32 ∧ cid.length < 2 ^ 32
  | _ => True

theorem log_fits {rt : Runtime} {w : World} (hr : Reachable rt w) {e : LogEntry} (he : e ∈ w.log) : Fits e.event := by
  obtain ⟨w₀, hg, hst⟩ := hr
  induction hst with
  | refl => rw [hg.no_log] at he; cases he
  | @tail w₁ w₂ ix h1 h2 ih =>
    have hr1 : Reachable rt w₁ := ⟨w₀, hg, h1⟩
    have hr2 := hr1.step h2
    have add : ∀ {x}, w₂.log = x :: w₁.log → Fits x.event → Fits e.event := by
      intro x hx hf
      rw [hx] at he
      rcases List.mem_cons.1 he with rfl | he
      · exact hf
      · exact ih he
    have same : w₂.log = w₁.log → Fits e.event := fun hx => ih (hx ▸ he)
    cases step_did h2 with
    | init _ h => exact same (by rw [h.result])
    | create _ hp h => exact add (congrArg World.log h.result) hp.salt
    | withdraw _ h =>
      obtain ⟨x, hx, hle⟩ := h.withdrawable
      refine add (congrArg World.log h.result) ⟨by decide, ?_⟩
      have hok := hr1.streamOK h.accts.stream
      have hv := hr1.streamOK (w := w₁) h.accts.stream
      have hd := hok.dep64
      have hok2 := hr2.streamOK (x := _) (show w₂.lk.streams _ = some _ by rw [h.result]; exact upd_same _ _ _)
      have hl := hok2.logW
      have hs := hok2.sum_le
      have hd2 := hok2.dep64
      rw [h.result] at hl
      simp only [total, List.map_cons, List.sum_cons, withdrawnBy, if_true] at hl
      omega
    | cancel _ h =>
      have hok := hr1.streamOK h.accts.stream
      have hd := hok.dep64
      have h3 := h.notSettled
      refine add (congrArg World.log h.result) ⟨?_, ?_⟩ <;> omega
    | renounce _ h => exact add (congrArg World.log h.result) trivial
    | collect _ _ h => exact add (congrArg World.log h.result) trivial
    | miInit _ _ _ _ h => exact same (by rw [h])
    | campaign _ hix _ =>
      obtain ⟨r, s, x, n, i, a, k, rfl⟩ := hix
      obtain ⟨_, _, _, h⟩ := Merkle.createCampaign_ok (h2 : Merkle.createCampaign rt w₁ _ _ = _)
      have hfit := h.fits
      have hn := h.nameLen
      refine add (congrArg World.log h.result) ⟨a.toNat_lt, s.toNat_lt, x.toNat_lt, k.toNat_lt, ?_, ?_⟩
      · omega
      · unfold Merkle.Campaign.encodedSize Merkle.campaignSpace Merkle.CAMPAIGN_IPFS_CID_SIZE Merkle.CAMPAIGN_NAME_SIZE Merkle.Campaign.create at hfit
        simp only at hfit ⊢
        omega
    | claim hix h =>
      obtain ⟨i, a, rfl, rfl, rfl⟩ := hix
      exact add (congrArg World.log h.result) ⟨a.toNat_lt, by decide, i.toNat_lt⟩
    | clawback hix h =>
      obtain ⟨a, rfl, rfl⟩ := hix
      exact add (congrArg World.log h.result) a.toNat_lt
    | miCollect _ _ h => exact add (congrArg World.log h.result) trivial
    | env i _ h => exact same (env_ok h).log

/-- **C65**: in every history the bytes of every emitted event carry its amounts, times, counts and salts without
loss: reading the emitted bytes gives the event of the same program and name, with the same numbers, the keys of the
same accounts in the same fields, and the same texts. -/
theorem C65_lossless {rt : Runtime} {w : World} (hr : Reachable rt w) {e : LogEntry} (he : e ∈ w.log) :
    rawEventNumbers (rawEvent rt e.event) = eventNumbers e.event ∧
    rawEventAccounts (rawEvent rt e.event) = ((eventAccounts e.event).1, (eventAccounts e.event).2.1,
      (eventAccounts e.event).2.2.map fun p => (p.1, rt.keyBytes p.2)) ∧
    rawEventTexts (rawEvent rt e.event) = eventTexts e.event ∧
    (∀ x, rawEvent rt e.event = .inl x → dispatch "event" lockupEventEntries (lockupEventData x) = .ok x) ∧
    (∀ x, rawEvent rt e.event = .inr x → dispatch "event" merkleEventEntries (merkleEventData x) = .ok x) := by
  have hf := log_fits hr he
  refine ⟨?_, ?_, ?_, fun x _ => C65_lockup_events x, fun x hx => C65_merkle_events x ?_⟩
  · have e64 : ∀ {n : Nat}, n < 2 ^ 64 → (UInt64.ofNat n).toNat = n := fun h => by
      rw [UInt64.toNat_ofNat']; exact Nat.mod_eq_of_lt h
    have e32 : ∀ {n : Nat}, n < 2 ^ 32 → (UInt32.ofNat n).toNat = n := fun h => by
      rw [UInt32.toNat_ofNat']; exact Nat.mod_eq_of_lt h
    have e128 : ∀ {n : Nat}, n < 2 ^ 128 → (Fin.ofNat (2 ^ 128) n).val = n := fun h => Nat.mod_eq_of_lt h
    generalize e.event = ev at hf
    cases ev with
    | cancelLockupStream => simp only [rawEvent, rawEventNumbers, eventNumbers, e64 hf.1, e64 hf.2]
    | createLockupLinearStream => simp only [rawEvent, rawEventNumbers, eventNumbers, e128 hf]
    | feesCollected p a c r => cases p <;> rfl
    | renounceLockupStream => rfl
    | withdrawFromLockupStream => simp only [rawEvent, rawEventNumbers, eventNumbers, e64 hf.1, e64 hf.2]
    | claim => simp only [rawEvent, rawEventNumbers, eventNumbers, e64 hf.1, e64 hf.2.1, e32 hf.2.2]
    | clawback => simp only [rawEvent, rawEventNumbers, eventNumbers, e64 hf]
    | createCampaign =>
      simp only [rawEvent, rawEventNumbers, eventNumbers, e64 hf.1, e64 hf.2.1, e64 hf.2.2.1, e32 hf.2.2.2.1]
  · generalize e.event = ev
    cases ev with
    | feesCollected p a c r => cases p <;> rfl
    | _ => rfl
  · generalize e.event = ev
    cases ev with
    | feesCollected p a c r => cases p <;> rfl
    | _ => rfl
  · generalize e.event = ev at hf hx
    cases ev with
    | createCampaign => cases hx; exact ⟨hf.2.2.2.2.1, hf.2.2.2.2.2⟩
    | feesCollected p a c r => cases p <;> cases hx <;> trivial
    | claim => cases hx; trivial
    | clawback => cases hx; trivial
    | _ => cases hx

example := C65_lossless reach8 (e := ⟨4000, .claim 500 camp carol (.claimReceipt camp 0) 0 0 bob⟩) (by decide +kernel)

end Solsab.Props
