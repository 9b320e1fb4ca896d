import Verif.Proofs.Races
import Verif.Props.Cancel
import Verif.Props.Campaign
import Verif.Spec.Races
/-!
# C85 — within a block the order does not matter
-/

namespace Solsab.Props

open Solsab Spec Lockup Demo

theorem opened_ne {w : World} {a : Addr} (h : Opened w a) : w.bank.tokens a ≠ none := by
  obtain ⟨t, h⟩ := h
  rw [h]; exact fun e => by cases e

theorem runAll_two {rt : Runtime} {w u : World} {i j : Ix} :
    runAll rt w [i, j] = .ok u ↔ ∃ w₁, step rt w i = .ok w₁ ∧ step rt w₁ j = .ok u := by
  simp only [runAll, bind_ok]
  constructor
  · rintro ⟨w₁, h1, w₂, h2, h3⟩; cases h3; exact ⟨w₁, h1, h2⟩
  · rintro ⟨w₁, h1, h2⟩; exact ⟨w₁, h1, u, h2, rfl⟩

/-- `withdraw_max` is a withdrawal of what is withdrawable. -/
theorem withdrawMax_eq {rt : Runtime} {w : World} (hr : Reachable rt w) {c : WithdrawAccts} {sd : StreamData}
    (hx : w.lk.streams c.streamData = some sd) :
    withdrawMax rt w c = withdraw rt w c (streamedNow w.now sd - sd.amounts.withdrawn) := by
  unfold withdrawMax withdraw
  cases h : withdrawAccounts rt w c with
  | error e => rfl
  | ok p =>
    obtain ⟨w₁, sd', dm⟩ := p
    obtain ⟨b, l, ha, _, rfl⟩ := withdrawAccounts_ok h
    have e := ha.stream
    rw [hx] at e; cases e
    have hg := (hr.streamOK hx).getWithdrawable
    show (do let amount ← getWithdrawableAmount w.now sd.timestamps sd.amounts sd.isDepleted sd.wasCanceled
             withdrawHandler { w with bank := b, lamports := l } c sd dm amount) = _
    rw [hg]; rfl

/-- A withdrawal of either kind is a `withdraw` of an amount, fixed by the streamed amount and what is withdrawn. -/
theorem withdrawal_amount {rt : Runtime} {w : World} (hr : Reachable rt w) {ix : Ix} {c : WithdrawAccts}
    (hc : ix.withdrawAccts = some c) {sd : StreamData} (hx : w.lk.streams c.streamData = some sd) :
    ∃ x, ∀ w₁ sd₁, (w₁ = w ∧ sd₁ = sd ∨ Reachable rt w₁ ∧ w₁.lk.streams c.streamData = some sd₁ ∧
        streamedNow w₁.now sd₁ = streamedNow w.now sd ∧ sd₁.amounts.withdrawn = sd.amounts.withdrawn) →
      step rt w₁ ix = withdraw rt w₁ c x := by
  match ix, hc with
  | .lockup (.withdraw c a), rfl => exact ⟨a.toNat, fun _ _ _ => rfl⟩
  | .lockup (.withdrawMax c), rfl =>
    refine ⟨streamedNow w.now sd - sd.amounts.withdrawn, fun w₁ sd₁ h => ?_⟩
    rcases h with ⟨rfl, rfl⟩ | ⟨h1, h2, h3, h4⟩
    · exact withdrawMax_eq hr hx
    · rw [← h3, ← h4]; exact withdrawMax_eq h1 h2

/-- **C85**: two withdrawals from the same stream. -/
theorem C85_withdrawals {rt : Runtime} {w : World} (hr : Reachable rt w) {c d : WithdrawAccts}
    (hcd : d.streamData = c.streamData) (hc : Opened w c.withdrawalRecipientAta) (hd : Opened w d.withdrawalRecipientAta)
    (hvc : c.withdrawalRecipientAta ≠ c.streamDataAta) (hvd : d.withdrawalRecipientAta ≠ d.streamDataAta)
    (x y : UInt64) : Confluent rt w (.lockup (.withdraw c x)) (.lockup (.withdraw d y)) := by
  intro u h
  obtain ⟨w₁, h1, h2⟩ := runAll_two.1 h
  obtain ⟨w₁', k1, k2⟩ := race_ww hr hcd (opened_ne hc) (opened_ne hd) hvc hvd
    (h1 : withdraw rt w c x.toNat = _) (hr.step h1) (h2 : withdraw rt w₁ d y.toNat = _)
  have k1 : step rt w (.lockup (.withdraw d y)) = .ok w₁' := k1
  obtain ⟨w₂', k3, k4⟩ := k2 (hr.step k1)
  exact ⟨w₂', runAll_two.2 ⟨w₁', k1, k3⟩, k4.symm⟩

/-- **C85**: a withdrawal and a cancel of the same stream: whoever comes first, both get the same. -/
theorem C85_withdraw_cancel {rt : Runtime} {w : World} (hr : Reachable rt w) {ix : Ix} {c : WithdrawAccts} {d : CancelAccts}
    (hix : ix.withdrawAccts = some c) (hcd : d.streamData = c.streamData)
    (hc : Opened w c.withdrawalRecipientAta) (hd : Opened w d.senderAta)
    (hvc : c.withdrawalRecipientAta ≠ c.streamDataAta) (hvd : d.senderAta ≠ d.streamDataAta) :
    Confluent rt w ix (.lockup (.cancel d)) ∧ Confluent rt w (.lockup (.cancel d)) ix := by
  constructor
  · intro u h
    obtain ⟨w₁, h1, h2⟩ := runAll_two.1 h
    obtain ⟨_, h0⟩ := withdrawIx hr hix h1
    obtain ⟨_, _, sd, _, _, _, _, _, _, _, _, hw⟩ := withdraw_stream hr h0
    have hx := hw.accts.stream
    obtain ⟨x, hxx⟩ := withdrawal_amount hr hix hx
    have h1' := h1
    rw [hxx w sd (.inl ⟨rfl, rfl⟩)] at h1'
    obtain ⟨w₁', k1, k2⟩ := race_wc hr hcd (opened_ne hc) (opened_ne hd) hvc hvd h1' (hr.step h1)
      (h2 : cancel rt w₁ d = _)
    have k1' : step rt w (.lockup (.cancel d)) = .ok w₁' := k1
    obtain ⟨w₂', k3, k4⟩ := k2 (hr.step k1')
    refine ⟨w₂', runAll_two.2 ⟨w₁', k1', ?_⟩, k4.symm⟩
    obtain ⟨_, _, _, _, _, _, _, _, _, e⟩ := (cancel_exact hr (by rw [hcd]; exact hx) (opened_ne hd)).1 k1
    rw [hxx w₁' (sd.cancel (sd.amounts.deposited - streamedNow w.now sd) (streamedNow w.now sd - sd.amounts.withdrawn))
      (.inr ⟨hr.step k1', by rw [e, hcd]; exact upd_same _ _ _, ?_, rfl⟩)]
    · exact k3
    · have hn : w₁'.now = w.now := by rw [e]; rfl
      rw [hn]; exact streamedNow_cancel (hr.streamOK hx).streamed.2 _
  · intro u h
    obtain ⟨w₁, h1, h2⟩ := runAll_two.1 h
    obtain ⟨_, _, sd, _, _, _, _, _, _, _, _, hw⟩ := cancel_stream hr (h1 : cancel rt w d = _)
    have hx : w.lk.streams c.streamData = some sd := by rw [← hcd]; exact hw.accts.stream
    obtain ⟨x, hxx⟩ := withdrawal_amount hr hix hx
    obtain ⟨_, _, _, _, _, _, _, _, _, e⟩ := (cancel_exact hr hw.accts.stream (opened_ne hd)).1 h1
    rw [hxx w₁ (sd.cancel (sd.amounts.deposited - streamedNow w.now sd) (streamedNow w.now sd - sd.amounts.withdrawn))
      (.inr ⟨hr.step h1, by rw [e, hcd]; exact upd_same _ _ _, by
        rw [show w₁.now = w.now by rw [e]; rfl]; exact streamedNow_cancel (hr.streamOK hx).streamed.2 _, rfl⟩)] at h2
    obtain ⟨w₁', k1, k2⟩ := race_cw hr hcd (opened_ne hc) (opened_ne hd) hvc hvd h1 (hr.step h1) h2
    have k1' : step rt w ix = .ok w₁' := by rw [hxx w sd (.inl ⟨rfl, rfl⟩)]; exact k1
    obtain ⟨w₂', k3, k4⟩ := k2 (hr.step k1')
    exact ⟨w₂', runAll_two.2 ⟨w₁', k1', k3⟩, k4.symm⟩

/-- **C85**: a withdrawal and a renounce of the same stream. -/
theorem C85_withdraw_renounce {rt : Runtime} {w : World} (hr : Reachable rt w) {ix : Ix} {c : WithdrawAccts}
    {d : RenounceAccts} (hix : ix.withdrawAccts = some c) (hcd : d.streamData = c.streamData)
    (hc : Opened w c.withdrawalRecipientAta) :
    Confluent rt w ix (.lockup (.renounce d)) ∧ Confluent rt w (.lockup (.renounce d)) ix := by
  constructor
  · intro u h
    obtain ⟨w₁, h1, h2⟩ := runAll_two.1 h
    obtain ⟨_, h0⟩ := withdrawIx hr hix h1
    obtain ⟨_, _, sd, _, _, _, _, _, _, _, _, hw⟩ := withdraw_stream hr h0
    have hx := hw.accts.stream
    obtain ⟨x, hxx⟩ := withdrawal_amount hr hix hx
    have h1' := h1
    rw [hxx w sd (.inl ⟨rfl, rfl⟩)] at h1'
    obtain ⟨w₁', k1, k2⟩ := race_wr hr hcd (opened_ne hc) h1' (hr.step h1) (h2 : renounce rt w₁ d = _)
    have k1' : step rt w (.lockup (.renounce d)) = .ok w₁' := k1
    obtain ⟨w₂', k3, k4⟩ := k2 (hr.step k1')
    refine ⟨w₂', runAll_two.2 ⟨w₁', k1', ?_⟩, k4.symm⟩
    obtain ⟨_, _, _, e⟩ := (renounce_exact hr (by rw [hcd]; exact hx)).1 k1
    rw [hxx w₁' sd.renounce (.inr ⟨hr.step k1', by rw [e, hcd]; exact upd_same _ _ _, by rw [e]; rfl, rfl⟩)]
    exact k3
  · intro u h
    obtain ⟨w₁, h1, h2⟩ := runAll_two.1 h
    obtain ⟨_, _, sd, _, _, _, _, hw⟩ := renounce_stream hr (h1 : renounce rt w d = _)
    have hx : w.lk.streams c.streamData = some sd := by rw [← hcd]; exact hw.stream
    obtain ⟨x, hxx⟩ := withdrawal_amount hr hix hx
    obtain ⟨_, _, _, e⟩ := (renounce_exact hr hw.stream).1 h1
    rw [hxx w₁ sd.renounce
      (.inr ⟨hr.step h1, by rw [e, hcd]; exact upd_same _ _ _, by rw [e]; rfl, rfl⟩)] at h2
    obtain ⟨w₁', k1, k2⟩ := race_rw hr hcd (opened_ne hc) h1 (hr.step h1) h2
    have k1' : step rt w ix = .ok w₁' := by rw [hxx w sd (.inl ⟨rfl, rfl⟩)]; exact k1
    obtain ⟨w₂', k3, k4⟩ := k2 (hr.step k1')
    exact ⟨w₂', runAll_two.2 ⟨w₁', k1', k3⟩, k4.symm⟩

/-- **C85**: between a cancel and a renounce of the same stream the first wins: the other one fails, at once and for
ever. -/
theorem C85_first_wins {rt : Runtime} {w w' w'' : World} (hr : Reachable rt w) {c : CancelAccts} {d : RenounceAccts}
    {s : Addr} {n : Nat} (hc : c.streamData = streamAddr s n) (hd : d.streamData = streamAddr s n) (u : World) :
    (step rt w (.lockup (.cancel c)) = .ok w' → Steps rt w' w'' → step rt w'' (.lockup (.renounce d)) ≠ .ok u) ∧
    (step rt w (.lockup (.renounce d)) = .ok w' → Steps rt w' w'' → step rt w'' (.lockup (.cancel c)) ≠ .ok u) := by
  constructor
  · intro h hs
    exact C16_cancel_final hr hc h hs (.inr (by show some d.streamData = _; rw [hd])) u
  · intro h hs
    exact (C16_renounce_final hr hd h hs).1 c u hc

/-! ### Claims -/

theorem SameButLog.trans {a b c : World} (h : SameButLog a b) (h' : SameButLog b c) : SameButLog a c :=
  Eq.trans h h'

theorem SameButLog.eq {a b : World} (h : SameButLog a b) : b = { a with log := b.log } := by
  have h : ({ a with log := [] } : World) = { b with log := [] } := h
  have : ({ ({ a with log := [] } : World) with log := b.log } : World) = b := by rw [h]
  exact this.symm

theorem claim_log {rt : Runtime} {w u : World} {c : Merkle.ClaimAccts} {i x : Nat} {p : List Bytes32}
    (ho : Opened w c.recipientAta) (h : Merkle.claim rt w c i x p = .ok u) (lg : List LogEntry) :
    ∃ u', Merkle.claim rt { w with log := lg } c i x p = .ok u' ∧ SameButLog u u' := by
  obtain ⟨cd, dm, b, ha, h1, h2, h3, h4, h5, h6, hu, h7, rfl⟩ := (Merkle.claim_exact (opened_ne ho)).1 h
  exact ⟨_, (Merkle.claim_exact (w := { w with log := lg }) (opened_ne (w := w) ho)).2
    ⟨cd, dm, b, ⟨ha.1, ha.2, ha.3, ha.4, ha.5, ha.6, ha.7, ha.8, ha.9, ha.10, ha.11⟩, h1, h2, h3, h4, h5, h6, hu.of_eq rfl, h7, rfl⟩, rfl⟩

theorem claim_opened {rt : Runtime} {w u : World} {c : Merkle.ClaimAccts} {i x : Nat} {p : List Bytes32}
    (ho : Opened w c.recipientAta) (h : Merkle.claim rt w c i x p = .ok u) {a : Addr} (ha : Opened w a) : Opened u a := by
  obtain ⟨cd, dm, b, _, _, _, _, _, _, _, _, hb, rfl⟩ := (Merkle.claim_exact (opened_ne ho)).1 h
  obtain ⟨t, ht⟩ := ha
  obtain ⟨k, hk⟩ := (transfer_sameBut hb).keep ht
  exact ⟨_, hk⟩

theorem claimFrom_step {rt : Runtime} {w u : World} {camp : Addr} {ix ix' : Ix} (h : Spec.ClaimFrom w camp ix)
    (hs : step rt w ix = .ok u) (h' : Spec.ClaimFrom w camp ix') : Spec.ClaimFrom u camp ix' := by
  obtain ⟨c, i, a, p, rfl, _, _, ho⟩ := h
  obtain ⟨c', i', a', p', rfl, h1, h2, ho'⟩ := h'
  exact ⟨c', i', a', p', rfl, h1, h2, claim_opened ho (hs : Merkle.claim rt w c _ _ p = _) ho'⟩

theorem claims_log {rt : Runtime} {camp : Addr} : ∀ (is : List Ix) (w u : World), (∀ i ∈ is, Spec.ClaimFrom w camp i) →
    runAll rt w is = .ok u → ∀ lg, ∃ u', runAll rt { w with log := lg } is = .ok u' ∧ SameButLog u u' := by
  intro is
  induction is with
  | nil => intro w u _ h lg; cases h; exact ⟨_, rfl, rfl⟩
  | cons i is ih =>
    intro w u hI h lg
    simp only [runAll, bind_ok] at h ⊢
    obtain ⟨w₁, h1, h2⟩ := h
    have hi := hI i (List.mem_cons_self ..)
    obtain ⟨c, k, a, p, rfl, h3, h4, ho⟩ := id hi
    obtain ⟨w₁', k1, k2⟩ := claim_log ho (h1 : Merkle.claim rt w c _ _ p = _) lg
    obtain ⟨u', k3, k4⟩ := ih w₁ u (fun j hj => claimFrom_step hi h1 (hI j (List.mem_cons_of_mem _ hj))) h2 w₁'.log
    rw [← SameButLog.eq (a := w₁) (b := w₁') k2] at k3
    exact ⟨u', ⟨w₁', k1, k3⟩, k4⟩

/-- **C85**: the claims of one moment can be processed in any order: any permutation succeeds as well, with the same
result. -/
theorem C85_claims {rt : Runtime} {camp : Addr} {is js : List Ix} (hp : is.Perm js) {w u : World}
    (hI : ∀ i ∈ is, Spec.ClaimFrom w camp i) (h : runAll rt w is = .ok u) :
    ∃ u', runAll rt w js = .ok u' ∧ SameButLog u u' := by
  induction hp generalizing w u with
  | nil => exact ⟨u, h, rfl⟩
  | cons i _ ih =>
    simp only [runAll, bind_ok] at h ⊢
    obtain ⟨w₁, h1, h2⟩ := h
    have hi := hI i (List.mem_cons_self ..)
    obtain ⟨u', k1, k2⟩ := ih (fun j hj => claimFrom_step hi h1 (hI j (List.mem_cons_of_mem _ hj))) h2
    exact ⟨u', ⟨w₁, h1, k1⟩, k2⟩
  | swap j i l =>
    simp only [runAll, bind_ok] at h ⊢
    obtain ⟨w₁, h1, w₂, h2, h3⟩ := h
    have hj := hI j (by simp)
    have hi := hI i (by simp)
    obtain ⟨c, k, a, p, rfl, c1, c2, c3⟩ := id hi
    obtain ⟨d, k', a', p', rfl, d1, d2, d3⟩ := id hj
    have hl : ∀ x ∈ l, Spec.ClaimFrom w₂ camp x := fun x hx =>
      claimFrom_step (claimFrom_step hi h1 hj) h2 (claimFrom_step hi h1 (hI x (by simp [hx])))
    obtain ⟨w₁', k1, w₂', k2, k3⟩ := Merkle.race_claims (d1.trans c1.symm) (opened_ne c3) (opened_ne d3) c2 d2
      (h1 : Merkle.claim rt w c _ _ p = _) (h2 : Merkle.claim rt w₁ d _ _ p' = _)
    obtain ⟨u', k4, k5⟩ := claims_log l w₂ u hl h3 w₂'.log
    rw [← SameButLog.eq (a := w₂) (b := w₂') k3.symm] at k4
    exact ⟨u', ⟨w₁', k1, w₂', k2, k4⟩, k5⟩
  | trans hp₁ _ ih₁ ih₂ =>
    obtain ⟨u₁, k1, k2⟩ := ih₁ hI h
    obtain ⟨u₂, k3, k4⟩ := ih₂ (fun j hj => hI j (hp₁.mem_iff.2 hj)) k1
    exact ⟨u₂, k3, k2.trans k4⟩

/-! ### Examples -/

theorem opened_of {w : World} {a : Addr} (h : (w.bank.tokens a).isSome = true) : Opened w a :=
  Option.isSome_iff_exists.1 h

example := (C85_withdraw_cancel reach3 (ix := ixWithdrawMax) (c := withdrawAccts carol 1) (d := cancelAccts 1) rfl rfl
  (opened_of (by decide +kernel)) (opened_of (by decide +kernel)) (by decide) (by decide)).1
example : (runAll rt world3 [ixWithdrawMax, ixCancel]).isOk = true ∧
    (runAll rt world3 [ixCancel, ixWithdrawMax]).isOk = true := by decide +kernel

example := C85_withdrawals reach3 (c := withdrawAccts bob 1) (d := withdrawAccts carol 1) rfl
  (opened_of (by decide +kernel)) (opened_of (by decide +kernel)) (by decide) (by decide) 10 20
example : (runAll rt world3 [.lockup (.withdraw (withdrawAccts bob 1) 10),
    .lockup (.withdraw (withdrawAccts carol 1) 20)]).isOk = true := by decide +kernel

example := C85_withdraw_renounce reach5 (ix := .lockup (.withdrawMax (withdrawAccts bob 2)))
  (c := withdrawAccts bob 2) (d := ⟨alice, str 2, nft 2⟩) rfl rfl (opened_of (by decide +kernel))
example : (runAll rt world5 [.lockup (.withdrawMax (withdrawAccts bob 2)), ixRenounce]).isOk = true := by
  decide +kernel

/-- Both wallets of the airdrop list have an account. -/
def worldR : World := after world2
  [ .env (.createAta alice (ataOf bob) bob tok mint), .env (.createAta alice (ataOf carol) carol tok mint) ]
def ixClaim1 : Ix := .merkle (.claim { claimAccts carol 1 with recipient := carol, recipientAta := ataOf carol } 1 300 [leaf0])

theorem claimsR : ∀ i ∈ [ixClaim, ixClaim1], Spec.ClaimFrom worldR camp i := by
  intro i hi
  rcases List.mem_cons.1 hi with rfl | hi
  · exact ⟨_, _, _, _, rfl, rfl, by decide, opened_of (by decide +kernel)⟩
  · rcases List.mem_cons.1 hi with rfl | hi
    · exact ⟨_, _, _, _, rfl, rfl, by decide, opened_of (by decide +kernel)⟩
    · cases hi

example : (runAll rt worldR [ixClaim, ixClaim1]).isOk = true ∧ (runAll rt worldR [ixClaim1, ixClaim]).isOk = true := by
  decide +kernel
example (u : World) (h : runAll rt worldR [ixClaim, ixClaim1] = .ok u) :=
  C85_claims (List.Perm.swap ixClaim1 ixClaim []) claimsR h

end Solsab.Props
