import Verif.Proofs.Exact
import Verif.Proofs.NftInv
import Verif.Proofs.Ready
import Verif.Proofs.Lamports
/-!
# Two instructions on the same stream commute: the lemmas behind C85
-/

namespace Solsab

open Spec Lockup

/-- A stream does not hold its own NFT as its asset. -/
theorem Reachable.asset_ne_nft {rt : Runtime} {w : World} (h : Reachable rt w) :
    ∀ x sd, w.lk.streams x = some sd → x ≠ .streamData sd.depositedTokenMint := by
  refine h.induct (P := fun w => ∀ x sd, w.lk.streams x = some sd → x ≠ .streamData sd.depositedTokenMint) ?_ ?_
  · intro w hg x sd hx; rw [hg.no_streams] at hx; cases hx
  · intro w ix w' hr ih hd x sd' hx'
    cases hs : w.lk.streams x with
    | some sd =>
      obtain ⟨sd₁, h2, h3, _⟩ := hd.evolves hr hs
      rw [h2] at hx'; cases hx'
      rw [h3.terms.mint]
      exact ih x sd hs
    | none =>
      rcases hd.stream x with ⟨hq, _⟩ |
        ⟨c, p, nd, dm, md, cm, k, name, b₁, b₂, b₃, b₄, b₆, l, he, _, hp, hok⟩ |
        ⟨c, amount, sd₀, sd₁, dm, b₁, b₂, l, he, _, hok⟩ | ⟨c, sd₀, dm, streamed, b₁, b₂, l, he, _, hok⟩ |
        ⟨c, sd₀, streamed, he, _, hok⟩
      · rw [hq.data, hs] at hx'; cases hx'
      · have h1 : w'.lk.streams c.streamData = some (StreamData.create c.depositTokenMint (rt.bump c.streamData) p.cliffTime
          p.cliffUnlockAmount p.depositAmount p.endTime p.salt p.isCancelable c.sender p.startTime p.startUnlockAmount) := by
          rw [hok.result]; simp
        rw [← he, h1] at hx'; cases hx'
        intro e
        rw [← he, hok.streamAddr] at e
        have e : c.streamNftMint = c.depositTokenMint := by injection e
        have h0 := (openMint_ok hok.openMint).1
        rw [e, hok.mint] at h0; cases h0
      · rw [← he, hok.accts.stream] at hs; cases hs
      · rw [← he, hok.accts.stream] at hs; cases hs
      · rw [← he, hok.stream] at hs; cases hs

/-- The two ledgers differ at most in the balances of accounts of mint `m`. -/
structure Bank.SameBut (m : Addr) (b b' : Bank) : Prop where
  mints : b'.mints = b.mints
  tokens : ∀ a, b'.tokens a = b.tokens a ∨ ∃ t k, b.tokens a = some t ∧ b'.tokens a = some { t with amount := k } ∧
    t.mint = m

theorem Bank.SameBut.refl (m : Addr) (b : Bank) : b.SameBut m b := ⟨rfl, fun _ => .inl rfl⟩

theorem Bank.SameBut.symm {m : Addr} {b b' : Bank} (h : b.SameBut m b') : b'.SameBut m b := by
  refine ⟨h.mints.symm, fun a => ?_⟩
  rcases h.tokens a with e | ⟨t, k, h1, h2, h3⟩
  · exact .inl e.symm
  · exact .inr ⟨_, t.amount, h2, h1, h3⟩

theorem Bank.SameBut.keep {m : Addr} {b b' : Bank} (h : b.SameBut m b') {a : Addr} {t : TokenData}
    (ha : b.tokens a = some t) : ∃ k, b'.tokens a = some { t with amount := k } := by
  rcases h.tokens a with e | ⟨t', k, h1, h2, _⟩
  · exact ⟨t.amount, e.trans ha⟩
  · rw [ha] at h1; cases h1; exact ⟨k, h2⟩

theorem Bank.SameBut.ne_none {m : Addr} {b b' : Bank} (h : b.SameBut m b') {a : Addr}
    (ha : b.tokens a ≠ none) : b'.tokens a ≠ none := by
  rcases h.tokens a with e | ⟨t', k, h1, h2, _⟩
  · rw [e]; exact ha
  · rw [h2]; exact fun e => by cases e

theorem Bank.SameBut.other {m : Addr} {b b' : Bank} (h : b.SameBut m b') {a : Addr} {t : TokenData}
    (ha : b.tokens a = Option.some t) (hm : t.mint ≠ m) : b'.tokens a = Option.some t := by
  rcases h.tokens a with e | ⟨t', k, h1, _, h3⟩
  · exact e.trans ha
  · rw [ha] at h1; cases h1; exact absurd h3 hm

theorem transfer_sameBut {b b' : Bank} {s d x m : Addr} {tp : TokenProgram} {amt dec : Nat}
    (h : b.transferChecked s d x m tp amt dec = .ok b') : b.SameBut m b' := by
  obtain ⟨tf, tt, md, hf, _, _⟩ := transferChecked_ok h
  rcases hf.result with ⟨_, rfl⟩ | ⟨hne, _, rfl⟩
  · exact .refl _ _
  · refine ⟨rfl, fun a => ?_⟩
    show upd (upd _ _ _) _ _ a = _ ∨ ∃ t k, _ ∧ upd (upd _ _ _) _ _ a = _ ∧ _
    by_cases h1 : a = d
    · subst h1
      exact .inr ⟨tt, _, hf.dst, upd_same _ _ _, hf.mints.2⟩
    · by_cases h2 : a = s
      · subst h2
        exact .inr ⟨tf, _, hf.src, by rw [upd_ne _ _ h1, upd_same], hf.mints.1⟩
      · exact .inl (by rw [upd_ne _ _ h1, upd_ne _ _ h2])

theorem Bank.Ensure.sameBut {m : Addr} {b b' : Bank} (h : b.SameBut m b') {a o mint : Addr} {tp : TokenProgram}
    (he : b.Ensure a o tp mint b) (hn : b.tokens a ≠ none) : b'.Ensure a o tp mint b' := by
  obtain ⟨h1, ⟨_, t, h2, h3, h4, h5⟩ | ⟨h2, _⟩⟩ := he
  · obtain ⟨k, hk⟩ := h.keep h2
    exact ⟨h1, .inl ⟨rfl, _, hk, h3, h4, h5⟩⟩
  · exact absurd h2 hn

namespace Lockup

/-- The account checks of a withdrawal do not depend on what a race changes. -/
theorem WithdrawAccountsOk.move {rt : Runtime} {w w' : World} {c : WithdrawAccts} {sd sd' : StreamData} {dm : MintData}
    (hb : w.bank.SameBut sd.depositedTokenMint w'.bank) (ht : w'.lk.treasury = w.lk.treasury)
    (hx' : w'.lk.streams c.streamData = some sd') (hst : SameTerms sd sd')
    (hinv : BankInv w.bank) (hne : c.streamData ≠ .streamData sd.depositedTokenMint)
    (he : w.bank.tokens c.withdrawalRecipientAta ≠ none)
    (h : WithdrawAccountsOk rt w c sd dm w.bank) : WithdrawAccountsOk rt w' c sd' dm w'.bank where
  signs := h.signs
  dest := h.dest
  treasury := by rw [ht]; exact h.treasury
  treasuryAddr := h.treasuryAddr
  stream := hx'
  streamAddr := h.streamAddr
  bump := hst.bump.trans h.bump
  nftMint := by rw [hb.mints]; exact h.nftMint
  mintAddr := h.mintAddr.trans hst.mint.symm
  mint := by rw [hb.mints]; exact h.mint
  nft := by
    obtain ⟨t, h1, h2⟩ := h.nft
    refine ⟨t, hb.other h1 ?_, h2⟩
    rw [h.nftAddr] at h1
    rw [(ata_token hinv h1).2]
    intro e
    exact hne (h.streamAddr.trans (by rw [e]))
  nftAddr := h.nftAddr
  vault := by
    obtain ⟨t, h1, h2, h3⟩ := h.vault
    obtain ⟨k, hk⟩ := hb.keep h1
    exact ⟨_, hk, h2, h3⟩
  vaultAddr := h.vaultAddr
  ensure := h.ensure.sameBut hb he

/-- The account checks of a cancel do not depend on what a race changes. -/
theorem CancelAccountsOk.move {rt : Runtime} {w w' : World} {c : CancelAccts} {sd sd' : StreamData} {dm : MintData}
    (hb : w.bank.SameBut sd.depositedTokenMint w'.bank)
    (hx' : w'.lk.streams c.streamData = some sd') (hst : SameTerms sd sd')
    (he : w.bank.tokens c.senderAta ≠ none)
    (h : CancelAccountsOk rt w c sd dm w.bank) : CancelAccountsOk rt w' c sd' dm w'.bank where
  signs := h.signs
  sender := h.sender.trans hst.sender.symm
  stream := hx'
  streamAddr := h.streamAddr
  bump := hst.bump.trans h.bump
  nftMint := by rw [hb.mints]; exact h.nftMint
  mintAddr := h.mintAddr.trans hst.mint.symm
  mint := by rw [hb.mints]; exact h.mint
  vault := by
    obtain ⟨t, h1, h2, h3⟩ := h.vault
    obtain ⟨k, hk⟩ := hb.keep h1
    exact ⟨_, hk, h2, h3⟩
  vaultAddr := h.vaultAddr
  ensure := h.ensure.sameBut hb he

theorem SameTerms.symm {a b : StreamData} (h : SameTerms a b) : SameTerms b a :=
  ⟨h.1.symm, h.2.symm, h.3.symm, h.4.symm, h.5.symm, h.6.symm, h.7.symm, h.8.symm⟩

theorem StreamData.paid_terms (sd : StreamData) (x : Nat) : SameTerms sd (sd.paid x) := by
  unfold StreamData.paid
  split <;> exact ⟨rfl, rfl, rfl, rfl, rfl, rfl, rfl, rfl⟩

theorem StreamData.cancel_terms (sd : StreamData) (x y : Nat) : SameTerms sd (sd.cancel x y) :=
  ⟨rfl, rfl, rfl, rfl, rfl, rfl, rfl, rfl⟩

theorem StreamData.renounce_terms (sd : StreamData) : SameTerms sd sd.renounce :=
  ⟨rfl, rfl, rfl, rfl, rfl, rfl, rfl, rfl⟩

theorem streamedNow_paid (now : Nat) (sd : StreamData) (x : Nat) :
    streamedNow now (sd.paid x) = streamedNow now sd := by
  unfold streamedNow StreamData.paid scheduled
  split <;> rfl

theorem streamedNow_renounce (now : Nat) (sd : StreamData) :
    streamedNow now sd.renounce = streamedNow now sd := rfl

theorem streamedNow_cancel {now : Nat} {sd : StreamData} (h : streamedNow now sd ≤ sd.amounts.deposited) (y : Nat) :
    streamedNow now (sd.cancel (sd.amounts.deposited - streamedNow now sd) y) = streamedNow now sd := by
  show sd.amounts.deposited - (sd.amounts.deposited - streamedNow now sd) = _
  omega

theorem paid_facts (sd : StreamData) (x : Nat) :
    (sd.paid x).amounts.withdrawn = sd.amounts.withdrawn + x ∧
    (sd.paid x).amounts.deposited = sd.amounts.deposited ∧
    (sd.paid x).amounts.refunded = sd.amounts.refunded ∧
    (sd.paid x).wasCanceled = sd.wasCanceled := by
  unfold StreamData.paid
  split <;> exact ⟨rfl, rfl, rfl, rfl⟩

theorem paid_eq {sd : StreamData} {x : Nat} (h : sd.amounts.withdrawn + x < sd.amounts.deposited - sd.amounts.refunded) :
    sd.paid x = { sd with amounts := { sd.amounts with withdrawn := sd.amounts.withdrawn + x } } := by
  unfold StreamData.paid
  rw [if_neg (by omega)]

/-- A race of two withdrawals. -/
theorem race_ww {rt : Runtime} {w w₁ w₂ : World} (hr : Reachable rt w) {c d : WithdrawAccts} {x y : Nat}
    (hcd : d.streamData = c.streamData)
    (hec : w.bank.tokens c.withdrawalRecipientAta ≠ none) (hed : w.bank.tokens d.withdrawalRecipientAta ≠ none)
    (hvc : c.withdrawalRecipientAta ≠ c.streamDataAta) (hvd : d.withdrawalRecipientAta ≠ d.streamDataAta)
    (h1 : withdraw rt w c x = .ok w₁) (h1' : Reachable rt w₁) (h2 : withdraw rt w₁ d y = .ok w₂) :
    ∃ w₁', withdraw rt w d y = .ok w₁' ∧ (Reachable rt w₁' →
      ∃ w₂', withdraw rt w₁' c x = .ok w₂' ∧ { w₂' with log := [] } = { w₂ with log := [] }) := by
  obtain ⟨sd, _, _, _, _, _, hw⟩ := withdraw_ok h1
  have hx := hw.accts.stream
  have hok := hr.streamOK hx
  have hS := hok.streamed
  have hsum := hok.sum_le
  obtain ⟨dm, b, ha, hnd, hp, hle, hu, hb, e1⟩ := (withdraw_exact hr hx hec).1 h1
  have hx1 : w₁.lk.streams d.streamData = some (sd.paid x) := by rw [e1, hcd]; exact upd_same _ _ _
  have hbm : w.bank.SameBut sd.depositedTokenMint w₁.bank := by
    rw [e1, ← ha.mintAddr]; exact transfer_sameBut hb
  obtain ⟨dm', b', ha', hnd', hp', hle', hu', hb', e2⟩ := (withdraw_exact h1' hx1 (hbm.ne_none hed)).1 h2
  replace hu' := hu'.of_eq (v := w) (by rw [e1])
  have hnow : w₁.now = w.now := by rw [e1]; rfl
  have hne := hr.asset_ne_nft _ _ hx
  have hxd : w.lk.streams d.streamData = some sd := by rw [hcd]; exact hx
  have hst := sd.paid_terms x
  have had : WithdrawAccountsOk rt w d sd dm' w.bank :=
    WithdrawAccountsOk.move (sd := sd.paid x) (by rw [hst.mint]; exact hbm.symm) (by rw [e1]) hxd (SameTerms.symm hst) h1'.bankInv
      (by rw [hst.mint, hcd]; exact hne) (hbm.ne_none hed) ha'
  -- the records
  obtain ⟨p1, p2, p3, p4⟩ := paid_facts sd x
  rw [hnow, streamedNow_paid, p1] at hle'
  have hsd : streamedNow w.now sd ≤ sd.amounts.deposited - sd.amounts.refunded := by
    unfold streamedNow at hS ⊢
    by_cases hc : sd.wasCanceled = true
    · rw [if_pos hc]
    · rw [if_neg hc] at hS ⊢
      have := (hok.live (by simpa using hc)).1
      omega
  have hx_lt : sd.paid x = { sd with amounts := { sd.amounts with withdrawn := sd.amounts.withdrawn + x } } :=
    paid_eq (by omega)
  have hy_lt : sd.paid y = { sd with amounts := { sd.amounts with withdrawn := sd.amounts.withdrawn + y } } :=
    paid_eq (by omega)
  have hcomm : (sd.paid x).paid y = (sd.paid y).paid x := by
    rw [hx_lt, hy_lt]
    unfold StreamData.paid
    simp only [Nat.add_right_comm sd.amounts.withdrawn x y]
  -- the transfers
  have hmint : d.depositedTokenMint = c.depositedTokenMint := had.mintAddr.trans ha.mintAddr.symm
  have hdm : dm' = dm := by
    have := had.mint; rw [hmint, ha.mint] at this; exact (Option.some.inj this).symm
  subst hdm
  have hprog : d.depositedTokenProgram = c.depositedTokenProgram := by
    obtain ⟨tf, tt, md, hf, _, _⟩ := transferChecked_ok hb
    obtain ⟨tf', tt', md', hf', _, _⟩ := transferChecked_ok hb'
    have e := hf'.mint
    rw [hbm.mints, hmint, hf.mint] at e; cases e
    exact hf'.prog.2.2.symm.trans hf.prog.2.2
  have hvault : d.streamDataAta = c.streamDataAta := by
    rw [had.vaultAddr, ha.vaultAddr, hcd, hprog, hmint]
  rw [hcd, hmint, hprog, hvault, e1] at hb'
  obtain ⟨b₁', t1, t2⟩ := transfer_swap hvc (by rw [← hvault]; exact hvd) hb hb'
  refine ⟨_, (withdraw_exact hr hxd hed).2 ⟨dm', b₁', had, hnd, hp', by omega, hu', ?_, rfl⟩, ?_⟩
  · rw [hcd, hmint, hprog, hvault]; exact t1
  intro hr'
  have hbm' : w.bank.SameBut sd.depositedTokenMint b₁' := by
    rw [← ha.mintAddr]; exact transfer_sameBut t1
  refine ⟨_, (withdraw_exact hr' (sd := sd.paid y) ?_ ?_).2 ⟨dm', b', ?_, ?_, hp, ?_, hu.of_eq rfl, t2, rfl⟩, ?_⟩
  · show upd _ _ _ _ = _
    rw [hcd]; exact upd_same _ _ _
  · exact hbm'.ne_none hec
  · refine WithdrawAccountsOk.move (sd := sd) hbm' rfl ?_ (sd.paid_terms y) hr.bankInv hne hec ha
    show upd _ _ _ _ = _
    rw [hcd]; exact upd_same _ _ _
  · rw [hy_lt]; exact hnd
  · show _ ≤ streamedNow w.now _
    rw [streamedNow_paid, (paid_facts sd y).1]; omega
  · rw [e2, e1, hcd, hcomm]
    simp only [upd_upd]

theorem hasset {rt : Runtime} {w : World} (hr : Reachable rt w) {a : Addr} {sd : StreamData}
    (hx : w.lk.streams a = some sd) :
    streamedNow w.now sd ≤ sd.amounts.deposited - sd.amounts.refunded := by
  have hok := hr.streamOK hx
  have hS := hok.streamed
  unfold streamedNow at hS ⊢
  by_cases hc : sd.wasCanceled = true
  · rw [if_pos hc]
  · rw [if_neg hc] at hS ⊢
    have := (hok.live (by simpa using hc)).1
    omega

theorem same_program {w w₁ : World} {m v v' r r' a a' : Addr} {tp tp' : TokenProgram} {x y e e' : Nat} {b b' : Bank}
    (hm : w₁.bank.mints = w.bank.mints) (h : w.bank.transferChecked v r a m tp x e = .ok b)
    (h' : w₁.bank.transferChecked v' r' a' m tp' y e' = .ok b') : tp' = tp := by
  obtain ⟨tf, tt, md, hf, _, _⟩ := transferChecked_ok h
  obtain ⟨tf', tt', md', hf', _, _⟩ := transferChecked_ok h'
  have e := hf'.mint
  rw [hm, hf.mint] at e; cases e
  exact hf'.prog.2.2.symm.trans hf.prog.2.2

/-- A race of a withdrawal and a cancel, the withdrawal first. -/
theorem race_wc {rt : Runtime} {w w₁ w₂ : World} (hr : Reachable rt w) {c : WithdrawAccts} {d : CancelAccts} {x : Nat}
    (hcd : d.streamData = c.streamData)
    (hec : w.bank.tokens c.withdrawalRecipientAta ≠ none) (hed : w.bank.tokens d.senderAta ≠ none)
    (hvc : c.withdrawalRecipientAta ≠ c.streamDataAta) (hvd : d.senderAta ≠ d.streamDataAta)
    (h1 : withdraw rt w c x = .ok w₁) (h1' : Reachable rt w₁) (h2 : cancel rt w₁ d = .ok w₂) :
    ∃ w₁', cancel rt w d = .ok w₁' ∧ (Reachable rt w₁' →
      ∃ w₂', withdraw rt w₁' c x = .ok w₂' ∧ { w₂' with log := [] } = { w₂ with log := [] }) := by
  obtain ⟨sd, _, _, _, _, _, hw⟩ := withdraw_ok h1
  have hx := hw.accts.stream
  have hok := hr.streamOK hx
  have hS := hok.streamed
  obtain ⟨dm, b, ha, hnd, hp, hle, hu, hb, e1⟩ := (withdraw_exact hr hx hec).1 h1
  have hx1 : w₁.lk.streams d.streamData = some (sd.paid x) := by rw [e1, hcd]; exact upd_same _ _ _
  have hbm : w.bank.SameBut sd.depositedTokenMint w₁.bank := by
    rw [e1, ← ha.mintAddr]; exact transfer_sameBut hb
  obtain ⟨dm', b', ha', hnd', hcan', hcl', hlt', hu', hb', e2⟩ := (cancel_exact h1' hx1 (hbm.ne_none hed)).1 h2
  replace hu' := hu'.of_eq (v := w) (by rw [e1])
  have hnow : w₁.now = w.now := by rw [e1]; rfl
  have hne := hr.asset_ne_nft _ _ hx
  have hxd : w.lk.streams d.streamData = some sd := by rw [hcd]; exact hx
  have hst := sd.paid_terms x
  have had : CancelAccountsOk rt w d sd dm' w.bank :=
    CancelAccountsOk.move (sd := sd.paid x) (by rw [hst.mint]; exact hbm.symm) hxd (SameTerms.symm hst)
      (hbm.ne_none hed) ha'
  obtain ⟨p1, p2, p3, p4⟩ := paid_facts sd x
  rw [hnow, streamedNow_paid, p2] at hlt' hb'
  rw [p4] at hcan'
  have hsd := hasset hr hx
  have h0 := (hok.live hcan').1
  have hx_lt : sd.paid x = { sd with amounts := { sd.amounts with withdrawn := sd.amounts.withdrawn + x } } :=
    paid_eq (by omega)
  have hcl : sd.isCancelable = true := by rw [hx_lt] at hcl'; exact hcl'
  have hcomm : (sd.paid x).cancel (sd.amounts.deposited - streamedNow w.now sd)
        (streamedNow w.now sd - (sd.amounts.withdrawn + x)) =
      (sd.cancel (sd.amounts.deposited - streamedNow w.now sd)
        (streamedNow w.now sd - sd.amounts.withdrawn)).paid x := by
    rw [hx_lt]
    unfold StreamData.paid StreamData.cancel
    simp only [hnd, show ¬ streamedNow w.now sd - sd.amounts.withdrawn = 0 by omega, if_false]
    by_cases hz : streamedNow w.now sd - (sd.amounts.withdrawn + x) = 0
    · rw [if_pos hz, if_pos (by omega)]
    · rw [if_neg hz, if_neg (by omega)]
  have hmint : d.depositedTokenMint = c.depositedTokenMint := had.mintAddr.trans ha.mintAddr.symm
  have hdm : dm' = dm := by
    have := had.mint; rw [hmint, ha.mint] at this; exact (Option.some.inj this).symm
  subst hdm
  rw [hcd, hmint] at hb'
  have hprog : d.depositedTokenProgram = c.depositedTokenProgram := same_program hbm.mints hb hb'
  have hvault : d.streamDataAta = c.streamDataAta := by
    rw [had.vaultAddr, ha.vaultAddr, hcd, hprog, hmint]
  rw [hprog, hvault, e1] at hb'
  obtain ⟨b₁', t1, t2⟩ := transfer_swap hvc (by rw [← hvault]; exact hvd) hb hb'
  refine ⟨_, (cancel_exact hr hxd hed).2 ⟨dm', b₁', had, hnd, hcan', hcl, hlt', hu', ?_, rfl⟩, ?_⟩
  · rw [hcd, hmint, hprog, hvault]; exact t1
  intro hr'
  have hbm' : w.bank.SameBut sd.depositedTokenMint b₁' := by
    rw [← ha.mintAddr]; exact transfer_sameBut t1
  refine ⟨_, (withdraw_exact hr' (sd := sd.cancel (sd.amounts.deposited - streamedNow w.now sd)
        (streamedNow w.now sd - sd.amounts.withdrawn)) ?_ ?_).2 ⟨dm', b', ?_, ?_, hp, ?_, hu.of_eq rfl, t2, rfl⟩, ?_⟩
  · show upd _ _ _ _ = _
    rw [hcd]; exact upd_same _ _ _
  · exact hbm'.ne_none hec
  · refine WithdrawAccountsOk.move (sd := sd) hbm' rfl ?_ (sd.cancel_terms _ _) hr.bankInv hne hec ha
    show upd _ _ _ _ = _
    rw [hcd]; exact upd_same _ _ _
  · show (if streamedNow w.now sd - sd.amounts.withdrawn = 0 then true else sd.isDepleted) = false
    rw [if_neg (by omega)]; exact hnd
  · show _ ≤ streamedNow w.now _
    rw [streamedNow_cancel hS.2]
    exact hle
  · rw [e2, hnow, streamedNow_paid, p1, p2, hcomm, e1, hcd]
    simp only [upd_upd]

/-- A race of a cancel and a withdrawal, the cancel first. -/
theorem race_cw {rt : Runtime} {w w₁ w₂ : World} (hr : Reachable rt w) {c : WithdrawAccts} {d : CancelAccts} {x : Nat}
    (hcd : d.streamData = c.streamData)
    (hec : w.bank.tokens c.withdrawalRecipientAta ≠ none) (hed : w.bank.tokens d.senderAta ≠ none)
    (hvc : c.withdrawalRecipientAta ≠ c.streamDataAta) (hvd : d.senderAta ≠ d.streamDataAta)
    (h1 : cancel rt w d = .ok w₁) (h1' : Reachable rt w₁) (h2 : withdraw rt w₁ c x = .ok w₂) :
    ∃ w₁', withdraw rt w c x = .ok w₁' ∧ (Reachable rt w₁' →
      ∃ w₂', cancel rt w₁' d = .ok w₂' ∧ { w₂' with log := [] } = { w₂ with log := [] }) := by
  obtain ⟨sd, _, _, _, _, _, hw⟩ := cancel_ok h1
  have hxd := hw.accts.stream
  have hx : w.lk.streams c.streamData = some sd := by rw [← hcd]; exact hxd
  have hok := hr.streamOK hx
  have hS := hok.streamed
  obtain ⟨dm, b, ha, hnd, hcan, hcl, hlt, hu, hb, e1⟩ := (cancel_exact hr hxd hed).1 h1
  have hnow : w₁.now = w.now := by rw [e1]; rfl
  have hx1 : w₁.lk.streams c.streamData = some (sd.cancel (sd.amounts.deposited - streamedNow w.now sd)
      (streamedNow w.now sd - sd.amounts.withdrawn)) := by rw [e1, ← hcd]; exact upd_same _ _ _
  have hbm : w.bank.SameBut sd.depositedTokenMint w₁.bank := by
    rw [e1, ← ha.mintAddr]; exact transfer_sameBut hb
  obtain ⟨dm', b', ha', hnd', hp, hle', hu', hb', e2⟩ := (withdraw_exact h1' hx1 (hbm.ne_none hec)).1 h2
  replace hu' := hu'.of_eq (v := w) (by rw [e1])
  have hne := hr.asset_ne_nft _ _ hx
  have hac : WithdrawAccountsOk rt w c sd dm' w.bank :=
    WithdrawAccountsOk.move (sd := sd.cancel _ _) hbm.symm (by rw [e1]) hx (SameTerms.symm (sd.cancel_terms _ _))
      h1'.bankInv hne (hbm.ne_none hec) ha'
  rw [hnow, streamedNow_cancel hS.2] at hle'
  have hle : sd.amounts.withdrawn + x ≤ streamedNow w.now sd := hle'
  have h0 := (hok.live hcan).1
  have hx_lt : sd.paid x = { sd with amounts := { sd.amounts with withdrawn := sd.amounts.withdrawn + x } } :=
    paid_eq (by omega)
  have hcomm : (sd.paid x).cancel (sd.amounts.deposited - streamedNow w.now sd)
        (streamedNow w.now sd - (sd.amounts.withdrawn + x)) =
      (sd.cancel (sd.amounts.deposited - streamedNow w.now sd)
        (streamedNow w.now sd - sd.amounts.withdrawn)).paid x := by
    rw [hx_lt]
    unfold StreamData.paid StreamData.cancel
    simp only [hnd, show ¬ streamedNow w.now sd - sd.amounts.withdrawn = 0 by omega, if_false]
    by_cases hz : streamedNow w.now sd - (sd.amounts.withdrawn + x) = 0
    · rw [if_pos hz, if_pos (by omega)]
    · rw [if_neg hz, if_neg (by omega)]
  have hmint : d.depositedTokenMint = c.depositedTokenMint := ha.mintAddr.trans hac.mintAddr.symm
  have hdm : dm' = dm := by
    have := hac.mint; rw [← hmint, ha.mint] at this; exact (Option.some.inj this).symm
  subst hdm
  rw [← hcd, ← hmint] at hb'
  have hprog : c.depositedTokenProgram = d.depositedTokenProgram := same_program hbm.mints hb hb'
  have hvault : c.streamDataAta = d.streamDataAta := by
    rw [hac.vaultAddr, ha.vaultAddr, hcd, hprog, hmint]
  rw [hprog, hvault, e1] at hb'
  obtain ⟨b₁', t1, t2⟩ := transfer_swap hvd (by rw [← hvault]; exact hvc) hb hb'
  refine ⟨_, (withdraw_exact hr hx hec).2 ⟨dm', b₁', hac, hnd, hp, hle, hu', ?_, rfl⟩, ?_⟩
  · rw [← hcd, ← hmint, hprog, hvault]; exact t1
  intro hr'
  have hbm' : w.bank.SameBut sd.depositedTokenMint b₁' := by
    rw [← ha.mintAddr]; exact transfer_sameBut t1
  obtain ⟨p1, p2, p3, p4⟩ := paid_facts sd x
  refine ⟨_, (cancel_exact hr' (sd := sd.paid x) ?_ ?_).2 ⟨dm', b', ?_, ?_, ?_, ?_, ?_, hu.of_eq rfl, ?_, rfl⟩, ?_⟩
  · show upd _ _ _ _ = _
    rw [hcd]; exact upd_same _ _ _
  · exact hbm'.ne_none hed
  · refine CancelAccountsOk.move (sd := sd) hbm' ?_ (sd.paid_terms _) hed ha
    show upd _ _ _ _ = _
    rw [hcd]; exact upd_same _ _ _
  · rw [hx_lt]; exact hnd
  · rw [p4]; exact hcan
  · rw [hx_lt]; exact hcl
  · show streamedNow w.now _ < _
    rw [streamedNow_paid, p2]; exact hlt
  · show b₁'.transferChecked _ _ _ _ _ ((sd.paid x).amounts.deposited - streamedNow w.now (sd.paid x)) _ = _
    rw [streamedNow_paid, p2]; exact t2
  · show ({ w with bank := _, lk := _, log := _ } : World) = _
    rw [e2]
    show _ = ({ w₁ with bank := _, lk := _, log := _ } : World)
    rw [e1, hcd]
    simp only [upd_upd]
    show ({ w with bank := b', lk := { w.lk with streams := upd w.lk.streams c.streamData (some ((sd.paid x).cancel
      ((sd.paid x).amounts.deposited - streamedNow w.now (sd.paid x))
      (streamedNow w.now (sd.paid x) - (sd.paid x).amounts.withdrawn))) }, log := [] } : World) = _
    rw [streamedNow_paid, p1, p2, hcomm]

/-- A race of a withdrawal and a renounce, the withdrawal first. -/
theorem race_wr {rt : Runtime} {w w₁ w₂ : World} (hr : Reachable rt w) {c : WithdrawAccts} {d : RenounceAccts} {x : Nat}
    (hcd : d.streamData = c.streamData) (hec : w.bank.tokens c.withdrawalRecipientAta ≠ none)
    (h1 : withdraw rt w c x = .ok w₁) (h1' : Reachable rt w₁) (h2 : renounce rt w₁ d = .ok w₂) :
    ∃ w₁', renounce rt w d = .ok w₁' ∧ (Reachable rt w₁' →
      ∃ w₂', withdraw rt w₁' c x = .ok w₂' ∧ { w₂' with log := [] } = { w₂ with log := [] }) := by
  obtain ⟨sd, _, _, _, _, _, hw⟩ := withdraw_ok h1
  have hx := hw.accts.stream
  have hok := hr.streamOK hx
  have hS := hok.streamed
  obtain ⟨dm, b, ha, hnd, hp, hle, hu, hb, e1⟩ := (withdraw_exact hr hx hec).1 h1
  have hx1 : w₁.lk.streams d.streamData = some (sd.paid x) := by rw [e1, hcd]; exact upd_same _ _ _
  have hbm : w.bank.SameBut sd.depositedTokenMint w₁.bank := by
    rw [e1, ← ha.mintAddr]; exact transfer_sameBut hb
  obtain ⟨⟨r1, r2, r3, r4, r5⟩, hcl', hlt', e2⟩ := (renounce_exact h1' hx1).1 h2
  have hnow : w₁.now = w.now := by rw [e1]; rfl
  have hne := hr.asset_ne_nft _ _ hx
  have hxd : w.lk.streams d.streamData = some sd := by rw [hcd]; exact hx
  have hst := sd.paid_terms x
  obtain ⟨p1, p2, p3, p4⟩ := paid_facts sd x
  rw [hnow, streamedNow_paid, p2] at hlt'
  have hx_lt : sd.paid x = { sd with amounts := { sd.amounts with withdrawn := sd.amounts.withdrawn + x } } := by
    unfold StreamData.paid at hcl' ⊢
    split at hcl'
    · cases hcl'
    · rename_i h; rw [if_neg h]
  have hcl : sd.isCancelable = true := by rw [hx_lt] at hcl'; exact hcl'
  have hcomm : (sd.paid x).renounce = sd.renounce.paid x := by
    unfold StreamData.paid at hcl'
    split at hcl'
    · cases hcl'
    · rename_i h
      unfold StreamData.paid StreamData.renounce
      rw [if_neg h, if_neg h]
  refine ⟨_, (renounce_exact hr hxd).2 ⟨⟨r1, ?_, r3, ?_, ?_⟩, hcl, hlt', rfl⟩, ?_⟩
  · rw [r2, hst.sender]
  · rw [← r4, hst.bump]
  · rw [← hbm.mints]; exact r5
  intro hr'
  refine ⟨_, (withdraw_exact hr' (sd := sd.renounce) ?_ hec).2 ⟨dm, b, ?_, hnd, hp, hle, hu.of_eq rfl, hb, rfl⟩, ?_⟩
  · show upd _ _ _ _ = _
    rw [hcd]; exact upd_same _ _ _
  · refine WithdrawAccountsOk.move (w := w) (sd := sd) (.refl _ _) rfl ?_ sd.renounce_terms hr.bankInv hne hec ha
    show upd _ _ _ _ = _
    rw [hcd]; exact upd_same _ _ _
  · rw [e2, hcomm, e1, hcd]
    simp only [upd_upd]

/-- A race of a renounce and a withdrawal, the renounce first. -/
theorem race_rw {rt : Runtime} {w w₁ w₂ : World} (hr : Reachable rt w) {c : WithdrawAccts} {d : RenounceAccts} {x : Nat}
    (hcd : d.streamData = c.streamData) (hec : w.bank.tokens c.withdrawalRecipientAta ≠ none)
    (h1 : renounce rt w d = .ok w₁) (h1' : Reachable rt w₁) (h2 : withdraw rt w₁ c x = .ok w₂) :
    ∃ w₁', withdraw rt w c x = .ok w₁' ∧ (Reachable rt w₁' →
      ∃ w₂', renounce rt w₁' d = .ok w₂' ∧ { w₂' with log := [] } = { w₂ with log := [] }) := by
  obtain ⟨sd, st, hw⟩ := renounce_ok h1
  have hxd := hw.stream
  have hx : w.lk.streams c.streamData = some sd := by rw [← hcd]; exact hxd
  have hok := hr.streamOK hx
  have hS := hok.streamed
  obtain ⟨⟨r1, r2, r3, r4, r5⟩, hcl, hlt, e1⟩ := (renounce_exact hr hxd).1 h1
  have hx1 : w₁.lk.streams c.streamData = some sd.renounce := by rw [e1, ← hcd]; exact upd_same _ _ _
  have hbk : w₁.bank = w.bank := by rw [e1]
  have hnow : w₁.now = w.now := by rw [e1]; rfl
  obtain ⟨dm, b, ha', hnd, hp, hle, hu, hb, e2⟩ := (withdraw_exact h1' hx1 (by rw [hbk]; exact hec)).1 h2
  replace hu := hu.of_eq (v := w) (by rw [e1])
  have hne := hr.asset_ne_nft _ _ hx
  have ha : WithdrawAccountsOk rt w c sd dm w.bank :=
    WithdrawAccountsOk.move (sd := sd.renounce) (by rw [hbk]; exact .refl _ _) (by rw [e1]) hx
      (SameTerms.symm sd.renounce_terms) h1'.bankInv hne (by rw [hbk]; exact hec) ha'
  rw [hbk] at hb
  rw [hnow] at hle
  have hle : sd.amounts.withdrawn + x ≤ streamedNow w.now sd := hle
  have h0 : sd.amounts.refunded = 0 := by
    cases hc : sd.wasCanceled with
    | false => exact (hok.live hc).1
    | true =>
      have hq := streamedNow_renounce w.now sd
      have := hok.cancelable hcl
      first
        | exact this.2
        | (rw [hc] at this; exact absurd this (by simp))
        | omega
  have hx_lt : sd.paid x = { sd with amounts := { sd.amounts with withdrawn := sd.amounts.withdrawn + x } } :=
    paid_eq (by omega)
  have hcomm : (sd.paid x).renounce = sd.renounce.paid x := by
    rw [hx_lt]
    symm
    exact paid_eq (sd := sd.renounce) (by show sd.amounts.withdrawn + x < sd.amounts.deposited - sd.amounts.refunded; omega)
  refine ⟨_, (withdraw_exact hr hx hec).2 ⟨dm, b, ha, hnd, hp, hle, hu.of_eq rfl, hb, rfl⟩, ?_⟩
  intro hr'
  have hbm : w.bank.SameBut sd.depositedTokenMint b := by
    rw [← ha.mintAddr]; exact transfer_sameBut hb
  obtain ⟨p1, p2, p3, p4⟩ := paid_facts sd x
  have hst := sd.paid_terms x
  refine ⟨_, (renounce_exact hr' (sd := sd.paid x) ?_).2 ⟨⟨r1, ?_, r3, ?_, ?_⟩, ?_, ?_, rfl⟩, ?_⟩
  · show upd _ _ _ _ = _
    rw [hcd]; exact upd_same _ _ _
  · rw [hst.sender]; exact r2
  · rw [hst.bump]; exact r4
  · show ∃ md, b.mints _ = _
    rw [hbm.mints]; exact r5
  · rw [hx_lt]; exact hcl
  · show streamedNow w.now _ < _
    rw [streamedNow_paid, p2]; exact hlt
  · rw [e2, hcomm, e1, hcd]
    simp only [upd_upd]

end Lockup

/-! ## Claims -/

/-- What an account for which somebody else pays the rent costs, whoever paid for another one before. -/
theorem payRent_swap {rt : Runtime} {l : Addr → Nat} {p q a b : Addr} {k : Nat} (hab : a ≠ b) (hpa : p ≠ a)
    (hpb : p ≠ b) (hqa : q ≠ a) (hqb : q ≠ b)
    (h1 : max (rt.rent k) 1 - l a ≤ l p)
    (h2 : max (rt.rent k) 1 - rentPaid rt l p a k b ≤ rentPaid rt l p a k q) :
    max (rt.rent k) 1 - l b ≤ l q ∧ max (rt.rent k) 1 - rentPaid rt l q b k a ≤ rentPaid rt l q b k p ∧
    rentPaid rt (rentPaid rt l q b k) p a k = rentPaid rt (rentPaid rt l p a k) q b k := by
  unfold rentPaid moved at *
  by_cases hpq : p = q
  · subst hpq
    simp only [hpa, hpb, hab, hab.symm, hpa.symm, hpb.symm, if_true, if_false] at h2 ⊢
    refine ⟨by omega, by omega, ?_⟩
    funext z
    by_cases z1 : z = a
    · subst z1; simp only [hab, hpa.symm, if_true, if_false]
    · by_cases z2 : z = b
      · subst z2; simp only [z1, hpb.symm, if_true, if_false]
      · by_cases z3 : z = p
        · subst z3; simp only [if_true]; omega
        · simp only [z1, z2, z3, if_false]
  · have hqp : q ≠ p := fun e => hpq e.symm
    simp only [hpa, hpb, hqa, hqb, hab, hab.symm, hpa.symm, hpb.symm, hqa.symm, hqb.symm, hpq, hqp, if_true, if_false] at h2 ⊢
    refine ⟨by omega, by omega, ?_⟩
    funext z
    by_cases z1 : z = a
    · subst z1; simp only [hab, hpa.symm, hqa.symm, if_true, if_false]
    · by_cases z2 : z = b
      · subst z2; simp only [z1, hpb.symm, hqb.symm, if_true, if_false]
      · by_cases z3 : z = p
        · subst z3; simp only [hpq, z1, z2, if_true, if_false]
        · by_cases z4 : z = q
          · subst z4; simp only [z1, z2, z3, if_true, if_false]
          · simp only [z1, z2, z3, z4, if_false]

theorem payRent_exact {rt : Runtime} {w w' : World} {p a : Addr} {k : Nat} :
    w.payRent rt p a k = .ok w' ↔ max (rt.rent k) 1 - w.lamports a ≤ w.lamports p ∧
      w' = { w with lamports := rentPaid rt w.lamports p a k } := by
  constructor
  · intro h
    refine ⟨?_, Props.payRent_lam h⟩
    simp only [World.payRent, bind_ok, require_ok, pure_ok] at h
    obtain ⟨_, h1, _⟩ := h
    exact h1
  · rintro ⟨h1, rfl⟩
    have h : ∃ u, w.payRent rt p a k = .ok u := by
      simp only [World.payRent, bind_ok, require_ok, pure_ok]
      exact ⟨_, (), h1, rfl⟩
    obtain ⟨u, hu⟩ := h
    rw [hu, Props.payRent_lam hu]

namespace Merkle

theorem claim_exact {rt : Runtime} {w w' : World} {c : ClaimAccts} {i x : Nat} {proof : List Bytes32}
    (he : w.bank.tokens c.recipientAta ≠ none) :
    claim rt w c i x proof = .ok w' ↔ ∃ cd dm b, ClaimAccountsOk rt w c i cd dm w.bank ∧
      cd.campaignStartTime ≤ w.now ∧ (cd.expirationTime = 0 ∨ w.now < cd.expirationTime) ∧
      computeRoot rt (leafHash rt i c.recipient x) proof = cd.merkleRoot ∧
      c.campaign = cd.signerAddr ∧ cd.bump = rt.bump c.campaign ∧
      max (rt.rent claimReceiptSpace) 1 - w.lamports c.claimReceipt ≤ w.lamports c.claimer ∧
      w.Unlocked c.campaignAta c.recipientAta ∧
      w.bank.transferChecked c.campaignAta c.recipientAta c.campaign c.airdropTokenMint
        c.airdropTokenProgram x dm.decimals = .ok b ∧
      w' = { w with
        lamports := rentPaid rt w.lamports c.claimer c.claimReceipt claimReceiptSpace
        bank := b
        mi := { w.mi with
          receipts := upd w.mi.receipts c.claimReceipt true
          campaigns := upd w.mi.campaigns c.campaign (some (cd.claim w.now)) }
        log := ⟨w.now, .claim x c.campaign c.claimer c.claimReceipt 0 i c.recipient⟩ :: w.log } := by
  simp only [claim, bind_ok, claimAccounts, require_ok, fetch_ok, pure_ok, loadTreasury_ok,
    checkAta_ok, Prod.mk.injEq, ensureAta_existing he, payRent_exact, claimHandler, checkClaim_ok, CLAIM_FEE_USD,
    chargeFee_zero, ok_inj, campaignTransfer, transferTokens_iff]
  constructor
  · rintro ⟨⟨w₁, cd, dm⟩, ⟨_, hs, tr, ⟨ht, hta, htb⟩, cd', hcd, _, hm, dm', hdm, v, ⟨v1, v2, v3, v4⟩, _, c1, _, c2, w₂,
      ⟨rfl, hen⟩, _, hra, _, hrf, w₃, ⟨hrent, rfl⟩, rfl, rfl, rfl⟩, _, ⟨h1, h2, h3⟩, p, rfl, w₄,
      ⟨_, ⟨hsa, hbu⟩, hu, b, hb, rfl⟩, rfl⟩
    exact ⟨cd, dm, b, ⟨hs, ⟨tr, ht, htb, c1, c2⟩, hta, hcd, hm, hdm, ⟨v, v1, v2, v4⟩, v3, hen, hra, hrf⟩, h1, h2, h3, hsa, hbu,
      hrent, hu, hb, rfl⟩
  · rintro ⟨cd, dm, b, ⟨hs, ⟨tr, ht, htb, c1, c2⟩, hta, hcd, hm, hdm, ⟨v, v1, v2, v4⟩, v3, hen, hra, hrf⟩, h1, h2, h3, hsa, hbu,
      hrent, hu, hb, rfl⟩
    exact ⟨⟨_, cd, dm⟩, ⟨(), hs, tr, ⟨ht, hta, htb⟩, cd, hcd, (), hm, dm, hdm, v, ⟨v1, v2, v3, v4⟩, (), c1, (), c2, w,
      ⟨rfl, hen⟩, (), hra, (), hrf, _, ⟨hrent, rfl⟩, rfl⟩, (), ⟨h1, h2, h3⟩, _, rfl, _,
      ⟨(), ⟨hsa, hbu⟩, hu, b, hb, rfl⟩, rfl⟩

theorem claim_claim (cd : Campaign) (t : Nat) : (cd.claim t).claim t = cd.claim t := by
  unfold Campaign.claim
  split
  · split <;> rfl
  · rename_i h; simp only [h, if_false]

theorem claim_terms (cd : Campaign) (t : Nat) : (cd.claim t).campaignStartTime = cd.campaignStartTime ∧
    (cd.claim t).expirationTime = cd.expirationTime ∧ (cd.claim t).merkleRoot = cd.merkleRoot ∧
    (cd.claim t).signerAddr = cd.signerAddr ∧ (cd.claim t).bump = cd.bump ∧
    (cd.claim t).airdropTokenMint = cd.airdropTokenMint := by
  unfold Campaign.claim
  split <;> exact ⟨rfl, rfl, rfl, rfl, rfl, rfl⟩

theorem ClaimAccountsOk.move {rt : Runtime} {w w' : World} {c : ClaimAccts} {i : Nat} {cd cd' : Campaign} {dm : MintData}
    (hb : w.bank.SameBut cd.airdropTokenMint w'.bank) (ht : w'.mi.treasury = w.mi.treasury)
    (hx' : w'.mi.campaigns c.campaign = some cd') (hm : cd'.airdropTokenMint = cd.airdropTokenMint)
    (hf : w'.mi.receipts c.claimReceipt = false)
    (he : w.bank.tokens c.recipientAta ≠ none)
    (h : ClaimAccountsOk rt w c i cd dm w.bank) : ClaimAccountsOk rt w' c i cd' dm w'.bank where
  signs := h.signs
  treasury := by rw [ht]; exact h.treasury
  treasuryAddr := h.treasuryAddr
  campaign := hx'
  mintAddr := h.mintAddr.trans hm.symm
  mint := by rw [hb.mints]; exact h.mint
  vault := by
    obtain ⟨t, h1, h2, h3⟩ := h.vault
    obtain ⟨k, hk⟩ := hb.keep h1
    exact ⟨_, hk, h2, h3⟩
  vaultAddr := h.vaultAddr
  ensure := h.ensure.sameBut hb he
  receiptAddr := h.receiptAddr
  receiptFresh := hf

/-- A race of two claims. -/
theorem race_claims {rt : Runtime} {w w₁ w₂ : World} {c d : ClaimAccts} {i j x y : Nat} {pf qf : List Bytes32}
    (hcd : d.campaign = c.campaign)
    (hec : w.bank.tokens c.recipientAta ≠ none) (hed : w.bank.tokens d.recipientAta ≠ none)
    (hvc : c.recipientAta ≠ c.campaignAta) (hvd : d.recipientAta ≠ d.campaignAta)
    (h1 : claim rt w c i x pf = .ok w₁) (h2 : claim rt w₁ d j y qf = .ok w₂) :
    ∃ w₁', claim rt w d j y qf = .ok w₁' ∧
      ∃ w₂', claim rt w₁' c i x pf = .ok w₂' ∧ { w₂' with log := [] } = { w₂ with log := [] } := by
  obtain ⟨cd, dm, b, ha, hst, hex, hpf, hsa, hbu, hrent, hu, hb, e1⟩ := (claim_exact hec).1 h1
  have hbm : w.bank.SameBut cd.airdropTokenMint w₁.bank := by
    rw [e1, ← ha.mintAddr]; exact transfer_sameBut hb
  obtain ⟨cd', dm', b', ha', hst', hex', hpf', hsa', hbu', hrent', hu', hb', e2⟩ := (claim_exact (hbm.ne_none hed)).1 h2
  replace hu' := hu'.of_eq (v := w) (by rw [e1])
  have hcd' : cd' = cd.claim w.now := by
    have := ha'.campaign
    rw [e1, hcd] at this
    have h : upd w.mi.campaigns c.campaign (some (cd.claim w.now)) c.campaign = some cd' := this
    rw [upd_same] at h; exact (Option.some.inj h).symm
  subst hcd'
  obtain ⟨k1, k2, k3, k4, k5, k6⟩ := claim_terms cd w.now
  rw [k1] at hst'; rw [k2] at hex'; rw [k3] at hpf'; rw [k4] at hsa'; rw [k5] at hbu'
  have hnow : w₁.now = w.now := by rw [e1]; rfl
  rw [hnow] at hst' hex'
  have hxd : w.mi.campaigns d.campaign = some cd := by rw [hcd]; exact ha.campaign
  have hrec : d.claimReceipt ≠ c.claimReceipt := by
    intro e
    have := ha'.receiptFresh
    rw [e1, e] at this
    have h : upd w.mi.receipts c.claimReceipt true c.claimReceipt = false := this
    rw [upd_same] at h; cases h
  have hfd : w.mi.receipts d.claimReceipt = false := by
    have := ha'.receiptFresh
    rw [e1] at this
    have h : upd w.mi.receipts c.claimReceipt true d.claimReceipt = false := this
    rw [upd_ne _ _ hrec] at h; exact h
  have had : ClaimAccountsOk rt w d j cd dm' w.bank :=
    ClaimAccountsOk.move (cd := cd.claim w.now) (by rw [k6]; exact hbm.symm) (by rw [e1]) hxd k6.symm hfd
      (hbm.ne_none hed) ha'
  have hmint : d.airdropTokenMint = c.airdropTokenMint := had.mintAddr.trans ha.mintAddr.symm
  have hdm : dm' = dm := by
    have := had.mint; rw [hmint, ha.mint] at this; exact (Option.some.inj this).symm
  subst hdm
  rw [hcd, hmint] at hb'
  have hprog : d.airdropTokenProgram = c.airdropTokenProgram := Lockup.same_program hbm.mints hb hb'
  have hvault : d.campaignAta = c.campaignAta := by
    rw [had.vaultAddr, ha.vaultAddr, hcd, hprog, hmint]
  rw [hprog, hvault, e1] at hb'
  obtain ⟨b₁', t1, t2⟩ := transfer_swap hvc (by rw [← hvault]; exact hvd) hb hb'
  have n1 : ∀ {p : Addr} {k : Nat} {r s : Addr}, p.canSign = true → r = .claimReceipt s k → p ≠ r := by
    intro p k r s hp hr e; rw [e, hr] at hp; cases hp
  rw [e1] at hrent'
  obtain ⟨l1, l2, l3⟩ := payRent_swap hrec.symm (n1 ha.signs ha.receiptAddr) (n1 ha.signs ha'.receiptAddr)
    (n1 ha'.signs ha.receiptAddr) (n1 ha'.signs ha'.receiptAddr) hrent hrent'
  refine ⟨_, (claim_exact hed).2 ⟨cd, dm', b₁', had, hst', hex', hpf', hsa', hbu', l1, hu', ?_, rfl⟩, ?_⟩
  · rw [hcd, hmint, hprog, hvault]; exact t1
  have hbm' : w.bank.SameBut cd.airdropTokenMint b₁' := by
    rw [← ha.mintAddr]; exact transfer_sameBut t1
  refine ⟨_, (claim_exact ?_).2 ⟨cd.claim w.now, dm', b', ?_, ?_, ?_, ?_, ?_, ?_, l2, hu.of_eq rfl, t2, rfl⟩, ?_⟩
  · exact hbm'.ne_none hec
  · refine ClaimAccountsOk.move (w := w) (cd := cd) hbm' rfl ?_ k6 ?_ hec ha
    · show upd _ _ _ _ = _
      rw [hcd]; exact upd_same _ _ _
    · show upd _ _ _ _ = _
      rw [upd_ne _ _ hrec.symm]; exact ha.receiptFresh
  · rw [k1]; exact hst
  · rw [k2]; exact hex
  · rw [k3]; exact hpf
  · rw [k4]; exact hsa
  · rw [k5]; exact hbu
  · rw [e2, e1]
    have hup : upd (upd w.mi.receipts d.claimReceipt true) c.claimReceipt true =
        upd (upd w.mi.receipts c.claimReceipt true) d.claimReceipt true := by
      funext z
      by_cases z1 : z = c.claimReceipt
      · subst z1; simp only [upd_same, upd_ne _ _ hrec.symm]
      · by_cases z2 : z = d.claimReceipt
        · subst z2; simp only [upd_same, upd_ne _ _ z1]
        · simp only [upd_ne _ _ z1, upd_ne _ _ z2]
    have hn2 : ∀ (l : Addr → Nat) b m lg, ({ w with lamports := l, bank := b, mi := m, log := lg } : World).now = w.now :=
      fun _ _ _ _ => rfl
    simp only [hn2, l3, hup, hcd, upd_upd, claim_claim]

end Merkle

end Solsab
