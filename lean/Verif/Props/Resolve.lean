import Verif.Spec.Resolve
import Verif.Props.Wire
/-!
# C91: the accounts of an instruction are determined
-/

namespace Solsab.Props

open Spec Demo

/-- The token program of the mint of an associated account. -/
theorem programOf_ata {w : World} (hb : BankInv w.bank) {o : Addr} {tp : TokenProgram} {m : Addr} {t : TokenData}
    (h : w.bank.tokens (.ata o tp m) = some t) : programOf w m = some tp := by
  obtain ⟨h1, h2⟩ := ata_token hb h
  obtain ⟨md, h3, h4⟩ := hb.tok_mint _ _ h
  unfold programOf
  rw [← h2, h3, Option.map_some, h4, h1]

theorem withdraw_resolved {rt : Runtime} {w : World} (hr : Reachable rt w) {c : Lockup.WithdrawAccts}
    {sd : Lockup.StreamData} {dm : MintData} {b : Bank} (h : Lockup.WithdrawAccountsOk rt w c sd dm b) :
    withdrawAccounts w c.signer c.streamNftMint c.streamRecipient c.withdrawalRecipient = some c := by
  obtain ⟨tr, t1, _, t3, t4⟩ := h.treasury
  obtain ⟨v, v1, _⟩ := h.vault
  obtain ⟨n, n1, _⟩ := h.nft
  have p1 := programOf_ata hr.bankInv (h.vaultAddr ▸ v1)
  have p2 := programOf_ata hr.bankInv (h.nftAddr ▸ n1)
  have hs := h.stream
  rw [h.streamAddr] at hs
  unfold withdrawAccounts
  rw [h.mintAddr] at p1
  simp only [hs, t1, p1, p2, bind, Option.bind, pure]
  have e1 := h.mintAddr
  have e2 := h.ensure.1
  have e3 := h.vaultAddr
  have e4 := h.nftAddr
  have e5 := h.streamAddr
  have e6 := h.treasuryAddr
  clear h hs p1 p2 v1 n1
  rcases c with ⟨⟩
  simp only at *
  subst_vars
  rfl

theorem create_resolved {rt : Runtime} {w w' : World} {c : Lockup.CreateAccts} {p : Lockup.CreateParams}
    (h : Lockup.createWithTimestamps rt w c p = .ok w') :
    createAccounts w c.creator c.sender c.recipient c.depositTokenMint c.nftTokenProgram p.salt = some c := by
  obtain ⟨nd, dm, md, cm, k, name, b₁, b₂, b₃, b₄, b₆, l, h⟩ := Lockup.create_ok h
  have p1 : programOf w c.depositTokenMint = some c.depositTokenProgram := by
    unfold programOf; rw [h.mint, Option.map_some, h.program]
  unfold createAccounts
  simp only [p1, bind, Option.bind, pure]
  have e1 := h.creatorAtaAddr
  have e2 := h.collectionDataAddr
  have e3 := h.collectionMintAddr
  have e4 := h.nftMintAddr
  have e5 := h.nftAtaAddr
  have e6 := h.streamAddr
  have e7 := h.vaultAddr
  clear h p1
  rcases c with ⟨⟩
  simp only at *
  subst_vars
  rfl

/-- **C91**: every account of a successful instruction follows from the caller's choices, the configuration, the stream
or campaign and the mint: a client that works them out gets exactly the accounts the program accepts. -/
theorem C91_resolved {rt : Runtime} {w w' : World} (hr : Reachable rt w) {ix : Ix} {ch : Choice}
    (hc : choiceOf ix = some ch) (h : step rt w ix = .ok w') : resolve w ch = some ix := by
  cases ix with
  | env i => cases hc
  | lockup i =>
    cases i with
    | «initialize» c f o s =>
      cases hc
      obtain ⟨md, b₁, b₂, b₃, l, h⟩ := Lockup.initializeProgram_ok h
      have e1 := h.treasuryAddr
      have e2 := h.collectionDataAddr
      have e3 := h.collectionMintAddr
      have e4 := h.ataAddr
      clear h
      rcases c with ⟨⟩
      simp only at *
      subst_vars
      rfl
    | createWithTimestamps c salt d st cl en su cu ca =>
      cases hc
      show (createAccounts w _ _ _ _ _ _ >>= _) = _
      rw [create_resolved h]; rfl
    | createWithDurations c salt d cd td su cu ca =>
      cases hc
      obtain ⟨_, _, h⟩ := Lockup.createWithDurations_eq h
      show (createAccounts w _ _ _ _ _ _ >>= _) = _
      have := create_resolved h
      simp only at this
      rw [this]; rfl
    | withdraw c a =>
      cases hc
      obtain ⟨_, _, _, _, _, _, h⟩ := Lockup.withdraw_ok h
      show (withdrawAccounts w _ _ _ _ >>= _) = _
      rw [withdraw_resolved hr h.accts]; rfl
    | withdrawMax c =>
      cases hc
      obtain ⟨_, _, _, _, h⟩ := Lockup.withdrawMax_ok h
      obtain ⟨_, _, _, _, _, _, h⟩ := Lockup.withdraw_ok h
      show (withdrawAccounts w _ _ _ _ >>= _) = _
      rw [withdraw_resolved hr h.accts]; rfl
    | cancel c =>
      cases hc
      obtain ⟨sd, _, _, _, _, _, h⟩ := Lockup.cancel_ok h
      have h := h.accts
      obtain ⟨v, v1, _⟩ := h.vault
      have p1 := programOf_ata hr.bankInv (h.vaultAddr ▸ v1)
      have hs := h.stream
      rw [h.streamAddr] at hs
      rw [h.mintAddr] at p1
      simp only [resolve, hs, p1, bind, Option.bind, pure]
      have e1 := h.mintAddr
      have e2 := h.ensure.1
      have e3 := h.vaultAddr
      have e5 := h.streamAddr
      have e6 := h.sender
      clear h hs p1 v1
      rcases c with ⟨⟩
      simp only at *
      subst_vars
      rfl
    | renounce c =>
      cases hc
      obtain ⟨sd, _, h⟩ := Lockup.renounce_ok h
      have hs := h.stream
      rw [h.streamAddr] at hs
      simp only [resolve, hs, bind, Option.bind, pure]
      have e5 := h.streamAddr
      have e6 := h.sender
      clear h hs
      rcases c with ⟨⟩
      simp only at *
      subst_vars
      rfl
    | collectFees c =>
      cases hc
      obtain ⟨tr, _, h1, h⟩ := Lockup.collectFees_ok h
      simp only [resolve, h1, bind, Option.bind, pure]
      have e1 := h.treasuryAddr
      have e2 := h.collector_eq
      clear h
      rcases c with ⟨⟩
      simp only at *
      subst_vars
      rfl
  | merkle i =>
    cases i with
    | «initialize» c f o s =>
      cases hc
      obtain ⟨_, e, _⟩ := Merkle.initializeProgram_ok h
      rcases c with ⟨⟩
      simp only at *
      subst_vars
      rfl
    | createCampaign c root st ex name cid agg cnt =>
      cases hc
      obtain ⟨dm, b, l, h⟩ := Merkle.createCampaign_ok h
      have p1 : programOf w c.airdropTokenMint = some c.airdropTokenProgram := by
        unfold programOf; rw [h.mint, Option.map_some, h.program]
      simp only [resolve, p1, bind, Option.bind, pure]
      have e1 := h.addr
      have e2 := h.vaultAddr
      clear h p1
      rcases c with ⟨⟩
      simp only at *
      subst_vars
      rfl
    | claim c idx a proof =>
      cases hc
      obtain ⟨cd, _, _, _, _, h⟩ := Merkle.claim_ok h
      have h := h.accts
      obtain ⟨tr, t1, _, t3, t4⟩ := h.treasury
      obtain ⟨v, v1, _⟩ := h.vault
      have p1 := programOf_ata hr.bankInv (h.vaultAddr ▸ v1)
      have hs := h.campaign
      rw [h.mintAddr] at p1
      simp only [resolve, hs, t1, p1, bind, Option.bind, pure]
      have e1 := h.mintAddr
      have e2 := h.ensure.1
      have e3 := h.vaultAddr
      have e4 := h.receiptAddr
      have e5 := h.treasuryAddr
      clear h hs p1 v1
      rcases c with ⟨⟩
      simp only at *
      subst_vars
      rfl
    | clawback c a =>
      cases hc
      obtain ⟨cd, _, _, _, _, h⟩ := Merkle.clawback_ok h
      have h := h.accts
      obtain ⟨v, v1, _⟩ := h.vault
      have p1 := programOf_ata hr.bankInv (h.vaultAddr ▸ v1)
      have hs := h.campaign
      rw [h.mintAddr] at p1
      simp only [resolve, hs, p1, bind, Option.bind, pure]
      have e1 := h.mintAddr
      have e2 := h.ensure.1
      have e3 := h.vaultAddr
      have e4 := h.creator
      clear h hs p1 v1
      rcases c with ⟨⟩
      simp only at *
      subst_vars
      rfl
    | collectFees c =>
      cases hc
      obtain ⟨tr, _, h1, h⟩ := Merkle.collectFees_ok h
      simp only [resolve, h1, bind, Option.bind, pure]
      have e1 := h.treasuryAddr
      have e2 := h.collector_eq
      clear h
      rcases c with ⟨⟩
      simp only at *
      subst_vars
      rfl

example := C91_resolved reach2 (ix := ixClaim) rfl (step_after (by decide +kernel))
example := C91_resolved reach2 (ix := ixWithdraw) rfl (step_after (by decide +kernel))

/-- **C91**: exchange any account of a successful instruction for another one (a vault, a treasury, a receipt, an oracle
feed, a token program, the sender of a cancellation…) but leave the choices, and it fails. -/
theorem C91_tamper {rt : Runtime} {w w' : World} (hr : Reachable rt w) {ix ix' : Ix} {ch : Choice}
    (hc : choiceOf ix = some ch) (h : step rt w ix = .ok w') (hc' : choiceOf ix' = some ch) (hne : ix' ≠ ix) :
    ∃ e, step rt w ix' = .error e := by
  cases h' : step rt w ix' with
  | error e => exact ⟨e, rfl⟩
  | ok w'' =>
    have := C91_resolved hr hc h
    rw [C91_resolved hr hc' h'] at this
    cases this
    exact absurd rfl hne

/-- The claim of the demo, with the vault of stream 1 in place of the campaign's. -/
def ixTampered : Ix := .merkle (.claim { claimAccts bob 0 with campaignAta := vault 1 } 0 500 [leaf1])

example := C91_tamper reach2 (ix := ixClaim) (ix' := ixTampered) rfl (step_after (by decide +kernel)) rfl
  (by intro h; injection h with h; injection h with h; revert h; decide +kernel)

/-- **C91**: for a withdrawal even the named recipient is determined: caller, stream and destination fix everything. -/
theorem C91_withdraw {rt : Runtime} {w w₁ w₂ : World} (hr : Reachable rt w) {ix₁ ix₂ : Ix}
    {c₁ c₂ : Lockup.WithdrawAccts} (h1 : ix₁.withdrawAccts = some c₁) (h2 : ix₂.withdrawAccts = some c₂)
    (e1 : step rt w ix₁ = .ok w₁) (e2 : step rt w ix₂ = .ok w₂) (hs : c₁.signer = c₂.signer)
    (hn : c₁.streamNftMint = c₂.streamNftMint) (hd : c₁.withdrawalRecipient = c₂.withdrawalRecipient) : c₁ = c₂ := by
  obtain ⟨_, g1⟩ := withdrawIx hr h1 e1
  obtain ⟨_, _, _, _, _, _, k1⟩ := Lockup.withdraw_ok g1
  obtain ⟨_, g2⟩ := withdrawIx hr h2 e2
  obtain ⟨_, _, _, _, _, _, k2⟩ := Lockup.withdraw_ok g2
  have hr' := C30_one_recipient hr h1 h2 (by rw [k1.accts.streamAddr, k2.accts.streamAddr, hn]) e1 e2
  have r1 := withdraw_resolved hr k1.accts
  rw [hs, hn, hd, hr', withdraw_resolved hr k2.accts] at r1
  cases r1
  rfl

example := C91_withdraw reach3 (ix₁ := .lockup (.withdraw (withdrawAccts carol 1) 5))
  (ix₂ := .lockup (.withdrawMax (withdrawAccts carol 1))) rfl rfl (step_after (by decide +kernel))
  (step_after (by decide +kernel)) rfl rfl rfl

end Solsab.Props
