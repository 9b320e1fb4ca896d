import Verif.Proofs.Did
/-!
# What the ledger operations preserve
-/

namespace Solsab

/-- The facts about a mint that never change. -/
def MintKept (md md' : MintData) : Prop :=
  md'.program = md.program ∧ md'.decimals = md.decimals ∧ md'.permanentDelegate = md.permanentDelegate ∧
  md'.feeConfig.isSome = md.feeConfig.isSome

theorem MintKept.refl (md : MintData) : MintKept md md := ⟨rfl, rfl, rfl, rfl⟩

theorem MintKept.trans {m₁ m₂ m₃ : MintData} (h : MintKept m₁ m₂) (h' : MintKept m₂ m₃) : MintKept m₁ m₃ :=
  ⟨h'.1.trans h.1, h'.2.1.trans h.2.1, h'.2.2.1.trans h.2.2.1, h'.2.2.2.trans h.2.2.2⟩

theorem MintKept.plain {m₁ m₂ : MintData} (h : MintKept m₁ m₂) : m₂.Plain ↔ m₁.Plain := by
  unfold MintData.Plain
  rw [h.2.2.1]
  have := h.2.2.2
  cases h1 : m₁.feeConfig <;> cases h2 : m₂.feeConfig <;> simp_all

theorem mint_upd {b : Bank} {m x : Addr} {md md₀ md' : MintData} (hm : b.mints m = some md)
    (hk : MintKept md md') (hx : b.mints x = some md₀) :
    ∃ md₁, (b.setMint m (some md')).mints x = some md₁ ∧ MintKept md₀ md₁ := by
  simp only [setMint_mints, upd_apply]
  split
  · rename_i he; rw [he, hm] at hx; cases hx; exact ⟨_, rfl, hk⟩
  · exact ⟨_, hx, .refl _⟩

/-- A mint never disappears, and its program, decimals, permanent delegate and having a fee are fixed. -/
theorem BSafe.mint {b b' : Bank} (h : BSafe b b') {x : Addr} {md : MintData} (hx : b.mints x = some md) :
    ∃ md', b'.mints x = some md' ∧ MintKept md md' := by
  cases h with
  | openAta h => obtain ⟨_, _, _, rfl⟩ := openAccount_ok h; exact ⟨md, hx, .refl _⟩
  | openKey h => obtain ⟨_, _, _, rfl⟩ := openAccount_ok h; exact ⟨md, hx, .refl _⟩
  | openMintKey hs h =>
    obtain ⟨h1, _, rfl⟩ := openMint_ok h
    refine ⟨md, ?_, .refl _⟩
    rw [setMint_mints, upd_ne]
    · exact hx
    · intro he; rw [he, h1] at hx; cases hx
  | openMintNft ha h =>
    obtain ⟨h1, _, rfl⟩ := openMint_ok h
    refine ⟨md, ?_, .refl _⟩
    rw [setMint_mints, upd_ne]
    · exact hx
    · intro he; rw [he, h1] at hx; cases hx
  | mintTo hs h =>
    obtain ⟨_, _, h1, _, _, _, _, _, _, _, rfl⟩ := mintTo_ok h
    exact mint_upd h1 (by exact ⟨rfl, rfl, rfl, rfl⟩) hx
  | mintNft ha hm hs h =>
    obtain ⟨_, _, h1, _, _, _, _, _, _, _, rfl⟩ := mintTo_ok h
    exact mint_upd h1 (by exact ⟨rfl, rfl, rfl, rfl⟩) hx
  | lock _ hm => exact mint_upd hm (by exact ⟨rfl, rfl, rfl, rfl⟩) hx
  | transfer hs h =>
    obtain ⟨_, _, _, hf, _⟩ := transferChecked_ok h
    rcases hf.result with ⟨_, rfl⟩ | ⟨_, _, rfl⟩ <;> exact ⟨md, hx, .refl _⟩
  | delegate hm hd h =>
    obtain ⟨_, _, _, hf⟩ := transferCore_ok h
    rcases hf.result with ⟨_, rfl⟩ | ⟨_, _, rfl⟩ <;> exact ⟨md, hx, .refl _⟩
  | burn ht ho h =>
    obtain ⟨_, _, _, h1, _, _, rfl⟩ := burn_ok h
    exact mint_upd h1 (by exact ⟨rfl, rfl, rfl, rfl⟩) hx
  | delegateBurn ht hm hd h =>
    obtain ⟨_, _, _, h1, _, _, rfl⟩ := burn_ok h
    exact mint_upd h1 (by exact ⟨rfl, rfl, rfl, rfl⟩) hx
  | setFee hm hf => exact mint_upd hm ⟨rfl, rfl, rfl, by rw [hf]; rfl⟩ hx
  | setBlocked hm _ => exact mint_upd hm (by exact ⟨rfl, rfl, rfl, rfl⟩) hx
  | setMintAuth hm _ _ => exact mint_upd hm (by exact ⟨rfl, rfl, rfl, rfl⟩) hx
  | setFreezeAuth hm _ _ => exact mint_upd hm (by exact ⟨rfl, rfl, rfl, rfl⟩) hx
  | setOwner _ _ => exact ⟨md, hx, .refl _⟩
  | close _ _ _ => exact ⟨md, hx, .refl _⟩
  | setFrozen _ _ _ => exact ⟨md, hx, .refl _⟩

theorem BSafes.mint {b b' : Bank} (h : BSafes b b') {x : Addr} {md : MintData} (hx : b.mints x = some md) :
    ∃ md', b'.mints x = some md' ∧ MintKept md md' := by
  induction h with
  | refl => exact ⟨md, hx, .refl _⟩
  | tail _ hs ih =>
    obtain ⟨m₁, h1, k1⟩ := ih
    obtain ⟨m₂, h2, k2⟩ := hs.mint h1
    exact ⟨m₂, h2, k1.trans k2⟩

/-- Same account, at least as much in it. -/
def TokGrows (t t' : TokenData) : Prop :=
  t'.program = t.program ∧ t'.mint = t.mint ∧ t'.owner = t.owner ∧ t.amount ≤ t'.amount

/-- Same account. -/
def TokKept (t t' : TokenData) : Prop :=
  t'.program = t.program ∧ t'.mint = t.mint ∧ t'.owner = t.owner

theorem TokGrows.refl (t : TokenData) : TokGrows t t := ⟨rfl, rfl, rfl, Nat.le_refl _⟩
theorem TokGrows.trans {a b c : TokenData} (h : TokGrows a b) (h' : TokGrows b c) : TokGrows a c :=
  ⟨h'.1.trans h.1, h'.2.1.trans h.2.1, h'.2.2.1.trans h.2.2.1, Nat.le_trans h.2.2.2 h'.2.2.2⟩
theorem TokGrows.kept {a b : TokenData} (h : TokGrows a b) : TokKept a b := ⟨h.1, h.2.1, h.2.2.1⟩
theorem TokKept.trans {a b c : TokenData} (h : TokKept a b) (h' : TokKept b c) : TokKept a c :=
  ⟨h'.1.trans h.1, h'.2.1.trans h.2.1, h'.2.2.trans h.2.2⟩
theorem TokKept.refl (t : TokenData) : TokKept t t := ⟨rfl, rfl, rfl⟩

theorem transferFacts_grows {b b' : Bank} {s d m : Addr} {tp amt tf tt md}
    (h : TransferFacts b s d m tp amt b' tf tt md) {a : Addr} {t : TokenData} (ha : b.tokens a = some t)
    (hne : a ≠ s) : ∃ t', b'.tokens a = some t' ∧ TokGrows t t' := by
  rcases h.result with ⟨_, rfl⟩ | ⟨_, _, rfl⟩
  · exact ⟨t, ha, .refl _⟩
  · have hd := h.dst
    simp only [Bank.move, setToken_tokens, upd_apply, if_neg hne]
    split
    · rename_i he; rw [he, hd] at ha; cases ha
      exact ⟨_, rfl, rfl, rfl, rfl, Nat.le_add_right _ _⟩
    · exact ⟨t, ha, .refl _⟩

theorem transferFacts_kept {b b' : Bank} {s d m : Addr} {tp amt tf tt md}
    (h : TransferFacts b s d m tp amt b' tf tt md) {a : Addr} {t : TokenData} (ha : b.tokens a = some t) :
    ∃ t', b'.tokens a = some t' ∧ TokKept t t' := by
  by_cases hne : a = s
  · rcases h.result with ⟨_, rfl⟩ | ⟨hsd, _, rfl⟩
    · exact ⟨t, ha, .refl _⟩
    · have hs := h.src
      subst hne
      rw [hs] at ha; cases ha
      simp only [Bank.move, setToken_tokens, upd_apply, if_neg hsd, if_true]
      exact ⟨_, rfl, rfl, rfl, rfl⟩
  · obtain ⟨t', h1, h2⟩ := transferFacts_grows h ha hne
    exact ⟨t', h1, h2.kept⟩

/-- An account whose owner cannot sign stays, with its owner; and its amount does not decrease if nobody
outside can move the mint's tokens. -/
theorem BSafe.account {b b' : Bank} (h : BSafe b b') {a : Addr} {t : TokenData} (ha : b.tokens a = some t)
    (ho : t.owner.canSign = false) :
    ∃ t', b'.tokens a = some t' ∧ TokKept t t' ∧
      ((∃ md, b.mints t.mint = some md ∧ md.permanentDelegate = none) → t.amount ≤ t'.amount) := by
  have grows : ∀ {t' : TokenData}, TokGrows t t' → TokKept t t' ∧
      ((∃ md, b.mints t.mint = some md ∧ md.permanentDelegate = none) → t.amount ≤ t'.amount) :=
    fun h => ⟨h.kept, fun _ => h.2.2.2⟩
  have open_ : ∀ {x : Addr} {u : TokenData}, b.tokens x = none →
      ∃ t', (b.setToken x (some u)).tokens a = some t' ∧ TokKept t t' ∧
      ((∃ md, b.mints t.mint = some md ∧ md.permanentDelegate = none) → t.amount ≤ t'.amount) := by
    intro x u hx
    refine ⟨t, ?_, grows (.refl _)⟩
    rw [setToken_tokens, upd_ne]
    · exact ha
    · intro he; rw [he, hx] at ha; cases ha
  have mint_ : ∀ {d : Addr} {tt : TokenData} {amt : Nat} {m : Addr} {md : Option MintData}, b.tokens d = some tt →
      ∃ t', ((b.setMint m md).setToken d (some { tt with amount := tt.amount + amt })).tokens a = some t' ∧
      TokKept t t' ∧
      ((∃ md, b.mints t.mint = some md ∧ md.permanentDelegate = none) → t.amount ≤ t'.amount) := by
    intro d tt amt m md hd
    simp only [setToken_tokens, setMint_tokens, upd_apply]
    split
    · rename_i he; rw [he, hd] at ha; cases ha
      exact ⟨_, rfl, grows ⟨rfl, rfl, rfl, Nat.le_add_right _ _⟩⟩
    · exact ⟨t, ha, grows (.refl _)⟩
  have signer : ∀ {x : Addr} {u : TokenData}, b.tokens x = some u → u.owner.canSign = true → a ≠ x := by
    intro x u hx hu he
    rw [he, hx] at ha; cases ha; rw [hu] at ho; cases ho
  cases h with
  | openAta h => obtain ⟨_, h1, _, rfl⟩ := openAccount_ok h; exact open_ h1
  | openKey h => obtain ⟨_, h1, _, rfl⟩ := openAccount_ok h; exact open_ h1
  | openMintKey hs h =>
    obtain ⟨h1, _, rfl⟩ := openMint_ok h
    exact ⟨t, ha, grows (.refl _)⟩
  | openMintNft _ h =>
    obtain ⟨h1, _, rfl⟩ := openMint_ok h
    exact ⟨t, ha, grows (.refl _)⟩
  | mintTo hs h =>
    obtain ⟨_, _, _, h1, _, _, _, _, _, _, rfl⟩ := mintTo_ok h
    exact mint_ h1
  | mintNft _ hm hs h =>
    obtain ⟨_, _, _, h1, _, _, _, _, _, _, rfl⟩ := mintTo_ok h
    exact mint_ h1
  | lock _ hm => exact ⟨t, ha, grows (.refl _)⟩
  | transfer hs h =>
    obtain ⟨tf, _, _, hf, h1, _⟩ := transferChecked_ok h
    obtain ⟨t', h2, h3⟩ := transferFacts_grows hf ha (signer hf.src (by rw [h1]; exact hs))
    exact ⟨t', h2, grows h3⟩
  | @delegate _ s d m tp amt md x hm hd h =>
    obtain ⟨tf, tt, md', hf⟩ := transferCore_ok h
    by_cases hne : a = s
    · obtain ⟨t', h2, h3⟩ := transferFacts_kept hf ha
      refine ⟨t', h2, h3, ?_⟩
      rintro ⟨md₂, hm₂, hp⟩
      have hs := hf.src
      rw [← hne, ha] at hs; cases hs
      rw [hf.mints.1, hm] at hm₂; cases hm₂
      rw [hd] at hp; cases hp
    · obtain ⟨t', h2, h3⟩ := transferFacts_grows hf ha hne
      exact ⟨t', h2, grows h3⟩
  | @burn _ s amt u ht hu h =>
    obtain ⟨tf, md, h1, h2, _, _, rfl⟩ := burn_ok h
    refine ⟨t, ?_, grows (.refl _)⟩
    rw [setToken_tokens, setMint_tokens, upd_ne _ _ (signer ht hu)]
    exact ha
  | @delegateBurn _ s amt u md x ht hm hd h =>
    obtain ⟨tf, md', h1, h2, _, _, rfl⟩ := burn_ok h
    simp only [setToken_tokens, setMint_tokens, upd_apply]
    split
    · rename_i he
      rw [he, h1] at ha; cases ha
      refine ⟨_, rfl, ⟨rfl, rfl, rfl⟩, ?_⟩
      rintro ⟨md₂, hm₂, hp⟩
      rw [ht] at h1; cases h1
      rw [hm] at hm₂; cases hm₂
      rw [hd] at hp; cases hp
    · exact ⟨t, ha, grows (.refl _)⟩
  | setFee hm hf => exact ⟨t, ha, grows (.refl _)⟩
  | setBlocked hm _ => exact ⟨t, ha, grows (.refl _)⟩
  | setMintAuth hm _ _ => exact ⟨t, ha, grows (.refl _)⟩
  | setFreezeAuth hm _ _ => exact ⟨t, ha, grows (.refl _)⟩
  | setOwner ht hs =>
    refine ⟨t, ?_, grows (.refl _)⟩
    rw [setToken_tokens, upd_ne _ _ (signer ht hs)]; exact ha
  | close ht hs _ =>
    refine ⟨t, ?_, grows (.refl _)⟩
    rw [setToken_tokens, upd_ne _ _ (signer ht hs)]; exact ha
  | setFrozen ht _ _ =>
    simp only [setToken_tokens, upd_apply]
    split
    · rename_i he; rw [he, ht] at ha; cases ha
      exact ⟨_, rfl, grows ⟨rfl, rfl, rfl, Nat.le_refl _⟩⟩
    · exact ⟨t, ha, grows (.refl _)⟩

theorem BSafes.account {b b' : Bank} (h : BSafes b b') {a : Addr} {t : TokenData} (ha : b.tokens a = some t)
    (ho : t.owner.canSign = false) :
    ∃ t', b'.tokens a = some t' ∧ TokKept t t' ∧
      ((∃ md, b.mints t.mint = some md ∧ md.permanentDelegate = none) → t.amount ≤ t'.amount) := by
  induction h with
  | refl => exact ⟨t, ha, .refl _, fun _ => Nat.le_refl _⟩
  | tail hpre hs ih =>
    obtain ⟨t₁, h1, k1, g1⟩ := ih
    obtain ⟨t₂, h2, k2, g2⟩ := hs.account h1 (by rw [k1.2.2]; exact ho)
    refine ⟨t₂, h2, k1.trans k2, ?_⟩
    rintro ⟨md, hmd, hp⟩
    refine Nat.le_trans (g1 ⟨md, hmd, hp⟩) (g2 ?_)
    obtain ⟨md', hmd', k⟩ := hpre.mint hmd
    exact ⟨md', by rw [k1.2.1]; exact hmd', by rw [k.2.2.1]; exact hp⟩

/-! ## Payouts -/

theorem Payout.mint {b b' : Bank} {s d x m : Addr} {tp amt} (h : Payout b b' s d x m tp amt) {y : Addr}
    {md : MintData} (hy : b.mints y = some md) : b'.mints y = some md := by
  obtain ⟨_, _, _, b₁, _, _, he, ht⟩ := h
  obtain ⟨_, _, _, hf, _⟩ := transferChecked_ok ht
  rw [← he.mints] at hy
  rcases hf.result with ⟨_, rfl⟩ | ⟨_, _, rfl⟩ <;> exact hy

/-- A payout only takes from its source. -/
theorem Payout.other {b b' : Bank} {s d x m : Addr} {tp amt} (h : Payout b b' s d x m tp amt) {a : Addr}
    {t : TokenData} (ha : b.tokens a = some t) (hne : a ≠ s) : ∃ t', b'.tokens a = some t' ∧ TokGrows t t' := by
  obtain ⟨_, _, _, b₁, _, _, he, ht⟩ := h
  obtain ⟨_, _, _, hf, _⟩ := transferChecked_ok ht
  exact transferFacts_grows hf (he.token ha) hne

/-- What a payout takes from its source: the stated amount, or nothing when it pays itself. -/
theorem Payout.src {b b' : Bank} {s d x m : Addr} {tp amt} (h : Payout b b' s d x m tp amt) :
    ∃ t t', b.tokens s = some t ∧ t.owner = x ∧ t.mint = m ∧ t.program = tp ∧ amt ≤ t.amount ∧
      b'.tokens s = some t' ∧ TokKept t t' ∧ t'.amount = (if d = s then t.amount else t.amount - amt) := by
  obtain ⟨hx, hsa, ⟨t, hst, _⟩, b₁, _, o, he, ht⟩ := h
  obtain ⟨tf, tt, md, hf, ho, _⟩ := transferChecked_ok ht
  have hsrc := hf.src
  rw [he.token hst] at hsrc; cases hsrc
  refine ⟨t, ?_⟩
  rcases hf.result with ⟨hsd, rfl⟩ | ⟨hsd, _, rfl⟩
  · exact ⟨t, hst, ho, hf.mints.1, hf.prog.1, hf.funds, hf.src, .refl _, by simp [hsd]⟩
  · refine ⟨{ t with amount := t.amount - amt }, hst, ho, hf.mints.1, hf.prog.1, hf.funds, ?_, ?_, ?_⟩
    · simp only [Bank.move, setToken_tokens, upd_apply, if_neg hsd, if_true]
    · exact ⟨rfl, rfl, rfl⟩
    · rw [if_neg (Ne.symm hsd)]

/-- What a payout gives to its destination: the amount less the token's own fee. -/
theorem Payout.dst {b b' : Bank} {s d x m : Addr} {tp amt} (h : Payout b b' s d x m tp amt) (hne : d ≠ s) :
    ∃ md t', b.mints m = some md ∧ b'.tokens d = some t' ∧ t'.mint = m ∧ t'.program = tp ∧
      t'.amount = b.balance d + (amt - md.fee amt) := by
  obtain ⟨hx, hsa, _, b₁, _, o, he, ht⟩ := h
  obtain ⟨tf, tt, md, hf, ho, _⟩ := transferChecked_ok ht
  obtain ⟨u, hu1, hu2, _, hu4, hu5⟩ := he.dst
  have hd := hf.dst
  rw [hu1] at hd
  injection hd with hd
  subst hd
  rcases hf.result with ⟨hsd, rfl⟩ | ⟨hsd, _, rfl⟩
  · exact absurd hsd.symm hne
  · refine ⟨md, { u with amount := u.amount + (amt - md.fee amt) }, by rw [← he.mints]; exact hf.mint, ?_, hu2, hu4, ?_⟩
    · simp [Bank.move]
    · simp [hu5]

/-- A payout leaves all other accounts as they are, except that its destination may be new. -/
theorem Payout.frame {b b' : Bank} {s d x m : Addr} {tp amt} (h : Payout b b' s d x m tp amt) {a : Addr}
    (hs : a ≠ s) (hd : a ≠ d) : b'.tokens a = b.tokens a := by
  obtain ⟨hx, hsa, _, b₁, _, o, he, ht⟩ := h
  obtain ⟨tf, tt, md, hf, ho, _⟩ := transferChecked_ok ht
  have h1 : b₁.tokens a = b.tokens a := by
    obtain ⟨hda, ⟨rfl, _⟩ | ⟨hn, hop⟩⟩ := he
    · rfl
    · obtain ⟨_, _, _, rfl⟩ := openAccount_ok hop
      rw [setToken_tokens, upd_ne _ _ hd]
  rcases hf.result with ⟨_, rfl⟩ | ⟨_, _, rfl⟩
  · exact h1
  · simp only [Bank.move, setToken_tokens, upd_apply, if_neg hs, if_neg hd]; exact h1

theorem Lockup.WithdrawOk.payout {rt w c amount w' sd sd' dm b₁ b₂ l}
    (h : Lockup.WithdrawOk rt w c amount w' sd sd' dm b₁ b₂ l) :
    Payout w.bank w'.bank c.streamDataAta c.withdrawalRecipientAta c.streamData c.depositedTokenMint
      c.depositedTokenProgram amount :=
  ⟨by rw [h.accts.streamAddr]; rfl, h.accts.vaultAddr, h.accts.vault, b₁, dm.decimals, _, h.accts.ensure,
    by rw [h.result]; exact h.transfer⟩

theorem Lockup.CancelOk.payout {rt w c w' sd dm streamed b₁ b₂ l}
    (h : Lockup.CancelOk rt w c w' sd dm streamed b₁ b₂ l) :
    Payout w.bank w'.bank c.streamDataAta c.senderAta c.streamData c.depositedTokenMint
      c.depositedTokenProgram (sd.amounts.deposited - streamed) :=
  ⟨by rw [h.accts.streamAddr]; rfl, h.accts.vaultAddr, h.accts.vault, b₁, dm.decimals, _, h.accts.ensure,
    by rw [h.result]; exact h.transfer⟩

theorem Merkle.ClaimOk.payout {rt w c index amount proof w' cd dm b₁ b₂ l}
    (h : Merkle.ClaimOk rt w c index amount proof w' cd dm b₁ b₂ l) :
    Payout w.bank w'.bank c.campaignAta c.recipientAta c.campaign c.airdropTokenMint c.airdropTokenProgram amount :=
  ⟨by rw [h.signerAddr]; rfl, h.accts.vaultAddr, h.accts.vault, b₁, dm.decimals, _, h.accts.ensure,
    by rw [h.result]; exact h.transfer⟩

theorem Merkle.ClawbackOk.payout {rt w c amount w' cd dm b₁ b₂ l}
    (h : Merkle.ClawbackOk rt w c amount w' cd dm b₁ b₂ l) :
    Payout w.bank w'.bank c.campaignAta c.clawbackRecipientAta c.campaign c.airdropTokenMint
      c.airdropTokenProgram amount :=
  ⟨by rw [h.signerAddr]; rfl, h.accts.vaultAddr, h.accts.vault, b₁, dm.decimals, _, h.accts.ensure,
    by rw [h.result]; exact h.transfer⟩

/-! ## Every step -/

theorem Did.mint {rt : Runtime} {w w' : World} {ix : Ix} (h : Did rt w ix w') {x : Addr} {md : MintData}
    (hx : w.bank.mints x = some md) : ∃ md', w'.bank.mints x = some md' ∧ MintKept md md' := by
  rcases h.bank with h | ⟨_, _, _, _, _, _, hp, _⟩
  · exact h.mint hx
  · exact ⟨md, hp.mint hx, .refl _⟩

/-- A program-owned token account stays; its amount decreases only by a payout naming its owner. -/
theorem Did.account {rt : Runtime} {w w' : World} {ix : Ix} (h : Did rt w ix w') {a : Addr} {t : TokenData}
    (ha : w.bank.tokens a = some t) (ho : t.owner.canSign = false) :
    ∃ t', w'.bank.tokens a = some t' ∧ TokKept t t' ∧
      ((∃ md, w.bank.mints t.mint = some md ∧ md.permanentDelegate = none) →
        ix.withdrawsFrom ≠ some t.owner → ix.cancels ≠ some t.owner → ix.claimsFrom ≠ some t.owner →
        ix.clawsBack ≠ some t.owner → t.amount ≤ t'.amount) := by
  rcases h.bank with h | ⟨s, d, x, m, tp, amt, hp, hwho⟩
  · obtain ⟨t', h1, h2, h3⟩ := h.account ha ho
    exact ⟨t', h1, h2, fun hm _ _ _ _ => h3 hm⟩
  · by_cases hs : a = s
    · subst hs
      obtain ⟨t₀, t', h1, h2, _, _, _, h6, h7, _⟩ := hp.src
      rw [ha] at h1; cases h1
      refine ⟨t', h6, h7, ?_⟩
      intro _ n1 n2 n3 n4
      rw [h2] at n1 n2 n3 n4
      rcases hwho with ⟨h | h, _⟩ | ⟨h | h, _⟩ <;> contradiction
    · obtain ⟨t', h1, h2⟩ := hp.other ha hs
      exact ⟨t', h1, h2.kept, fun _ _ _ _ _ => h2.2.2.2⟩

end Solsab
