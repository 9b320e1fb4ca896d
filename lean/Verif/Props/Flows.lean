import Verif.Proofs.Tokens
import Verif.Props.Campaign
/-!
# C60–C63: lamports, tokens, rent, and program isolation, for all instructions at once
-/

namespace Solsab.Props

open Spec Demo

/-! ## C60: lamports -/

/-- **C60**: apart from `collect_fees`, every instruction of the two programs changes lamports in one way only:
the signing payer tops the accounts the instruction creates up to their rent minimum (and pays Metaplex's fee for an
NFT). -/
theorem C60_rent_only {rt : Runtime} {w w' : World} {ix : Ix} {p : Addr} (hp : ix.payer = some p)
    (hc : ix.collects = none) (hs : step rt w ix = .ok w') :
    p.canSign = true ∧ RentFlow rt p (opens rt w ix) w.lamports w'.lamports :=
  step_flow hp hc hs

example := C60_rent_only (ix := ixWithdraw) (w := world2) rfl rfl (step_after (by decide +kernel))

theorem collect_total {rt : Runtime} {w w' : World} {cl rc ta : Addr} {q : Prog} {tr : Treasury} {sp am : Nat}
    (h : Lockup.CollectOk rt w cl rc ta q tr sp am w') : w'.lamports = moved w.lamports (.treasury q) rc am ∧
      am ≤ w.lamports (.treasury q) := by
  have hle : am ≤ w.lamports (.treasury q) := by
    have := h.amount_eq
    rw [h.treasuryAddr] at this
    omega
  refine ⟨?_, hle⟩
  rw [h.result]
  funext y
  simp only [upd_apply, moved, h.treasuryAddr]
  by_cases h1 : Addr.treasury q = rc
  · subst h1
    simp only [if_true]
    split
    · rename_i hy; subst hy; omega
    · rfl
  · rw [if_neg h1]
    by_cases h2 : y = rc
    · subst h2
      have : ¬ y = Addr.treasury q := fun e => h1 e.symm
      simp [this]
    · simp only [if_neg h2]
      by_cases e : y = Addr.treasury q
      · rw [if_pos e, if_pos e, e]
      · rw [if_neg e, if_neg e]

/-- **C60**: no instruction of the two programs creates or destroys lamports, and none takes lamports from any
account other than the signing payer (for `collect_fees`: the program's own treasury). -/
theorem C60_conserved {rt : Runtime} {w w' : World} {ix : Ix} {p : Addr} (hp : ix.payer = some p)
    (hs : step rt w ix = .ok w') :
    SameTotal w.lamports w'.lamports ∧
    ∀ a, (match ix.collects with | none => a ≠ p | some q => a ≠ .treasury q) → w.lamports a ≤ w'.lamports a := by
  cases hc : ix.collects with
  | none =>
    obtain ⟨_, hf⟩ := step_flow hp hc hs
    exact ⟨hf.total, fun a ha => hf.le ha⟩
  | some q =>
    have key : ∀ {cl rc ta tr sp am}, Lockup.CollectOk rt w cl rc ta q tr sp am w' →
        SameTotal w.lamports w'.lamports ∧ ∀ a, a ≠ .treasury q → w.lamports a ≤ w'.lamports a := by
      intro cl rc ta tr sp am h
      obtain ⟨h1, h2⟩ := collect_total h
      rw [h1]
      refine ⟨moved_total h2, fun a ha => ?_⟩
      simp only [moved, if_neg ha]
      split
      · exact Nat.le_refl _
      · split <;> omega
    cases ix with
    | env i => cases hp
    | lockup i =>
      cases i <;> first | (cases hc; done) | skip
      cases hc
      obtain ⟨_, _, _, h⟩ := Lockup.collectFees_ok hs
      exact key h
    | merkle i =>
      cases i <;> first | (cases hc; done) | skip
      cases hc
      obtain ⟨_, _, _, h⟩ := Merkle.collectFees_ok hs
      exact key h

example := C60_conserved (ix := ixWithdraw) (w := world2) rfl (step_after (by decide +kernel))
example := C60_conserved (ix := ixCollect) (w := world7) rfl (step_after (by decide +kernel))

/-! ## C61: tokens -/

/-- **C61**: no instruction of the two programs mints, burns or loses tokens: for every token but the NFT that the
instruction creates, the mint's record (supply, authorities, configuration) is untouched, and the sum of all
balances is unchanged if the token charges no transfer fee. -/
theorem C61_tokens_conserved {rt : Runtime} {w w' : World} {ix : Ix} {p : Addr} (hp : ix.payer = some p)
    (hs : step rt w ix = .ok w') {m : Addr} (hm : newNft ix ≠ some m) :
    w'.bank.mints m = w.bank.mints m ∧
    ((∀ md, w.bank.mints m = some md → md.feeConfig = none) → SameTotal (holding w m) (holding w' m)) := by
  have h := step_kept hp hs
  exact ⟨h.mints m hm, h.total m hm⟩

example := C61_tokens_conserved (ix := ixWithdraw) (w := world2) rfl (step_after (by decide +kernel))
  (m := Demo.mint) nofun

/-! ## C62: accounts are permanent and rent exempt -/

theorem Reachable.receipt_addr {rt : Runtime} {w : World} (hr : Reachable rt w) {a : Addr}
    (h : w.mi.receipts a = true) : ∃ x i, a = .claimReceipt x i := by
  refine hr.induct (P := fun w => ∀ a, w.mi.receipts a = true → ∃ x i, a = .claimReceipt x i) ?_ ?_ a h
  · intro w hg a h; rw [hg.no_receipts] at h; cases h
  · intro w ix w' _ ih hd a h
    cases hd with
    | init _ h' => rw [h'.result] at h; exact ih a h
    | create _ _ h' => rw [h'.result] at h; exact ih a h
    | withdraw _ h' => rw [h'.result] at h; exact ih a h
    | cancel _ h' => rw [h'.result] at h; exact ih a h
    | renounce _ h' => rw [h'.result] at h; exact ih a h
    | collect _ _ h' => rw [h'.result] at h; exact ih a h
    | miInit _ _ _ _ h' => rw [h'] at h; exact ih a h
    | campaign _ _ h' => rw [h'.result] at h; exact ih a h
    | claim _ h' =>
      rw [h'.result] at h
      simp only [upd_apply] at h
      split at h
      · rename_i e; exact ⟨_, _, e.trans h'.accts.receiptAddr⟩
      · exact ih a h
    | clawback _ h' => rw [h'.result] at h; exact ih a h
    | miCollect _ _ h' => rw [h'.result] at h; exact ih a h
    | env i _ h' => rw [(env_ok h').mi] at h; exact ih a h

/-- Addresses of program accounts: derived, and not token accounts. -/
theorem Reachable.programAccount_addr {rt : Runtime} {w : World} (hr : Reachable rt w) {a : Addr} {k : Nat}
    (h : ProgramAccount w a k) : a.canSign = false ∧ ∀ o tp m, a ≠ .ata o tp m := by
  cases h with
  | stream h => rw [(hr.streamOK h).addr]; exact ⟨rfl, nofun⟩
  | collection h => exact ⟨rfl, nofun⟩
  | lockupTreasury h => exact ⟨rfl, nofun⟩
  | campaign h => rw [(hr.campaignOK h).addr]; exact ⟨rfl, nofun⟩
  | receipt h => obtain ⟨x, i, rfl⟩ := Reachable.receipt_addr hr h; exact ⟨rfl, nofun⟩
  | merkleTreasury h => exact ⟨rfl, nofun⟩

/-- A program account after a step existed before or is one of those the instruction opens. -/
theorem programAccount_new {rt : Runtime} {w w' : World} {ix : Ix} (hs : step rt w ix = .ok w') {a : Addr} {k : Nat}
    (h : ProgramAccount w' a k) : ProgramAccount w a k ∨ (a, k) ∈ opens rt w ix := by
  have cr : ∀ {c : Lockup.CreateAccts} {q : Lockup.CreateParams}, Lockup.createWithTimestamps rt w c q = .ok w' →
      ProgramAccount w a k ∨ (a, k) ∈
      [(.streamNftMint c.sender q.salt, 82),
       (.ata c.recipient c.nftTokenProgram (.streamNftMint c.sender q.salt),
         tokenSize rt (.streamNftMint c.sender q.salt) c.nftTokenProgram),
       (streamAddr c.sender q.salt, 156),
       (.ata (streamAddr c.sender q.salt) c.depositTokenProgram c.depositTokenMint,
         tokenSize rt c.depositTokenMint c.depositTokenProgram),
       (.metadata (.streamNftMint c.sender q.salt), rt.metadataSpace),
       (.edition (.streamNftMint c.sender q.salt), rt.editionSpace)] := by
    intro c q hq
    obtain ⟨nd, dm, md, cm, k, name, b₁, b₂, b₃, b₄, b₆, l, hq⟩ := Lockup.create_ok hq
    rw [hq.result] at h
    cases h with
    | stream h =>
      simp only [upd_apply] at h
      split at h
      · rename_i e
        right
        rw [e, hq.streamAddr, hq.nftMintAddr]
        simp [streamAddr]
      · exact .inl (.stream h)
    | collection h => exact .inl (.collection hq.collectionData)
    | lockupTreasury h => exact .inl (.lockupTreasury h)
    | campaign h => exact .inl (.campaign h)
    | receipt h => exact .inl (.receipt h)
    | merkleTreasury h => exact .inl (.merkleTreasury h)
  have wd : ∀ {c : Lockup.WithdrawAccts} {x}, Lockup.withdraw rt w c x = .ok w' → ProgramAccount w a k := by
    intro c x hq
    obtain ⟨_, _, _, _, _, _, hq⟩ := Lockup.withdraw_ok hq
    rw [hq.result] at h
    cases h with
    | stream h =>
      simp only [upd_apply] at h
      split at h
      · rename_i e; rw [e]; exact .stream hq.accts.stream
      · exact .stream h
    | collection h => exact .collection h
    | lockupTreasury h => exact .lockupTreasury h
    | campaign h => exact .campaign h
    | receipt h => exact .receipt h
    | merkleTreasury h => exact .merkleTreasury h
  have same : w'.lk = w.lk → w'.mi = w.mi → ProgramAccount w a k := by
    intro e1 e2
    cases h with
    | stream h => rw [e1] at h; exact .stream h
    | collection h => rw [e1] at h; exact .collection h
    | lockupTreasury h => rw [e1] at h; exact .lockupTreasury h
    | campaign h => rw [e2] at h; exact .campaign h
    | receipt h => rw [e2] at h; exact .receipt h
    | merkleTreasury h => rw [e2] at h; exact .merkleTreasury h
  cases ix with
  | env i => exact .inl (same (env_ok hs).lk (env_ok hs).mi)
  | lockup i =>
    cases i with
    | «initialize» c f o s =>
      obtain ⟨_, _, _, _, _, hq⟩ := Lockup.initializeProgram_ok hs
      rw [hq.result] at h
      cases h with
      | stream h => exact .inl (.stream h)
      | collection h => right; simp [opens]
      | lockupTreasury h => right; simp [opens]
      | campaign h => exact .inl (.campaign h)
      | receipt h => exact .inl (.receipt h)
      | merkleTreasury h => exact .inl (.merkleTreasury h)
    | createWithTimestamps c salt dep st cl en su cu ca => exact cr hs
    | createWithDurations c salt dep cd td su cu ca =>
      obtain ⟨h1, h2, h⟩ := Lockup.createWithDurations_eq hs
      exact cr h
    | withdraw c a => exact .inl (wd hs)
    | withdrawMax c =>
      obtain ⟨_, _, _, _, h⟩ := Lockup.withdrawMax_ok hs
      exact .inl (wd h)
    | cancel c =>
      left
      obtain ⟨_, _, _, _, _, _, hq⟩ := Lockup.cancel_ok hs
      rw [hq.result] at h
      cases h with
      | stream h =>
        simp only [upd_apply] at h
        split at h
        · rename_i e; rw [e]; exact .stream hq.accts.stream
        · exact .stream h
      | collection h => exact .collection h
      | lockupTreasury h => exact .lockupTreasury h
      | campaign h => exact .campaign h
      | receipt h => exact .receipt h
      | merkleTreasury h => exact .merkleTreasury h
    | renounce c =>
      left
      obtain ⟨_, _, hq⟩ := Lockup.renounce_ok hs
      rw [hq.result] at h
      cases h with
      | stream h =>
        simp only [upd_apply] at h
        split at h
        · rename_i e; rw [e]; exact .stream hq.stream
        · exact .stream h
      | collection h => exact .collection h
      | lockupTreasury h => exact .lockupTreasury h
      | campaign h => exact .campaign h
      | receipt h => exact .receipt h
      | merkleTreasury h => exact .merkleTreasury h
    | collectFees c =>
      obtain ⟨_, _, _, hq⟩ := Lockup.collectFees_ok hs
      exact .inl (same (by rw [hq.result]) (by rw [hq.result]))
  | merkle i =>
    cases i with
    | «initialize» c f o s =>
      obtain ⟨_, _, _, _, _, hq⟩ := Merkle.initializeProgram_ok hs
      rw [hq] at h
      cases h with
      | stream h => exact .inl (.stream h)
      | collection h => exact .inl (.collection h)
      | lockupTreasury h => exact .inl (.lockupTreasury h)
      | campaign h => exact .inl (.campaign h)
      | receipt h => exact .inl (.receipt h)
      | merkleTreasury h => right; simp [opens]
    | createCampaign c root st ex name cid agg cnt =>
      obtain ⟨_, _, _, hq⟩ := Merkle.createCampaign_ok hs
      rw [hq.result] at h
      cases h with
      | stream h => exact .inl (.stream h)
      | collection h => exact .inl (.collection h)
      | lockupTreasury h => exact .inl (.lockupTreasury h)
      | campaign h =>
        simp only [upd_apply] at h
        split at h
        · rename_i e; right; rw [e, hq.addr]; simp [opens]
        · exact .inl (.campaign h)
      | receipt h => exact .inl (.receipt h)
      | merkleTreasury h => exact .inl (.merkleTreasury h)
    | claim c i x proof =>
      obtain ⟨_, _, _, _, _, hq⟩ := Merkle.claim_ok hs
      rw [hq.result] at h
      cases h with
      | stream h => exact .inl (.stream h)
      | collection h => exact .inl (.collection h)
      | lockupTreasury h => exact .inl (.lockupTreasury h)
      | campaign h =>
        simp only [upd_apply] at h
        split at h
        · rename_i e; rw [e]; exact .inl (.campaign hq.accts.campaign)
        · exact .inl (.campaign h)
      | receipt h =>
        simp only [upd_apply] at h
        split at h
        · rename_i e; right; rw [e, hq.accts.receiptAddr]; simp [opens]
        · exact .inl (.receipt h)
      | merkleTreasury h => exact .inl (.merkleTreasury h)
    | clawback c x =>
      obtain ⟨_, _, _, _, _, hq⟩ := Merkle.clawback_ok hs
      exact .inl (same (by rw [hq.result]) (by rw [hq.result]))
    | collectFees c =>
      obtain ⟨_, _, _, hq⟩ := Merkle.collectFees_ok hs
      exact .inl (same (by rw [hq.result]) (by rw [hq.result]))

/-- Lamports of a derived address that is neither a token account nor a treasury never decrease. -/
theorem lam_pda {rt : Runtime} {w w' : World} {ix : Ix} (hr : Reachable rt w) (hs : step rt w ix = .ok w') {a : Addr}
    (h1 : a.canSign = false) (h2 : ∀ o tp m, a ≠ .ata o tp m) (h3 : ∀ q, ix.collects = some q → a ≠ .treasury q) :
    w.lamports a ≤ w'.lamports a := by
  cases hp : ix.payer with
  | some p =>
    refine (C60_conserved hp hs).2 a ?_
    cases hc : ix.collects with
    | none =>
      have := (step_flow hp hc hs).1
      rintro rfl; rw [h1] at this; cases this
    | some q => exact h3 q hc
  | none =>
    cases ix with
    | env i =>
      refine (env_ok hs).lam a h1 ?_
      cases ht : w.bank.tokens a with
      | none => rfl
      | some t =>
        rcases hr.bankInv.tok_addr _ t ht with ⟨n, hn⟩ | ⟨o, ho, _⟩
        · subst hn; cases h1
        · exact absurd ho (h2 _ _ _)
    | lockup i => cases i <;> cases hp
    | merkle i => cases i <;> cases hp

/-- **C62**: every account of the two programs always holds at least the rent minimum of its allocation: it can
never be purged. -/
theorem C62_rent_exempt {rt : Runtime} {w : World} (hr : Reachable rt w) {a : Addr} {k : Nat}
    (h : ProgramAccount w a k) : rt.rent k ≤ w.lamports a := by
  have tre : ∀ {w : World}, Reachable rt w → ∀ {p : Prog} {tr : Treasury}, storedTreasury w p = some tr →
      rt.rent 105 ≤ w.lamports (.treasury p) := fun hr _ _ h => C57_rent_exempt hr ((configView_ok hr).2 h)
  obtain ⟨w₀, hg, hst⟩ := hr
  induction hst generalizing a k with
  | refl =>
    cases h with
    | stream h => rw [hg.no_streams] at h; cases h
    | collection h => rw [hg.no_collection] at h; cases h
    | lockupTreasury h => rw [hg.no_lk_treasury] at h; cases h
    | campaign h => rw [hg.no_campaigns] at h; cases h
    | receipt h => rw [hg.no_receipts] at h; cases h
    | merkleTreasury h => rw [hg.no_mi_treasury] at h; cases h
  | @tail w₁ w₂ ix h1 h2 ih =>
    have hr1 : Reachable rt w₁ := ⟨w₀, hg, h1⟩
    have hr2 := hr1.step h2
    by_cases ht : ∃ p, a = .treasury p
    · obtain ⟨p, rfl⟩ := ht
      cases h with
      | stream h => have := (hr2.streamOK h).addr; cases this
      | lockupTreasury h => exact tre hr2 (p := .lockup) h
      | campaign h => have := (hr2.campaignOK h).addr; cases this
      | receipt h => obtain ⟨_, _, e⟩ := Reachable.receipt_addr hr2 h; cases e
      | merkleTreasury h => exact tre hr2 (p := .merkle) h
    · rcases programAccount_new h2 h with h' | h'
      · obtain ⟨a1, a2⟩ := Reachable.programAccount_addr hr1 h'
        exact Nat.le_trans (ih h') (lam_pda hr1 h2 a1 a2 fun q _ e => ht ⟨q, e⟩)
      · obtain ⟨a1, a2⟩ := Reachable.programAccount_addr hr2 h
        cases hp : ix.payer with
        | none => cases ix with
          | env i => cases h'
          | lockup i => cases i <;> cases hp
          | merkle i => cases i <;> cases hp
        | some p =>
          cases hc : ix.collects with
          | none =>
            obtain ⟨b1, b2⟩ := step_flow hp hc h2
            exact b2.paid (by rintro rfl; rw [a1] at b1; cases b1) h'
          | some q =>
            cases ix with
            | env i => cases h'
            | lockup i => cases i <;> first | (cases hc; done) | (cases h')
            | merkle i => cases i <;> first | (cases hc; done) | (cases h')

example := C62_rent_exempt reach2 (a := camp) (.campaign (cd := ⟨Demo.mint, 255, 1500, alice, 800000, 0, [81, 109], root, campaignName⟩) (by decide +kernel))

/-- **C62**: accounts of the two programs are never closed, and except for a treasury under `collect_fees` never
give up lamports (rent is locked for ever). -/
theorem C62_permanent {rt : Runtime} {w w' : World} (hr : Reachable rt w) (hs : Steps rt w w') {a : Addr} {k : Nat}
    (h : ProgramAccount w a k) :
    ProgramAccount w' a k ∧ ((∀ p, a ≠ .treasury p) → w.lamports a ≤ w'.lamports a) := by
  have tr : ∀ p tr, storedTreasury w p = some tr → storedTreasury w' p = some tr := fun p tr h => stored_steps hs h
  constructor
  · cases h with
    | stream h =>
      obtain ⟨sd', h', _⟩ := Steps.stream hr hs h
      exact .stream h'
    | @collection nd h =>
      have key : ∃ nd', w'.lk.nftCollectionData = some nd' := by
        clear tr
        induction hs with
        | refl => exact ⟨nd, h⟩
        | @tail w₁ w₂ ix h1 h2 ih =>
          obtain ⟨nd', ih⟩ := ih
          cases step_did h2 with
          | init _ h' => rw [h'.result]; exact ⟨_, rfl⟩
          | create _ _ h' => rw [h'.result]; exact ⟨_, rfl⟩
          | withdraw _ h' => rw [h'.result]; exact ⟨_, ih⟩
          | cancel _ h' => rw [h'.result]; exact ⟨_, ih⟩
          | renounce _ h' => rw [h'.result]; exact ⟨_, ih⟩
          | collect _ _ h' => rw [h'.result]; exact ⟨_, ih⟩
          | miInit _ _ _ _ h' => rw [h']; exact ⟨_, ih⟩
          | campaign _ _ h' => rw [h'.result]; exact ⟨_, ih⟩
          | claim _ h' => rw [h'.result]; exact ⟨_, ih⟩
          | clawback _ h' => rw [h'.result]; exact ⟨_, ih⟩
          | miCollect _ _ h' => rw [h'.result]; exact ⟨_, ih⟩
          | env i _ h' => rw [(env_ok h').lk]; exact ⟨_, ih⟩
      obtain ⟨nd', h'⟩ := key
      exact .collection h'
    | lockupTreasury h => exact .lockupTreasury (tr .lockup _ h)
    | campaign h =>
      obtain ⟨cd', h', _⟩ := Steps.campaign hs h
      exact .campaign h'
    | receipt h =>
      refine .receipt ?_
      clear tr
      induction hs with
      | refl => exact h
      | @tail w₁ w₂ ix h1 h2 ih =>
        cases step_did h2 with
        | init _ h' => rw [h'.result]; exact ih
        | create _ _ h' => rw [h'.result]; exact ih
        | withdraw _ h' => rw [h'.result]; exact ih
        | cancel _ h' => rw [h'.result]; exact ih
        | renounce _ h' => rw [h'.result]; exact ih
        | collect _ _ h' => rw [h'.result]; exact ih
        | miInit _ _ _ _ h' => rw [h']; exact ih
        | campaign _ _ h' => rw [h'.result]; exact ih
        | claim _ h' =>
          rw [h'.result]
          simp only [upd_apply]
          split
          · rfl
          · exact ih
        | clawback _ h' => rw [h'.result]; exact ih
        | miCollect _ _ h' => rw [h'.result]; exact ih
        | env i _ h' => rw [(env_ok h').mi]; exact ih
    | merkleTreasury h => exact .merkleTreasury (tr .merkle _ h)
  · intro hne
    obtain ⟨a1, a2⟩ := Reachable.programAccount_addr hr h
    clear tr
    induction hs with
    | refl => exact Nat.le_refl _
    | @tail w₁ w₂ ix h1 h2 ih =>
      exact Nat.le_trans ih (lam_pda (hr.steps h1) h2 a1 a2 fun q _ => hne q)

example := C62_permanent reach2 steps23 (a := camp) (.campaign (cd := ⟨Demo.mint, 255, 1500, alice, 800000, 0, [81, 109], root, campaignName⟩) (by decide +kernel))

/-! ## C63: the programs do not touch each other -/

/-- **C63**: an instruction of one program never changes an account of the other, and nothing but an instruction
of a program changes an account of that program. -/
theorem C63_isolated {rt : Runtime} {w w' : World} {ix : Ix} (hs : step rt w ix = .ok w') :
    (w'.lk.treasury ≠ w.lk.treasury ∨ w'.lk.nftCollectionData ≠ w.lk.nftCollectionData ∨
      (∃ a, w'.lk.streams a ≠ w.lk.streams a) → ∃ i, ix = .lockup i) ∧
    (w'.mi.treasury ≠ w.mi.treasury ∨ (∃ a, w'.mi.campaigns a ≠ w.mi.campaigns a) ∨
      (∃ a, w'.mi.receipts a ≠ w.mi.receipts a) → ∃ i, ix = .merkle i) := by
  have lkf : w'.lk = w.lk → (w'.lk.treasury ≠ w.lk.treasury ∨ w'.lk.nftCollectionData ≠ w.lk.nftCollectionData ∨
      (∃ a, w'.lk.streams a ≠ w.lk.streams a) → ∃ i, ix = .lockup i) := by
    intro e h
    rcases h with h | h | ⟨a, h⟩ <;> exact absurd (by rw [e]) h
  have mif : w'.mi = w.mi → (w'.mi.treasury ≠ w.mi.treasury ∨ (∃ a, w'.mi.campaigns a ≠ w.mi.campaigns a) ∨
      (∃ a, w'.mi.receipts a ≠ w.mi.receipts a) → ∃ i, ix = .merkle i) := by
    intro e h
    rcases h with h | ⟨a, h⟩ | ⟨a, h⟩ <;> exact absurd (by rw [e]) h
  cases ix with
  | env i => exact ⟨lkf (env_ok hs).lk, mif (env_ok hs).mi⟩
  | lockup i =>
    refine ⟨fun _ => ⟨i, rfl⟩, mif ?_⟩
    cases step_did hs with
    | init _ h' => rw [h'.result]
    | create _ _ h' => rw [h'.result]
    | withdraw _ h' => rw [h'.result]
    | cancel _ h' => rw [h'.result]
    | renounce _ h' => rw [h'.result]
    | collect _ _ h' => rw [h'.result]
    | miInit e => cases e
    | campaign _ e => obtain ⟨_, _, _, _, _, _, _, e⟩ := e; cases e
    | claim e => obtain ⟨_, _, e, _⟩ := e; cases e
    | clawback e => obtain ⟨_, e, _⟩ := e; cases e
    | miCollect e => cases e
    | env _ e => cases e
  | merkle i =>
    refine ⟨lkf ?_, fun _ => ⟨i, rfl⟩⟩
    cases step_did hs with
    | init e => cases e
    | create e => cases e
    | withdraw e => cases e
    | cancel e => cases e
    | renounce e => cases e
    | collect e => cases e
    | miInit _ _ _ _ h' => rw [h']
    | campaign _ _ h' => rw [h'.result]
    | claim _ h' => rw [h'.result]
    | clawback _ h' => rw [h'.result]
    | miCollect _ _ h' => rw [h'.result]
    | env _ e => cases e

example := C63_isolated (ix := ixWithdraw) (w := world2) (step_after (by decide +kernel))

end Solsab.Props
