import Verif.Machine
/-!
# Inversion lemmas: what a successful instruction did

Each lemma turns `instruction … = .ok w'` into the checks that passed and an explicit description of `w'`.
-/

namespace Solsab

attribute [local irreducible] REDUNDANCY_BUFFER

/-- Lamports of every account other than `payer` did not decrease. -/
def LamRel (payer : Addr) (l l' : Addr → Nat) : Prop := ∀ a, a ≠ payer → l a ≤ l' a

theorem LamRel.refl {p : Addr} (l : Addr → Nat) : LamRel p l l := fun _ _ => Nat.le_refl _

theorem LamRel.trans {p : Addr} {l₁ l₂ l₃ : Addr → Nat} (h : LamRel p l₁ l₂) (h' : LamRel p l₂ l₃) :
    LamRel p l₁ l₃ := fun a ha => Nat.le_trans (h a ha) (h' a ha)

theorem payRent_ok {rt : Runtime} {w w' : World} {payer addr : Addr} {space : Nat}
    (h : w.payRent rt payer addr space = .ok w') :
    ∃ l, w' = { w with lamports := l } ∧ LamRel payer w.lamports l := by
  simp only [World.payRent, bind_ok, require_ok, pure_ok] at h
  obtain ⟨_, _, rfl⟩ := h
  refine ⟨_, rfl, ?_⟩
  intro a ha
  simp only [upd_apply]
  by_cases h1 : a = addr
  · subst h1; simp [ha]
  · simp [ha, h1]

theorem systemTransfer_ok {w w' : World} {s d : Addr} {x : Nat} (h : w.systemTransfer s d x = .ok w') :
    ∃ l, w' = { w with lamports := l } ∧ LamRel s w.lamports l := by
  simp only [World.systemTransfer, bind_ok, require_ok, pure_ok] at h
  obtain ⟨_, _, rfl⟩ := h
  refine ⟨_, rfl, ?_⟩
  intro a ha
  simp only [upd_apply]
  by_cases h1 : a = d
  · subst h1; simp [ha]
  · simp [ha, h1]

/-- What `init_if_needed` of an associated account does to the token ledger. -/
def Bank.Ensure (b : Bank) (addr owner : Addr) (tp : TokenProgram) (mint : Addr) (b' : Bank) : Prop :=
  addr = .ata owner tp mint ∧
  ((b' = b ∧ ∃ t, b.tokens addr = some t ∧ t.mint = mint ∧ t.owner = owner ∧ t.program = tp) ∨
   (b.tokens addr = none ∧ b.openAccount addr owner mint tp = .ok b'))

theorem createAta_ok {rt : Runtime} {w w' : World} {payer addr owner mint : Addr} {tp : TokenProgram}
    (h : w.createAta rt payer addr owner tp mint = .ok w') :
    ∃ b l, addr = .ata owner tp mint ∧ w.bank.openAccount addr owner mint tp = .ok b ∧
      LamRel payer w.lamports l ∧ w' = { w with bank := b, lamports := l } := by
  simp only [World.createAta, bind_ok, require_ok] at h
  obtain ⟨_, ha, b, hb, hw⟩ := h
  obtain ⟨l, rfl, hl⟩ := payRent_ok hw
  exact ⟨b, l, ha, hb, hl, rfl⟩

theorem ensureAta_ok {rt : Runtime} {w w' : World} {payer addr owner mint : Addr} {tp : TokenProgram}
    (h : w.ensureAta rt payer addr owner tp mint = .ok w') :
    ∃ b l, w.bank.Ensure addr owner tp mint b ∧ LamRel payer w.lamports l ∧
      w' = { w with bank := b, lamports := l } := by
  unfold World.ensureAta at h
  split at h
  · rename_i hn
    obtain ⟨b, l, ha, hb, hl, rfl⟩ := createAta_ok h
    exact ⟨b, l, ⟨ha, .inr ⟨hn, hb⟩⟩, hl, rfl⟩
  · rename_i t ht
    simp only [bind_ok, require_ok, pure_ok] at h
    obtain ⟨_, ⟨hm, ho⟩, _, hp, _, ha, rfl⟩ := h
    exact ⟨w.bank, w.lamports, ⟨ha, .inl ⟨rfl, t, ht, hm, ho, hp⟩⟩, LamRel.refl _, rfl⟩

/-- Neither the guard of the source nor a memo requirement of the destination is in the way. -/
def World.Unlocked (w : World) (src dst : Addr) : Prop :=
  (w.settings src).cpiGuard = false ∧ (w.settings dst).memoRequired = false

theorem World.Unlocked.of_eq {w v : World} {s d : Addr} (h : w.Unlocked s d) (e : v.settings = w.settings) :
    v.Unlocked s d := by
  unfold World.Unlocked at h ⊢; rw [e]; exact h

theorem transferTokens_iff {w w' : World} {src dst auth mint : Addr} {tp : TokenProgram} {amt dec : Nat} :
    w.transferTokens src dst auth mint tp amt dec = .ok w' ↔ w.Unlocked src dst ∧
      ∃ b, w.bank.transferChecked src dst auth mint tp amt dec = .ok b ∧ w' = { w with bank := b } := by
  simp only [World.transferTokens, bind_ok, require_ok, pure_ok, World.Unlocked]
  constructor
  · rintro ⟨_, h1, _, h2, b, hb, rfl⟩
    exact ⟨⟨h1, h2⟩, b, hb, rfl⟩
  · rintro ⟨⟨h1, h2⟩, b, hb, rfl⟩
    exact ⟨(), h1, (), h2, b, hb, rfl⟩

theorem transferTokens_ok {w w' : World} {src dst auth mint : Addr} {tp : TokenProgram} {amt dec : Nat}
    (h : w.transferTokens src dst auth mint tp amt dec = .ok w') :
    ∃ b, w.bank.transferChecked src dst auth mint tp amt dec = .ok b ∧ w' = { w with bank := b } := by
  exact (transferTokens_iff.1 h).2

theorem checkAta_ok {b : Bank} {addr owner mint : Addr} {tp : TokenProgram} {t : TokenData} :
    b.checkAta addr owner tp mint = .ok t ↔
      b.tokens addr = some t ∧ t.owner = owner ∧ addr = .ata owner tp mint ∧ t.program = tp := by
  simp only [Bank.checkAta, bind_ok, require_ok, fetch_ok, pure_ok]
  constructor
  · rintro ⟨t', h1, _, h2, _, h3, _, h4, rfl⟩; exact ⟨h1, h2, h3, h4⟩
  · rintro ⟨h1, h2, h3, h4⟩; exact ⟨t, h1, (), h2, (), h3, (), h4, rfl⟩

/-- With a zero USD fee, charging does nothing and reports 0. -/
theorem chargeFee_zero (w : World) (p f s t : Addr) : chargeFee w 0 p f s t = .ok (w, 0) := by
  simp [chargeFee, convertUsdFeeToLamports, bind, Except.bind, pure, Except.pure]

namespace Lockup

theorem loadTreasury_ok {rt : Runtime} {w : World} {a : Addr} {tr : Treasury} :
    loadTreasury rt w a = .ok tr ↔
      w.lk.treasury = some tr ∧ a = .treasury .lockup ∧ tr.bump = rt.bump a := by
  simp only [loadTreasury, bind_ok, require_ok, fetch_ok, pure_ok]
  constructor
  · rintro ⟨_, h2, _, h1, _, h3, rfl⟩; exact ⟨h1, h2, h3⟩
  · rintro ⟨h1, h2, h3⟩; exact ⟨(), h2, tr, h1, (), h3, rfl⟩

theorem loadStream_ok {rt : Runtime} {w : World} {a m : Addr} {sd : StreamData} :
    loadStream rt w a m = .ok sd ↔
      w.lk.streams a = some sd ∧ a = .streamData m ∧ sd.bump = rt.bump a ∧ ∃ md, w.bank.mints m = some md := by
  simp only [loadStream, bind_ok, require_ok, fetch_ok, pure_ok]
  constructor
  · rintro ⟨_, h1, _, h2, _, h3, md, h4, rfl⟩; exact ⟨h1, h2, h3, md, h4⟩
  · rintro ⟨h1, h2, h3, md, h4⟩; exact ⟨sd, h1, (), h2, (), h3, md, h4, rfl⟩

/-- What the account validation of `withdraw` established. -/
structure WithdrawAccountsOk (rt : Runtime) (w : World) (c : WithdrawAccts) (sd : StreamData)
    (dm : MintData) (b : Bank) : Prop where
  signs : c.signer.canSign = true
  dest : c.withdrawalRecipient = c.streamRecipient ∨ c.signer = c.streamRecipient
  treasury : ∃ tr, w.lk.treasury = some tr ∧ tr.bump = rt.bump c.treasury ∧
    c.chainlinkProgram = tr.chainlinkProgram ∧ c.chainlinkSolUsdFeed = tr.chainlinkSolUsdFeed
  treasuryAddr : c.treasury = .treasury .lockup
  stream : w.lk.streams c.streamData = some sd
  streamAddr : c.streamData = .streamData c.streamNftMint
  bump : sd.bump = rt.bump c.streamData
  nftMint : ∃ md, w.bank.mints c.streamNftMint = some md
  mintAddr : c.depositedTokenMint = sd.depositedTokenMint
  mint : w.bank.mints c.depositedTokenMint = some dm
  nft : ∃ t, w.bank.tokens c.recipientStreamNftAta = some t ∧ t.owner = c.streamRecipient ∧
    t.program = c.nftTokenProgram ∧ t.amount = 1
  nftAddr : c.recipientStreamNftAta = .ata c.streamRecipient c.nftTokenProgram c.streamNftMint
  vault : ∃ t, w.bank.tokens c.streamDataAta = some t ∧ t.owner = c.streamData ∧
    t.program = c.depositedTokenProgram
  vaultAddr : c.streamDataAta = .ata c.streamData c.depositedTokenProgram c.depositedTokenMint
  ensure : w.bank.Ensure c.withdrawalRecipientAta c.withdrawalRecipient c.depositedTokenProgram
    c.depositedTokenMint b

theorem withdrawAccounts_ok {rt : Runtime} {w w₁ : World} {c : WithdrawAccts} {sd : StreamData}
    {dm : MintData} (h : withdrawAccounts rt w c = .ok (w₁, sd, dm)) :
    ∃ b l, WithdrawAccountsOk rt w c sd dm b ∧ LamRel c.signer w.lamports l ∧
      w₁ = { w with bank := b, lamports := l } := by
  simp only [withdrawAccounts, bind_ok, require_ok, fetch_ok, pure_ok, loadTreasury_ok, loadStream_ok,
    checkAta_ok, Prod.mk.injEq] at h
  obtain ⟨_, hs, _, hd, tr, ⟨ht, hta, htb⟩, sd', ⟨h1, h2, h3, h4⟩, _, hm, dm', hdm, nft, ⟨n1, n2, n3, n4⟩, _,
    n5, v, ⟨v1, v2, v3, v4⟩, _, c1, _, c2, w₂, he, rfl, rfl, rfl⟩ := h
  obtain ⟨b, l, hb, hl, rfl⟩ := ensureAta_ok he
  refine ⟨b, l, ⟨hs, ?_, ⟨tr, ht, htb, c1, c2⟩, hta, h1, h2, h3, h4, hm, hdm, ⟨nft, n1, n2, n4, n5⟩, n3,
    ⟨v, v1, v2, v4⟩, v3, hb⟩, hl, rfl⟩
  rcases hd with h | ⟨_, h⟩
  · exact .inl h
  · exact .inr h

/-- What a successful `withdraw` of `amount` did. -/
structure WithdrawOk (rt : Runtime) (w : World) (c : WithdrawAccts) (amount : Nat) (w' : World)
    (sd sd' : StreamData) (dm : MintData) (b₁ b₂ : Bank) (l : Addr → Nat) : Prop where
  accts : WithdrawAccountsOk rt w c sd dm b₁
  withdrawable : ∃ x, getWithdrawableAmount w.now sd.timestamps sd.amounts sd.isDepleted sd.wasCanceled = .ok x
    ∧ amount ≤ x
  notDepleted : sd.isDepleted = false
  pos : 0 < amount
  data : sd.withdraw amount = .ok sd'
  transfer : b₁.transferChecked c.streamDataAta c.withdrawalRecipientAta c.streamData c.depositedTokenMint
    c.depositedTokenProgram amount dm.decimals = .ok b₂
  lam : LamRel c.signer w.lamports l
  result : w' = { w with
    lamports := l, bank := b₂
    lk := { w.lk with streams := upd w.lk.streams c.streamData (some sd') }
    log := ⟨w.now, .withdrawFromLockupStream c.depositedTokenMint 0 c.streamData c.streamNftMint amount⟩ :: w.log }

theorem checkWithdraw_ok {d : Bool} {a x : Nat} {u : Unit} :
    checkWithdraw d a x = .ok u ↔ d = false ∧ 0 < a ∧ a ≤ x := by
  unfold checkWithdraw
  cases d
  · by_cases h1 : a = 0
    · simp [h1]
    · by_cases h2 : a > x
      · simp [h1, h2]
      · simp [h1, h2]; omega
  · simp

theorem withdrawHandler_ok {w w' : World} {c : WithdrawAccts} {sd : StreamData} {dm : MintData} {amount : Nat}
    (h : withdrawHandler w c sd dm amount = .ok w') :
    (∃ x, getWithdrawableAmount w.now sd.timestamps sd.amounts sd.isDepleted sd.wasCanceled = .ok x
      ∧ amount ≤ x) ∧ sd.isDepleted = false ∧ 0 < amount ∧
    ∃ sd' b, sd.withdraw amount = .ok sd' ∧
      w.bank.transferChecked c.streamDataAta c.withdrawalRecipientAta c.streamData c.depositedTokenMint
        c.depositedTokenProgram amount dm.decimals = .ok b ∧
      w' = { w with
        bank := b
        lk := { w.lk with streams := upd w.lk.streams c.streamData (some sd') }
        log := ⟨w.now, .withdrawFromLockupStream c.depositedTokenMint 0 c.streamData c.streamNftMint amount⟩
          :: w.log } := by
  simp only [withdrawHandler, bind_ok, checkWithdraw_ok, WITHDRAWAL_FEE_USD, chargeFee_zero, ok_inj,
    pure_ok] at h
  obtain ⟨x, hx, _, ⟨hd, hp, hle⟩, sd', hsd, p, rfl, w₂, hw₂, rfl⟩ := h
  obtain ⟨b, hb, rfl⟩ := transferTokens_ok hw₂
  exact ⟨⟨x, hx, hle⟩, hd, hp, sd', b, hsd, hb, rfl⟩

theorem withdrawHandler_unlocked {w w' : World} {c : WithdrawAccts} {sd : StreamData} {dm : MintData} {amount : Nat}
    (h : withdrawHandler w c sd dm amount = .ok w') : w.Unlocked c.streamDataAta c.withdrawalRecipientAta := by
  simp only [withdrawHandler, bind_ok, checkWithdraw_ok, WITHDRAWAL_FEE_USD, chargeFee_zero, ok_inj,
    pure_ok] at h
  obtain ⟨x, hx, _, ⟨hd, hp, hle⟩, sd', hsd, p, rfl, w₂, hw₂, rfl⟩ := h
  exact (transferTokens_iff.1 hw₂).1

theorem withdraw_unlocked {rt : Runtime} {w w' : World} {c : WithdrawAccts} {amount : Nat}
    (h : withdraw rt w c amount = .ok w') : w.Unlocked c.streamDataAta c.withdrawalRecipientAta := by
  simp only [withdraw, bind_ok] at h
  obtain ⟨⟨w₁, sd, dm⟩, ha, hh⟩ := h
  obtain ⟨b₁, l, hacc, hl, e⟩ := withdrawAccounts_ok ha
  have hu := withdrawHandler_unlocked hh
  unfold World.Unlocked at hu ⊢
  rw [show w₁.settings = w.settings by rw [e]] at hu
  exact hu

theorem withdraw_ok {rt : Runtime} {w w' : World} {c : WithdrawAccts} {amount : Nat}
    (h : withdraw rt w c amount = .ok w') :
    ∃ sd sd' dm b₁ b₂ l, WithdrawOk rt w c amount w' sd sd' dm b₁ b₂ l := by
  simp only [withdraw, bind_ok] at h
  obtain ⟨⟨w₁, sd, dm⟩, ha, hh⟩ := h
  obtain ⟨b₁, l, hacc, hl, rfl⟩ := withdrawAccounts_ok ha
  obtain ⟨hx, hd, hp, sd', b₂, hsd, hb, rfl⟩ := withdrawHandler_ok hh
  exact ⟨sd, sd', dm, b₁, b₂, l, hacc, hx, hd, hp, hsd, hb, hl, rfl⟩

/-- `withdraw_max` is `withdraw` of the withdrawable amount. -/
theorem withdrawMax_ok {rt : Runtime} {w w' : World} {c : WithdrawAccts}
    (h : withdrawMax rt w c = .ok w') :
    ∃ sd amount, w.lk.streams c.streamData = some sd ∧
      getWithdrawableAmount w.now sd.timestamps sd.amounts sd.isDepleted sd.wasCanceled = .ok amount ∧
      withdraw rt w c amount = .ok w' := by
  simp only [withdrawMax, bind_ok] at h
  obtain ⟨⟨w₁, sd, dm⟩, ha, amount, hamt, hh⟩ := h
  obtain ⟨b₁, l, hacc, hl, hw₁⟩ := withdrawAccounts_ok ha
  refine ⟨sd, amount, hacc.stream, ?_, ?_⟩
  · rw [hw₁] at hamt; exact hamt
  · simp only [withdraw, bind_ok]
    exact ⟨_, ha, hh⟩

/-- What the account validation of `cancel` established. -/
structure CancelAccountsOk (rt : Runtime) (w : World) (c : CancelAccts) (sd : StreamData)
    (dm : MintData) (b : Bank) : Prop where
  signs : c.sender.canSign = true
  sender : c.sender = sd.sender
  stream : w.lk.streams c.streamData = some sd
  streamAddr : c.streamData = .streamData c.streamNftMint
  bump : sd.bump = rt.bump c.streamData
  nftMint : ∃ md, w.bank.mints c.streamNftMint = some md
  mintAddr : c.depositedTokenMint = sd.depositedTokenMint
  mint : w.bank.mints c.depositedTokenMint = some dm
  vault : ∃ t, w.bank.tokens c.streamDataAta = some t ∧ t.owner = c.streamData ∧
    t.program = c.depositedTokenProgram
  vaultAddr : c.streamDataAta = .ata c.streamData c.depositedTokenProgram c.depositedTokenMint
  ensure : w.bank.Ensure c.senderAta c.sender c.depositedTokenProgram c.depositedTokenMint b

theorem cancelAccounts_ok {rt : Runtime} {w w₁ : World} {c : CancelAccts} {sd : StreamData}
    {dm : MintData} (h : cancelAccounts rt w c = .ok (w₁, sd, dm)) :
    ∃ b l, CancelAccountsOk rt w c sd dm b ∧ LamRel c.sender w.lamports l ∧
      w₁ = { w with bank := b, lamports := l } := by
  simp only [cancelAccounts, bind_ok, require_ok, fetch_ok, pure_ok, loadStream_ok,
    checkAta_ok, Prod.mk.injEq] at h
  obtain ⟨_, hs, sd', ⟨h1, h2, h3, h4⟩, _, hsn, _, hm, dm', hdm, v, ⟨v1, v2, v3, v4⟩, w₂, he, rfl, rfl, rfl⟩ := h
  obtain ⟨b, l, hb, hl, rfl⟩ := ensureAta_ok he
  exact ⟨b, l, ⟨hs, hsn, h1, h2, h3, h4, hm, hdm, ⟨v, v1, v2, v4⟩, v3, hb⟩, hl, rfl⟩

theorem checkCancel_ok {ca d wc : Bool} {s dep : Nat} {u : Unit} :
    checkCancel ca d wc s dep = .ok u ↔ d = false ∧ wc = false ∧ ca = true ∧ s < dep := by
  unfold checkCancel
  cases d <;> cases wc <;> cases ca <;> simp

/-- What a successful `cancel` did. -/
structure CancelOk (rt : Runtime) (w : World) (c : CancelAccts) (w' : World)
    (sd : StreamData) (dm : MintData) (streamed : Nat) (b₁ b₂ : Bank) (l : Addr → Nat) : Prop where
  accts : CancelAccountsOk rt w c sd dm b₁
  streamed_eq : getStreamedAmount w.now sd.timestamps sd.amounts sd.isDepleted sd.wasCanceled = .ok streamed
  notDepleted : sd.isDepleted = false
  notCanceled : sd.wasCanceled = false
  cancelable : sd.isCancelable = true
  notSettled : streamed < sd.amounts.deposited
  withdrawn_le : sd.amounts.withdrawn ≤ streamed
  transfer : b₁.transferChecked c.streamDataAta c.senderAta c.streamData c.depositedTokenMint
    c.depositedTokenProgram (sd.amounts.deposited - streamed) dm.decimals = .ok b₂
  lam : LamRel c.sender w.lamports l
  result : w' = { w with
    lamports := l, bank := b₂
    lk := { w.lk with streams := upd w.lk.streams c.streamData <|
      (some (sd.cancel (sd.amounts.deposited - streamed) (streamed - sd.amounts.withdrawn))) }
    log := ⟨w.now, .cancelLockupStream c.depositedTokenMint (streamed - sd.amounts.withdrawn)
      (sd.amounts.deposited - streamed) c.streamData c.streamNftMint⟩ :: w.log }

theorem cancelHandler_ok {w w' : World} {c : CancelAccts} {sd : StreamData} {dm : MintData}
    (h : cancelHandler w c sd dm = .ok w') :
    ∃ streamed b, getStreamedAmount w.now sd.timestamps sd.amounts sd.isDepleted sd.wasCanceled = .ok streamed ∧
      (sd.isDepleted = false ∧ sd.wasCanceled = false ∧ sd.isCancelable = true ∧
        streamed < sd.amounts.deposited) ∧ sd.amounts.withdrawn ≤ streamed ∧
      w.bank.transferChecked c.streamDataAta c.senderAta c.streamData c.depositedTokenMint
        c.depositedTokenProgram (sd.amounts.deposited - streamed) dm.decimals = .ok b ∧
      w' = { w with
        bank := b
        lk := { w.lk with streams := upd w.lk.streams c.streamData <|
          (some (sd.cancel (sd.amounts.deposited - streamed) (streamed - sd.amounts.withdrawn))) }
        log := ⟨w.now, .cancelLockupStream c.depositedTokenMint (streamed - sd.amounts.withdrawn)
          (sd.amounts.deposited - streamed) c.streamData c.streamNftMint⟩ :: w.log } := by
  simp only [cancelHandler, bind_ok, checkCancel_ok, subU64_ok, pure_ok] at h
  obtain ⟨s, hs, _, hc, a1, ⟨_, rfl⟩, a2, ⟨hw, rfl⟩, w₂, hw₂, rfl⟩ := h
  obtain ⟨b, hb, rfl⟩ := transferTokens_ok hw₂
  exact ⟨s, b, hs, hc, hw, hb, rfl⟩

theorem cancelHandler_unlocked {w w' : World} {c : CancelAccts} {sd : StreamData} {dm : MintData}
    (h : cancelHandler w c sd dm = .ok w') : w.Unlocked c.streamDataAta c.senderAta := by
  simp only [cancelHandler, bind_ok, checkCancel_ok, subU64_ok, pure_ok] at h
  obtain ⟨s, hs, _, hc, a1, ⟨_, rfl⟩, a2, ⟨hw, rfl⟩, w₂, hw₂, rfl⟩ := h
  exact (transferTokens_iff.1 hw₂).1

theorem cancel_unlocked {rt : Runtime} {w w' : World} {c : CancelAccts} (h : cancel rt w c = .ok w') :
    w.Unlocked c.streamDataAta c.senderAta := by
  simp only [cancel, bind_ok] at h
  obtain ⟨⟨w₁, sd, dm⟩, ha, hh⟩ := h
  obtain ⟨b₁, l, hacc, hl, e⟩ := cancelAccounts_ok ha
  have hu := cancelHandler_unlocked hh
  unfold World.Unlocked at hu ⊢
  rw [show w₁.settings = w.settings by rw [e]] at hu
  exact hu

theorem cancel_ok {rt : Runtime} {w w' : World} {c : CancelAccts} (h : cancel rt w c = .ok w') :
    ∃ sd dm streamed b₁ b₂ l, CancelOk rt w c w' sd dm streamed b₁ b₂ l := by
  simp only [cancel, bind_ok] at h
  obtain ⟨⟨w₁, sd, dm⟩, ha, hh⟩ := h
  obtain ⟨b₁, l, hacc, hl, rfl⟩ := cancelAccounts_ok ha
  obtain ⟨s, b₂, hs, ⟨h1, h2, h3, h4⟩, hw, hb, rfl⟩ := cancelHandler_ok hh
  exact ⟨sd, dm, s, b₁, b₂, l, hacc, hs, h1, h2, h3, h4, hw, hb, hl, rfl⟩

theorem checkRenounce_ok {ca : Bool} {d s : Nat} {u : Unit} :
    checkRenounce ca d s = .ok u ↔ ca = true ∧ s < d := by
  unfold checkRenounce
  cases ca <;> simp

/-- What a successful `renounce` did. -/
structure RenounceOk (rt : Runtime) (w : World) (c : RenounceAccts) (w' : World) (sd : StreamData)
    (streamed : Nat) : Prop where
  signs : c.sender.canSign = true
  sender : c.sender = sd.sender
  stream : w.lk.streams c.streamData = some sd
  streamAddr : c.streamData = .streamData c.streamNftMint
  bump : sd.bump = rt.bump c.streamData
  nftMint : ∃ md, w.bank.mints c.streamNftMint = some md
  streamed_eq : getStreamedAmount w.now sd.timestamps sd.amounts sd.isDepleted sd.wasCanceled = .ok streamed
  cancelable : sd.isCancelable = true
  notSettled : streamed < sd.amounts.deposited
  result : w' = { w with
    lk := { w.lk with streams := upd w.lk.streams c.streamData (some sd.renounce) }
    log := ⟨w.now, .renounceLockupStream sd.depositedTokenMint c.streamData c.streamNftMint⟩ :: w.log }

theorem renounce_ok {rt : Runtime} {w w' : World} {c : RenounceAccts} (h : renounce rt w c = .ok w') :
    ∃ sd streamed, RenounceOk rt w c w' sd streamed := by
  simp only [renounce, bind_ok, require_ok, loadStream_ok, checkRenounce_ok, pure_ok] at h
  obtain ⟨_, hs, sd, ⟨h1, h2, h3, h4⟩, _, hsn, s, hst, _, ⟨hc, hlt⟩, rfl⟩ := h
  exact ⟨sd, s, hs, hsn, h1, h2, h3, h4, hst, hc, hlt, rfl⟩

theorem checkCollectFees_ok {x : Nat} {u : Unit} : checkCollectFees x = .ok u ↔ 0 < x := by
  unfold checkCollectFees
  split <;> simp <;> omega

theorem safeCollectible_ok {rt : Runtime} {bal len x : Nat} :
    safeCollectibleAmount rt bal len = .ok x ↔
      rt.rent len + REDUNDANCY_BUFFER < 2 ^ 64 ∧ x = bal - (rt.rent len + REDUNDANCY_BUFFER) := by
  simp only [safeCollectibleAmount, bind_ok, addU64_ok, ok_inj]
  constructor
  · rintro ⟨_, ⟨h, rfl⟩, rfl⟩; exact ⟨h, rfl⟩
  · rintro ⟨h, rfl⟩; exact ⟨_, ⟨h, rfl⟩, rfl⟩

/-- What a successful `collect_fees` did. -/
structure CollectOk (rt : Runtime) (w : World) (collector recipient treasury : Addr) (prog : Prog)
    (tr : Treasury) (space amount : Nat) (w' : World) : Prop where
  signs : collector.canSign = true
  treasuryAddr : treasury = .treasury prog
  collector_eq : collector = tr.feeCollector
  noOverflow : rt.rent space + REDUNDANCY_BUFFER < 2 ^ 64
  amount_eq : amount = w.lamports treasury - (rt.rent space + REDUNDANCY_BUFFER)
  pos : 0 < amount
  result : w' = { w with
    lamports := upd (upd w.lamports treasury (w.lamports treasury - amount)) recipient
      (upd w.lamports treasury (w.lamports treasury - amount) recipient + amount)
    log := ⟨w.now, .feesCollected prog amount collector recipient⟩ :: w.log }

theorem collectFees_ok {rt : Runtime} {w w' : World} {c : CollectFeesAccts}
    (h : collectFees rt w c = .ok w') :
    ∃ tr amount, w.lk.treasury = some tr ∧
      CollectOk rt w c.feeCollector c.feeRecipient c.treasury .lockup tr treasurySpace amount w' := by
  simp only [collectFees, bind_ok, require_ok, loadTreasury_ok, checkCollectFees_ok, safeCollectible_ok,
    pure_ok] at h
  obtain ⟨_, hs, tr, ⟨h1, h2, h3⟩, _, hc, a, ⟨ho, rfl⟩, _, hp, _, hle, _, hov, rfl⟩ := h
  exact ⟨tr, _, h1, hs, h2, hc, ho, rfl, hp, rfl⟩

/-- The Metaplex steps that turn a freshly minted token into an NFT, on the token ledger. -/
def lockAuthority (b : Bank) (mint : Addr) (md : MintData) : Bank :=
  b.setMint mint (some { md with authority := some (.edition mint), freezeAuthority := some (.edition mint) })

theorem payMetaplex_ok {rt : Runtime} {w w' : World} {p m : Addr} (h : payMetaplex rt w p m = .ok w') :
    ∃ l, w' = { w with lamports := l } ∧ LamRel p w.lamports l := by
  simp only [payMetaplex, bind_ok] at h
  obtain ⟨w₁, h1, w₂, h2, h3⟩ := h
  obtain ⟨l₁, rfl, k1⟩ := systemTransfer_ok h1
  obtain ⟨l₂, rfl, k2⟩ := payRent_ok h2
  obtain ⟨l₃, rfl, k3⟩ := payRent_ok h3
  exact ⟨l₃, rfl, (k1.trans k2).trans k3⟩

theorem metaplexCreate_ok {rt : Runtime} {w w' : World} {p mint auth : Addr} {name : List Char} {info : NftInfo}
    {size : Option Nat} (h : metaplexCreate rt w p mint auth name info size = .ok w') :
    w.metas mint = none ∧ name.length ≤ 32 ∧ ∃ md, w.bank.mints mint = some md ∧ md.authority = some auth ∧
      md.decimals = 0 ∧ md.supply = 1 ∧ ∃ l, payMetaplex rt w p mint = .ok { w with lamports := l } ∧
      LamRel p w.lamports l ∧
      w' = { w with bank := lockAuthority w.bank mint md, lamports := l
                    metas := upd w.metas mint (some ⟨name, none, size, info⟩) } := by
  simp only [metaplexCreate, bind_ok, require_ok, fetch_ok, pure_ok] at h
  obtain ⟨_, h1, _, h2, _, _, md, h3, _, h4, _, ⟨h5, h6⟩, w₁, hp, rfl⟩ := h
  obtain ⟨l, rfl, hl⟩ := payMetaplex_ok hp
  exact ⟨h1, h2.1, md, h3, h4, h5, h6, l, hp, hl, rfl⟩

theorem metaplexVerifyItem_ok {w w' : World} {item coll auth : Addr}
    (h : metaplexVerifyItem w item coll auth = .ok w') :
    ∃ im cm k, w.metas item = some im ∧ w.metas coll = some cm ∧ cm.collectionSize = some k ∧
      w' = { w with metas := upd (upd w.metas item (some { im with collection := some coll })) coll
                      (some { cm with collectionSize := some (k + 1) }) } := by
  simp only [metaplexVerifyItem, bind_ok, fetch_ok, require_ok, pure_ok] at h
  obtain ⟨im, h1, cm, h2, _, _, _, _, k, h3, rfl⟩ := h
  exact ⟨im, cm, k, h1, h2, h3, rfl⟩

theorem metaplexSign_ok {w w' : World} {mint creator : Addr} (h : metaplexSign w mint creator = .ok w') :
    ∃ m, w.metas mint = some m ∧ creator ∈ m.info.creators.map (·.address) ∧
      w' = { w with metas := upd w.metas mint (some { m with info := m.info.sign creator }) } := by
  simp only [metaplexSign, bind_ok, fetch_ok, require_ok, pure_ok] at h
  obtain ⟨m, h1, _, h2, rfl⟩ := h
  exact ⟨m, h1, h2, rfl⟩

theorem metaplexCollection_ok {rt : Runtime} {w w₁ w' : World} {p mint auth creator : Addr} {name : List Char}
    {info : NftInfo} {size : Option Nat} (h : metaplexCreate rt w p mint auth name info size = .ok w₁)
    (h' : metaplexSign w₁ mint creator = .ok w') :
    w.metas mint = none ∧ ∃ md, w.bank.mints mint = some md ∧
      ∃ l, payMetaplex rt w p mint = .ok { w with lamports := l } ∧ LamRel p w.lamports l ∧
      w' = { w with bank := lockAuthority w.bank mint md, lamports := l
                    metas := upd w.metas mint (some ⟨name, none, size, info.sign creator⟩) } := by
  obtain ⟨hm, _, md, hmd, _, _, _, l, hp, hl, rfl⟩ := metaplexCreate_ok h
  obtain ⟨m', hm', _, rfl⟩ := metaplexSign_ok h'
  dsimp only at hm' ⊢
  rw [upd_same] at hm'
  cases hm'
  rw [upd_upd]
  exact ⟨hm, md, hmd, l, hp, hl, rfl⟩

/-- The metadata of the collection after `initialize`. -/
def signedCollectionInfo : NftInfo := (collectionInfo .nftCollectionMint).sign .nftCollectionMint

/-- What a successful `initialize` did. -/
structure InitializeOk (rt : Runtime) (w : World) (c : InitializeAccts) (f p s : Addr) (w' : World)
    (md : MintData) (b₁ b₂ b₃ : Bank) (l : Addr → Nat) : Prop where
  signs : c.initializer.canSign = true
  treasuryAddr : c.treasury = .treasury .lockup
  noTreasury : w.lk.treasury = none
  collectionDataAddr : c.nftCollectionData = .nftCollectionData
  noCollectionData : w.lk.nftCollectionData = none
  collectionMintAddr : c.nftCollectionMint = .nftCollectionMint
  openMint : w.bank.openMint .nftCollectionMint (freshNftMint c.nftTokenProgram) = .ok b₁
  ataAddr : c.nftCollectionAta = .ata (.treasury .lockup) c.nftTokenProgram .nftCollectionMint
  openAta : b₁.openAccount c.nftCollectionAta (.treasury .lockup) .nftCollectionMint c.nftTokenProgram = .ok b₂
  mintTo : b₂.mintTo .nftCollectionMint c.nftCollectionAta .nftCollectionMint c.nftTokenProgram 1 = .ok b₃
  noMeta : w.metas .nftCollectionMint = none
  mint : b₃.mints .nftCollectionMint = some md
  lam : LamRel c.initializer w.lamports l
  result : w' = { w with
    lamports := l, bank := lockAuthority b₃ .nftCollectionMint md
    metas := upd w.metas .nftCollectionMint (some ⟨COLLECTION_NAME, none, some 0, signedCollectionInfo⟩)
    lk := { w.lk with
      treasury := some ⟨rt.bump (.treasury .lockup), f, p, s⟩
      nftCollectionData := some ⟨0, rt.bump .nftCollectionData⟩ } }

theorem initializeProgram_ok {rt : Runtime} {w w' : World} {c : InitializeAccts} {f p s : Addr}
    (h : initializeProgram rt w c f p s = .ok w') :
    ∃ md b₁ b₂ b₃ l, InitializeOk rt w c f p s w' md b₁ b₂ b₃ l := by
  simp only [initializeProgram, nftInitializeCollection, bind_ok, require_ok] at h
  obtain ⟨_, hs, _, h1, _, h2, w₁, hw₁, _, h3, _, h4, w₂, hw₂, _, h5, b₁, hb₁, w₃, hw₃, w₄, hw₄, b₃, hb₃,
    w₅, hw₅, hw₆⟩ := h
  obtain ⟨l₁, rfl, hl₁⟩ := payRent_ok hw₁
  obtain ⟨l₂, rfl, hl₂⟩ := payRent_ok hw₂
  obtain ⟨l₃, rfl, hl₃⟩ := payRent_ok hw₃
  obtain ⟨b₂, l₄, ha, hb₂, hl₄, rfl⟩ := createAta_ok hw₄
  obtain ⟨hm, md, hmd, l₅, _, hl₅, rfl⟩ := metaplexCollection_ok hw₅ hw₆
  obtain ⟨ini, tr, cd, cm, ca, tp⟩ := c
  simp only at h1 h3 h5 ha
  subst h1 h3 h5 ha
  exact ⟨md, b₁, b₂, b₃, l₅, hs, rfl, h2, rfl, h4, rfl, hb₁, rfl, hb₂, hb₃, hm, hmd,
    (((hl₁.trans hl₂).trans hl₃).trans hl₄).trans hl₅, rfl⟩

/-- What a successful `create_with_timestamps_ll` did. -/
structure CreateOk (rt : Runtime) (w : World) (c : CreateAccts) (p : CreateParams) (w' : World)
    (nd : NftCollectionData) (dm md : MintData) (cm : Metadata) (k : Nat) (name : List Char)
    (b₁ b₂ b₃ b₄ b₆ : Bank) (l : Addr → Nat) : Prop where
  signs : c.creator.canSign = true
  creatorAta : ∃ t, w.bank.tokens c.creatorAta = some t ∧ t.owner = c.creator ∧ t.program = c.depositTokenProgram
  creatorAtaAddr : c.creatorAta = .ata c.creator c.depositTokenProgram c.depositTokenMint
  collectionDataAddr : c.nftCollectionData = .nftCollectionData
  collectionData : w.lk.nftCollectionData = some nd
  collectionDataBump : nd.bump = rt.bump .nftCollectionData
  collectionMintAddr : c.nftCollectionMint = .nftCollectionMint
  mint : w.bank.mints c.depositTokenMint = some dm
  program : dm.program = c.depositTokenProgram
  nftMintAddr : c.streamNftMint = .streamNftMint c.sender p.salt
  openMint : w.bank.openMint c.streamNftMint (freshNftMint c.nftTokenProgram) = .ok b₁
  nftAtaAddr : c.recipientStreamNftAta = .ata c.recipient c.nftTokenProgram c.streamNftMint
  openNftAta : b₁.openAccount c.recipientStreamNftAta c.recipient c.streamNftMint c.nftTokenProgram = .ok b₂
  streamAddr : c.streamData = .streamData c.streamNftMint
  fresh : w.lk.streams c.streamData = none
  vaultAddr : c.streamDataAta = .ata c.streamData c.depositTokenProgram c.depositTokenMint
  openVault : b₂.openAccount c.streamDataAta c.streamData c.depositTokenMint c.depositTokenProgram = .ok b₃
  check : checkCreate p.depositAmount p.startTime p.cliffTime p.endTime p.startUnlockAmount
    p.cliffUnlockAmount = .ok ()
  nftName : nftName (rt.keyBytes c.streamNftMint) = .ok name
  mintTo : b₃.mintTo c.streamNftMint c.recipientStreamNftAta .nftCollectionMint c.nftTokenProgram 1 = .ok b₄
  noMeta : w.metas c.streamNftMint = none
  nftMint : b₄.mints c.streamNftMint = some md
  collMeta : w.metas .nftCollectionMint = some cm
  collSize : cm.collectionSize = some k
  counter : nd.totalSupply + 1 < 2 ^ 64
  transfer : (lockAuthority b₄ c.streamNftMint md).transferChecked c.creatorAta c.streamDataAta c.creator
    c.depositTokenMint c.depositTokenProgram p.depositAmount dm.decimals = .ok b₆
  lam : LamRel c.creator w.lamports l
  result : w' = { w with
    lamports := l, bank := b₆
    metas := upd (upd (upd w.metas c.streamNftMint (some ⟨name, none, none, streamNftInfo .nftCollectionMint⟩))
      c.streamNftMint (some ⟨name, some .nftCollectionMint, none, streamNftInfo .nftCollectionMint⟩))
      .nftCollectionMint (some { cm with collectionSize := some (k + 1) })
    lk := { w.lk with
      streams := upd w.lk.streams c.streamData <|
        some (StreamData.create c.depositTokenMint (rt.bump c.streamData) p.cliffTime p.cliffUnlockAmount
          p.depositAmount p.endTime p.salt p.isCancelable c.sender p.startTime p.startUnlockAmount)
      nftCollectionData := some { nd with totalSupply := nd.totalSupply + 1 } }
    log := ⟨w.now, .createLockupLinearStream dm.decimals c.depositTokenMint c.recipient p.salt c.streamData
      c.streamNftMint⟩ :: w.log }

theorem create_ok {rt : Runtime} {w w' : World} {c : CreateAccts} {p : CreateParams}
    (h : createWithTimestamps rt w c p = .ok w') :
    ∃ nd dm md cm k name b₁ b₂ b₃ b₄ b₆ l, CreateOk rt w c p w' nd dm md cm k name b₁ b₂ b₃ b₄ b₆ l := by
  simp only [createWithTimestamps, nftCreateStream, NftCollectionData.create, bind_ok, require_ok, fetch_ok,
    pure_ok, checkAta_ok, addU64_ok] at h
  obtain ⟨_, hs, ta, ⟨t1, t2, t3, t4⟩, _, h1, nd, h2, _, h3, _, h4, _, _, dm, h5, _, h6, _, h7, b₁, hb₁, w₁,
    hw₁, w₂, hw₂, _, h8, _, h9, w₃, hw₃, w₄, hw₄, _, hck, w₅, ⟨name, hname, b₄, hb₄, w₆, hw₆, hw₇⟩, nd',
    ⟨_, ⟨hcnt, rfl⟩, rfl⟩, w₈, hw₈, rfl⟩ := h
  obtain ⟨l₁, rfl, hl₁⟩ := payRent_ok hw₁
  obtain ⟨b₂, l₂, ha₂, hb₂, hl₂, rfl⟩ := createAta_ok hw₂
  obtain ⟨l₃, rfl, hl₃⟩ := payRent_ok hw₃
  obtain ⟨b₃, l₄, ha₄, hb₃, hl₄, rfl⟩ := createAta_ok hw₄
  obtain ⟨hm, _, md, hmd, _, _, _, l₅, _, hl₅, rfl⟩ := metaplexCreate_ok hw₆
  obtain ⟨im, cm, k, him, hcm, hk, rfl⟩ := metaplexVerifyItem_ok hw₇
  obtain ⟨b₆, hb₆, rfl⟩ := transferTokens_ok hw₈
  obtain ⟨cr, cra, rec, snd, cdt, cmt, dmt, snm, rna, sdt, sda, dtp, ntp⟩ := c
  simp only at *
  subst h1 h4 h7 h8 ha₂ ha₄ t3
  rw [upd_same] at him
  cases him
  rw [upd_ne _ _ (by simp)] at hcm
  exact ⟨nd, dm, md, cm, k, name, b₁, b₂, b₃, b₄, b₆, l₅, hs, ⟨ta, t1, t2, t4⟩, rfl, rfl, h2, h3, rfl, h5, h6,
    rfl, hb₁, rfl, hb₂, rfl, h9, rfl, hb₃, hck, hname, hb₄, hm, hmd, hcm, hk, hcnt, hb₆,
    (((hl₁.trans hl₂).trans hl₃).trans hl₄).trans hl₅, rfl⟩

/-- `create_with_durations_ll` is `create_with_timestamps_ll` at the current time. -/
theorem createWithDurations_eq {rt : Runtime} {w w' : World} {c : CreateAccts} {p : CreateDurationParams}
    (h : createWithDurations rt w c p = .ok w') :
    (p.cliffDuration > 0 → w.now + p.cliffDuration < 2 ^ 64) ∧ w.now + p.totalDuration < 2 ^ 64 ∧
    createWithTimestamps rt w c
      { salt := p.salt, depositAmount := p.depositAmount, startTime := w.now,
        cliffTime := if p.cliffDuration > 0 then w.now + p.cliffDuration else 0,
        endTime := w.now + p.totalDuration, startUnlockAmount := p.startUnlockAmount,
        cliffUnlockAmount := p.cliffUnlockAmount, isCancelable := p.isCancelable } = .ok w' := by
  simp only [createWithDurations, bind_ok, addU64_ok] at h
  obtain ⟨cl, hcl, en, ⟨hen, rfl⟩, h⟩ := h
  split at hcl
  · rename_i hc
    obtain ⟨hlt, rfl⟩ := addU64_ok.1 hcl
    exact ⟨fun _ => hlt, hen, by simpa [hc] using h⟩
  · rename_i hc
    cases hcl
    exact ⟨fun hc' => absurd hc' hc, hen, by simpa [hc] using h⟩

end Lockup

namespace Merkle

theorem loadTreasury_ok {rt : Runtime} {w : World} {a : Addr} {tr : Treasury} :
    loadTreasury rt w a = .ok tr ↔
      w.mi.treasury = some tr ∧ a = .treasury .merkle ∧ tr.bump = rt.bump a := by
  simp only [loadTreasury, bind_ok, require_ok, fetch_ok, pure_ok]
  constructor
  · rintro ⟨_, h2, _, h1, _, h3, rfl⟩; exact ⟨h1, h2, h3⟩
  · rintro ⟨h1, h2, h3⟩; exact ⟨(), h2, tr, h1, (), h3, rfl⟩

theorem checkCollectFees_ok {x : Nat} {u : Unit} : checkCollectFees x = .ok u ↔ 0 < x := by
  unfold checkCollectFees
  split <;> simp <;> omega

theorem collectFees_ok {rt : Runtime} {w w' : World} {c : CollectFeesAccts}
    (h : collectFees rt w c = .ok w') :
    ∃ tr amount, w.mi.treasury = some tr ∧
      Lockup.CollectOk rt w c.feeCollector c.feeRecipient c.treasury .merkle tr treasurySpace amount w' := by
  simp only [collectFees, bind_ok, require_ok, loadTreasury_ok, checkCollectFees_ok,
    Lockup.safeCollectible_ok, pure_ok] at h
  obtain ⟨_, hs, tr, ⟨h1, h2, h3⟩, _, hc, a, ⟨ho, rfl⟩, _, hp, _, hle, _, hov, rfl⟩ := h
  exact ⟨tr, _, h1, hs, h2, hc, ho, rfl, hp, rfl⟩

theorem initializeProgram_ok {rt : Runtime} {w w' : World} {c : InitializeAccts} {f p s : Addr}
    (h : initializeProgram rt w c f p s = .ok w') :
    c.initializer.canSign = true ∧ c.treasury = .treasury .merkle ∧ w.mi.treasury = none ∧
    ∃ l, LamRel c.initializer w.lamports l ∧
      w' = { w with lamports := l, mi := { w.mi with treasury := some ⟨rt.bump (.treasury .merkle), f, p, s⟩ } } := by
  simp only [initializeProgram, bind_ok, require_ok, pure_ok] at h
  obtain ⟨_, hs, _, ht, _, hn, w₁, hw, rfl⟩ := h
  obtain ⟨l, rfl, hl⟩ := payRent_ok hw
  refine ⟨hs, ht, hn, l, hl, ?_⟩
  rw [ht]; rfl

/-- What a successful `create_campaign` did. -/
structure CreateCampaignOk (rt : Runtime) (w : World) (c : CreateCampaignAccts) (p : CampaignParams)
    (w' : World) (dm : MintData) (b : Bank) (l : Addr → Nat) : Prop where
  signs : c.creator.canSign = true
  mint : w.bank.mints c.airdropTokenMint = some dm
  program : dm.program = c.airdropTokenProgram
  nameLen : p.name.length ≤ 32
  addr : c.campaign = .campaign c.creator p.merkleRoot p.campaignStartTime p.expirationTime p.name
    c.airdropTokenMint
  fresh : w.mi.campaigns c.campaign = none
  vaultAddr : c.campaignAta = .ata c.campaign c.airdropTokenProgram c.airdropTokenMint
  openVault : w.bank.openAccount c.campaignAta c.campaign c.airdropTokenMint c.airdropTokenProgram = .ok b
  fits : (Campaign.create c.airdropTokenMint (rt.bump c.campaign) p.campaignStartTime c.creator
    p.expirationTime p.ipfsCid p.merkleRoot p.name).encodedSize ≤ campaignSpace
  lam : LamRel c.creator w.lamports l
  result : w' = { w with
    lamports := l, bank := b
    mi := { w.mi with campaigns := upd w.mi.campaigns c.campaign (some (Campaign.create c.airdropTokenMint
      (rt.bump c.campaign) p.campaignStartTime c.creator p.expirationTime p.ipfsCid p.merkleRoot p.name)) }
    log := ⟨w.now, .createCampaign p.aggregateAmount c.campaign p.name p.campaignStartTime c.creator
      p.expirationTime p.ipfsCid p.merkleRoot p.recipientCount dm.decimals c.airdropTokenMint⟩ :: w.log }

theorem createCampaign_ok {rt : Runtime} {w w' : World} {c : CreateCampaignAccts} {p : CampaignParams}
    (h : createCampaign rt w c p = .ok w') : ∃ dm b l, CreateCampaignOk rt w c p w' dm b l := by
  simp only [createCampaign, bind_ok, require_ok, fetch_ok, pure_ok] at h
  obtain ⟨_, hs, dm, hdm, _, hp, _, hn, _, ha, _, hf, w₁, hw₁, w₂, hw₂, _, hfit, rfl⟩ := h
  obtain ⟨l₁, rfl, hl₁⟩ := payRent_ok hw₁
  obtain ⟨b, l₂, hva, hb, hl₂, rfl⟩ := createAta_ok hw₂
  exact ⟨dm, b, l₂, hs, hdm, hp, hn, ha, hf, hva, hb, hfit, hl₁.trans hl₂, rfl⟩

theorem checkClaim_ok {rt : Runtime} {now amount st ex idx : Nat} {proof : List Bytes32} {root : Bytes32}
    {r : Addr} {u : Unit} :
    checkClaim rt now amount st ex idx proof root r = .ok u ↔
      st ≤ now ∧ (ex = 0 ∨ now < ex) ∧ computeRoot rt (leafHash rt idx r amount) proof = root := by
  unfold checkClaim hasCampaignStarted hasExpired
  by_cases h1 : st ≤ now
  · simp only [h1, decide_true, Bool.not_true, Bool.false_eq_true, if_false, true_and]
    by_cases h2 : ex > 0 ∧ ex ≤ now
    · simp only [h2, decide_true, Bool.and_true, if_true]
      constructor
      · intro h; cases h
      · rintro ⟨h, _⟩; omega
    · have : (decide (ex > 0) && decide (ex ≤ now)) = false := by
        simp only [Bool.and_eq_false_iff, decide_eq_false_iff_not]; omega
      simp only [this, Bool.false_eq_true, if_false]
      split
      · rename_i h
        constructor
        · intro h'; cases h'
        · rintro ⟨_, h'⟩; exact absurd h' h
      · rename_i h
        simp only [ne_eq, Decidable.not_not] at h
        constructor
        · intro _; exact ⟨by omega, h⟩
        · intro _; rfl
  · simp only [h1, decide_false, Bool.not_false, if_true, false_and, iff_false]
    intro h; cases h

/-- What the account validation of `claim` established. -/
structure ClaimAccountsOk (rt : Runtime) (w : World) (c : ClaimAccts) (index : Nat) (cd : Campaign)
    (dm : MintData) (b : Bank) : Prop where
  signs : c.claimer.canSign = true
  treasury : ∃ tr, w.mi.treasury = some tr ∧ tr.bump = rt.bump c.treasury ∧
    c.chainlinkProgram = tr.chainlinkProgram ∧ c.chainlinkSolUsdFeed = tr.chainlinkSolUsdFeed
  treasuryAddr : c.treasury = .treasury .merkle
  campaign : w.mi.campaigns c.campaign = some cd
  mintAddr : c.airdropTokenMint = cd.airdropTokenMint
  mint : w.bank.mints c.airdropTokenMint = some dm
  vault : ∃ t, w.bank.tokens c.campaignAta = some t ∧ t.owner = c.campaign ∧ t.program = c.airdropTokenProgram
  vaultAddr : c.campaignAta = .ata c.campaign c.airdropTokenProgram c.airdropTokenMint
  ensure : w.bank.Ensure c.recipientAta c.recipient c.airdropTokenProgram c.airdropTokenMint b
  receiptAddr : c.claimReceipt = .claimReceipt c.campaign index
  receiptFresh : w.mi.receipts c.claimReceipt = false

theorem claimAccounts_ok {rt : Runtime} {w w₁ : World} {c : ClaimAccts} {index : Nat} {cd : Campaign}
    {dm : MintData} (h : claimAccounts rt w c index = .ok (w₁, cd, dm)) :
    ∃ b l, ClaimAccountsOk rt w c index cd dm b ∧ LamRel c.claimer w.lamports l ∧
      w₁ = { w with bank := b, lamports := l,
                    mi := { w.mi with receipts := upd w.mi.receipts c.claimReceipt true } } := by
  simp only [claimAccounts, bind_ok, require_ok, fetch_ok, pure_ok, loadTreasury_ok,
    checkAta_ok, Prod.mk.injEq] at h
  obtain ⟨_, hs, tr, ⟨ht, hta, htb⟩, cd', hcd, _, hm, dm', hdm, v, ⟨v1, v2, v3, v4⟩, _, c1, _, c2, w₂, he,
    _, hra, _, hrf, w₃, hw₃, rfl, rfl, rfl⟩ := h
  obtain ⟨b, l, hb, hl, rfl⟩ := ensureAta_ok he
  obtain ⟨l₂, rfl, hl₂⟩ := payRent_ok hw₃
  exact ⟨b, l₂, ⟨hs, ⟨tr, ht, htb, c1, c2⟩, hta, hcd, hm, hdm, ⟨v, v1, v2, v4⟩, v3, hb, hra, hrf⟩,
    hl.trans hl₂, rfl⟩

theorem campaignTransfer_ok {rt : Runtime} {w w' : World} {cd : Campaign} {a va dst m : Addr}
    {tp : TokenProgram} {amt dec : Nat} (h : campaignTransfer rt w cd a va dst m tp amt dec = .ok w') :
    a = cd.signerAddr ∧ cd.bump = rt.bump a ∧
    ∃ b, w.bank.transferChecked va dst a m tp amt dec = .ok b ∧ w' = { w with bank := b } := by
  simp only [campaignTransfer, bind_ok, require_ok] at h
  obtain ⟨_, ⟨h1, h2⟩, h3⟩ := h
  exact ⟨h1, h2, transferTokens_ok h3⟩

/-- What a successful `claim` did. -/
structure ClaimOk (rt : Runtime) (w : World) (c : ClaimAccts) (index amount : Nat) (proof : List Bytes32)
    (w' : World) (cd : Campaign) (dm : MintData) (b₁ b₂ : Bank) (l : Addr → Nat) : Prop where
  accts : ClaimAccountsOk rt w c index cd dm b₁
  started : cd.campaignStartTime ≤ w.now
  notExpired : cd.expirationTime = 0 ∨ w.now < cd.expirationTime
  proof_ok : computeRoot rt (leafHash rt index c.recipient amount) proof = cd.merkleRoot
  signerAddr : c.campaign = cd.signerAddr
  bump : cd.bump = rt.bump c.campaign
  transfer : b₁.transferChecked c.campaignAta c.recipientAta c.campaign c.airdropTokenMint
    c.airdropTokenProgram amount dm.decimals = .ok b₂
  lam : LamRel c.claimer w.lamports l
  result : w' = { w with
    lamports := l, bank := b₂
    mi := { w.mi with
      receipts := upd w.mi.receipts c.claimReceipt true
      campaigns := upd w.mi.campaigns c.campaign (some (cd.claim w.now)) }
    log := ⟨w.now, .claim amount c.campaign c.claimer c.claimReceipt 0 index c.recipient⟩ :: w.log }

theorem claim_ok {rt : Runtime} {w w' : World} {c : ClaimAccts} {index amount : Nat} {proof : List Bytes32}
    (h : claim rt w c index amount proof = .ok w') :
    ∃ cd dm b₁ b₂ l, ClaimOk rt w c index amount proof w' cd dm b₁ b₂ l := by
  simp only [claim, bind_ok] at h
  obtain ⟨⟨w₁, cd, dm⟩, ha, hh⟩ := h
  obtain ⟨b₁, l, hacc, hl, rfl⟩ := claimAccounts_ok ha
  simp only [claimHandler, bind_ok, checkClaim_ok, CLAIM_FEE_USD, chargeFee_zero, ok_inj, pure_ok] at hh
  obtain ⟨_, ⟨h1, h2, h3⟩, p, rfl, w₂, hw₂, rfl⟩ := hh
  obtain ⟨hsa, hbump, b₂, hb, rfl⟩ := campaignTransfer_ok hw₂
  exact ⟨cd, dm, b₁, b₂, l, hacc, h1, h2, h3, hsa, hbump, hb, hl, rfl⟩

/-- What the account validation of `clawback` established. -/
structure ClawbackAccountsOk (w : World) (c : ClawbackAccts) (cd : Campaign)
    (dm : MintData) (b : Bank) : Prop where
  signs : c.campaignCreator.canSign = true
  campaign : w.mi.campaigns c.campaign = some cd
  creator : c.campaignCreator = cd.creator
  mintAddr : c.airdropTokenMint = cd.airdropTokenMint
  mint : w.bank.mints c.airdropTokenMint = some dm
  vault : ∃ t, w.bank.tokens c.campaignAta = some t ∧ t.owner = c.campaign ∧ t.program = c.airdropTokenProgram
  vaultAddr : c.campaignAta = .ata c.campaign c.airdropTokenProgram c.airdropTokenMint
  ensure : w.bank.Ensure c.clawbackRecipientAta c.clawbackRecipient c.airdropTokenProgram
    c.airdropTokenMint b

/-- What a successful `clawback` did. -/
structure ClawbackOk (rt : Runtime) (w : World) (c : ClawbackAccts) (amount : Nat)
    (w' : World) (cd : Campaign) (dm : MintData) (b₁ b₂ : Bank) (l : Addr → Nat) : Prop where
  accts : ClawbackAccountsOk w c cd dm b₁
  allowed : checkClawback w.now cd.expirationTime cd.firstClaimTime = .ok ()
  signerAddr : c.campaign = cd.signerAddr
  bump : cd.bump = rt.bump c.campaign
  transfer : b₁.transferChecked c.campaignAta c.clawbackRecipientAta c.campaign c.airdropTokenMint
    c.airdropTokenProgram amount dm.decimals = .ok b₂
  lam : LamRel c.campaignCreator w.lamports l
  result : w' = { w with
    lamports := l, bank := b₂
    log := ⟨w.now, .clawback amount c.campaign c.campaignCreator c.clawbackRecipient⟩ :: w.log }

theorem clawback_ok {rt : Runtime} {w w' : World} {c : ClawbackAccts} {amount : Nat}
    (h : clawback rt w c amount = .ok w') :
    ∃ cd dm b₁ b₂ l, ClawbackOk rt w c amount w' cd dm b₁ b₂ l := by
  simp only [clawback, clawbackAccounts, clawbackHandler, bind_ok, require_ok, fetch_ok, pure_ok,
    checkAta_ok] at h
  obtain ⟨⟨w₁, cd, dm⟩, ⟨_, hs, cd', hcd, _, hcr, _, hm, dm', hdm, v, ⟨v1, v2, v3, v4⟩, w₂, he, heq⟩, _, hck,
    w₃, hw₃, rfl⟩ := h
  cases heq
  obtain ⟨b, l, hb, hl, rfl⟩ := ensureAta_ok he
  obtain ⟨hsa, hbump, b₂, hb₂, rfl⟩ := campaignTransfer_ok hw₃
  exact ⟨cd, dm, b, b₂, l, ⟨hs, hcd, hcr, hm, hdm, ⟨v, v1, v2, v4⟩, v3, hb⟩, hck, hsa, hbump, hb₂, hl, rfl⟩

end Merkle
end Solsab
