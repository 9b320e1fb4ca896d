import Verif.Props.Unstoppable
import Verif.Props.Flows
import Verif.Proofs.Count
/-!
# C62, continued: token accounts and vaults cannot be purged either
-/

namespace Solsab.Props

open Spec Lockup Demo

theorem LamRel.up {p : Addr} {l l' : Addr → Nat} (h : LamRel p l l') {o m : Addr} {tp : TokenProgram}
    (hp : p.canSign = true) : l (.ata o tp m) ≤ l' (.ata o tp m) := by
  refine h _ ?_
  rintro rfl; cases hp

/-- Outside operations: an associated account that exists afterwards existed before and has not lost lamports, or has just
been opened with its rent. -/
theorem env_ata {rt : Runtime} {w w' : World} {i : EnvIx} (h : i.run rt w = .ok w') {o m : Addr} {tp : TokenProgram}
    (ht : w'.bank.tokens (.ata o tp m) ≠ none) :
    (w.bank.tokens (.ata o tp m) ≠ none ∧ w.lamports (.ata o tp m) ≤ w'.lamports (.ata o tp m)) ∨
    (w.bank.tokens (.ata o tp m) = none ∧ rt.rent (tokenSize rt m tp) ≤ w'.lamports (.ata o tp m)) := by
  have old : ∀ {b' : Bank}, NewIn w.bank b' [] → b'.tokens (.ata o tp m) ≠ none → w.bank.tokens (.ata o tp m) ≠ none := by
    intro b' hn hb
    rcases hn _ hb with h | h
    · exact h
    · cases h
  cases i with
  | tick t =>
    simp only [EnvIx.run, bind_ok, require_ok, pure_ok] at h
    obtain ⟨_, _, rfl⟩ := h; exact .inl ⟨ht, Nat.le_refl _⟩
  | setOracle p f d =>
    simp only [EnvIx.run, pure_ok] at h
    subst h; exact .inl ⟨ht, Nat.le_refl _⟩
  | setWallet n amount =>
    simp only [EnvIx.run, pure_ok] at h
    subst h
    refine .inl ⟨ht, Nat.le_of_eq ?_⟩
    have hne : Addr.ata o tp m ≠ .key n := fun e => by cases e
    exact (upd_ne w.lamports amount hne).symm
  | sendLamports src dst amount =>
    simp only [EnvIx.run, bind_ok, require_ok] at h
    obtain ⟨_, h1, h2⟩ := h
    obtain ⟨l, rfl, hl⟩ := systemTransfer_ok h2
    exact .inl ⟨ht, LamRel.up hl h1⟩
  | createMint n md =>
    simp only [EnvIx.run, bind_ok, require_ok, pure_ok] at h
    obtain ⟨_, h1, b, h2, rfl⟩ := h; exact .inl ⟨old (.openMint h2) ht, Nat.le_refl _⟩
  | setFee m f =>
    simp only [EnvIx.run, bind_ok, require_ok, fetch_ok, pure_ok] at h
    obtain ⟨md, h1, _, h2, rfl⟩ := h; exact .inl ⟨ht, Nat.le_refl _⟩
  | setBlocked n x y =>
    simp only [EnvIx.run, bind_ok, require_ok, fetch_ok, pure_ok] at h
    obtain ⟨md, h1, _, h2, rfl⟩ := h; exact .inl ⟨ht, Nat.le_refl _⟩
  | setMintAuthority m s a =>
    simp only [EnvIx.run, bind_ok, require_ok, fetch_ok, pure_ok] at h
    obtain ⟨md, h1, _, ⟨h2, h3⟩, rfl⟩ := h; exact .inl ⟨ht, Nat.le_refl _⟩
  | setFreezeAuthority m s a =>
    simp only [EnvIx.run, bind_ok, require_ok, fetch_ok, pure_ok] at h
    obtain ⟨md, h1, _, ⟨h2, h3⟩, rfl⟩ := h; exact .inl ⟨ht, Nat.le_refl _⟩
  | mintTo m d x tp amt =>
    simp only [EnvIx.run, bind_ok, require_ok, pure_ok] at h
    obtain ⟨_, h1, b, h2, rfl⟩ := h; exact .inl ⟨old (.mintTo h2) ht, Nat.le_refl _⟩
  | transfer s d x m tp amt dec =>
    simp only [EnvIx.run, bind_ok, require_ok, pure_ok] at h
    obtain ⟨_, h1, b, h2, rfl⟩ := h; exact .inl ⟨old (.transferChecked h2) ht, Nat.le_refl _⟩
  | delegateTransfer s d x m tp amt =>
    simp only [EnvIx.run, bind_ok, require_ok, fetch_ok, pure_ok] at h
    obtain ⟨md, h1, _, ⟨h2, _⟩, b, h3, rfl⟩ := h; exact .inl ⟨old (.transferCore h3) ht, Nat.le_refl _⟩
  | burn s o amt =>
    simp only [EnvIx.run, bind_ok, require_ok, fetch_ok, pure_ok] at h
    obtain ⟨t, h1, _, ⟨h2, h3⟩, b, h4, rfl⟩ := h; exact .inl ⟨old (.burn h4) ht, Nat.le_refl _⟩
  | delegateBurn s x amt =>
    simp only [EnvIx.run, bind_ok, require_ok, fetch_ok, pure_ok] at h
    obtain ⟨t, h1, md, h2, _, ⟨h3, _⟩, b, h4, rfl⟩ := h; exact .inl ⟨old (.burn h4) ht, Nat.le_refl _⟩
  | approve a' o d k =>
    simp only [EnvIx.run, bind_ok, require_ok, fetch_ok, pure_ok] at h
    obtain ⟨t, h1, _, h2, _, h3, rfl⟩ := h; exact .inl ⟨ht, Nat.le_refl _⟩
  | changeSettings a' x s =>
    simp only [EnvIx.run, bind_ok, require_ok, fetch_ok, pure_ok] at h
    obtain ⟨t, h1, _, h2, _, h3, rfl⟩ := h; exact .inl ⟨ht, Nat.le_refl _⟩
  | revoke a' x =>
    simp only [EnvIx.run, bind_ok, require_ok, fetch_ok, pure_ok] at h
    obtain ⟨t, h1, _, h2, rfl⟩ := h; exact .inl ⟨ht, Nat.le_refl _⟩
  | approvedTransfer s d x m tp amt dec =>
    simp only [EnvIx.run, bind_ok, require_ok, fetch_ok, pure_ok] at h
    obtain ⟨t, h1, ap, h2, _, h3, _, h6, b, h7, rfl⟩ := h; exact .inl ⟨old (.transferChecked h7) ht, Nat.le_refl _⟩
  | approvedBurn s x amt =>
    simp only [EnvIx.run, bind_ok, require_ok, fetch_ok, pure_ok] at h
    obtain ⟨t, h1, ap, h2, _, h3, _, h6, b, h7, rfl⟩ := h; exact .inl ⟨old (.burn h7) ht, Nat.le_refl _⟩
  | metaplexFreeze a' x f =>
    simp only [EnvIx.run, bind_ok, require_ok, fetch_ok, pure_ok] at h
    obtain ⟨t, h1, md, h2, ap, h3, _, h4, _, h5, rfl⟩ := h; exact .inl ⟨old (.set _ h1) ht, Nat.le_refl _⟩
  | metaplexBurn acc o m =>
    obtain ⟨xs, hl, hn⟩ := env_new (i := .metaplexBurn acc o m) h
    simp only [EnvIx.run, bind_ok, require_ok, fetch_ok, pure_ok] at h
    obtain ⟨t, h1, _, ⟨h2, h3⟩, _, ⟨h4, h5⟩, md, h6, _, _, b, h7, rfl⟩ := h
    refine .inl ⟨old (NewIn.trans (.burn h7) ?_) ht, Nat.le_refl _⟩
    obtain ⟨tf, md', e1, e2, e3, e4, rfl⟩ := burn_ok h7
    exact .set (t := { tf with amount := tf.amount - 1 }) _ (by exact upd_same _ _ _)
  | metaplexCreate | metaplexUpdate | metaplexSign | metaplexVerify | metaplexUnverify =>
    obtain ⟨m, rfl, he⟩ := metaStep_ok rfl h
    exact .inl ⟨ht, Nat.le_refl _⟩
  | createAta payer addr owner tp' mint =>
    simp only [EnvIx.run, bind_ok, require_ok] at h
    obtain ⟨_, h1, h2⟩ := h
    obtain ⟨b, l, ha, hb, hl, rfl⟩ := createAta_ok h2
    by_cases e : Addr.ata o tp m = addr
    · right
      have hf := (createAta_flow h2).1
      rw [ha] at e
      have hp : addr ≠ payer := by rw [ha]; rintro rfl; cases h1
      have := hf.paid hp (List.mem_singleton.mpr rfl)
      rw [ha] at this
      cases e
      refine ⟨?_, this⟩
      rw [← ha]; exact (openAccount_ok hb).2.1
    · left
      refine ⟨?_, LamRel.up hl h1⟩
      rcases NewIn.openAccount hb _ ht with h | h
      · exact h
      · simp only [List.mem_singleton] at h; exact absurd h e
  | createTokenAccount n o' m' tp' =>
    simp only [EnvIx.run, bind_ok, pure_ok] at h
    obtain ⟨b, h1, rfl⟩ := h
    rcases NewIn.openAccount h1 _ ht with h | h
    · exact .inl ⟨h, Nat.le_refl _⟩
    · simp only [List.mem_singleton] at h; cases h
  | setOwner a o o' =>
    simp only [EnvIx.run, bind_ok, require_ok, fetch_ok, pure_ok] at h
    obtain ⟨t, h1, _, ⟨h2, h3⟩, _, _, rfl⟩ := h; exact .inl ⟨old (.set _ h1) ht, Nat.le_refl _⟩
  | closeToken a o' d =>
    simp only [EnvIx.run, bind_ok, require_ok, fetch_ok, pure_ok] at h
    obtain ⟨t, h1, _, ⟨h2, h3⟩, _, h4, rfl⟩ := h
    have hne : Addr.ata o tp m ≠ a := by
      rintro rfl
      exact ht (upd_same _ _ _)
    refine .inl ⟨old (.set _ h1) ht, ?_⟩
    dsimp only
    by_cases e : Addr.ata o tp m = d
    · rw [← e, upd_same, upd_ne _ _ hne]; exact Nat.le_add_right _ _
    · rw [upd_ne _ _ e, upd_ne _ _ hne]
  | setFrozen a x f =>
    simp only [EnvIx.run, bind_ok, require_ok, fetch_ok, pure_ok] at h
    obtain ⟨t, h1, md, h2, _, ⟨h3, h4⟩, rfl⟩ := h; exact .inl ⟨old (.set _ h1) ht, Nat.le_refl _⟩

theorem newIn_two {w : World} {b' : Bank} {x y a : Addr} (hn : NewIn w.bank b' [x, y]) (h : b'.tokens a ≠ none) :
    w.bank.tokens a ≠ none ∨ a = x ∨ a = y := by
  rcases hn a h with h | h
  · exact .inl h
  · right; simpa using h

theorem newIn_one {w : World} {b' : Bank} {x a : Addr} (hn : NewIn w.bank b' [x]) (h : b'.tokens a ≠ none) :
    w.bank.tokens a ≠ none ∨ a = x := by
  rcases hn a h with h | h
  · exact .inl h
  · right; simpa using h

/-- Token accounts: what appears is listed. -/
theorem token_new {rt : Runtime} {w w' : World} {ix : Ix} {p : Addr} (hp : ix.payer = some p)
    (hs : step rt w ix = .ok w') {a : Addr} (h : w'.bank.tokens a ≠ none) :
    w.bank.tokens a ≠ none ∨ ∃ o tp m, a = .ata o tp m ∧ (a, tokenSize rt m tp) ∈ opens rt w ix := by
  have cr : ∀ {c : Lockup.CreateAccts} {q : Lockup.CreateParams}, Lockup.createWithTimestamps rt w c q = .ok w' →
      w.bank.tokens a ≠ none ∨ ∃ o tp m, a = .ata o tp m ∧ (a, tokenSize rt m tp) ∈
      [(.streamNftMint c.sender q.salt, 82),
       (.ata c.recipient c.nftTokenProgram (.streamNftMint c.sender q.salt),
         tokenSize rt (.streamNftMint c.sender q.salt) c.nftTokenProgram),
       (streamAddr c.sender q.salt, 156),
       (.ata (streamAddr c.sender q.salt) c.depositTokenProgram c.depositTokenMint,
         tokenSize rt c.depositTokenMint c.depositTokenProgram),
       (.metadata (.streamNftMint c.sender q.salt), rt.metadataSpace),
       (.edition (.streamNftMint c.sender q.salt), rt.editionSpace)] := by
    intro c q hq
    obtain ⟨nd, dm, md, cm, k, name, b₁, b₂, b₃, b₄, b₆, l, hq⟩ := Lockup.create_ok hq
    rw [hq.result] at h
    have hn := ((NewIn.openMint hq.openMint).trans ((NewIn.openAccount hq.openNftAta).trans
      (.openAccount hq.openVault))).trans ((NewIn.mintTo hq.mintTo).trans (.lock hq.transfer))
    rcases newIn_two hn h with h | h | h
    · exact .inl h
    · rw [hq.nftAtaAddr, hq.nftMintAddr] at h
      exact .inr ⟨_, _, _, h, by rw [h]; simp⟩
    · rw [hq.vaultAddr, hq.streamAddr, hq.nftMintAddr] at h
      exact .inr ⟨_, _, _, h, by rw [h]; simp [streamAddr]⟩
  have en : ∀ {b₁ b₂ : Bank} {x y z : Addr} {tq : TokenProgram}, w.bank.Ensure x y tq z b₁ → NewIn b₁ b₂ [] →
      b₂.tokens a ≠ none →
      w.bank.tokens a ≠ none ∨ ∃ o tp m, a = .ata o tp m ∧ (a, tokenSize rt m tp) ∈ absent rt w x tq z := by
    intro b₁ b₂ x y z tq he hn hb
    by_cases h0 : w.bank.tokens a = none
    · right
      rcases newIn_one ((NewIn.ensure he).trans hn) hb with h | h
      · exact absurd h0 h
      · have hx := he.1
        refine ⟨_, _, _, h.trans hx, ?_⟩
        unfold absent
        rw [← h, if_pos h0]
        exact List.mem_singleton.mpr rfl
    · exact .inl h0
  have wd : ∀ {c : Lockup.WithdrawAccts} {x}, Lockup.withdraw rt w c x = .ok w' →
      w.bank.tokens a ≠ none ∨ ∃ o tp m, a = .ata o tp m ∧ (a, tokenSize rt m tp) ∈
        absent rt w c.withdrawalRecipientAta c.depositedTokenProgram c.depositedTokenMint := by
    intro c x hq
    obtain ⟨_, _, _, _, _, _, hq⟩ := Lockup.withdraw_ok hq
    rw [hq.result] at h
    exact en hq.accts.ensure (.transferChecked hq.transfer) h
  cases ix with
  | env i => cases hp
  | lockup i =>
    cases i with
    | «initialize» c f o' s =>
      obtain ⟨_, _, _, _, _, hq⟩ := Lockup.initializeProgram_ok hs
      rw [hq.result] at h
      have hn := ((NewIn.openMint hq.openMint).trans (.openAccount hq.openAta)).trans
        ((NewIn.mintTo hq.mintTo).trans (.of_tokens rfl))
      rcases newIn_one hn h with h | h
      · exact .inl h
      · rw [hq.ataAddr] at h
        exact .inr ⟨_, _, _, h, by rw [h]; simp [opens]⟩
    | createWithTimestamps c salt dep st cl en su cu ca => exact cr hs
    | createWithDurations c salt dep cd td su cu ca =>
      obtain ⟨h1, h2, h⟩ := Lockup.createWithDurations_eq hs
      exact cr h
    | withdraw c _ => exact wd hs
    | withdrawMax c =>
      obtain ⟨_, _, _, _, h⟩ := Lockup.withdrawMax_ok hs
      exact wd h
    | cancel c =>
      obtain ⟨_, _, _, _, _, _, hq⟩ := Lockup.cancel_ok hs
      rw [hq.result] at h
      exact en hq.accts.ensure (.transferChecked hq.transfer) h
    | renounce c =>
      obtain ⟨_, _, hq⟩ := Lockup.renounce_ok hs
      rw [hq.result] at h
      exact .inl h
    | collectFees c =>
      obtain ⟨_, _, _, hq⟩ := Lockup.collectFees_ok hs
      rw [hq.result] at h
      exact .inl h
  | merkle i =>
    cases i with
    | «initialize» c f o s =>
      obtain ⟨_, _, _, _, _, hq⟩ := Merkle.initializeProgram_ok hs
      rw [hq] at h
      exact .inl h
    | createCampaign c root st ex name cid agg cnt =>
      obtain ⟨_, _, _, hq⟩ := Merkle.createCampaign_ok hs
      rw [hq.result] at h
      rcases newIn_one (NewIn.openAccount hq.openVault) h with h | h
      · exact .inl h
      · rw [hq.vaultAddr, hq.addr] at h
        exact .inr ⟨_, _, _, h, by rw [h]; simp [opens]⟩
    | claim c i x proof =>
      obtain ⟨_, _, _, _, _, hq⟩ := Merkle.claim_ok hs
      rw [hq.result] at h
      rcases en hq.accts.ensure (.transferChecked hq.transfer) h with h | ⟨o, tp, m, h, h'⟩
      · exact .inl h
      · exact .inr ⟨o, tp, m, h, List.mem_append_left _ h'⟩
    | clawback c x =>
      obtain ⟨_, _, _, _, _, hq⟩ := Merkle.clawback_ok hs
      rw [hq.result] at h
      exact en hq.accts.ensure (.transferChecked hq.transfer) h
    | collectFees c =>
      obtain ⟨_, _, _, hq⟩ := Merkle.collectFees_ok hs
      rw [hq.result] at h
      exact .inl h

/-- The metadata that appears is listed. -/
theorem meta_new {rt : Runtime} {w w' : World} {ix : Ix} {p : Addr} (hp : ix.payer = some p)
    (hs : step rt w ix = .ok w') {m : Addr} (h : w'.metas m ≠ none) :
    w.metas m ≠ none ∨ (.metadata m, rt.metadataSpace) ∈ opens rt w ix := by
  have cr : ∀ {c : Lockup.CreateAccts} {q : Lockup.CreateParams}, Lockup.createWithTimestamps rt w c q = .ok w' →
      w.metas m ≠ none ∨ m = .streamNftMint c.sender q.salt := by
    intro c q hq
    obtain ⟨nd, dm, md, cm, k, name, b₁, b₂, b₃, b₄, b₆, l, hq⟩ := Lockup.create_ok hq
    rw [hq.result] at h
    by_cases e : m = c.streamNftMint
    · rw [hq.nftMintAddr] at e; exact .inr e
    · left
      by_cases e' : m = .nftCollectionMint
      · rw [e', hq.collMeta]; exact fun h => by cases h
      · dsimp only at h
        rw [upd_ne _ _ e', upd_ne _ _ e, upd_ne _ _ e] at h
        exact h
  have wd : ∀ {c : Lockup.WithdrawAccts} {x}, Lockup.withdraw rt w c x = .ok w' → w.metas m ≠ none := by
    intro c x hq
    obtain ⟨_, _, _, _, _, _, hq⟩ := Lockup.withdraw_ok hq
    rw [hq.result] at h
    exact h
  cases ix with
  | env i => cases hp
  | lockup i =>
    cases i with
    | «initialize» c f o' s =>
      obtain ⟨_, _, _, _, _, hq⟩ := Lockup.initializeProgram_ok hs
      rw [hq.result] at h
      by_cases e : m = .nftCollectionMint
      · right; rw [e]; simp [opens, nftAccounts]
      · left
        dsimp only at h
        rw [upd_ne _ _ e] at h
        exact h
    | createWithTimestamps c salt dep st cl en su cu ca =>
      rcases cr hs with h | h
      · exact .inl h
      · right; rw [h]; simp [opens, nftAccounts]
    | createWithDurations c salt dep cd td su cu ca =>
      obtain ⟨h1, h2, h'⟩ := Lockup.createWithDurations_eq hs
      rcases cr h' with h | h
      · exact .inl h
      · right; rw [h]; simp [opens, nftAccounts]
    | withdraw c a => exact .inl (wd hs)
    | withdrawMax c =>
      obtain ⟨_, _, _, _, h⟩ := Lockup.withdrawMax_ok hs
      exact .inl (wd h)
    | cancel c =>
      obtain ⟨_, _, _, _, _, _, hq⟩ := Lockup.cancel_ok hs
      rw [hq.result] at h
      exact .inl h
    | renounce c =>
      obtain ⟨_, _, hq⟩ := Lockup.renounce_ok hs
      rw [hq.result] at h
      exact .inl h
    | collectFees c =>
      obtain ⟨_, _, _, hq⟩ := Lockup.collectFees_ok hs
      rw [hq.result] at h
      exact .inl h
  | merkle i =>
    cases i with
    | «initialize» c f o s =>
      obtain ⟨_, _, _, _, _, hq⟩ := Merkle.initializeProgram_ok hs
      rw [hq] at h
      exact .inl h
    | createCampaign c root st ex name cid agg cnt =>
      obtain ⟨_, _, _, hq⟩ := Merkle.createCampaign_ok hs
      rw [hq.result] at h
      exact .inl h
    | claim c i x proof =>
      obtain ⟨_, _, _, _, _, hq⟩ := Merkle.claim_ok hs
      rw [hq.result] at h
      exact .inl h
    | clawback c x =>
      obtain ⟨_, _, _, _, _, hq⟩ := Merkle.clawback_ok hs
      rw [hq.result] at h
      exact .inl h
    | collectFees c =>
      obtain ⟨_, _, _, hq⟩ := Merkle.collectFees_ok hs
      rw [hq.result] at h
      exact .inl h

/-- **C60**: the list of accounts an instruction opens is complete: every account of the two programs, token account, mint
and metadata account that exists after an instruction existed before it or is in the list, with its size. -/
theorem C60_opened {rt : Runtime} {w w' : World} {ix : Ix} {p : Addr} (hp : ix.payer = some p)
    (hs : step rt w ix = .ok w') :
    (∀ a k, ProgramAccount w' a k → ProgramAccount w a k ∨ (a, k) ∈ opens rt w ix) ∧
    (∀ a, w'.bank.tokens a ≠ none →
      w.bank.tokens a ≠ none ∨ ∃ o tp m, a = .ata o tp m ∧ (a, tokenSize rt m tp) ∈ opens rt w ix) ∧
    (∀ m, w'.bank.mints m ≠ none → w.bank.mints m ≠ none ∨ (m, 82) ∈ opens rt w ix) ∧
    (∀ m, w'.metas m ≠ none → w.metas m ≠ none ∨ (.metadata m, rt.metadataSpace) ∈ opens rt w ix) := by
  refine ⟨fun a k h => programAccount_new hs h, fun a h => token_new hp hs h, fun m h => ?_, fun m h => meta_new hp hs h⟩
  by_cases hn : newNft ix = some m
  · right
    cases ix with
    | env i => cases hp
    | lockup i => cases i <;> first | (cases hn; simp [opens]; done) | (cases hn; done)
    | merkle i => cases i <;> cases hn
  · rw [(C61_tokens_conserved hp hs hn).1] at h
    exact .inl h

/-- A withdrawal opens the recipient's token account, and the list says so. -/
example := C60_opened (ix := ixWithdraw) (w := world2) rfl (step_after (by decide +kernel))
example : world2.bank.tokens (ataOf bob) = none ∧ opens Demo.rt world2 ixWithdraw = [(ataOf bob, tokenSize Demo.rt Demo.mint tok)] := by
  decide +kernel

/-- **C62**: every associated token account that exists, whosever it is, holds the rent minimum of its size. -/
theorem C62_token_accounts {rt : Runtime} {w : World} (hr : Reachable rt w) {o m : Addr} {tp : TokenProgram}
    {t : TokenData} (ht : w.bank.tokens (.ata o tp m) = some t) :
    rt.rent (tokenSize rt m tp) ≤ w.lamports (.ata o tp m) := by
  have h : w.bank.tokens (.ata o tp m) ≠ none := by rw [ht]; exact fun e => by cases e
  clear ht t
  obtain ⟨w₀, hg, hst⟩ := hr
  induction hst with
  | refl => exact absurd (hg.no_tokens _) h
  | @tail w₁ w₂ ix h1 h2 ih =>
    cases hp : ix.payer with
    | none =>
      cases ix with
      | env i =>
        rcases env_ata h2 h with ⟨h', hl⟩ | ⟨_, h'⟩
        · exact Nat.le_trans (ih h') hl
        · exact h'
      | lockup i => cases i <;> cases hp
      | merkle i => cases i <;> cases hp
    | some p =>
      have hsig : ix.collects = none → Addr.ata o tp m ≠ p := by
        intro hc e
        have := (step_flow hp hc h2).1
        rw [← e] at this; cases this
      rcases token_new hp h2 h with h' | ⟨o', tp', m', he, h'⟩
      · refine Nat.le_trans (ih h') ((C60_conserved hp h2).2 _ ?_)
        cases hc : ix.collects with
        | none => exact hsig hc
        | some q => exact fun e => by cases e
      · cases he
        cases hc : ix.collects with
        | none => exact (step_flow hp hc h2).2.paid (hsig hc) h'
        | some q =>
          cases ix with
          | env i => cases hc
          | lockup i => cases i <;> first | (cases hc; done) | (cases h')
          | merkle i => cases i <;> first | (cases hc; done) | (cases h')

example := C62_token_accounts reach7 (o := bob) (m := Demo.mint) (tp := tok) (t := ⟨tok, Demo.mint, bob, 1033, false⟩)
  (by decide +kernel)

/-- A step never takes lamports from an associated token account that exists before and after it. -/
theorem ata_lamports_step {rt : Runtime} {w w' : World} {ix : Ix} (hs : step rt w ix = .ok w') {o m : Addr}
    {tp : TokenProgram} (h : w.bank.tokens (.ata o tp m) ≠ none) (h' : w'.bank.tokens (.ata o tp m) ≠ none) :
    w.lamports (.ata o tp m) ≤ w'.lamports (.ata o tp m) := by
  cases hp : ix.payer with
  | none =>
    cases ix with
    | env i =>
      rcases env_ata hs h' with ⟨_, hl⟩ | ⟨hn, _⟩
      · exact hl
      · exact absurd hn h
    | lockup i => cases i <;> cases hp
    | merkle i => cases i <;> cases hp
  | some p =>
    refine (C60_conserved hp hs).2 _ ?_
    cases hc : ix.collects with
    | none =>
      intro e
      have := (step_flow hp hc hs).1
      rw [← e] at this; cases this
    | some q => exact fun e => by cases e

/-- `x` is a stream paying `m`, or a campaign airdropping `m`: the accounts that own a vault. -/
def HasVault (w : World) (x m : Addr) : Prop :=
  (∃ sd, w.lk.streams x = some sd ∧ sd.depositedTokenMint = m) ∨
  (∃ cd, w.mi.campaigns x = some cd ∧ cd.airdropTokenMint = m)

theorem HasVault.exists {rt : Runtime} {w : World} (hr : Reachable rt w) {x m : Addr} (h : HasVault w x m) :
    ∃ md t, w.bank.mints m = some md ∧ w.bank.tokens (.ata x md.program m) = some t := by
  rcases h with ⟨sd, h, rfl⟩ | ⟨cd, h, rfl⟩
  · obtain ⟨md, t, hv⟩ := hr.vaultsOK _ _ h
    exact ⟨md, t, hv.mint, hv.vault⟩
  · obtain ⟨md, t, hv⟩ := hr.cvaultOK _ _ h
    exact ⟨md, t, hv.mint, hv.vault⟩

theorem HasVault.steps {rt : Runtime} {w w' : World} (hr : Reachable rt w) (hs : Steps rt w w') {x m : Addr}
    (h : HasVault w x m) : HasVault w' x m := by
  rcases h with ⟨sd, h, rfl⟩ | ⟨cd, h, rfl⟩
  · obtain ⟨sd', h', hl⟩ := Steps.stream hr hs h
    exact .inl ⟨sd', h', hl.terms.mint⟩
  · obtain ⟨t, h', _⟩ := Steps.campaign hs h
    exact .inr ⟨_, h', rfl⟩

/-- **C62**: the vault of a stream or campaign exists for ever, under the token program its mint had when it was opened,
always holds the rent minimum of its size, and never gives up lamports: neither its token balance nor the state it
belongs to can be lost to a purge, and nobody can close it. -/
theorem C62_vaults {rt : Runtime} {w w' : World} (hr : Reachable rt w) (hs : Steps rt w w') {x m : Addr} {md : MintData}
    (h : HasVault w x m) (hm : w.bank.mints m = some md) :
    (∃ t, w'.bank.tokens (.ata x md.program m) = some t) ∧
    rt.rent (tokenSize rt m md.program) ≤ w'.lamports (.ata x md.program m) ∧
    w.lamports (.ata x md.program m) ≤ w'.lamports (.ata x md.program m) := by
  have ex : ∀ {w₁}, Steps rt w w₁ → ∃ t, w₁.bank.tokens (.ata x md.program m) = some t := by
    intro w₁ hs
    obtain ⟨md₁, t, h1, h2⟩ := (h.steps hr hs).exists (hr.steps hs)
    obtain ⟨md₂, h3, h4⟩ := Steps.mintKept hs hm
    rw [h1] at h3; cases h3
    rw [h4.1] at h2
    exact ⟨t, h2⟩
  obtain ⟨t, ht⟩ := ex hs
  refine ⟨⟨t, ht⟩, C62_token_accounts (hr.steps hs) ht, ?_⟩
  clear ht t
  induction hs with
  | refl => exact Nat.le_refl _
  | @tail w₁ w₂ ix h1 h2 ih =>
    obtain ⟨t₁, e1⟩ := ex h1
    obtain ⟨t₂, e2⟩ := ex (h1.tail ix h2)
    exact Nat.le_trans ih (ata_lamports_step h2 (by rw [e1]; nofun) (by rw [e2]; nofun))

example := C62_vaults reach2 steps23 (x := camp) (m := Demo.mint) (md := (world2.bank.mints Demo.mint).get (by decide +kernel))
  (.inr ⟨_, Option.some_get (x := world2.mi.campaigns camp) (by decide +kernel) |>.symm, by decide +kernel⟩)
  (Option.some_get _).symm
example := C62_vaults reach2 steps23 (x := str 1) (m := Demo.mint) (md := (world2.bank.mints Demo.mint).get (by decide +kernel))
  (.inl ⟨_, Option.some_get (x := world2.lk.streams (str 1)) (by decide +kernel) |>.symm, by decide +kernel⟩)
  (Option.some_get _).symm

end Solsab.Props
