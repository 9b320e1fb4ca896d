import Verif.Proofs.BankInv
import Verif.Spec.Api
/-!
# Case analysis of a successful step
-/

namespace Solsab

/-- Numeric bounds of the create arguments. -/
structure ParamsBounded (p : Lockup.CreateParams) : Prop where
  salt : p.salt < 2 ^ 128
  dep : p.depositAmount < 2 ^ 64
  start : p.startTime < 2 ^ 64
  cliff : p.cliffTime < 2 ^ 64
  «end» : p.endTime < 2 ^ 64
  su : p.startUnlockAmount < 2 ^ 64
  cu : p.cliffUnlockAmount < 2 ^ 64

/-- What a successful step was. -/
inductive Did (rt : Runtime) (w : World) (ix : Ix) (w' : World) : Prop
  | init {c f p s md b₁ b₂ b₃ l} (hix : ix = .lockup (.initialize c f p s))
      (h : Lockup.InitializeOk rt w c f p s w' md b₁ b₂ b₃ l)
  | create {c p nd dm md cm k name b₁ b₂ b₃ b₄ b₆ l} (hix : ix.creates = some c.streamData)
      (hp : ParamsBounded p)
      (h : Lockup.CreateOk rt w c p w' nd dm md cm k name b₁ b₂ b₃ b₄ b₆ l)
  | withdraw {c amount sd sd' dm b₁ b₂ l} (hix : ix.withdrawsFrom = some c.streamData)
      (h : Lockup.WithdrawOk rt w c amount w' sd sd' dm b₁ b₂ l)
  | cancel {c sd dm streamed b₁ b₂ l} (hix : ix = .lockup (.cancel c))
      (h : Lockup.CancelOk rt w c w' sd dm streamed b₁ b₂ l)
  | renounce {c sd streamed} (hix : ix = .lockup (.renounce c)) (h : Lockup.RenounceOk rt w c w' sd streamed)
  | collect {c tr amount} (hix : ix = .lockup (.collectFees c)) (ht : w.lk.treasury = some tr)
      (h : Lockup.CollectOk rt w c.feeCollector c.feeRecipient c.treasury .lockup tr Lockup.treasurySpace amount w')
  | miInit {c f p s l} (hix : ix = .merkle (.initialize c f p s)) (hs : c.initializer.canSign = true)
      (hn : w.mi.treasury = none) (hl : LamRel c.initializer w.lamports l)
      (h : w' = { w with lamports := l, mi := { w.mi with treasury := some ⟨rt.bump (.treasury .merkle), f, p, s⟩ } })
  | campaign {c p dm b l} (hp : p.campaignStartTime < 2 ^ 64 ∧ p.expirationTime < 2 ^ 64)
      (hix : ∃ r s e n i a k, ix = .merkle (.createCampaign c r s e n i a k))
      (h : Merkle.CreateCampaignOk rt w c p w' dm b l)
  | claim {c index amount proof cd dm b₁ b₂ l}
      (hix : ∃ (i : UInt32) (a : UInt64), ix = .merkle (.claim c i a proof) ∧ index = i.toNat ∧ amount = a.toNat)
      (h : Merkle.ClaimOk rt w c index amount proof w' cd dm b₁ b₂ l)
  | clawback {c amount cd dm b₁ b₂ l} (hix : ∃ a : UInt64, ix = .merkle (.clawback c a) ∧ amount = a.toNat)
      (h : Merkle.ClawbackOk rt w c amount w' cd dm b₁ b₂ l)
  | miCollect {c tr amount} (hix : ix = .merkle (.collectFees c)) (ht : w.mi.treasury = some tr)
      (h : Lockup.CollectOk rt w c.feeCollector c.feeRecipient c.treasury .merkle tr Merkle.treasurySpace amount w')
  | env (i : EnvIx) (hix : ix = .env i) (h : i.run rt w = .ok w')

theorem now_lt (w : World) : w.now < 2 ^ 64 := by
  unfold World.now intAsU64
  have h1 : 0 ≤ w.clock % 2 ^ 64 := Int.emod_nonneg _ (by decide)
  have h2 : w.clock % 2 ^ 64 < 2 ^ 64 := Int.emod_lt_of_pos _ (by decide)
  omega

theorem step_did {rt : Runtime} {w w' : World} {ix : Ix} (h : step rt w ix = .ok w') : Did rt w ix w' := by
  cases ix with
  | lockup i =>
    cases i with
    | «initialize» c f p s =>
      obtain ⟨_, _, _, _, _, h⟩ := Lockup.initializeProgram_ok h
      exact .init rfl h
    | createWithTimestamps c salt dep st cl en su cu ca =>
      obtain ⟨_, _, _, _, _, _, _, _, _, _, _, _, h⟩ := Lockup.create_ok h
      exact .create rfl ⟨salt.isLt, dep.toNat_lt, st.toNat_lt, cl.toNat_lt, en.toNat_lt, su.toNat_lt, cu.toNat_lt⟩ h
    | createWithDurations c salt dep cd td su cu ca =>
      obtain ⟨h1, h2, h⟩ := Lockup.createWithDurations_eq h
      obtain ⟨_, _, _, _, _, _, _, _, _, _, _, _, h⟩ := Lockup.create_ok h
      refine .create rfl ⟨salt.isLt, dep.toNat_lt, now_lt w, ?_, h2, su.toNat_lt, cu.toNat_lt⟩ h
      simp only
      split
      · rename_i hc; exact h1 hc
      · decide
    | withdraw c amount =>
      obtain ⟨_, _, _, _, _, _, h⟩ := Lockup.withdraw_ok h
      exact .withdraw rfl h
    | withdrawMax c =>
      obtain ⟨_, _, _, _, h⟩ := Lockup.withdrawMax_ok h
      obtain ⟨_, _, _, _, _, _, h⟩ := Lockup.withdraw_ok h
      exact .withdraw rfl h
    | cancel c =>
      obtain ⟨_, _, _, _, _, _, h⟩ := Lockup.cancel_ok h
      exact .cancel rfl h
    | renounce c =>
      obtain ⟨_, _, h⟩ := Lockup.renounce_ok h
      exact .renounce rfl h
    | collectFees c =>
      obtain ⟨_, _, ht, h⟩ := Lockup.collectFees_ok h
      exact .collect rfl ht h
  | merkle i =>
    cases i with
    | «initialize» c f p s =>
      obtain ⟨h1, h2, h3, _, h4, h5⟩ := Merkle.initializeProgram_ok h
      exact .miInit rfl h1 h3 h4 h5
    | createCampaign c r st ex n i a k =>
      obtain ⟨_, _, _, h⟩ := Merkle.createCampaign_ok h
      exact .campaign ⟨st.toNat_lt, ex.toNat_lt⟩ ⟨_, _, _, _, _, _, _, rfl⟩ h
    | claim c i a proof =>
      obtain ⟨_, _, _, _, _, h⟩ := Merkle.claim_ok h
      exact .claim ⟨i, a, rfl, rfl, rfl⟩ h
    | clawback c a =>
      obtain ⟨_, _, _, _, _, h⟩ := Merkle.clawback_ok h
      exact .clawback ⟨a, rfl, rfl⟩ h
    | collectFees c =>
      obtain ⟨_, _, ht, h⟩ := Merkle.collectFees_ok h
      exact .miCollect rfl ht h
  | env i => exact .env i rfl h

/-- Burning an NFT through Metaplex. -/
structure MetaBurnOk (w w' : World) (acc owner mint : Addr) (t : TokenData) (m : Metadata) (b : Bank) : Prop where
  tok : w.bank.tokens acc = some t
  owner_eq : t.owner = owner
  signs : owner.canSign = true
  mint_eq : t.mint = mint
  one : t.amount = 1
  meta_eq : w.metas mint = some m
  burn : w.bank.burn acc 1 = .ok b
  result : w' = { w with
    bank := b.setToken acc none
    approvals := upd w.approvals acc none
    settings := upd w.settings acc .off
    metas := match m.collection with
        | none => upd w.metas mint none
        | some c => match upd w.metas mint none c with
          | none => upd w.metas mint none
          | some cm => upd (upd w.metas mint none) c (some { cm with collectionSize := cm.collectionSize.map (· - 1) }) }

/-- The other environment steps that change NFT metadata: each is signed by an authority found in the
metadata (or in the mint). -/
inductive MetaEdit (w : World) (m' : Addr → Option Metadata) : Prop
  | create (mint authority : Addr) (md : MintData) (x : Metadata) (h1 : w.bank.mints mint = some md)
      (h2 : md.authority = some authority) (h3 : authority.canSign = true) (h4 : w.metas mint = none)
      (h5 : x.collection = none) (h6 : ∀ c ∈ x.info.creators, c.verified = true → c.address = authority)
      (h : m' = upd w.metas mint (some x))
  | update (mint : Addr) (x x' : Metadata) (h1 : w.metas mint = some x) (h2 : x.info.updateAuthority.canSign = true)
      (h3 : x'.collection = x.collection)
      (h4 : ∀ c ∈ x'.info.creators, c.verified = true → c.address = x.info.updateAuthority ∨
        ∃ c' ∈ x.info.creators, c'.address = c.address ∧ c'.verified = true)
      (h : m' = upd w.metas mint (some x'))
  | sign (mint creator : Addr) (x : Metadata) (h1 : w.metas mint = some x) (h2 : creator.canSign = true)
      (h3 : creator ∈ x.info.creators.map (·.address))
      (h : m' = upd w.metas mint (some { x with info := x.info.sign creator }))
  | verify (item coll : Addr) (im cm : Metadata) (k : Nat → Nat) (c : Option Addr) (h1 : w.metas item = some im)
      (h2 : w.metas coll = some cm) (h3 : cm.info.updateAuthority.canSign = true)
      (h4 : (im.collection = none ∧ im.info.claimed = some coll ∧ c = some coll) ∨ (im.collection = some coll ∧ c = none))
      (h : m' = upd (upd w.metas coll (some { cm with collectionSize := cm.collectionSize.map k })) item
        ((upd w.metas coll (some { cm with collectionSize := cm.collectionSize.map k }) item).map
          fun m => { m with collection := c }))

/-- What an environment step can do. -/
structure EnvOk (i : EnvIx) (w w' : World) : Prop where
  lk : w'.lk = w.lk
  mi : w'.mi = w.mi
  log : w'.log = w.log
  clock : w.clock ≤ w'.clock
  clock_lt : w'.clock = w.clock ∨ w'.clock < 2 ^ 63
  bank : BSafes w.bank w'.bank
  lam : ∀ a, a.canSign = false → w.bank.tokens a = none → w.lamports a ≤ w'.lamports a
  metas : w'.metas = w.metas ∨ (∃ acc owner mint t m b, i = .metaplexBurn acc owner mint ∧ MetaBurnOk w w' acc owner mint t m b) ∨
    (MetaEdit w w'.metas ∧ w'.bank = w.bank)

theorem EnvOk.ofBank {i : EnvIx} {w : World} {b : Bank} {ap : Addr → Option (Addr × Nat)}
    {st : Addr → Settings} (h : BSafes w.bank b) : EnvOk i w { w with bank := b, approvals := ap, settings := st } :=
  ⟨rfl, rfl, rfl, Int.le_refl _, .inl rfl, h, fun _ _ _ => Nat.le_refl _, .inl rfl⟩

theorem EnvOk.ofMetas {i : EnvIx} {w : World} {m : Addr → Option Metadata} (h : MetaEdit w m) : EnvOk i w { w with metas := m } :=
  ⟨rfl, rfl, rfl, Int.le_refl _, .inl rfl, .refl _, fun _ _ _ => Nat.le_refl _, .inr (.inr ⟨h, rfl⟩)⟩

/-- The Metaplex steps that touch nothing but metadata. -/
def EnvIx.isMeta : EnvIx → Bool
  | .metaplexCreate .. | .metaplexUpdate .. | .metaplexSign .. | .metaplexVerify .. | .metaplexUnverify .. => true
  | _ => false

theorem metaStep_ok {rt : Runtime} {w w' : World} {i : EnvIx} (hi : i.isMeta = true) (h : i.run rt w = .ok w') :
    ∃ m, w' = { w with metas := m } ∧ MetaEdit w m := by
  cases i with
  | metaplexCreate m a name info sized =>
    simp only [EnvIx.run, bind_ok, require_ok, fetch_ok, pure_ok] at h
    obtain ⟨md, h1, _, ⟨h2, h3⟩, _, h4, _, h5, rfl⟩ := h
    exact ⟨_, rfl, .create m a md _ h1 h2 h3 h4 rfl h5 rfl⟩
  | metaplexUpdate m a name info size =>
    simp only [EnvIx.run, bind_ok, require_ok, fetch_ok, pure_ok] at h
    obtain ⟨x, h1, _, ⟨h2, h3⟩, _, _, _, h4, rfl⟩ := h
    subst h2
    exact ⟨_, rfl, .update m x ⟨name, x.collection, size, info⟩ h1 h3 rfl h4 rfl⟩
  | metaplexSign m c =>
    simp only [EnvIx.run, Lockup.metaplexSign, bind_ok, require_ok, fetch_ok, pure_ok] at h
    obtain ⟨_, h1, x, h2, _, h3, rfl⟩ := h
    exact ⟨_, rfl, .sign m c x h2 h1 h3 rfl⟩
  | metaplexVerify i c a =>
    simp only [EnvIx.run, bind_ok, require_ok, fetch_ok, pure_ok] at h
    obtain ⟨_, h1, im, h2, cm, h3, _, h4, _, h5, rfl⟩ := h
    subst h5
    exact ⟨_, rfl, .verify i c im cm _ _ h2 h3 h1 (.inl ⟨h4.1, h4.2, rfl⟩) rfl⟩
  | metaplexUnverify i c a =>
    simp only [EnvIx.run, bind_ok, require_ok, fetch_ok, pure_ok] at h
    obtain ⟨_, h1, im, h2, cm, h3, _, h4, _, h5, rfl⟩ := h
    subst h5
    exact ⟨_, rfl, .verify i c im cm _ _ h2 h3 h1 (.inr ⟨h4, rfl⟩) rfl⟩
  | _ => cases hi

theorem env_ok {rt : Runtime} {w w' : World} {i : EnvIx} (h : i.run rt w = .ok w') : EnvOk i w w' := by
  cases i with
  | tick t =>
    simp only [EnvIx.run, bind_ok, require_ok, pure_ok] at h
    obtain ⟨_, ⟨h1, h2⟩, rfl⟩ := h
    exact ⟨rfl, rfl, rfl, h1, .inr h2, .refl _, fun _ _ _ => Nat.le_refl _, .inl rfl⟩
  | setOracle p f d =>
    simp only [EnvIx.run, pure_ok] at h
    subst h
    exact ⟨rfl, rfl, rfl, Int.le_refl _, .inl rfl, .refl _, fun _ _ _ => Nat.le_refl _, .inl rfl⟩
  | setWallet n amount =>
    simp only [EnvIx.run, pure_ok] at h
    subst h
    refine ⟨rfl, rfl, rfl, Int.le_refl _, .inl rfl, .refl _, ?_, .inl rfl⟩
    intro a ha _
    simp only [upd_apply]
    split
    · rename_i he; rw [he] at ha; cases ha
    · exact Nat.le_refl _
  | sendLamports src dst amount =>
    simp only [EnvIx.run, World.systemTransfer, bind_ok, require_ok, pure_ok] at h
    obtain ⟨_, h1, _, _, rfl⟩ := h
    refine ⟨rfl, rfl, rfl, Int.le_refl _, .inl rfl, .refl _, ?_, .inl rfl⟩
    intro a ha _
    have hne : a ≠ src := by intro he; rw [he, h1] at ha; cases ha
    simp only [upd_apply]
    split
    · rename_i he; rw [← he, if_neg hne]; exact Nat.le_add_right _ _
    · exact Nat.le_refl _
  | createMint n md =>
    simp only [EnvIx.run, bind_ok, require_ok, pure_ok] at h
    obtain ⟨_, h1, b, h2, rfl⟩ := h
    exact .ofBank (.single (.openMintKey h1 h2))
  | setFee m f =>
    simp only [EnvIx.run, bind_ok, require_ok, fetch_ok, pure_ok] at h
    obtain ⟨md, h1, _, h2, rfl⟩ := h
    exact .ofBank (.single (.setFee h1 h2))
  | setBlocked n x y =>
    simp only [EnvIx.run, bind_ok, require_ok, fetch_ok, pure_ok] at h
    obtain ⟨md, h1, _, h2, rfl⟩ := h
    exact .ofBank (.single (.setBlocked h1 h2))
  | setMintAuthority m s a =>
    simp only [EnvIx.run, bind_ok, require_ok, fetch_ok, pure_ok] at h
    obtain ⟨md, h1, _, ⟨h2, h3⟩, rfl⟩ := h
    exact .ofBank (.single (.setMintAuth h1 h2 h3))
  | setFreezeAuthority m s a =>
    simp only [EnvIx.run, bind_ok, require_ok, fetch_ok, pure_ok] at h
    obtain ⟨md, h1, _, ⟨h2, h3⟩, rfl⟩ := h
    exact .ofBank (.single (.setFreezeAuth h1 h2 h3))
  | mintTo m d x tp amt =>
    simp only [EnvIx.run, bind_ok, require_ok, pure_ok] at h
    obtain ⟨_, h1, b, h2, rfl⟩ := h
    exact .ofBank (.single (.mintTo h1 h2))
  | transfer s d x m tp amt dec =>
    simp only [EnvIx.run, bind_ok, require_ok, pure_ok] at h
    obtain ⟨_, h1, b, h2, rfl⟩ := h
    exact .ofBank (.single (.transfer h1 h2))
  | delegateTransfer s d x m tp amt =>
    simp only [EnvIx.run, bind_ok, require_ok, fetch_ok, pure_ok] at h
    obtain ⟨md, h1, _, ⟨h2, _⟩, b, h3, rfl⟩ := h
    exact .ofBank (.single (.delegate h1 h2 h3))
  | burn s o amt =>
    simp only [EnvIx.run, bind_ok, require_ok, fetch_ok, pure_ok] at h
    obtain ⟨t, h1, _, ⟨h2, h3⟩, b, h4, rfl⟩ := h
    exact .ofBank (.single (.burn h1 (by rw [h2]; exact h3) h4))
  | delegateBurn s x amt =>
    simp only [EnvIx.run, bind_ok, require_ok, fetch_ok, pure_ok] at h
    obtain ⟨t, h1, md, h2, _, ⟨h3, _⟩, b, h4, rfl⟩ := h
    exact .ofBank (.single (.delegateBurn h1 h2 h3 h4))
  | approve a o d k =>
    simp only [EnvIx.run, bind_ok, require_ok, fetch_ok, pure_ok] at h
    obtain ⟨t, h1, _, h2, _, h3, rfl⟩ := h
    exact .ofBank (.refl _)
  | changeSettings a' x s =>
    simp only [EnvIx.run, bind_ok, require_ok, fetch_ok, pure_ok] at h
    obtain ⟨t, h1, _, h2, _, h3, rfl⟩ := h
    exact .ofBank (.refl _)
  | revoke a x =>
    simp only [EnvIx.run, bind_ok, require_ok, fetch_ok, pure_ok] at h
    obtain ⟨t, h1, _, h2, rfl⟩ := h
    exact .ofBank (.refl _)
  | approvedTransfer s d x m tp amt dec =>
    simp only [EnvIx.run, bind_ok, require_ok, fetch_ok, pure_ok] at h
    obtain ⟨t, h1, ap, h2, _, ⟨h3, h4, h5⟩, _, h6, b, h7, rfl⟩ := h
    exact .ofBank (.single (.transfer h5 h7))
  | approvedBurn s x amt =>
    simp only [EnvIx.run, bind_ok, require_ok, fetch_ok, pure_ok] at h
    obtain ⟨t, h1, ap, h2, _, ⟨h3, h4, h5⟩, _, h6, b, h7, rfl⟩ := h
    exact .ofBank (.single (.burn h1 h5 h7))
  | metaplexFreeze a x f =>
    simp only [EnvIx.run, bind_ok, require_ok, fetch_ok, pure_ok] at h
    obtain ⟨t, h1, md, h2, ap, h3, _, h4, _, h5, rfl⟩ := h
    exact .ofBank (.single (.setFrozen h1 h2 h5))
  | metaplexBurn acc o m =>
    simp only [EnvIx.run, bind_ok, require_ok, fetch_ok, pure_ok] at h
    obtain ⟨t, h1, _, ⟨h2, h3⟩, _, ⟨h4, h5⟩, md, h6, _, _, b, h7, rfl⟩ := h
    refine ⟨rfl, rfl, rfl, Int.le_refl _, .inl rfl, ?_, fun _ _ _ => Nat.le_refl _,
      .inr <| .inl ⟨acc, o, m, t, md, b, rfl, h1, h2, h3, h4, h5, h6, h7, rfl⟩⟩
    have hs : t.owner.canSign = true := by rw [h2]; exact h3
    refine .tail (.single (.burn h1 hs h7)) ?_
    obtain ⟨tf, md', e1, e2, e3, e4, rfl⟩ := burn_ok h7
    rw [h1] at e1; cases e1
    exact .close (t := { t with amount := t.amount - 1 }) (by simp) hs (by simp [h5])
  | metaplexCreate | metaplexUpdate | metaplexSign | metaplexVerify | metaplexUnverify =>
    obtain ⟨m, rfl, he⟩ := metaStep_ok rfl h
    exact .ofMetas he
  | createAta payer addr owner tp mint =>
    simp only [EnvIx.run, bind_ok, require_ok] at h
    obtain ⟨_, h1, h2⟩ := h
    obtain ⟨b, l, rfl, hb, hl, rfl⟩ := createAta_ok h2
    refine ⟨rfl, rfl, rfl, Int.le_refl _, .inl rfl, .single (.openAta hb), ?_, .inl rfl⟩
    intro a ha _
    exact hl a (by intro he; rw [he, h1] at ha; cases ha)
  | createTokenAccount n o m tp =>
    simp only [EnvIx.run, bind_ok, pure_ok] at h
    obtain ⟨b, h1, rfl⟩ := h
    exact .ofBank (.single (.openKey h1))
  | setOwner a o o' =>
    simp only [EnvIx.run, bind_ok, require_ok, fetch_ok, pure_ok] at h
    obtain ⟨t, h1, _, ⟨h2, h3⟩, _, _, rfl⟩ := h
    exact .ofBank (.single (.setOwner h1 (by rw [h2]; exact h3)))
  | closeToken a o d =>
    simp only [EnvIx.run, bind_ok, require_ok, fetch_ok, pure_ok] at h
    obtain ⟨t, h1, _, ⟨h2, h3⟩, _, h4, rfl⟩ := h
    refine ⟨rfl, rfl, rfl, Int.le_refl _, .inl rfl, .single (.close h1 (by rw [h2]; exact h3) h4), ?_, .inl rfl⟩
    intro x hx hn
    have hne : x ≠ a := by intro he; rw [he, h1] at hn; cases hn
    simp only [upd_apply]
    split
    · rename_i he; rw [← he, if_neg hne]; exact Nat.le_add_right _ _
    · exact Nat.le_refl _
  | setFrozen a x f =>
    simp only [EnvIx.run, bind_ok, require_ok, fetch_ok, pure_ok] at h
    obtain ⟨t, h1, md, h2, _, ⟨h3, h4⟩, rfl⟩ := h
    exact .ofBank (.single (.setFrozen h1 h2 h3))

/-! ## The token-ledger effect of every step -/

theorem Bank.Ensure.safes {b b' : Bank} {a o m : Addr} {tp : TokenProgram} (h : b.Ensure a o tp m b') :
    BSafes b b' := by
  obtain ⟨ha, ⟨rfl, _⟩ | ⟨_, h⟩⟩ := h
  · exact .refl _
  · subst ha; exact .single (.openAta h)

theorem Bank.Ensure.token {b b' : Bank} {a o m : Addr} {tp : TokenProgram} (h : b.Ensure a o tp m b') {x : Addr}
    {t : TokenData} (ht : b.tokens x = some t) : b'.tokens x = some t := by
  obtain ⟨ha, ⟨rfl, _⟩ | ⟨_, h⟩⟩ := h
  · exact ht
  · obtain ⟨_, h3, _, rfl⟩ := openAccount_ok h
    rw [setToken_tokens, upd_ne]
    · exact ht
    · intro he; rw [he, h3] at ht; cases ht

theorem Bank.Ensure.mints {b b' : Bank} {a o m : Addr} {tp : TokenProgram} (h : b.Ensure a o tp m b') :
    b'.mints = b.mints := by
  obtain ⟨ha, ⟨rfl, _⟩ | ⟨_, h⟩⟩ := h
  · rfl
  · obtain ⟨_, h3, _, rfl⟩ := openAccount_ok h; rfl

theorem Bank.Ensure.dst {b b' : Bank} {a o m : Addr} {tp : TokenProgram} (h : b.Ensure a o tp m b') :
    ∃ t, b'.tokens a = some t ∧ t.mint = m ∧ t.owner = o ∧ t.program = tp ∧ t.amount = b.balance a := by
  obtain ⟨ha, ⟨rfl, t, h1, h2, h3, h4⟩ | ⟨hn, h⟩⟩ := h
  · exact ⟨t, h1, h2, h3, h4, by simp [Bank.balance, h1]⟩
  · obtain ⟨_, h3, _, rfl⟩ := openAccount_ok h
    exact ⟨⟨tp, m, o, 0, b.opensFrozen m⟩, by simp, rfl, rfl, rfl, by simp [Bank.balance, hn]⟩

/-- Ledger operations of `create`. -/
theorem Lockup.CreateOk.safes {rt : Runtime} {w w' : World} {c : Lockup.CreateAccts} {p : Lockup.CreateParams}
    {nd dm md cm k name b₁ b₂ b₃ b₄ b₆ l}
    (h : Lockup.CreateOk rt w c p w' nd dm md cm k name b₁ b₂ b₃ b₄ b₆ l) : BSafes w.bank b₆ := by
  have hn : c.streamNftMint.isNftMint = true := by rw [h.nftMintAddr]; rfl
  have e1 : BSafe w.bank b₁ := .openMintNft hn h.openMint
  have e2 : BSafe b₁ b₂ := by
    have := h.openNftAta; rw [h.nftAtaAddr] at this; exact .openAta this
  have e3 : BSafe b₂ b₃ := by
    have := h.openVault; rw [h.vaultAddr] at this; exact .openAta this
  have hm : b₃.mints c.streamNftMint = some (Lockup.freshNftMint c.nftTokenProgram) := by
    obtain ⟨_, _, _, r3⟩ := openAccount_ok h.openVault
    obtain ⟨_, _, _, r2⟩ := openAccount_ok h.openNftAta
    obtain ⟨_, _, r1⟩ := openMint_ok h.openMint
    rw [r3, r2, r1]; simp
  have e4 : BSafe b₃ b₄ := .mintNft hn hm rfl h.mintTo
  have e5 : BSafe b₄ (Lockup.lockAuthority b₄ c.streamNftMint md) := .lock hn h.nftMint
  have e6 : BSafe (Lockup.lockAuthority b₄ c.streamNftMint md) b₆ := .transfer h.signs h.transfer
  exact (((((BSafes.single e1).tail e2).tail e3).tail e4).tail e5).tail e6

/-- Ledger operations of `initialize`. -/
theorem Lockup.InitializeOk.safes {rt : Runtime} {w w' : World} {c : Lockup.InitializeAccts} {f p s : Addr}
    {md b₁ b₂ b₃ l} (h : Lockup.InitializeOk rt w c f p s w' md b₁ b₂ b₃ l) :
    BSafes w.bank (Lockup.lockAuthority b₃ .nftCollectionMint md) := by
  have e1 : BSafe w.bank b₁ := .openMintNft rfl h.openMint
  have e2 : BSafe b₁ b₂ := by
    have := h.openAta; rw [h.ataAddr] at this; exact .openAta this
  have hm : b₂.mints .nftCollectionMint = some (Lockup.freshNftMint c.nftTokenProgram) := by
    obtain ⟨_, _, _, r2⟩ := openAccount_ok h.openAta
    obtain ⟨_, _, r1⟩ := openMint_ok h.openMint
    rw [r2, r1]; simp
  have e4 : BSafe b₂ b₃ := .mintNft rfl hm rfl h.mintTo
  have e5 : BSafe b₃ (Lockup.lockAuthority b₃ .nftCollectionMint md) := .lock rfl h.mint
  exact (((BSafes.single e1).tail e2).tail e4).tail e5

/-- A program-signed payout: after at most creating the destination account, tokens leave `src`, the
associated account of the program-owned address `auth`. -/
structure Payout (b b' : Bank) (src dst auth mint : Addr) (tp : TokenProgram) (amount : Nat) : Prop where
  auth_pda : auth.canSign = false
  srcAddr : src = .ata auth tp mint
  srcToken : ∃ t, b.tokens src = some t ∧ t.owner = auth ∧ t.program = tp
  run : ∃ b₁ dec owner, b.Ensure dst owner tp mint b₁ ∧ b₁.transferChecked src dst auth mint tp amount dec = .ok b'

/-- Every step's effect on the token ledger: operations that cannot touch a vault, or one payout by a
withdraw, cancel, claim or clawback naming the vault's owner. -/
theorem Did.bank {rt : Runtime} {w w' : World} {ix : Ix} (h : Did rt w ix w') :
    BSafes w.bank w'.bank ∨
    ∃ src dst auth mint tp amount, Payout w.bank w'.bank src dst auth mint tp amount ∧
      ((ix.withdrawsFrom = some auth ∨ ix.cancels = some auth) ∧ (∃ m, auth = .streamData m) ∨
       (ix.claimsFrom = some auth ∨ ix.clawsBack = some auth) ∧
          ∃ cd, w.mi.campaigns auth = some cd ∧ auth = cd.signerAddr) := by
  cases h with
  | init hix h => left; rw [h.result]; exact h.safes
  | create hix hp h => left; rw [h.result]; exact h.safes
  | @withdraw c amount sd sd' dm b₁ b₂ l hix h =>
    right
    refine ⟨c.streamDataAta, c.withdrawalRecipientAta, c.streamData, c.depositedTokenMint,
      c.depositedTokenProgram, amount, ⟨?_, h.accts.vaultAddr, h.accts.vault, b₁, dm.decimals, _, h.accts.ensure, ?_⟩, .inl ⟨.inl hix, _, h.accts.streamAddr⟩⟩
    · rw [h.accts.streamAddr]; rfl
    · rw [h.result]; exact h.transfer
  | @cancel c sd dm streamed b₁ b₂ l hix h =>
    right
    refine ⟨c.streamDataAta, c.senderAta, c.streamData, c.depositedTokenMint,
      c.depositedTokenProgram, sd.amounts.deposited - streamed, ⟨?_, h.accts.vaultAddr, h.accts.vault, b₁, dm.decimals, _, h.accts.ensure, ?_⟩, .inl ⟨.inr (by rw [hix]; rfl), _, h.accts.streamAddr⟩⟩
    · rw [h.accts.streamAddr]; rfl
    · rw [h.result]; exact h.transfer
  | renounce hix h => left; rw [h.result]; exact .refl _
  | collect hix ht h => left; rw [h.result]; exact .refl _
  | miInit hix hs hn hl h => left; rw [h]; exact .refl _
  | campaign hp hix h =>
    left; rw [h.result]
    have := h.openVault; rw [h.vaultAddr] at this
    exact .single (.openAta this)
  | @claim c index amount proof cd dm b₁ b₂ l hix h =>
    right
    obtain ⟨i, a, rfl, _, _⟩ := hix
    refine ⟨c.campaignAta, c.recipientAta, c.campaign, c.airdropTokenMint,
      c.airdropTokenProgram, amount, ⟨?_, h.accts.vaultAddr, h.accts.vault, b₁, dm.decimals, _, h.accts.ensure, ?_⟩,
      .inr ⟨.inl rfl, cd, h.accts.campaign, h.signerAddr⟩⟩
    · rw [h.signerAddr]; rfl
    · rw [h.result]; exact h.transfer
  | @clawback c amount cd dm b₁ b₂ l hix h =>
    right
    obtain ⟨a, rfl, _⟩ := hix
    refine ⟨c.campaignAta, c.clawbackRecipientAta, c.campaign, c.airdropTokenMint,
      c.airdropTokenProgram, amount, ⟨?_, h.accts.vaultAddr, h.accts.vault, b₁, dm.decimals, _, h.accts.ensure, ?_⟩,
      .inr ⟨.inr rfl, cd, h.accts.campaign, h.signerAddr⟩⟩
    · rw [h.signerAddr]; rfl
    · rw [h.result]; exact h.transfer
  | miCollect hix ht h => left; rw [h.result]; exact .refl _
  | env i hix h => left; exact (env_ok h).bank

theorem BankInv.step {rt : Runtime} {w w' : World} {ix : Ix} (hb : BankInv w.bank) (h : Did rt w ix w') :
    BankInv w'.bank := by
  rcases h.bank with h | ⟨_, _, _, _, _, _, ⟨_, _, _, b₁, _, _, he, ht⟩, _⟩
  · exact hb.safes h
  · exact (hb.safes he.safes).transferChecked ht

theorem bankInv_genesis {w : World} (h : Genesis w) : BankInv w.bank := by
  constructor
  · intro a t ht; rw [h.no_tokens] at ht; cases ht
  · intro a t ht; rw [h.no_tokens] at ht; cases ht
  · intro a t ht; rw [h.no_mints] at ht; cases ht
  · intro a t _ ht; rw [h.no_mints] at ht; cases ht
  · intro a t ht; rw [h.no_mints] at ht; cases ht

/-- Induction principle for invariants. -/
theorem Reachable.induct {rt : Runtime} {P : World → Prop} (h0 : ∀ w, Genesis w → P w)
    (hs : ∀ w ix w', Reachable rt w → P w → Did rt w ix w' → P w') {w : World} (h : Reachable rt w) : P w := by
  obtain ⟨w₀, hg, hst⟩ := h
  induction hst with
  | refl => exact h0 _ hg
  | tail ix hst' hstep ih => exact hs _ ix _ ⟨w₀, hg, hst'⟩ (ih) (step_did hstep)

theorem Reachable.step {rt : Runtime} {w w' : World} {ix : Ix} (h : Reachable rt w)
    (hs : Solsab.step rt w ix = .ok w') : Reachable rt w' := by
  obtain ⟨w₀, hg, hst⟩ := h
  exact ⟨w₀, hg, .tail ix hst hs⟩

theorem Steps.trans {rt : Runtime} {w w' w'' : World} (h : Steps rt w w') (h' : Steps rt w' w'') :
    Steps rt w w'' := by
  induction h' with
  | refl => exact h
  | tail ix _ hs ih => exact .tail ix ih hs

theorem Reachable.steps {rt : Runtime} {w w' : World} (h : Reachable rt w) (hs : Steps rt w w') :
    Reachable rt w' := by
  obtain ⟨w₀, hg, hst⟩ := h
  exact ⟨w₀, hg, hst.trans hs⟩

theorem Reachable.bankInv {rt : Runtime} {w : World} (h : Reachable rt w) : BankInv w.bank :=
  h.induct (fun _ => bankInv_genesis) (fun _ _ _ _ hb hd => hb.step hd)

end Solsab
