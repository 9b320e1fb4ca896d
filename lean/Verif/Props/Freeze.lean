import Verif.Props.Approvals
import Verif.Props.Campaign
import Verif.Spec.Signers
import Verif.Props.Settings
/-!
# C99 — frozen token accounts

Who can freeze an account the programs use, what a frozen account stops, and tokens whose accounts start frozen.
-/

namespace Solsab.Props

open Solsab Spec Lockup Merkle Demo

/-- No token account is closed, and freezing is left alone: a frozen account is exactly as it was. -/
private def Kept (b b' : Bank) : Prop :=
  ∀ a t, b.tokens a = some t →
    ∃ t', b'.tokens a = some t' ∧ t'.frozen = t.frozen ∧ t'.owner = t.owner ∧ t'.mint = t.mint ∧ (t.frozen = true → t' = t)

private theorem Kept.refl (b : Bank) : Kept b b := fun _ t h => ⟨t, h, rfl, rfl, rfl, fun _ => rfl⟩

private theorem Kept.trans {b₁ b₂ b₃ : Bank} (h : Kept b₁ b₂) (h' : Kept b₂ b₃) : Kept b₁ b₃ := by
  intro a t ht
  obtain ⟨t₁, h1, h2, h3, h4, h5⟩ := h a t ht
  obtain ⟨t₂, k1, k2, k3, k4, k5⟩ := h' a t₁ h1
  exact ⟨t₂, k1, k2.trans h2, k3.trans h3, k4.trans h4, fun hf => (k5 (h2.trans hf)).trans (h5 hf)⟩

private theorem Kept.ofTokens {b b' : Bank} (h : b'.tokens = b.tokens) : Kept b b' := by
  intro a t ht; exact ⟨t, by rw [h]; exact ht, rfl, rfl, rfl, fun _ => rfl⟩

private theorem Kept.openAccount {b b' : Bank} {a o m : Addr} {tp : TokenProgram}
    (h : b.openAccount a o m tp = .ok b') : Kept b b' := by
  obtain ⟨_, hn, _, rfl⟩ := openAccount_ok h
  intro x t ht
  refine ⟨t, ?_, rfl, rfl, rfl, fun _ => rfl⟩
  rw [setToken_tokens, upd_ne]
  · exact ht
  · intro he; rw [he, hn] at ht; cases ht

private theorem Kept.openMint {b b' : Bank} {m : Addr} {md : MintData} (h : b.openMint m md = .ok b') : Kept b b' := by
  obtain ⟨_, _, rfl⟩ := openMint_ok h; exact .ofTokens rfl

/-- Changing the balance of an account that is not frozen. -/
private theorem kept_amount {b : Bank} {x : Addr} {u : TokenData} {k : Nat} (hu : b.tokens x = some u) (hf : u.frozen = false) :
    Kept b (b.setToken x (some { u with amount := k })) := by
  intro a t ht
  rw [setToken_tokens, upd_apply]
  split
  · rename_i he; rw [he, hu] at ht; cases ht
    exact ⟨_, rfl, rfl, rfl, rfl, fun h => (by rw [hf] at h; cases h)⟩
  · exact ⟨t, ht, rfl, rfl, rfl, fun _ => rfl⟩

private theorem Kept.mintTo {b b' : Bank} {m d x : Addr} {tp : TokenProgram} {amt : Nat}
    (h : b.mintTo m d x tp amt = .ok b') : Kept b b' := by
  obtain ⟨md, tt, _, h2, _, _, _, h6, _, _, rfl⟩ := mintTo_ok h
  exact (Kept.ofTokens (b' := b.setMint m _) rfl).trans (kept_amount (by exact h2) h6)

private theorem burn_thawed {b b' : Bank} {s : Addr} {amt : Nat} (h : b.burn s amt = .ok b') :
    ∃ tf, b.tokens s = some tf ∧ tf.frozen = false := by
  simp only [Bank.burn, bind_ok, fetch_ok, require_ok, pure_ok] at h
  obtain ⟨tf, h1, md, h2, _, h3, _⟩ := h
  exact ⟨tf, h1, h3⟩

private theorem Kept.burn {b b' : Bank} {s : Addr} {amt : Nat} (h : b.burn s amt = .ok b') : Kept b b' := by
  obtain ⟨tf, h1, h2⟩ := burn_thawed h
  obtain ⟨tf', md, h3, _, _, _, rfl⟩ := burn_ok h
  rw [h1] at h3; cases h3
  exact (Kept.ofTokens (b' := b.setMint _ _) rfl).trans (kept_amount (by exact h1) h2)

private theorem Kept.facts {b b' : Bank} {s d m : Addr} {tp : TokenProgram} {amt : Nat} {tf tt : TokenData} {md : MintData}
    (hf : TransferFacts b s d m tp amt b' tf tt md) : Kept b b' := by
  rcases hf.result with ⟨_, rfl⟩ | ⟨hne, _, rfl⟩
  · exact .refl _
  · unfold Bank.move
    refine (kept_amount hf.src hf.thawed.1).trans (kept_amount ?_ hf.thawed.2)
    rw [setToken_tokens, upd_ne _ _ (Ne.symm hne)]; exact hf.dst

private theorem Kept.transfer {b b' : Bank} {s d x m : Addr} {tp : TokenProgram} {amt dec : Nat}
    (h : b.transferChecked s d x m tp amt dec = .ok b') : Kept b b' := by
  obtain ⟨_, _, _, hf, _⟩ := transferChecked_ok h; exact .facts hf

private theorem Kept.ensure {b b' : Bank} {a o m : Addr} {tp : TokenProgram} (h : b.Ensure a o tp m b') : Kept b b' := by
  obtain ⟨_, ⟨rfl, _⟩ | ⟨_, h⟩⟩ := h
  · exact .refl _
  · exact .openAccount h

private theorem Kept.payout {b b' : Bank} {src dst auth mint : Addr} {tp : TokenProgram} {amount : Nat}
    (h : Payout b b' src dst auth mint tp amount) : Kept b b' := by
  obtain ⟨_, _, _, h1, h2⟩ := h.run
  exact (Kept.ensure h1).trans (.transfer h2)

private theorem kept_sablier {rt : Runtime} {w w' : World} {ix : Ix} (h : step rt w ix = .ok w') (hix : isSablier ix = true) :
    Kept w.bank w'.bank := by
  cases step_did h with
  | init _ h =>
    have k := Kept.openMint h.openMint
    exact ((k.trans (.openAccount h.openAta)).trans (.mintTo h.mintTo)).trans (.ofTokens (by rw [h.result]; rfl))
  | create _ _ h =>
    have k := Kept.openMint h.openMint
    exact ((((k.trans (.openAccount h.openNftAta)).trans (.openAccount h.openVault)).trans (.mintTo h.mintTo)).trans
      (.ofTokens rfl)).trans ((Kept.transfer h.transfer).trans (.ofTokens (by rw [h.result])))
  | withdraw _ h => exact .payout h.payout
  | cancel _ h => exact .payout h.payout
  | renounce _ h => exact .ofTokens (by rw [h.result])
  | collect _ _ h => exact .ofTokens (by rw [h.result])
  | miInit _ _ _ _ h => exact .ofTokens (by rw [h])
  | campaign _ _ h => exact (Kept.openAccount h.openVault).trans (.ofTokens (by rw [h.result]))
  | claim _ h => exact .payout h.payout
  | clawback _ h => exact .payout h.payout
  | miCollect _ _ h => exact .ofTokens (by rw [h.result])
  | env i e _ => rw [e] at hix; cases hix

/-- **C99**: the programs freeze and thaw nothing, and never touch a frozen token account, of anybody. -/
theorem C99_programs {rt : Runtime} {w w' : World} {ix : Ix} (h : step rt w ix = .ok w') (hix : isSablier ix = true)
    {a : Addr} {t : TokenData} (ha : w.bank.tokens a = some t) :
    ∃ t', w'.bank.tokens a = some t' ∧ t'.frozen = t.frozen ∧ (t.frozen = true → t' = t) := by
  obtain ⟨t', h1, h2, _, _, h5⟩ := kept_sablier h hix a t ha
  exact ⟨t', h1, h2, h5⟩

/-- **C99**: what can happen to the freezing of a token account in one step: nothing (and if it is frozen it stays exactly
as it is); its owner closes it; or the freeze authority of its mint, signing, freezes or thaws it — which for an NFT is its
master edition, acting for a delegate the account's owner approved. -/
theorem C99_step {rt : Runtime} {w w' : World} {ix : Ix} (h : step rt w ix = .ok w') {a : Addr} {t : TokenData}
    (ha : w.bank.tokens a = some t) :
    (∃ t', w'.bank.tokens a = some t' ∧ t'.frozen = t.frozen ∧ (t.frozen = true → t' = t)) ∨
    (w'.bank.tokens a = none ∧ t.owner.canSign = true ∧ signerOf ix = some t.owner) ∨
    (∃ md x, w.bank.mints t.mint = some md ∧ md.freezeAuthority = some x ∧
      w'.bank = w.bank.setToken a (some { t with frozen := !t.frozen }) ∧
      (x.canSign = true ∧ signerOf ix = some x ∨
        x = .edition t.mint ∧ ∃ d k, w.approvals a = some (d, k) ∧ d.canSign = true ∧ signerOf ix = some d)) := by
  by_cases hix : isSablier ix = true
  · exact .inl (C99_programs h hix ha)
  have kept : Kept w.bank w'.bank → ∃ t', w'.bank.tokens a = some t' ∧ t'.frozen = t.frozen ∧ (t.frozen = true → t' = t) :=
    fun hk => by
      obtain ⟨t', h1, h2, _, _, h5⟩ := hk a t ha
      exact ⟨t', h1, h2, h5⟩
  cases ix with
  | lockup i => cases i <;> exact absurd rfl hix
  | merkle i => cases i <;> exact absurd rfl hix
  | env i =>
    have hrun : i.run rt w = .ok w' := h
    cases i with
    | tick _ =>
      simp only [EnvIx.run, bind_ok, require_ok, pure_ok] at hrun
      obtain ⟨_, _, rfl⟩ := hrun; exact .inl <| kept (.refl _)
    | setOracle _ _ _ =>
      simp only [EnvIx.run, pure_ok] at hrun; subst hrun; exact .inl <| kept (.refl _)
    | setWallet _ _ =>
      simp only [EnvIx.run, pure_ok] at hrun; subst hrun; exact .inl <| kept (.refl _)
    | sendLamports s d x =>
      simp only [EnvIx.run, World.systemTransfer, bind_ok, require_ok, pure_ok] at hrun
      obtain ⟨_, _, _, _, rfl⟩ := hrun; exact .inl <| kept (.refl _)
    | createMint _ _ =>
      simp only [EnvIx.run, bind_ok, require_ok, pure_ok] at hrun
      obtain ⟨_, _, b, hb, rfl⟩ := hrun
      obtain ⟨_, _, rfl⟩ := openMint_ok hb; exact .inl <| kept (.ofTokens rfl)
    | setFee _ _ | setBlocked _ _ _ | setMintAuthority _ _ _ | setFreezeAuthority _ _ _ =>
      simp only [EnvIx.run, bind_ok, require_ok, pure_ok] at hrun
      obtain ⟨_, _, _, _, rfl⟩ := hrun; exact .inl <| kept (.ofTokens rfl)
    | mintTo _ d _ _ _ =>
      simp only [EnvIx.run, bind_ok, require_ok, pure_ok] at hrun
      obtain ⟨_, _, b, hb, rfl⟩ := hrun
      exact .inl <| kept (.mintTo hb)
    | transfer src dst x _ _ _ _ =>
      simp only [EnvIx.run, bind_ok, require_ok, pure_ok] at hrun
      obtain ⟨_, _, b, hb, rfl⟩ := hrun
      exact .inl <| kept (.transfer hb)
    | delegateTransfer src dst x _ _ _ =>
      simp only [EnvIx.run, bind_ok, require_ok, pure_ok, fetch_ok] at hrun
      obtain ⟨md', h1, _, ⟨h2, _⟩, b, hb, rfl⟩ := hrun
      obtain ⟨tf, _, _, hf⟩ := transferCore_ok hb
      exact .inl <| kept (.facts hf)
    | burn src x _ =>
      simp only [EnvIx.run, bind_ok, require_ok, pure_ok, fetch_ok] at hrun
      obtain ⟨u, h1, _, ⟨h2, _⟩, b, hb, rfl⟩ := hrun
      exact .inl <| kept (.burn hb)
    | delegateBurn src x _ =>
      simp only [EnvIx.run, bind_ok, require_ok, pure_ok, fetch_ok] at hrun
      obtain ⟨u, h1, md', h3, _, ⟨h2, _⟩, b, hb, rfl⟩ := hrun
      exact .inl <| kept (.burn hb)
    | metaplexBurn acc x _ =>
      simp only [EnvIx.run, bind_ok, require_ok, pure_ok, fetch_ok] at hrun
      obtain ⟨u, h1, _, ⟨h2, h3⟩, _, _, _, _, _, _, b, hb, rfl⟩ := hrun
      by_cases he : a = acc
      · subst he; rw [ha] at h1; cases h1
        exact .inr (.inl ⟨upd_same _ _ _, by rw [h2]; exact h3, by rw [h2]; rfl⟩)
      · obtain ⟨t', k1, k2, _, _, k5⟩ := Kept.burn hb a t ha
        exact .inl ⟨t', by simp only [setToken_tokens, upd_ne _ _ he]; exact k1, k2, k5⟩
    | approve x o d k =>
      simp only [EnvIx.run, bind_ok, require_ok, pure_ok, fetch_ok] at hrun
      obtain ⟨u, h1, _, ⟨h2, _⟩, _, _, rfl⟩ := hrun
      exact .inl <| kept (.refl _)
    | changeSettings x o s =>
      simp only [EnvIx.run, bind_ok, require_ok, pure_ok, fetch_ok] at hrun
      obtain ⟨u, h1, _, _, _, _, rfl⟩ := hrun
      exact .inl <| kept (.refl _)
    | revoke x o =>
      simp only [EnvIx.run, bind_ok, require_ok, pure_ok, fetch_ok] at hrun
      obtain ⟨u, h1, _, _, rfl⟩ := hrun
      exact .inl <| kept (.refl _)
    | approvedTransfer src dst x m tp amt dec =>
      simp only [EnvIx.run, bind_ok, require_ok, pure_ok, fetch_ok] at hrun
      obtain ⟨u, h1, ap, h2, _, ⟨h3, _, h4⟩, _, h5, b, hb, rfl⟩ := hrun
      exact .inl <| kept (.transfer hb)
    | approvedBurn src x amt =>
      simp only [EnvIx.run, bind_ok, require_ok, pure_ok, fetch_ok] at hrun
      obtain ⟨u, h1, ap, h2, _, ⟨h3, _, h4⟩, _, h5, b, hb, rfl⟩ := hrun
      exact .inl <| kept (.burn hb)
    | metaplexFreeze x d f =>
      simp only [EnvIx.run, bind_ok, require_ok, pure_ok, fetch_ok] at hrun
      obtain ⟨u, h1, md, h2, ap, h3, _, ⟨h4, h5⟩, _, h6, rfl⟩ := hrun
      by_cases he : a = x
      · subst he; rw [ha] at h1; cases h1
        by_cases hf : f = t.frozen
        · subst hf; exact .inl ⟨t, upd_same _ _ _, rfl, fun _ => rfl⟩
        · refine .inr (.inr ⟨md, _, h2, h6, ?_, .inr ⟨rfl, ap.1, ap.2, h3, by rw [h4]; exact h5, by rw [h4]; rfl⟩⟩)
          have : f = !t.frozen := by cases f <;> cases hq : t.frozen <;> simp_all
          rw [this]
      · exact .inl ⟨t, by simp only [setToken_tokens, upd_ne _ _ he]; exact ha, rfl, fun _ => rfl⟩
    | metaplexCreate | metaplexUpdate | metaplexSign | metaplexVerify | metaplexUnverify =>
      obtain ⟨_, rfl, _⟩ := metaStep_ok rfl hrun; exact .inl <| kept (.refl _)
    | createAta _ x _ _ _ =>
      simp only [EnvIx.run, bind_ok, require_ok] at hrun
      obtain ⟨_, _, hrun⟩ := hrun
      obtain ⟨b, l, _, h1, _, rfl⟩ := createAta_ok hrun
      exact .inl <| kept (.openAccount h1)
    | createTokenAccount n _ _ _ =>
      simp only [EnvIx.run, bind_ok, pure_ok] at hrun
      obtain ⟨b, h1, rfl⟩ := hrun
      exact .inl <| kept (.openAccount h1)
    | setOwner x _ _ =>
      simp only [EnvIx.run, bind_ok, require_ok, pure_ok, fetch_ok] at hrun
      obtain ⟨u, h1, _, ⟨h2, _⟩, _, ⟨h3, _⟩, rfl⟩ := hrun
      by_cases he : a = x
      · subst he; rw [ha] at h1; cases h1
        exact .inl ⟨_, upd_same _ _ _, rfl, fun h => (by rw [h3] at h; cases h)⟩
      · exact .inl ⟨t, by simp only [setToken_tokens, upd_ne _ _ he]; exact ha, rfl, fun _ => rfl⟩
    | closeToken x _ _ =>
      simp only [EnvIx.run, bind_ok, require_ok, pure_ok, fetch_ok] at hrun
      obtain ⟨u, h1, _, ⟨h2, h3⟩, _, _, rfl⟩ := hrun
      by_cases he : a = x
      · subst he; rw [ha] at h1; cases h1
        exact .inr (.inl ⟨upd_same _ _ _, by rw [h2]; exact h3, by rw [h2]; rfl⟩)
      · exact .inl ⟨t, by simp only [setToken_tokens, upd_ne _ _ he]; exact ha, rfl, fun _ => rfl⟩
    | setFrozen x s f =>
      simp only [EnvIx.run, bind_ok, require_ok, pure_ok, fetch_ok] at hrun
      obtain ⟨u, h1, md, h2, _, ⟨h3, h4⟩, rfl⟩ := hrun
      by_cases he : a = x
      · subst he; rw [ha] at h1; cases h1
        by_cases hf : f = t.frozen
        · subst hf; exact .inl ⟨t, upd_same _ _ _, rfl, fun _ => rfl⟩
        · refine .inr (.inr ⟨md, _, h2, h3, ?_, .inl ⟨h4, rfl⟩⟩)
          have : f = !t.frozen := by cases f <;> cases hq : t.frozen <;> simp_all
          rw [this]
      · exact .inl ⟨t, by simp only [setToken_tokens, upd_ne _ _ he]; exact ha, rfl, fun _ => rfl⟩

/-! ## The freeze authority of a mint -/

private def SameFreezer (b b' : Bank) : Prop :=
  ∀ m md, b.mints m = some md → ∃ md', b'.mints m = some md' ∧ md'.freezeAuthority = md.freezeAuthority

private theorem SameFreezer.refl (b : Bank) : SameFreezer b b := fun _ md h => ⟨md, h, rfl⟩

private theorem SameFreezer.trans {b₁ b₂ b₃ : Bank} (h : SameFreezer b₁ b₂) (h' : SameFreezer b₂ b₃) : SameFreezer b₁ b₃ := by
  intro m md hm
  obtain ⟨m₁, h1, h2⟩ := h m md hm
  obtain ⟨m₂, h3, h4⟩ := h' m m₁ h1
  exact ⟨m₂, h3, h4.trans h2⟩

private theorem SameFreezer.ofMints {b b' : Bank} (h : b'.mints = b.mints) : SameFreezer b b' := by
  intro m md hm; exact ⟨md, by rw [h]; exact hm, rfl⟩

private theorem freezer_set {b : Bank} {x : Addr} {u u' : MintData} (hu : b.mints x = some u)
    (hf : u'.freezeAuthority = u.freezeAuthority) : SameFreezer b (b.setMint x (some u')) := by
  intro m md hm
  rw [setMint_mints, upd_apply]
  split
  · rename_i he; rw [he, hu] at hm; cases hm; exact ⟨_, rfl, hf⟩
  · exact ⟨md, hm, rfl⟩

private theorem freezer_new {b : Bank} {x : Addr} {u' : MintData} (hu : b.mints x = none) :
    SameFreezer b (b.setMint x (some u')) := by
  intro m md hm
  refine ⟨md, ?_, rfl⟩
  rw [setMint_mints, upd_ne]
  · exact hm
  · intro he; rw [he, hu] at hm; cases hm

private theorem SameFreezer.openMint {b b' : Bank} {m : Addr} {md : MintData} (h : b.openMint m md = .ok b') :
    SameFreezer b b' := by
  obtain ⟨h1, _, rfl⟩ := openMint_ok h; exact freezer_new h1

private theorem SameFreezer.openAccount {b b' : Bank} {a o m : Addr} {tp : TokenProgram}
    (h : b.openAccount a o m tp = .ok b') : SameFreezer b b' := by
  obtain ⟨_, hn, _, rfl⟩ := openAccount_ok h; exact .ofMints rfl

private theorem SameFreezer.mintTo {b b' : Bank} {m d x : Addr} {tp : TokenProgram} {amt : Nat}
    (h : b.mintTo m d x tp amt = .ok b') : SameFreezer b b' := by
  obtain ⟨md, tt, h1, _, _, _, _, _, _, _, rfl⟩ := mintTo_ok h
  exact (freezer_set (u' := { md with supply := md.supply + amt }) h1 rfl).trans (.ofMints rfl)

private theorem SameFreezer.burn {b b' : Bank} {s : Addr} {amt : Nat} (h : b.burn s amt = .ok b') : SameFreezer b b' := by
  obtain ⟨tf', md, _, h1, _, _, rfl⟩ := burn_ok h
  exact (freezer_set (u' := { md with supply := md.supply - amt }) h1 rfl).trans (.ofMints rfl)

private theorem SameFreezer.facts {b b' : Bank} {s d m : Addr} {tp : TokenProgram} {amt : Nat} {tf tt : TokenData}
    {md : MintData} (hf : TransferFacts b s d m tp amt b' tf tt md) : SameFreezer b b' := by
  rcases hf.result with ⟨_, rfl⟩ | ⟨hne, _, rfl⟩
  · exact .refl _
  · exact .ofMints rfl

private theorem SameFreezer.transfer {b b' : Bank} {s d x m : Addr} {tp : TokenProgram} {amt dec : Nat}
    (h : b.transferChecked s d x m tp amt dec = .ok b') : SameFreezer b b' := by
  obtain ⟨_, _, _, hf, _⟩ := transferChecked_ok h; exact .facts hf

/-- **C99**: the freeze authority of an existing mint changes only with its own signature. -/
theorem C99_authority {rt : Runtime} {w w' : World} {ix : Ix} (h : step rt w ix = .ok w') {m : Addr} {md : MintData}
    (hm : w.bank.mints m = some md) :
    ∃ md', w'.bank.mints m = some md' ∧
      (md'.freezeAuthority ≠ md.freezeAuthority →
        ∃ x, md.freezeAuthority = some x ∧ x.canSign = true ∧ signerOf ix = some x) := by
  have kept : SameFreezer w.bank w'.bank → ∃ md', w'.bank.mints m = some md' ∧
      (md'.freezeAuthority ≠ md.freezeAuthority →
        ∃ x, md.freezeAuthority = some x ∧ x.canSign = true ∧ signerOf ix = some x) := fun hk => by
    obtain ⟨md', h1, h2⟩ := hk m md hm
    exact ⟨md', h1, fun h => absurd h2 h⟩
  have pay : ∀ {src dst auth mint tp amount}, Payout w.bank w'.bank src dst auth mint tp amount → _ :=
    fun hp => kept (.ofMints hp.mints_eq)
  cases step_did h with
  | @init c f p s md b₁ b₂ b₃ l _ h =>
    obtain ⟨hn, _, e1⟩ := openMint_ok h.openMint
    obtain ⟨_, _, _, e2⟩ := openAccount_ok h.openAta
    obtain ⟨_, _, _, _, _, _, _, _, _, _, e3⟩ := mintTo_ok h.mintTo
    refine kept fun x dx hx => ⟨dx, ?_, rfl⟩
    have hne : x ≠ .nftCollectionMint := by
      intro he; rw [he, hn] at hx; cases hx
    rw [h.result]
    simp only [lockAuthority, setMint_mints, e3, setToken_mints, e2, e1, upd_ne _ _ hne]
    exact hx
  | @create c p nd dm md cm k name b₁ b₂ b₃ b₄ b₆ l _ _ h =>
    obtain ⟨hn, _, e1⟩ := openMint_ok h.openMint
    obtain ⟨_, _, _, e2⟩ := openAccount_ok h.openNftAta
    obtain ⟨_, _, _, e2'⟩ := openAccount_ok h.openVault
    obtain ⟨_, _, _, _, _, _, _, _, _, _, e3⟩ := mintTo_ok h.mintTo
    refine kept (.trans (b₂ := lockAuthority b₄ c.streamNftMint md) ?_
      ((SameFreezer.transfer h.transfer).trans (.ofMints (by rw [h.result]))))
    intro x dx hx
    refine ⟨dx, ?_, rfl⟩
    have hne : x ≠ c.streamNftMint := by
      intro he; rw [he, hn] at hx; cases hx
    simp only [lockAuthority, setMint_mints, e3, setToken_mints, e2', e2, e1, upd_ne _ _ hne]
    exact hx
  | withdraw _ h => exact pay h.payout
  | cancel _ h => exact pay h.payout
  | renounce _ h => exact kept (.ofMints (by rw [h.result]))
  | collect _ _ h => exact kept (.ofMints (by rw [h.result]))
  | miInit _ _ _ _ h => exact kept (.ofMints (by rw [h]))
  | campaign _ _ h => exact kept ((SameFreezer.openAccount h.openVault).trans (.ofMints (by rw [h.result])))
  | claim _ h => exact pay h.payout
  | clawback _ h => exact pay h.payout
  | miCollect _ _ h => exact kept (.ofMints (by rw [h.result]))
  | env i e hrun =>
    cases i with
    | tick _ =>
      simp only [EnvIx.run, bind_ok, require_ok, pure_ok] at hrun
      obtain ⟨_, _, rfl⟩ := hrun; exact kept (.refl _)
    | setOracle _ _ _ =>
      simp only [EnvIx.run, pure_ok] at hrun; subst hrun; exact kept (.refl _)
    | setWallet _ _ =>
      simp only [EnvIx.run, pure_ok] at hrun; subst hrun; exact kept (.refl _)
    | sendLamports s d x =>
      simp only [EnvIx.run, World.systemTransfer, bind_ok, require_ok, pure_ok] at hrun
      obtain ⟨_, _, _, _, rfl⟩ := hrun; exact kept (.refl _)
    | createMint _ _ =>
      simp only [EnvIx.run, bind_ok, require_ok, pure_ok] at hrun
      obtain ⟨_, _, b, hb, rfl⟩ := hrun
      exact kept (.openMint hb)
    | setFee _ _ | setBlocked _ _ _ | setMintAuthority _ _ _ =>
      simp only [EnvIx.run, bind_ok, require_ok, pure_ok, fetch_ok] at hrun
      obtain ⟨_, h1, _, _, rfl⟩ := hrun; exact kept (freezer_set h1 rfl)
    | setFreezeAuthority x s o =>
      simp only [EnvIx.run, bind_ok, require_ok, pure_ok, fetch_ok] at hrun
      obtain ⟨u, h1, _, ⟨h2, h3⟩, rfl⟩ := hrun
      by_cases hx : m = x
      · subst hx; rw [hm] at h1; cases h1
        exact ⟨_, upd_same _ _ _, fun _ => ⟨s, h2, h3, by rw [e]; rfl⟩⟩
      · exact ⟨md, by simp only [setMint_mints, upd_ne _ _ hx]; exact hm, fun h => absurd rfl h⟩
    | mintTo _ d _ _ _ =>
      simp only [EnvIx.run, bind_ok, require_ok, pure_ok] at hrun
      obtain ⟨_, _, b, hb, rfl⟩ := hrun
      exact kept (.mintTo hb)
    | transfer src dst x _ _ _ _ =>
      simp only [EnvIx.run, bind_ok, require_ok, pure_ok] at hrun
      obtain ⟨_, _, b, hb, rfl⟩ := hrun
      exact kept (.transfer hb)
    | delegateTransfer src dst x _ _ _ =>
      simp only [EnvIx.run, bind_ok, require_ok, pure_ok, fetch_ok] at hrun
      obtain ⟨md', h1, _, ⟨h2, _⟩, b, hb, rfl⟩ := hrun
      obtain ⟨tf, _, _, hf⟩ := transferCore_ok hb
      exact kept (.facts hf)
    | burn src x _ =>
      simp only [EnvIx.run, bind_ok, require_ok, pure_ok, fetch_ok] at hrun
      obtain ⟨u, h1, _, ⟨h2, _⟩, b, hb, rfl⟩ := hrun
      exact kept (.burn hb)
    | delegateBurn src x _ =>
      simp only [EnvIx.run, bind_ok, require_ok, pure_ok, fetch_ok] at hrun
      obtain ⟨u, h1, md', h3, _, ⟨h2, _⟩, b, hb, rfl⟩ := hrun
      exact kept (.burn hb)
    | metaplexBurn acc x _ =>
      simp only [EnvIx.run, bind_ok, require_ok, pure_ok, fetch_ok] at hrun
      obtain ⟨u, h1, _, ⟨h2, h3⟩, _, _, _, _, _, _, b, hb, rfl⟩ := hrun
      exact kept ((SameFreezer.burn hb).trans (.ofMints rfl))
    | approve x o d k =>
      simp only [EnvIx.run, bind_ok, require_ok, pure_ok, fetch_ok] at hrun
      obtain ⟨u, h1, _, ⟨h2, _⟩, _, _, rfl⟩ := hrun
      exact kept (.refl _)
    | changeSettings x o s =>
      simp only [EnvIx.run, bind_ok, require_ok, pure_ok, fetch_ok] at hrun
      obtain ⟨u, h1, _, _, _, _, rfl⟩ := hrun
      exact kept (.refl _)
    | revoke x o =>
      simp only [EnvIx.run, bind_ok, require_ok, pure_ok, fetch_ok] at hrun
      obtain ⟨u, h1, _, _, rfl⟩ := hrun
      exact kept (.refl _)
    | approvedTransfer src dst x m tp amt dec =>
      simp only [EnvIx.run, bind_ok, require_ok, pure_ok, fetch_ok] at hrun
      obtain ⟨u, h1, ap, h2, _, ⟨h3, _, h4⟩, _, h5, b, hb, rfl⟩ := hrun
      exact kept (.transfer hb)
    | approvedBurn src x amt =>
      simp only [EnvIx.run, bind_ok, require_ok, pure_ok, fetch_ok] at hrun
      obtain ⟨u, h1, ap, h2, _, ⟨h3, _, h4⟩, _, h5, b, hb, rfl⟩ := hrun
      exact kept (.burn hb)
    | metaplexFreeze x d f =>
      simp only [EnvIx.run, bind_ok, require_ok, pure_ok, fetch_ok] at hrun
      obtain ⟨u, h1, md, h2, ap, h3, _, ⟨h4, h5⟩, _, h6, rfl⟩ := hrun
      exact kept (.ofMints rfl)
    | metaplexCreate | metaplexUpdate | metaplexSign | metaplexVerify | metaplexUnverify =>
      obtain ⟨_, rfl, _⟩ := metaStep_ok rfl hrun; exact kept (.refl _)
    | createAta _ x _ _ _ =>
      simp only [EnvIx.run, bind_ok, require_ok] at hrun
      obtain ⟨_, _, hrun⟩ := hrun
      obtain ⟨b, l, _, h1, _, rfl⟩ := createAta_ok hrun
      exact kept (.openAccount h1)
    | createTokenAccount n _ _ _ =>
      simp only [EnvIx.run, bind_ok, pure_ok] at hrun
      obtain ⟨b, h1, rfl⟩ := hrun
      exact kept (.openAccount h1)
    | setOwner x _ _ =>
      simp only [EnvIx.run, bind_ok, require_ok, pure_ok, fetch_ok] at hrun
      obtain ⟨u, h1, _, ⟨h2, _⟩, _, ⟨h3, _⟩, rfl⟩ := hrun
      exact kept (.ofMints rfl)
    | closeToken x _ _ =>
      simp only [EnvIx.run, bind_ok, require_ok, pure_ok, fetch_ok] at hrun
      obtain ⟨u, h1, _, ⟨h2, h3⟩, _, _, rfl⟩ := hrun
      exact kept (.ofMints rfl)
    | setFrozen x s f =>
      simp only [EnvIx.run, bind_ok, require_ok, pure_ok, fetch_ok] at hrun
      obtain ⟨u, h1, md, h2, _, ⟨h3, h4⟩, rfl⟩ := hrun
      exact kept (.ofMints rfl)

/-- **C99**: so over any history in which the freeze authority of its token (if there is one) signs nothing, a vault — any
token account of an owner without a key — keeps its state: what is thawed stays thawed, and what is frozen stays frozen and
keeps its balance to the last unit. -/
theorem C99_history {rt : Runtime} {w w' : World} {p : Addr} (hr : Reachable rt w) (hs : StepsUnsignedBy rt p w w')
    {a : Addr} {t : TokenData} (ha : w.bank.tokens a = some t) (ho : t.owner.canSign = false) {md : MintData}
    (hm : w.bank.mints t.mint = some md) (hp : ∀ x, md.freezeAuthority = some x → x = p) :
    ∃ t', w'.bank.tokens a = some t' ∧ t'.frozen = t.frozen ∧ (t.frozen = true → t' = t) := by
  suffices h : ∃ t' md', (Reachable rt w' ∧ w'.bank.tokens a = some t' ∧ t'.owner = t.owner ∧ t'.mint = t.mint ∧
      t'.frozen = t.frozen ∧ (t.frozen = true → t' = t)) ∧ w'.bank.mints t.mint = some md' ∧
      md'.freezeAuthority = md.freezeAuthority by
    obtain ⟨t', _, ⟨_, h1, _, _, h2, h3⟩, _⟩ := h; exact ⟨t', h1, h2, h3⟩
  induction hs with
  | refl => exact ⟨t, md, ⟨hr, ha, rfl, rfl, rfl, fun _ => rfl⟩, hm, rfl⟩
  | tail ix _ h hn ih =>
    obtain ⟨t₁, md₁, ⟨k0, k1, k2, k3, k4, k5⟩, k6, k7⟩ := ih
    obtain ⟨md₂, j1, j2⟩ := C99_authority h k6
    obtain ⟨t₂, i1, i2, _⟩ := (step_did h).account k1 (by rw [k2]; exact ho)
    have hfa : md₂.freezeAuthority = md₁.freezeAuthority := by
      by_contra hne
      obtain ⟨x, e1, _, e2⟩ := j2 hne
      exact hn (by rw [e2, hp x (by rw [← k7]; exact e1)])
    refine ⟨t₂, md₂, ⟨k0.step h, i1, i2.2.2.trans k2, i2.2.1.trans k3, ?_⟩, j1, hfa.trans k7⟩
    rcases C99_step h k1 with ⟨t', e1, e2, e3⟩ | ⟨e1, _⟩ | ⟨md', x, e1, e2, _, ⟨_, e3⟩ | ⟨_, d, k, e3, _⟩⟩
    · rw [i1] at e1; cases e1
      exact ⟨e2.trans k4, fun hf => (e3 (k4.trans hf)).trans (k5 hf)⟩
    · rw [i1] at e1; cases e1
    · rw [k3, k6] at e1; cases e1
      exact absurd (by rw [e3, hp x (by rw [← k7]; exact e2)]) hn
    · obtain ⟨u, u1, u2, _⟩ := k0.approvalsOK e3
      rw [k1] at u1; cases u1
      rw [k2, ho] at u2; cases u2

/-! ## What freezing stops -/

private theorem pay_thawed {b b₁ b₂ : Bank} {src dst auth owner mint : Addr} {tp : TokenProgram} {amt dec : Nat}
    (hens : b.Ensure dst owner tp mint b₁) (ht : b₁.transferChecked src dst auth mint tp amt dec = .ok b₂) :
    (∀ t, b.tokens src = some t → t.frozen = false) ∧ (∀ t, b.tokens dst = some t → t.frozen = false) ∧
    (b.tokens dst = none → ∃ o tp m md, dst = .ata o tp m ∧ b.mints m = some md ∧ md.startsFrozen = false) := by
  obtain ⟨tf, tt, md, hf, _⟩ := transferChecked_ok ht
  refine ⟨fun t h => ?_, fun t h => ?_, fun h => ?_⟩
  · have := hens.token h; rw [hf.src] at this; cases this; exact hf.thawed.1
  · have := hens.token h; rw [hf.dst] at this; cases this; exact hf.thawed.2
  · obtain ⟨ha, ⟨_, _, h1, _⟩ | ⟨_, h1⟩⟩ := hens
    · rw [h] at h1; cases h1
    · have hmd := hf.mint
      have hd := hf.dst
      obtain ⟨_, _, _, rfl⟩ := openAccount_ok h1
      rw [setToken_mints] at hmd
      rw [setToken_tokens, upd_same] at hd; cases hd
      refine ⟨_, _, _, md, ha, hmd, ?_⟩
      have := hf.thawed.2
      simp only [Bank.opensFrozen_some hmd] at this
      exact this

/-- What a payment of the programs needs: both accounts thawed, and an account it opens must not start frozen. -/
private def Flows (w : World) (s d : Addr) : Prop :=
  (∀ t, w.bank.tokens s = some t → t.frozen = false) ∧ (∀ t, w.bank.tokens d = some t → t.frozen = false) ∧
  (w.bank.tokens d = none → ∃ o tp m md, d = .ata o tp m ∧ w.bank.mints m = some md ∧ md.startsFrozen = false)

private theorem create_flows {rt : Runtime} {w w' : World} {c : CreateAccts} {p : CreateParams}
    (h : createWithTimestamps rt w c p = .ok w') : Flows w c.creatorAta c.streamDataAta := by
  obtain ⟨nd, dm, md, cm, k, name, b₁, b₂, b₃, b₄, b₆, l, h⟩ := create_ok h
  obtain ⟨hne, hv0, hm0, hdne, hbank⟩ := CreateOk.bank_eq h
  obtain ⟨tf, tt, md₂, hf, ho, _⟩ := transferChecked_ok h.transfer
  rw [hbank] at hf
  refine ⟨fun t ht => ?_, fun t ht => (by rw [hv0] at ht; cases ht), fun _ => ⟨_, _, _, dm, h.vaultAddr, h.mint, ?_⟩⟩
  · have h1 : c.creatorAta ≠ c.recipientStreamNftAta := by
      rw [h.creatorAtaAddr, h.nftAtaAddr]; intro he; injection he with _ _ he; exact hdne he
    have h2 : c.creatorAta ≠ c.streamDataAta := by
      rw [h.creatorAtaAddr, h.vaultAddr]
      intro he; injection he with he _ _
      have := h.signs
      rw [he, h.streamAddr] at this; cases this
    have hsrc := hf.src
    simp only [createBank, setToken_tokens, setMint_tokens] at hsrc
    rw [upd_ne _ _ h1, upd_ne _ _ h2, ht] at hsrc
    cases hsrc; exact hf.thawed.1
  · have hdst := hf.dst
    simp only [createBank, setToken_tokens, setMint_tokens] at hdst
    rw [upd_ne _ _ hne, upd_same] at hdst
    cases hdst; exact hf.thawed.2

private theorem withdraw_flows {rt : Runtime} {w w' : World} {c : WithdrawAccts} {x : Nat}
    (h : withdraw rt w c x = .ok w') : Flows w c.streamDataAta c.withdrawalRecipientAta := by
  obtain ⟨_, _, _, _, _, _, h⟩ := withdraw_ok h
  exact pay_thawed h.accts.ensure h.transfer

/-- **C99**: no instruction of the programs moves tokens out of or into a frozen account, nor into a new account of a token
whose accounts start frozen. -/
theorem C99_refused {rt : Runtime} {w w' : World} {ix : Ix} (h : step rt w ix = .ok w') {s d : Addr}
    (hf : paysFrom ix = some s) (hi : paysInto ix = some d) :
    (∀ t, w.bank.tokens s = some t → t.frozen = false) ∧ (∀ t, w.bank.tokens d = some t → t.frozen = false) ∧
    (w.bank.tokens d = none → ∃ o tp m md, d = .ata o tp m ∧ w.bank.mints m = some md ∧ md.startsFrozen = false) := by
  show Flows w s d
  cases ix with
  | env i => cases hf
  | lockup i =>
    cases i with
    | createWithTimestamps c salt dep st cl en su cu ca =>
      cases hf; cases hi; exact create_flows (h : createWithTimestamps rt w c _ = _)
    | createWithDurations c salt dep cd td su cu ca =>
      cases hf; cases hi; exact create_flows (createWithDurations_eq (h : createWithDurations rt w c _ = _)).2.2
    | withdraw c a => cases hf; cases hi; exact withdraw_flows (h : withdraw rt w c _ = _)
    | withdrawMax c =>
      obtain ⟨_, _, _, _, h'⟩ := withdrawMax_ok (h : withdrawMax rt w c = _)
      cases hf; cases hi; exact withdraw_flows h'
    | cancel c =>
      obtain ⟨_, _, _, _, _, _, h⟩ := cancel_ok (h : cancel rt w c = _)
      cases hf; cases hi; exact pay_thawed h.accts.ensure h.transfer
    | _ => cases hf
  | merkle i =>
    cases i with
    | claim c i a p =>
      obtain ⟨_, _, _, _, _, h⟩ := Merkle.claim_ok (h : Merkle.claim rt w c _ _ _ = _)
      cases hf; cases hi; exact pay_thawed h.accts.ensure h.transfer
    | clawback c a =>
      obtain ⟨_, _, _, _, _, h⟩ := Merkle.clawback_ok (h : Merkle.clawback rt w c _ = _)
      cases hf; cases hi; exact pay_thawed h.accts.ensure h.transfer
    | _ => cases hf

/-- **C99**: in a token whose accounts start frozen no stream can be created, in either variant, by anybody, with whatever
accounts and terms. -/
theorem C99_no_stream {rt : Runtime} {w : World} {c : CreateAccts} {md : MintData}
    (hm : w.bank.mints c.depositTokenMint = some md) (hf : md.startsFrozen = true) (salt : Fin (2 ^ 128))
    (dep a b d su cu : UInt64) (ca : Bool) :
    (∃ e, step rt w (.lockup (.createWithTimestamps c salt dep a b d su cu ca)) = .error e) ∧
    (∃ e, step rt w (.lockup (.createWithDurations c salt dep a b su cu ca)) = .error e) := by
  have key : ∀ {p : CreateParams} {w'}, createWithTimestamps rt w c p ≠ .ok w' := by
    intro p w' h
    have hfl := create_flows h
    obtain ⟨nd, dm, mm, cm, k, name, b₁, b₂, b₃, b₄, b₆, l, h⟩ := create_ok h
    obtain ⟨o, tp, m, md', h1, h2, h3⟩ := hfl.2.2 (CreateOk.bank_eq h).2.1
    rw [h.vaultAddr] at h1; injection h1 with _ _ h1
    rw [← h1, hm] at h2; cases h2
    rw [hf] at h3; cases h3
  constructor
  · cases h : step rt w (.lockup (.createWithTimestamps c salt dep a b d su cu ca)) with
    | error e => exact ⟨e, rfl⟩
    | ok w' => exact absurd (h : createWithTimestamps rt w c _ = _) key
  · cases h : step rt w (.lockup (.createWithDurations c salt dep a b su cu ca)) with
    | error e => exact ⟨e, rfl⟩
    | ok w' => exact absurd (createWithDurations_eq (h : createWithDurations rt w c _ = _)).2.2 key

/-- **C99**: a campaign in such a token can be created, but its vault is born frozen: until the token's freeze authority
signs something, the vault stays empty — it cannot even be funded — and every claim and clawback fails. -/
theorem C99_campaign {rt : Runtime} {w w₁ w' : World} {p : Addr} (hr : Reachable rt w) {c : CreateCampaignAccts}
    {root : Bytes32} {st ex : UInt64} {name cid : List UInt8} {agg : UInt64} {cnt : UInt32} {md : MintData}
    (hm : w.bank.mints c.airdropTokenMint = some md) (hf : md.startsFrozen = true)
    (h : step rt w (.merkle (.createCampaign c root st ex name cid agg cnt)) = .ok w₁)
    (hp : ∀ x, md.freezeAuthority = some x → x = p) (hs : StepsUnsignedBy rt p w₁ w') :
    w'.bank.tokens (.ata c.campaign md.program c.airdropTokenMint) =
      some ⟨md.program, c.airdropTokenMint, c.campaign, 0, true⟩ ∧
    (∀ (a : ClaimAccts) i x q, a.campaign = c.campaign → ∃ e, step rt w' (.merkle (.claim a i x q)) = .error e) ∧
    (∀ (a : ClawbackAccts) x, a.campaign = c.campaign → ∃ e, step rt w' (.merkle (.clawback a x)) = .error e) := by
  obtain ⟨md', he, _, _⟩ := C58_create_effect h
  have e := he.mint; rw [hm] at e; cases e
  have hv := he.vault
  rw [hf] at hv
  have hr₁ := hr.step h
  have hpda : c.campaign.canSign = false := by rw [he.addr]; rfl
  obtain ⟨t', h1, _, h2⟩ := C99_history hr₁ hs hv hpda (md := md) (by rw [he.mints]; exact hm) hp
  rw [h2 rfl] at h1
  -- the campaign is still there, with its token
  have hst : Steps rt w₁ w' := by
    clear h1 h2
    induction hs with
    | refl => exact .refl _
    | tail ix _ h _ ih => exact .tail ix ih h
  obtain ⟨ft, hcd, _⟩ := hst.campaign (x := c.campaign) (by rw [he.campaigns]; exact upd_same _ _ _)
  have hb := (hr₁.steps hst).bankInv
  have prog : ∀ {tp : TokenProgram} {t : TokenData}, w'.bank.tokens (.ata c.campaign tp c.airdropTokenMint) = some t →
      tp = md.program := by
    intro tp t ht
    obtain ⟨m₁, j1, j2⟩ := hb.tok_mint _ _ ht
    obtain ⟨m₂, j3, j4⟩ := hb.tok_mint _ _ h1
    obtain ⟨j5, j6⟩ := ata_token hb ht
    rw [j6] at j1
    rw [show (TokenData.mk md.program c.airdropTokenMint c.campaign 0 true).mint = c.airdropTokenMint from rfl, j1] at j3
    cases j3
    rw [← j5, ← j2, j4]
  refine ⟨h1, fun a i x q ha => ?_, fun a x ha => ?_⟩
  · cases hk : step rt w' (.merkle (.claim a i x q)) with
    | error e => exact ⟨e, rfl⟩
    | ok w'' =>
      obtain ⟨cd, dm, b₁, b₂, l, k⟩ := Merkle.claim_ok (hk : Merkle.claim rt w' a _ _ _ = _)
      have hc := k.accts.campaign
      rw [ha, hcd] at hc; cases hc
      have := (C99_refused hk rfl rfl).1 ⟨md.program, c.airdropTokenMint, c.campaign, 0, true⟩ ?_
      · cases this
      · obtain ⟨u, u1, _⟩ := k.accts.vault
        have hma : a.airdropTokenMint = c.airdropTokenMint := k.accts.mintAddr
        rw [k.accts.vaultAddr, ha, hma] at u1 ⊢
        rw [prog u1]; exact h1
  · cases hk : step rt w' (.merkle (.clawback a x)) with
    | error e => exact ⟨e, rfl⟩
    | ok w'' =>
      obtain ⟨cd, dm, b₁, b₂, l, k⟩ := Merkle.clawback_ok (hk : Merkle.clawback rt w' a _ = _)
      have hc := k.accts.campaign
      rw [ha, hcd] at hc; cases hc
      have := (C99_refused hk rfl rfl).1 ⟨md.program, c.airdropTokenMint, c.campaign, 0, true⟩ ?_
      · cases this
      · obtain ⟨u, u1, _⟩ := k.accts.vault
        have hma : a.airdropTokenMint = c.airdropTokenMint := k.accts.mintAddr
        rw [k.accts.vaultAddr, ha, hma] at u1 ⊢
        rw [prog u1]; exact h1

/-! ### Examples: carol is the freeze authority of a Token-2022 token whose accounts start frozen -/

def mintZ : MintData :=
  { feeMintData with feeConfig := none, freezeAuthority := some carol, startsFrozen := true }

/-- Alice's account is thawed by carol, and she gets 10000. -/
def worldZ : World := after world1
  [ .env (.createMint 9 mintZ),
    .env (.createAta alice (ata22 alice) alice .token2022 token22),
    .env (.setFrozen (ata22 alice) carol false),
    .env (.mintTo token22 (ata22 alice) alice .token2022 10000) ]
theorem reachZ : Reachable rt worldZ := reach1.steps (steps_after (by decide +kernel))
theorem mintZ_here : worldZ.bank.mints token22 = some { mintZ with supply := 10000 } := by decide +kernel

/-- No stream, although the token itself and alice's account are fine … -/
example := C99_no_stream (rt := rt) (w := worldZ) (c := createAccts22) mintZ_here rfl 5 1000 2000 0 6000 0 0 true
example : (step rt worldZ ixCreate22).isOk = false ∧ (step rt worldS0 ixCreate22).isOk = true := by decide +kernel

/-- … and a campaign with a vault that is frozen. -/
def campZ : Addr := .campaign alice root 1500 800000 campaignName token22
def ixCampaignZ : Ix :=
  .merkle (.createCampaign ⟨alice, token22, campZ, ata22 campZ, .token2022⟩ root 1500 800000 campaignName [81, 109] 800 2)
def worldZ1 : World := after worldZ [ixCampaignZ]
def worldZ2 : World := after worldZ1 [.env (.tick 4000)]
theorem stepZ1 : step rt worldZ ixCampaignZ = .ok worldZ1 := step_after (by decide +kernel)
theorem silentZ : StepsUnsignedBy rt carol worldZ1 worldZ2 :=
  .tail (.env (.tick 4000)) (.refl _) (step_after (by decide +kernel)) (by decide)

example := C99_campaign reachZ (c := ⟨alice, token22, campZ, ata22 campZ, .token2022⟩) mintZ_here rfl stepZ1 (p := carol)
  (fun x e => by cases e; rfl) silentZ

/-- Funding it works exactly when carol has thawed it. -/
def ixFundZ : Ix := .env (.transfer (ata22 alice) (ata22 campZ) alice token22 .token2022 800 mintZ.decimals)
example : (step rt worldZ2 ixFundZ).isOk = false ∧
    (step rt (after worldZ2 [.env (.setFrozen (ata22 campZ) carol false)]) ixFundZ).isOk = true := by decide +kernel

/-- A stream in the token, opened while its accounts did not start frozen; carol freezes its vault. -/
def ixFreezeZ : Ix := .env (.setFrozen (ata22 (str 5)) carol true)
def worldZ3 : World := after worldZ [.env (.setBlocked 9 false false), ixCreate22, .env (.tick 6000)]
def worldZ4 : World := after worldZ3 [ixFreezeZ]
theorem reachZ4 : Reachable rt worldZ4 :=
  (reachZ.steps (steps_after (by decide +kernel) : Steps rt worldZ worldZ3)).steps (steps_after (by decide +kernel))
theorem frozenZ : worldZ4.bank.tokens (ata22 (str 5)) = some ⟨.token2022, token22, str 5, 1000, true⟩ := by decide +kernel

example : (step rt worldZ3 (.lockup (.withdrawMax withdrawAccts22))).isOk = true ∧
    (step rt worldZ4 (.lockup (.withdrawMax withdrawAccts22))).isOk = false := by decide +kernel
example := C99_step (rt := rt) (w := worldZ3) (w' := worldZ4) (ix := ixFreezeZ) (step_after (by decide +kernel))
  (a := ata22 (str 5)) (t := ⟨.token2022, token22, str 5, 1000, false⟩) (by decide +kernel)
example := C99_authority (rt := rt) (w := worldZ3) (w' := worldZ4) (ix := ixFreezeZ) (step_after (by decide +kernel))
  (m := token22) (md := { mintZ with supply := 10000, startsFrozen := false }) (by decide +kernel)
example := C99_history reachZ4 (p := carol)
  (.tail (.env (.tick 7000)) (.refl _) (step_after (by decide +kernel)) (by decide)) frozenZ rfl
  (md := { mintZ with supply := 10000, startsFrozen := false }) (by decide +kernel) (fun x e => by cases e; rfl)
example := C99_refused (rt := rt) (w := worldZ3) (ix := .lockup (.withdrawMax withdrawAccts22)) (step_after (by decide +kernel))
  rfl rfl
example := C99_programs (rt := rt) (w := worldZ3) (ix := .lockup (.withdrawMax withdrawAccts22)) (step_after (by decide +kernel))
  rfl (a := ata22 (str 5)) (t := ⟨.token2022, token22, str 5, 1000, false⟩) (by decide +kernel)

end Solsab.Props
