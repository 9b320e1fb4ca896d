import Verif.Proofs.Frame
import Verif.Spec.Signers
/-!
# Who can have a memo requirement or a CPI guard
-/

namespace Solsab

open Spec

/-- No token account disappears or changes its token program. -/
def Bank.Keeps (b b' : Bank) : Prop :=
  ∀ a t, b.tokens a = some t → ∃ t', b'.tokens a = some t' ∧ t'.program = t.program

theorem Bank.Keeps.refl (b : Bank) : b.Keeps b := fun _ t h => ⟨t, h, rfl⟩

theorem Bank.Keeps.trans {b b' b'' : Bank} (h : b.Keeps b') (h' : b'.Keeps b'') : b.Keeps b'' := fun a t ha => by
  obtain ⟨t₁, h1, e1⟩ := h a t ha
  obtain ⟨t₂, h2, e2⟩ := h' a t₁ h1
  exact ⟨t₂, h2, e2.trans e1⟩

theorem Bank.Keeps.of_eq {b b' : Bank} (h : b'.tokens = b.tokens) : b.Keeps b' := fun a t ha => ⟨t, by rw [h]; exact ha, rfl⟩

theorem Bank.Keeps.set {b : Bank} {x : Addr} {u : TokenData} (hu : ∀ t, b.tokens x = some t → u.program = t.program) :
    b.Keeps (b.setToken x (some u)) := by
  intro a t ha
  rw [setToken_tokens, upd_apply]
  split
  · rename_i e; subst e
    exact ⟨u, rfl, hu t ha⟩
  · exact ⟨t, ha, rfl⟩

theorem Bank.Keeps.facts {b b' : Bank} {s d m : Addr} {tp amt tf tt md}
    (h : TransferFacts b s d m tp amt b' tf tt md) : b.Keeps b' := by
  intro a t ha
  obtain ⟨t', h1, h2⟩ := transferFacts_kept h ha
  exact ⟨t', h1, h2.1⟩

theorem Bank.Keeps.checked {b b' : Bank} {s d x m : Addr} {tp : TokenProgram} {amt dec : Nat}
    (h : b.transferChecked s d x m tp amt dec = .ok b') : b.Keeps b' := by
  obtain ⟨_, _, _, hf, _⟩ := transferChecked_ok h
  exact .facts hf

theorem Bank.Keeps.core {b b' : Bank} {s d m : Addr} {tp : TokenProgram} {amt : Nat}
    (h : b.transferCore s d m tp amt = .ok b') : b.Keeps b' := by
  obtain ⟨_, _, _, hf⟩ := transferCore_ok h
  exact .facts hf

theorem Bank.Keeps.opened {b b' : Bank} {a o m : Addr} {tp : TokenProgram} (h : b.openAccount a o m tp = .ok b') :
    b.Keeps b' := by
  obtain ⟨_, hn, _, rfl⟩ := openAccount_ok h
  exact .set fun t ht => by rw [hn] at ht; cases ht

theorem Bank.Keeps.openedMint {b b' : Bank} {a : Addr} {md : MintData} (h : b.openMint a md = .ok b') : b.Keeps b' := by
  obtain ⟨_, _, rfl⟩ := openMint_ok h
  exact .of_eq rfl

theorem Bank.Keeps.minted {b b' : Bank} {m d x : Addr} {tp : TokenProgram} {amt : Nat}
    (h : b.mintTo m d x tp amt = .ok b') : b.Keeps b' := by
  obtain ⟨_, _, _, _, _, _, _, _, _, _, rfl⟩ := mintTo_ok h
  refine Bank.Keeps.trans (b' := b.setMint _ _) (.of_eq rfl) (.set fun t ht => ?_)
  have ht : b.tokens _ = some t := ht
  simp_all

theorem Bank.Keeps.burnt {b b' : Bank} {s : Addr} {amt : Nat} (h : b.burn s amt = .ok b') : b.Keeps b' := by
  obtain ⟨_, _, _, _, _, _, rfl⟩ := burn_ok h
  refine Bank.Keeps.trans (b' := b.setMint _ _) (.of_eq rfl) (.set fun t ht => ?_)
  have ht : b.tokens _ = some t := ht
  simp_all

theorem Bank.Keeps.ensured {b b' : Bank} {a o m : Addr} {tp : TokenProgram} (h : b.Ensure a o tp m b') : b.Keeps b' := by
  obtain ⟨_, ⟨rfl, _⟩ | ⟨_, h⟩⟩ := h
  · exact .refl _
  · exact .opened h

/-- Instructions of the two programs close no token account. -/
theorem Did.keeps {rt : Runtime} {w w' : World} {ix : Ix} (h : Did rt w ix w') (hix : isSablier ix = true) :
    w.bank.Keeps w'.bank := by
  cases h with
  | @init c f p s md b₁ b₂ b₃ l _ h =>
    rw [h.result]
    exact ((Bank.Keeps.openedMint h.openMint).trans ((Bank.Keeps.opened h.openAta).trans (.minted h.mintTo))).trans
      (.of_eq rfl)
  | @create c p nd dm md cm k name b₁ b₂ b₃ b₄ b₆ l _ _ h =>
    rw [h.result]
    exact (((Bank.Keeps.openedMint h.openMint).trans ((Bank.Keeps.opened h.openNftAta).trans
      ((Bank.Keeps.opened h.openVault).trans (.minted h.mintTo)))).trans
      (Bank.Keeps.of_eq (b' := Lockup.lockAuthority b₄ c.streamNftMint md) rfl)).trans (.checked h.transfer)
  | withdraw _ h => rw [h.result]; exact (Bank.Keeps.ensured h.accts.ensure).trans (.checked h.transfer)
  | cancel _ h => rw [h.result]; exact (Bank.Keeps.ensured h.accts.ensure).trans (.checked h.transfer)
  | renounce _ h => rw [h.result]; exact .refl _
  | collect _ _ h => rw [h.result]; exact .refl _
  | miInit _ _ _ _ h => rw [h]; exact .refl _
  | campaign _ _ h => rw [h.result]; exact .opened h.openVault
  | claim _ h => rw [h.result]; exact (Bank.Keeps.ensured h.accts.ensure).trans (.checked h.transfer)
  | clawback _ h => rw [h.result]; exact (Bank.Keeps.ensured h.accts.ensure).trans (.checked h.transfer)
  | miCollect _ _ h => rw [h.result]; exact .refl _
  | env i hi h => rw [hi] at hix; cases hix

/-- Instructions of the two programs change no settings. -/
theorem Did.settings {rt : Runtime} {w w' : World} {ix : Ix} (h : Did rt w ix w') (hix : isSablier ix = true) :
    w'.settings = w.settings := by
  cases h with
  | init _ h => rw [h.result]
  | create _ _ h => rw [h.result]
  | withdraw _ h => rw [h.result]
  | cancel _ h => rw [h.result]
  | renounce _ h => rw [h.result]
  | collect _ _ h => rw [h.result]
  | miInit _ _ _ _ h => rw [h]
  | campaign _ _ h => rw [h.result]
  | claim _ h => rw [h.result]
  | clawback _ h => rw [h.result]
  | miCollect _ _ h => rw [h.result]
  | env i hi h => rw [hi] at hix; cases hix

/-- What a step does to the settings: nothing, and no account disappears; or the owner of a Token-2022 account changes
them; or an account is closed, and they are gone. -/
inductive SettingsStep (w w' : World) (ix : Ix) : Prop
  | same (h : w'.settings = w.settings) (k : w.bank.Keeps w'.bank)
  | change (a : Addr) (t : TokenData) (s : Settings) (hi : ix = .env (.changeSettings a t.owner s))
      (ht : w.bank.tokens a = some t) (ho : t.owner.canSign = true) (hp : t.program = .token2022)
      (h : w'.settings = upd w.settings a s) (k : w'.bank = w.bank)
  | close (a : Addr) (t : TokenData) (ht : w.bank.tokens a = some t) (hi : signerOf ix = some t.owner)
      (ho : t.owner.canSign = true) (hc : w'.bank.tokens a = none) (h : w'.settings = upd w.settings a .off)
      (k : ∀ x t, x ≠ a → w.bank.tokens x = some t → ∃ t', w'.bank.tokens x = some t' ∧ t'.program = t.program)

theorem env_settings {rt : Runtime} {w w' : World} {i : EnvIx} (h : i.run rt w = .ok w') :
    SettingsStep w w' (.env i) := by
  cases i with
  | tick _ => simp only [EnvIx.run, bind_ok, require_ok, pure_ok] at h; obtain ⟨_, _, rfl⟩ := h; exact .same rfl (.refl _)
  | setOracle _ _ _ => simp only [EnvIx.run, pure_ok] at h; subst h; exact .same rfl (.refl _)
  | setWallet _ _ => simp only [EnvIx.run, pure_ok] at h; subst h; exact .same rfl (.refl _)
  | sendLamports src dst amount =>
    simp only [EnvIx.run, World.systemTransfer, bind_ok, require_ok, pure_ok] at h
    obtain ⟨_, h1, _, _, rfl⟩ := h
    exact .same rfl (.refl _)
  | createMint n md =>
    simp only [EnvIx.run, bind_ok, require_ok, pure_ok] at h
    obtain ⟨_, h1, b, h2, rfl⟩ := h
    exact .same rfl (.openedMint h2)
  | setFee m f =>
    simp only [EnvIx.run, bind_ok, require_ok, fetch_ok, pure_ok] at h
    obtain ⟨md, h1, _, h2, rfl⟩ := h
    exact .same rfl (.of_eq rfl)
  | setBlocked n x y =>
    simp only [EnvIx.run, bind_ok, require_ok, fetch_ok, pure_ok] at h
    obtain ⟨md, h1, _, h2, rfl⟩ := h
    exact .same rfl (.of_eq rfl)
  | setMintAuthority m s a =>
    simp only [EnvIx.run, bind_ok, require_ok, fetch_ok, pure_ok] at h
    obtain ⟨md, h1, _, ⟨h2, h3⟩, rfl⟩ := h
    exact .same rfl (.of_eq rfl)
  | setFreezeAuthority m s a =>
    simp only [EnvIx.run, bind_ok, require_ok, fetch_ok, pure_ok] at h
    obtain ⟨md, h1, _, ⟨h2, h3⟩, rfl⟩ := h
    exact .same rfl (.of_eq rfl)
  | mintTo m d x tp amt =>
    simp only [EnvIx.run, bind_ok, require_ok, pure_ok] at h
    obtain ⟨_, h1, b, h2, rfl⟩ := h
    exact .same rfl (.minted h2)
  | transfer s d x m tp amt dec =>
    simp only [EnvIx.run, bind_ok, require_ok, pure_ok] at h
    obtain ⟨_, h1, b, h2, rfl⟩ := h
    exact .same rfl (.checked h2)
  | delegateTransfer s d x m tp amt =>
    simp only [EnvIx.run, bind_ok, require_ok, fetch_ok, pure_ok] at h
    obtain ⟨md, h1, _, ⟨h2, _⟩, b, h3, rfl⟩ := h
    exact .same rfl (.core h3)
  | burn s o amt =>
    simp only [EnvIx.run, bind_ok, require_ok, fetch_ok, pure_ok] at h
    obtain ⟨t, h1, _, ⟨h2, h3⟩, b, h4, rfl⟩ := h
    exact .same rfl (.burnt h4)
  | delegateBurn s x amt =>
    simp only [EnvIx.run, bind_ok, require_ok, fetch_ok, pure_ok] at h
    obtain ⟨t, h1, md, h2, _, ⟨h3, _⟩, b, h4, rfl⟩ := h
    exact .same rfl (.burnt h4)
  | approve a o d k =>
    simp only [EnvIx.run, bind_ok, require_ok, fetch_ok, pure_ok] at h
    obtain ⟨t, h1, _, h2, _, h3, rfl⟩ := h
    exact .same rfl (.refl _)
  | changeSettings a x s =>
    simp only [EnvIx.run, bind_ok, require_ok, fetch_ok, pure_ok] at h
    obtain ⟨t, h1, _, ⟨rfl, h2⟩, _, h3, rfl⟩ := h
    exact .change a t s rfl h1 h2 h3 rfl rfl
  | revoke a x =>
    simp only [EnvIx.run, bind_ok, require_ok, fetch_ok, pure_ok] at h
    obtain ⟨t, h1, _, h2, rfl⟩ := h
    exact .same rfl (.refl _)
  | approvedTransfer s d x m tp amt dec =>
    simp only [EnvIx.run, bind_ok, require_ok, fetch_ok, pure_ok] at h
    obtain ⟨t, h1, ap, h2, _, ⟨h3, h4, h5⟩, _, h6, b, h7, rfl⟩ := h
    exact .same rfl (.checked h7)
  | approvedBurn s x amt =>
    simp only [EnvIx.run, bind_ok, require_ok, fetch_ok, pure_ok] at h
    obtain ⟨t, h1, ap, h2, _, ⟨h3, h4, h5⟩, _, h6, b, h7, rfl⟩ := h
    exact .same rfl (.burnt h7)
  | metaplexFreeze a x f =>
    simp only [EnvIx.run, bind_ok, require_ok, fetch_ok, pure_ok] at h
    obtain ⟨t, h1, md, h2, ap, h3, _, h4, _, h5, rfl⟩ := h
    exact .same rfl (.set fun t' ht => by rw [h1] at ht; cases ht; rfl)
  | metaplexBurn acc o m =>
    simp only [EnvIx.run, bind_ok, require_ok, fetch_ok, pure_ok] at h
    obtain ⟨t, h1, _, ⟨h2, h3⟩, _, ⟨h4, h5⟩, md, h6, _, _, b, h7, rfl⟩ := h
    refine .close acc t h1 (by rw [h2]; rfl) (by rw [h2]; exact h3) (upd_same _ _ _) rfl fun x t' hx ht => ?_
    show ∃ u, upd b.tokens acc none x = some u ∧ _
    rw [upd_ne _ _ hx]
    exact Bank.Keeps.burnt h7 x t' ht
  | metaplexCreate | metaplexUpdate | metaplexSign | metaplexVerify | metaplexUnverify =>
    obtain ⟨m, rfl, he⟩ := metaStep_ok rfl h
    exact .same rfl (.refl _)
  | createAta payer addr owner tp mint =>
    simp only [EnvIx.run, bind_ok, require_ok] at h
    obtain ⟨_, h1, h2⟩ := h
    obtain ⟨b, l, rfl, hb, hl, rfl⟩ := createAta_ok h2
    exact .same rfl (.opened hb)
  | createTokenAccount n o m tp =>
    simp only [EnvIx.run, bind_ok, pure_ok] at h
    obtain ⟨b, h1, rfl⟩ := h
    exact .same rfl (.opened h1)
  | setOwner a o o' =>
    simp only [EnvIx.run, bind_ok, require_ok, fetch_ok, pure_ok] at h
    obtain ⟨t, h1, _, ⟨h2, h3⟩, _, _, rfl⟩ := h
    exact .same rfl (.set fun t' ht => by rw [h1] at ht; cases ht; rfl)
  | closeToken a o d =>
    simp only [EnvIx.run, bind_ok, require_ok, fetch_ok, pure_ok] at h
    obtain ⟨t, h1, _, ⟨h2, h3⟩, _, h4, rfl⟩ := h
    refine .close a t h1 (by rw [h2]; rfl) (by rw [h2]; exact h3) (upd_same _ _ _) rfl fun x t' hx ht => ?_
    show ∃ u, upd w.bank.tokens a none x = some u ∧ _
    rw [upd_ne _ _ hx]
    exact ⟨t', ht, rfl⟩
  | setFrozen a x f =>
    simp only [EnvIx.run, bind_ok, require_ok, fetch_ok, pure_ok] at h
    obtain ⟨t, h1, md, h2, _, ⟨h3, h4⟩, rfl⟩ := h
    exact .same rfl (.set fun t' ht => by rw [h1] at ht; cases ht; rfl)

theorem step_settings {rt : Runtime} {w w' : World} {ix : Ix} (h : step rt w ix = .ok w') : SettingsStep w w' ix := by
  cases ix with
  | lockup i => exact .same ((step_did h).settings (by cases i <;> rfl)) ((step_did h).keeps (by cases i <;> rfl))
  | merkle i => exact .same ((step_did h).settings (by cases i <;> rfl)) ((step_did h).keeps (by cases i <;> rfl))
  | env i => exact env_settings h

/-- Settings that are on are those of an existing token account of Token-2022 which, if it is an associated account, is
that of somebody who can sign. -/
theorem Reachable.settingsOK {rt : Runtime} {w : World} (hr : Reachable rt w) {a : Addr} (h : w.settings a ≠ .off) :
    (∃ t, w.bank.tokens a = some t ∧ t.program = .token2022) ∧
      ∀ o tp m, a = .ata o tp m → o.canSign = true ∧ tp = .token2022 := by
  obtain ⟨w₀, hg, hs⟩ := hr
  induction hs generalizing a with
  | refl => exact absurd (hg.no_settings a) h
  | tail ix hst hx ih =>
    have hb := Reachable.bankInv ⟨w₀, hg, hst⟩
    cases step_settings hx with
    | same h1 k =>
      rw [h1] at h
      obtain ⟨⟨t, h2, h3⟩, h4⟩ := ih h
      obtain ⟨t', h5, h6⟩ := k a t h2
      exact ⟨⟨t', h5, h6.trans h3⟩, h4⟩
    | change x t s hi ht ho hp h1 k =>
      rw [h1, upd_apply] at h
      rw [k]
      split at h
      · rename_i e
        subst e
        refine ⟨⟨t, ht, hp⟩, fun o tp m e => ?_⟩
        rcases hb.tok_addr _ _ ht with ⟨n, e'⟩ | ⟨o', e', h3⟩
        · rw [e] at e'; cases e'
        · rw [e] at e'
          injection e' with e1 e2 e3
          refine ⟨?_, by rw [e2, hp]⟩
          cases hc : o.canSign with
          | true => rfl
          | false => rw [h3 (e1 ▸ hc), ← e1, hc] at ho; cases ho
      · exact ih h
    | close x _ _ _ _ _ h1 k =>
      rw [h1, upd_apply] at h
      split at h
      · exact absurd rfl h
      · rename_i hne
        obtain ⟨⟨t, h2, h3⟩, h4⟩ := ih h
        obtain ⟨t', h5, h6⟩ := k a t hne h2
        exact ⟨⟨t', h5, h6.trans h3⟩, h4⟩

/-- Vaults, and other associated accounts of addresses that cannot sign, have no settings. -/
theorem Reachable.vaultSettings {rt : Runtime} {w : World} (hr : Reachable rt w) {o : Addr} (ho : o.canSign = false)
    (tp : TokenProgram) (m : Addr) : w.settings (.ata o tp m) = .off := by
  by_contra h
  have := ((hr.settingsOK h).2 o tp m rfl).1
  rw [ho] at this; cases this

/-- Accounts of the classic token program have no settings. -/
theorem Reachable.classicSettings {rt : Runtime} {w : World} (hr : Reachable rt w) {a : Addr} {t : TokenData}
    (ht : w.bank.tokens a = some t) (hp : t.program = .token) : w.settings a = .off := by
  by_contra h
  obtain ⟨⟨t', h1, h2⟩, _⟩ := hr.settingsOK h
  rw [ht] at h1; cases h1
  rw [hp] at h2; cases h2

/-- In particular associated accounts of the classic token program. -/
theorem Reachable.classicAtaSettings {rt : Runtime} {w : World} (hr : Reachable rt w) (o m : Addr) :
    w.settings (.ata o .token m) = .off := by
  by_contra h
  cases ((hr.settingsOK h).2 o .token m rfl).2

/-- Where there is no token account there are no settings. -/
theorem Reachable.noSettings {rt : Runtime} {w : World} (hr : Reachable rt w) {a : Addr} (h : w.bank.tokens a = none) :
    w.settings a = .off := by
  by_contra hn
  obtain ⟨⟨t', h1, _⟩, _⟩ := hr.settingsOK hn
  rw [h] at h1; cases h1

end Solsab
