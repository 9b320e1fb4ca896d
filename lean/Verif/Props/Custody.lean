import Verif.Props.Create
import Verif.Spec.Signers
import Verif.Proofs.Approvals
/-!
# C79 — nobody's tokens move without their signature
-/

namespace Solsab.Props

open Solsab Spec Lockup Merkle Demo

/-- What a Sablier instruction does to a token account that existed before: it stays, with its owner, token and
program, and it loses nothing, or it is a vault (its owner cannot sign), or it is its owner's associated account and
paid the deposit its owner signed for. -/
def KeptOrPaid (ix : Ix) (a : Addr) (t t' : TokenData) : Prop :=
  TokKept t t' ∧
    (t.amount ≤ t'.amount ∨ t.owner.canSign = false ∨
      ∃ dep, depositOf ix = some (t.owner, t.mint, dep) ∧ signerOf ix = some t.owner ∧
        a = .ata t.owner t.program t.mint ∧ dep ≤ t.amount ∧ t'.amount = t.amount - dep)

theorem create_account {rt : Runtime} {w w' : World} {ix : Ix} (hr : Reachable rt w) {c : CreateAccts}
    {n dep st cl en su cu : Nat} {ca : Bool} {md : MintData} {nd : NftCollectionData}
    (h : CreateEffect rt w w' c n dep st cl en su cu ca md nd)
    (hdep : depositOf ix = some (c.creator, c.depositTokenMint, dep)) (hsig : signerOf ix = some c.creator)
    {a : Addr} {t : TokenData} (ha : w.bank.tokens a = some t) :
    ∃ t', w'.bank.tokens a = some t' ∧ KeptOrPaid ix a t t' := by
  by_cases h1 : a = .ata c.creator md.program c.depositTokenMint
  · subst h1
    obtain ⟨u, k1, k2, k3, k4⟩ := h.paid
    rw [ha] at k1; cases k1
    have hm : t.program = md.program ∧ t.mint = c.depositTokenMint := by
      rcases hr.bankInv.tok_addr _ t ha with ⟨_, he⟩ | ⟨_, he, _⟩
      · cases he
      · injection he with _ e1 e2; exact ⟨e1.symm, e2.symm⟩
    exact ⟨_, k4, ⟨rfl, rfl, rfl⟩, .inr (.inr ⟨dep, by rw [k2, hm.2]; exact hdep, by rw [k2]; exact hsig,
      by rw [k2, hm.1, hm.2], k3, rfl⟩)⟩
  · refine ⟨t, ?_, .refl _, .inl (Nat.le_refl _)⟩
    rw [h.tokens a h1]
    · exact ha
    · intro he; rw [he, h.vaultFresh] at ha; cases ha
    · intro he
      obtain ⟨md', hm, _⟩ := hr.bankInv.tok_mint a t ha
      rcases hr.bankInv.tok_addr _ t ha with ⟨_, hk⟩ | ⟨_, hk, _⟩
      · rw [he] at hk; cases hk
      · rw [he] at hk
        injection hk with _ _ e2
        rw [← e2, h.nftFresh] at hm; cases hm

theorem sablier_account {rt : Runtime} {w w' : World} {ix : Ix} (hr : Reachable rt w) (hs : step rt w ix = .ok w')
    (hix : isSablier ix = true) {a : Addr} {t : TokenData} (ha : w.bank.tokens a = some t) :
    ∃ t', w'.bank.tokens a = some t' ∧ KeptOrPaid ix a t t' := by
  have same : w'.bank = w.bank → ∃ t', w'.bank.tokens a = some t' ∧ KeptOrPaid ix a t t' := by
    intro h; exact ⟨t, by rw [h]; exact ha, .refl _, .inl (Nat.le_refl _)⟩
  have pay : ∀ {s d x m tp amt}, Payout w.bank w'.bank s d x m tp amt →
      ∃ t', w'.bank.tokens a = some t' ∧ KeptOrPaid ix a t t' := by
    intro s d x m tp amt hp
    by_cases he : a = s
    · subst he
      obtain ⟨u, t', h1, h2, _, _, _, h3, h4, _⟩ := hp.src
      rw [ha] at h1; cases h1
      exact ⟨t', h3, h4, .inr (.inl (by rw [h2]; exact hp.auth_pda))⟩
    · obtain ⟨t', h1, h2⟩ := hp.other ha he
      exact ⟨t', h1, h2.kept, .inl h2.2.2.2⟩
  cases step_did hs with
  | @init c f p s md b₁ b₂ b₃ l _ h =>
    obtain ⟨_, _, e1⟩ := openMint_ok h.openMint
    obtain ⟨_, hn, _, e2⟩ := openAccount_ok h.openAta
    obtain ⟨_, _, _, _, _, _, _, _, _, _, e3⟩ := mintTo_ok h.mintTo
    have hne : a ≠ c.nftCollectionAta := by
      intro he; rw [← he, e1] at hn; exact absurd (ha.symm.trans hn) nofun
    refine ⟨t, ?_, .refl _, .inl (Nat.le_refl _)⟩
    rw [h.result, lockAuthority, setMint_tokens, e3, setToken_tokens, upd_ne _ _ hne, setMint_tokens, e2,
      setToken_tokens, upd_ne _ _ hne, e1]
    exact ha
  | create hc hp h =>
    cases ix with
    | lockup i =>
      cases i with
      | createWithTimestamps c salt dep st cl en su cu ca =>
        obtain ⟨md, nd, he⟩ := C27_create_effect hr hs
        exact create_account hr he rfl rfl ha
      | createWithDurations c salt dep cd td su cu ca =>
        obtain ⟨h1, h2, h3⟩ := Lockup.createWithDurations_eq hs
        obtain ⟨_, _, _, _, _, _, _, _, _, _, _, _, h4⟩ := Lockup.create_ok h3
        exact create_account hr (CreateOk.effect hr.bankInv h4) rfl rfl ha
      | _ => cases hc
    | merkle i => cases i <;> cases hc
    | env i => cases hc
  | withdraw _ h => exact pay h.payout
  | cancel _ h => exact pay h.payout
  | renounce _ h => exact same (by rw [h.result])
  | collect _ _ h => exact same (by rw [h.result])
  | miInit _ _ _ _ h => exact same (by rw [h])
  | campaign _ _ h =>
    obtain ⟨_, hn, _, e⟩ := openAccount_ok h.openVault
    refine ⟨t, ?_, .refl _, .inl (Nat.le_refl _)⟩
    rw [h.result, e, setToken_tokens, upd_ne]
    · exact ha
    · intro he; rw [he, hn] at ha; cases ha
  | claim _ h => exact pay h.payout
  | clawback _ h => exact pay h.payout
  | miCollect _ _ h => exact same (by rw [h.result])
  | env i h _ => rw [h] at hix; cases hix

/-- **C79**: a Sablier instruction never closes, reassigns or empties the token account of a wallet.  The only
instruction that takes anything from a wallet's account is a `create`, from the associated account of the creator who
signed it, of the deposited token, and exactly the deposit. -/
theorem C79_sablier {rt : Runtime} {w w' : World} {ix : Ix} (hr : Reachable rt w) (hs : step rt w ix = .ok w')
    (hix : isSablier ix = true) {a : Addr} {t : TokenData} (ha : w.bank.tokens a = some t)
    (ho : t.owner.canSign = true) :
    ∃ t', w'.bank.tokens a = some t' ∧ t'.program = t.program ∧ t'.mint = t.mint ∧ t'.owner = t.owner ∧
      (t'.amount < t.amount → ∃ dep, depositOf ix = some (t.owner, t.mint, dep) ∧ signerOf ix = some t.owner ∧
        a = .ata t.owner t.program t.mint ∧ dep ≤ t.amount ∧ t'.amount = t.amount - dep) := by
  obtain ⟨t', h1, ⟨h2, h3, h4⟩, h5⟩ := sablier_account hr hs hix ha
  refine ⟨t', h1, h2, h3, h4, fun hlt => ?_⟩
  rcases h5 with h | h | h
  · omega
  · rw [ho] at h; cases h
  · exact h

/-- **C79**: whatever happens on the chain, in this program or another: without the signature of its owner no account
of a token without permanent delegate is closed or reassigned, and it is reduced only by what its owner had approved a
delegate to take, which uses up the approval. -/
theorem C79_step {rt : Runtime} {w w' : World} {ix : Ix} (hr : Reachable rt w) (hs : step rt w ix = .ok w')
    {a p : Addr} {t : TokenData} (ha : w.bank.tokens a = some t) (ho : t.owner = p) (hp : p.canSign = true)
    {md : MintData} (hm : w.bank.mints t.mint = some md) (hd : md.permanentDelegate = none)
    (hn : signerOf ix ≠ some p) :
    ∃ t', w'.bank.tokens a = some t' ∧ t'.owner = p ∧ t'.mint = t.mint ∧ t'.program = t.program ∧
      t.amount + allowance w' a ≤ t'.amount + allowance w a ∧ allowance w' a ≤ allowance w a := by
  have keep : w'.approvals a = w.approvals a → (∃ t', w'.bank.tokens a = some t' ∧ TokGrows t t') →
      ∃ t', w'.bank.tokens a = some t' ∧ t'.owner = p ∧ t'.mint = t.mint ∧ t'.program = t.program ∧
      t.amount + allowance w' a ≤ t'.amount + allowance w a ∧ allowance w' a ≤ allowance w a := by
    rintro he ⟨t', h1, h2, h3, h4, h5⟩
    have : allowance w' a = allowance w a := by unfold allowance; rw [he]
    exact ⟨t', h1, h4.trans ho, h3, h2, by omega, by omega⟩
  by_cases hix : isSablier ix = true
  · obtain ⟨t', h1, h2, h3, h4, h5⟩ := C79_sablier hr hs hix ha (by rw [ho]; exact hp)
    refine keep (by rw [(step_did hs).approvals hix]) ⟨t', h1, h2, h3, h4, ?_⟩
    by_cases hlt : t'.amount < t.amount
    · obtain ⟨_, _, h6, _⟩ := h5 hlt
      rw [ho] at h6; exact absurd h6 hn
    · omega
  · cases ix with
    | lockup i => cases i <;> exact absurd rfl hix
    | merkle i => cases i <;> exact absurd rfl hix
    | env i =>
      have same : w'.bank.tokens = w.bank.tokens → w'.approvals a = w.approvals a → _ := fun h h' =>
        keep h' ⟨t, by rw [h]; exact ha, .refl _⟩
      have other : ∀ {x u}, w'.bank.tokens = upd w.bank.tokens x u → a ≠ x → w'.approvals a = w.approvals a → _ :=
        fun h hx h' => keep h' ⟨t, by rw [h, upd_ne _ _ hx]; exact ha, .refl _⟩
      have hrun : i.run rt w = .ok w' := hs
      cases i with
      | tick _ =>
        simp only [EnvIx.run, bind_ok, require_ok, pure_ok] at hrun
        obtain ⟨_, _, rfl⟩ := hrun; exact same rfl rfl
      | setOracle _ _ _ =>
        simp only [EnvIx.run, pure_ok] at hrun; subst hrun; exact same rfl rfl
      | setWallet _ _ =>
        simp only [EnvIx.run, pure_ok] at hrun; subst hrun; exact same rfl rfl
      | sendLamports s d x =>
        simp only [EnvIx.run, World.systemTransfer, bind_ok, require_ok, pure_ok] at hrun
        obtain ⟨_, _, _, _, rfl⟩ := hrun; exact same rfl rfl
      | createMint _ _ =>
        simp only [EnvIx.run, bind_ok, require_ok, pure_ok] at hrun
        obtain ⟨_, _, b, hb, rfl⟩ := hrun
        obtain ⟨_, _, rfl⟩ := openMint_ok hb; exact same rfl rfl
      | setFee _ _ =>
        simp only [EnvIx.run, bind_ok, require_ok, pure_ok] at hrun
        obtain ⟨_, _, _, _, rfl⟩ := hrun; exact same rfl rfl
      | setBlocked _ _ _ =>
        simp only [EnvIx.run, bind_ok, require_ok, pure_ok] at hrun
        obtain ⟨_, _, _, _, rfl⟩ := hrun; exact same rfl rfl
      | setMintAuthority _ _ _ =>
        simp only [EnvIx.run, bind_ok, require_ok, pure_ok] at hrun
        obtain ⟨_, _, _, _, rfl⟩ := hrun; exact same rfl rfl
      | setFreezeAuthority _ _ _ =>
        simp only [EnvIx.run, bind_ok, require_ok, pure_ok] at hrun
        obtain ⟨_, _, _, _, rfl⟩ := hrun; exact same rfl rfl
      | mintTo _ d _ _ _ =>
        simp only [EnvIx.run, bind_ok, require_ok, pure_ok] at hrun
        obtain ⟨_, _, b, hb, rfl⟩ := hrun
        obtain ⟨_, tt, _, h2, _, _, _, _, _, _, rfl⟩ := mintTo_ok hb
        by_cases he : a = d
        · subst he; rw [ha] at h2; cases h2
          exact keep rfl ⟨_, upd_same _ _ _, rfl, rfl, rfl, Nat.le_add_right _ _⟩
        · exact other rfl he rfl
      | transfer src dst x _ _ _ _ =>
        simp only [EnvIx.run, bind_ok, require_ok, pure_ok] at hrun
        obtain ⟨_, _, b, hb, rfl⟩ := hrun
        obtain ⟨tf, _, _, hf, hx, _⟩ := transferChecked_ok hb
        refine keep rfl (transferFacts_grows hf ha ?_)
        intro he
        have := hf.src
        rw [← he, ha] at this; cases this
        exact hn (by rw [← ho, hx]; rfl)
      | delegateTransfer src dst x _ _ _ =>
        simp only [EnvIx.run, bind_ok, require_ok, pure_ok, fetch_ok] at hrun
        obtain ⟨md', h1, _, ⟨h2, _⟩, b, hb, rfl⟩ := hrun
        obtain ⟨tf, _, _, hf⟩ := transferCore_ok hb
        refine keep rfl (transferFacts_grows hf ha ?_)
        intro he
        have := hf.src
        rw [← he, ha] at this; cases this
        rw [hf.mints.1, h1] at hm; cases hm
        rw [hd] at h2; cases h2
      | burn src x _ =>
        simp only [EnvIx.run, bind_ok, require_ok, pure_ok, fetch_ok] at hrun
        obtain ⟨u, h1, _, ⟨h2, _⟩, b, hb, rfl⟩ := hrun
        obtain ⟨_, _, _, _, _, _, rfl⟩ := burn_ok hb
        refine other rfl ?_ rfl
        intro he; rw [← he, ha] at h1; cases h1
        exact hn (by rw [← ho, h2]; rfl)
      | delegateBurn src x _ =>
        simp only [EnvIx.run, bind_ok, require_ok, pure_ok, fetch_ok] at hrun
        obtain ⟨u, h1, md', h3, _, ⟨h2, _⟩, b, hb, rfl⟩ := hrun
        obtain ⟨_, _, _, _, _, _, rfl⟩ := burn_ok hb
        refine other rfl ?_ rfl
        intro he; rw [← he, ha] at h1; cases h1
        rw [hm] at h3; cases h3
        rw [hd] at h2; cases h2
      | metaplexBurn acc x _ =>
        simp only [EnvIx.run, bind_ok, require_ok, pure_ok, fetch_ok] at hrun
        obtain ⟨u, h1, _, ⟨h2, _⟩, _, _, _, _, _, _, b, hb, rfl⟩ := hrun
        obtain ⟨_, _, _, _, _, _, rfl⟩ := burn_ok hb
        have he : a ≠ acc := by
          intro he; rw [← he, ha] at h1; cases h1
          exact hn (by rw [← ho, h2]; rfl)
        refine keep (upd_ne _ _ he) ⟨t, ?_, .refl _⟩
        simp only [setToken_tokens, upd_ne _ _ he, setMint_tokens]
        exact ha
      | approve x o d k =>
        simp only [EnvIx.run, bind_ok, require_ok, pure_ok, fetch_ok] at hrun
        obtain ⟨u, h1, _, ⟨h2, _⟩, _, _, rfl⟩ := hrun
        have he : a ≠ x := by
          intro he; rw [← he, ha] at h1; cases h1
          exact hn (by rw [← ho, h2]; rfl)
        exact same rfl (upd_ne _ _ he)
      | changeSettings x o s =>
        simp only [EnvIx.run, bind_ok, require_ok, pure_ok, fetch_ok] at hrun
        obtain ⟨u, h1, _, _, _, _, rfl⟩ := hrun
        exact same rfl rfl
      | revoke x o =>
        simp only [EnvIx.run, bind_ok, require_ok, pure_ok, fetch_ok] at hrun
        obtain ⟨u, h1, _, _, rfl⟩ := hrun
        by_cases he : a = x
        · subst he
          have : allowance { w with approvals := upd w.approvals a none } a = 0 := by
            unfold allowance; simp only [upd_same]
          exact ⟨t, ha, ho, rfl, rfl, by rw [this]; omega, by rw [this]; omega⟩
        · exact same rfl (upd_ne _ _ he)
      | approvedTransfer src dst x m tp amt dec =>
        simp only [EnvIx.run, bind_ok, require_ok, pure_ok, fetch_ok] at hrun
        obtain ⟨u, h1, ap, h2, _, ⟨h3, _, h4⟩, _, h5, b, hb, rfl⟩ := hrun
        obtain ⟨tf, tt, md', hf, hx, _⟩ := transferChecked_ok hb
        by_cases he : a = src
        · subst he
          have e := hf.src
          rw [ha] at e; cases e
          have hal : allowance w a = ap.2 := by unfold allowance; rw [h2]
          rcases hf.result with ⟨e, rfl⟩ | ⟨hne, _, rfl⟩
          · exact keep (by simp only [e, if_true]) ⟨t, ha, .refl _⟩
          · have hal' : allowance { w with
                bank := w.bank.move a dst t tt amt (md'.fee amt),
                approvals := if a = dst then w.approvals else upd w.approvals a (spendApproval ap amt) } a = ap.2 - amt := by
              unfold allowance
              simp only [if_neg hne, upd_same, spendApproval]
              split
              · rename_i heq; split at heq
                · cases heq
                · injection heq with heq; injection heq with _ heq; exact heq.symm
              · rename_i heq; split at heq
                · rename_i h0; exact h0.symm
                · cases heq
            have := hf.funds
            refine ⟨{ t with amount := t.amount - amt }, ?_, ho, rfl, rfl, ?_, ?_⟩
            · show upd (upd w.bank.tokens a _) dst _ a = _
              rw [upd_ne _ _ hne, upd_same]
            · rw [hal', hal]; simp only; omega
            · rw [hal', hal]; omega
        · refine keep ?_ (transferFacts_grows hf ha he)
          show (if src = dst then w.approvals else _) a = _
          split
          · rfl
          · exact upd_ne _ _ he
      | approvedBurn src x amt =>
        simp only [EnvIx.run, bind_ok, require_ok, pure_ok, fetch_ok] at hrun
        obtain ⟨u, h1, ap, h2, _, ⟨h3, _, h4⟩, _, h5, b, hb, rfl⟩ := hrun
        obtain ⟨tf, md', e1, e2, _, e4, rfl⟩ := burn_ok hb
        by_cases he : a = src
        · subst he
          rw [ha] at e1; cases e1
          have hal : allowance w a = ap.2 := by unfold allowance; rw [h2]
          have hal' : ∀ b, allowance { w with bank := b, approvals := upd w.approvals a (spendApproval ap amt) } a = ap.2 - amt := by
            intro b
            unfold allowance
            simp only [upd_same, spendApproval]
            split
            · rename_i heq; split at heq
              · cases heq
              · injection heq with heq; injection heq with _ heq; exact heq.symm
            · rename_i heq; split at heq
              · rename_i h0; exact h0.symm
              · cases heq
          refine ⟨{ t with amount := t.amount - amt }, upd_same _ _ _, ho, rfl, rfl, ?_, ?_⟩
          · rw [hal', hal]; simp only; omega
          · rw [hal', hal]; omega
        · exact other rfl he (upd_ne _ _ he)
      | metaplexFreeze x d f =>
        simp only [EnvIx.run, bind_ok, require_ok, pure_ok, fetch_ok] at hrun
        obtain ⟨u, h1, _, _, _, _, _, _, _, _, rfl⟩ := hrun
        by_cases he : a = x
        · subst he; rw [ha] at h1; cases h1
          exact keep rfl ⟨_, upd_same _ _ _, rfl, rfl, rfl, Nat.le_refl _⟩
        · exact other rfl he rfl
      | metaplexCreate | metaplexUpdate | metaplexSign | metaplexVerify | metaplexUnverify =>
        obtain ⟨_, rfl, _⟩ := metaStep_ok rfl hrun; exact same rfl rfl
      | createAta _ x _ _ _ =>
        simp only [EnvIx.run, bind_ok, require_ok] at hrun
        obtain ⟨_, _, hrun⟩ := hrun
        obtain ⟨b, l, _, h1, _, rfl⟩ := createAta_ok hrun
        obtain ⟨_, hnn, _, rfl⟩ := openAccount_ok h1
        refine other rfl ?_ rfl
        intro he; rw [← he, ha] at hnn; cases hnn
      | createTokenAccount n _ _ _ =>
        simp only [EnvIx.run, bind_ok, pure_ok] at hrun
        obtain ⟨b, h1, rfl⟩ := hrun
        obtain ⟨_, hnn, _, rfl⟩ := openAccount_ok h1
        refine other rfl ?_ rfl
        intro he; rw [← he, ha] at hnn; cases hnn
      | setOwner x _ _ =>
        simp only [EnvIx.run, bind_ok, require_ok, pure_ok, fetch_ok] at hrun
        obtain ⟨u, h1, _, ⟨h2, _⟩, _, _, rfl⟩ := hrun
        have he : a ≠ x := by
          intro he; rw [← he, ha] at h1; cases h1
          exact hn (by rw [← ho, h2]; rfl)
        exact other rfl he (upd_ne _ _ he)
      | closeToken x _ _ =>
        simp only [EnvIx.run, bind_ok, require_ok, pure_ok, fetch_ok] at hrun
        obtain ⟨u, h1, _, ⟨h2, _⟩, _, _, rfl⟩ := hrun
        have he : a ≠ x := by
          intro he; rw [← he, ha] at h1; cases h1
          exact hn (by rw [← ho, h2]; rfl)
        exact other rfl he (upd_ne _ _ he)
      | setFrozen x _ _ =>
        simp only [EnvIx.run, bind_ok, require_ok, pure_ok, fetch_ok] at hrun
        obtain ⟨u, h1, _, _, _, _, rfl⟩ := hrun
        by_cases he : a = x
        · subst he; rw [ha] at h1; cases h1
          exact keep rfl ⟨_, upd_same _ _ _, rfl, rfl, rfl, Nat.le_refl _⟩
        · exact other rfl he rfl

/-- **C79**: so in any history in which a wallet signs nothing, no token account of it (of a token without permanent
delegate) is closed or reassigned, and it loses at most what the wallet had approved a delegate to take before: without
an approval, all its tokens are still there. -/
theorem C79_history {rt : Runtime} {w w' : World} {p : Addr} (hr : Reachable rt w) (hs : StepsUnsignedBy rt p w w')
    (hp : p.canSign = true) {a : Addr} {t : TokenData} (ha : w.bank.tokens a = some t) (ho : t.owner = p)
    {md : MintData} (hm : w.bank.mints t.mint = some md) (hd : md.permanentDelegate = none) :
    ∃ t', w'.bank.tokens a = some t' ∧ t'.owner = p ∧ t'.mint = t.mint ∧ t'.program = t.program ∧
      t.amount + allowance w' a ≤ t'.amount + allowance w a ∧ allowance w' a ≤ allowance w a := by
  suffices h : ∃ t' md', (Reachable rt w' ∧ w'.bank.tokens a = some t' ∧ t'.owner = p ∧ t'.mint = t.mint ∧
      t'.program = t.program ∧ t.amount + allowance w' a ≤ t'.amount + allowance w a ∧ allowance w' a ≤ allowance w a) ∧
      w'.bank.mints t.mint = some md' ∧ md'.permanentDelegate = none by
    obtain ⟨t', _, ⟨_, h⟩, _⟩ := h; exact ⟨t', h⟩
  induction hs with
  | refl => exact ⟨t, md, ⟨hr, ha, ho, rfl, rfl, Nat.le_refl _, Nat.le_refl _⟩, hm, hd⟩
  | tail ix _ h hn ih =>
    obtain ⟨t₁, md₁, ⟨k0, k1, k2, k3, k4, k5, k6'⟩, k6, k7⟩ := ih
    obtain ⟨t₂, j1, j2, j3, j4, j5, j5'⟩ := C79_step k0 h k1 k2 hp (by rw [k3]; exact k6) k7 hn
    obtain ⟨md₂, j6, j7⟩ := (step_did h).mint k6
    exact ⟨t₂, md₂, ⟨k0.step h, j1, j2, j3.trans k3, j4.trans k4, by omega, by omega⟩, j6,
      by rw [j7.2.2.1]; exact k7⟩

/-- Alice's deposit of stream 3 is what her account pays. -/
def demoCreate3 : Ix := .lockup (.createWithTimestamps (createAccts 3) 3 1000 5000 0 6000 0 0 true)
theorem demoCreate3_step : step Demo.rt Demo.world3 demoCreate3 = .ok (Demo.after Demo.world3 [demoCreate3]) :=
  Demo.step_after (by decide +kernel)

example := C79_sablier Demo.reach3 demoCreate3_step rfl (a := ataOf alice) (t := ⟨tok, Demo.mint, alice, 997500, false⟩)
  (by decide +kernel) rfl

/-- Alice cancels, carol withdraws for bob: bob's tokens only grow. -/
theorem demo_bob_silent : StepsUnsignedBy Demo.rt bob Demo.world3 Demo.world5 :=
  .tail ixWithdrawMax (.tail ixCancel (.refl _) (Demo.step_after (by decide +kernel)) (by decide))
    (Demo.step_after (by decide +kernel)) (by decide)

example := C79_step Demo.reach3 (Demo.step_after (w := Demo.world3) (ix := ixCancel) (by decide +kernel))
  (a := ataOf bob) (p := bob) (t := ⟨tok, Demo.mint, bob, 700, false⟩) (by decide +kernel) rfl rfl
  (md := { plainMint with supply := 1000000 }) (by decide +kernel) rfl (by decide)

example := C79_history Demo.reach3 demo_bob_silent rfl (a := ataOf bob) (t := ⟨tok, Demo.mint, bob, 700, false⟩)
  (by decide +kernel) rfl (md := { plainMint with supply := 1000000 }) (by decide +kernel) rfl

end Solsab.Props
