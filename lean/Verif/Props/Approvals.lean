import Verif.Props.Holder
import Verif.Proofs.Exact
/-!
# C87 — delegates: vaults cannot have one, NFT accounts can
-/

namespace Solsab.Props

open Solsab Spec Lockup Demo

/-- A delegate (with its allowance) found after an environment step was approved in that step by the owner, or was
there before with at least that allowance, on an account that is still its owner's. -/
def ApprovalSource (i : EnvIx) (w w' : World) (a d : Addr) (k : Nat) : Prop :=
  (∃ t, w.bank.tokens a = some t ∧ w'.bank.tokens a = some t ∧ i = .approve a t.owner d k ∧ t.owner.canSign = true ∧
    d ≠ t.owner) ∨
  ((∃ k', k ≤ k' ∧ w.approvals a = some (d, k')) ∧
    ∀ t, w.bank.tokens a = some t → ∃ t', w'.bank.tokens a = some t' ∧ t'.owner = t.owner)

theorem env_approval {rt : Runtime} {w w' : World} {i : EnvIx} (h : i.run rt w = .ok w') {a d : Addr} {k : Nat}
    (hap : w'.approvals a = some (d, k)) : ApprovalSource i w w' a d k := by
  have keep : w'.approvals a = w.approvals a →
      (∀ t, w.bank.tokens a = some t → ∃ t', w'.bank.tokens a = some t' ∧ t'.owner = t.owner) →
      ApprovalSource i w w' a d k :=
    fun h1 h2 => Or.inr ⟨⟨k, Nat.le_refl _, h1 ▸ hap⟩, h2⟩
  have same : w'.bank.tokens = w.bank.tokens →
      ∀ t, w.bank.tokens a = some t → ∃ t', w'.bank.tokens a = some t' ∧ t'.owner = t.owner :=
    fun h t ht => ⟨t, by rw [h]; exact ht, rfl⟩
  have one : ∀ {x u u'}, w.bank.tokens x = some u → w'.bank.tokens = upd w.bank.tokens x (some u') → u'.owner = u.owner →
      ∀ t, w.bank.tokens a = some t → ∃ t', w'.bank.tokens a = some t' ∧ t'.owner = t.owner := by
    intro x u u' h1 h3 h2 t ht
    rw [h3]
    by_cases e : a = x
    · subst e; rw [h1] at ht; cases ht; exact ⟨u', upd_same _ _ _, h2⟩
    · exact ⟨t, by rw [upd_ne _ _ e]; exact ht, rfl⟩
  have new : ∀ {x u}, w.bank.tokens x = none → w'.bank.tokens = upd w.bank.tokens x u →
      ∀ t, w.bank.tokens a = some t → ∃ t', w'.bank.tokens a = some t' ∧ t'.owner = t.owner := by
    intro x u h1 h3 t ht
    rw [h3, upd_ne _ _ (by intro e; rw [e, h1] at ht; cases ht)]; exact ⟨t, ht, rfl⟩
  have moved : ∀ {s e m : Addr} {tp : TokenProgram} {amt : Nat} {tf tt : TokenData} {md : MintData}, TransferFacts w.bank s e m tp amt w'.bank tf tt md →
      ∀ t, w.bank.tokens a = some t → ∃ t', w'.bank.tokens a = some t' ∧ t'.owner = t.owner := by
    intro s e m tp amt tf tt md hf t ht
    by_cases es : a = s
    · rcases hf.result with ⟨_, e'⟩ | ⟨hne, _, e'⟩
      · exact ⟨t, by rw [e']; exact ht, rfl⟩
      · subst es
        have hts := hf.src
        rw [ht, Option.some.injEq] at hts
        refine ⟨{ tf with amount := tf.amount - amt }, ?_, by rw [hts]⟩
        rw [e']
        show upd (upd w.bank.tokens a _) e _ a = _
        rw [upd_ne _ _ hne, upd_same]
    · obtain ⟨t', h1, _, _, h2, _⟩ := transferFacts_grows hf ht es
      exact ⟨t', h1, h2⟩
  have gone : ∀ {x : Addr}, w'.approvals = upd w.approvals x none → a ≠ x ∧ w'.approvals a = w.approvals a := by
    intro x h
    have hne : a ≠ x := by
      intro e; subst e; rw [h, upd_same] at hap; cases hap
    exact ⟨hne, by rw [h, upd_ne _ _ hne]⟩
  have spent : ∀ {x y : Addr} {l amt : Nat}, w.approvals x = some (y, l) →
      w'.approvals = upd w.approvals x (spendApproval (y, l) amt) → ∃ k', k ≤ k' ∧ w.approvals a = some (d, k') := by
    intro x y l amt h1 h2
    by_cases e : a = x
    · subst e
      rw [h2, upd_same, spendApproval] at hap
      split at hap
      · cases hap
      · injection hap with hap; injection hap with e1 e2
        exact ⟨l, by simp only at e2; omega, by rw [h1]; exact congrArg (fun z => some (z, l)) e1⟩
    · exact ⟨k, Nat.le_refl _, by rw [h2, upd_ne _ _ e] at hap; exact hap⟩
  cases i with
  | tick t =>
    simp only [EnvIx.run, bind_ok, require_ok, pure_ok] at h
    obtain ⟨_, _, rfl⟩ := h; exact keep rfl (same rfl)
  | setOracle p f d =>
    simp only [EnvIx.run, pure_ok] at h
    subst h; exact keep rfl (same rfl)
  | setWallet n amount =>
    simp only [EnvIx.run, pure_ok] at h
    subst h; exact keep rfl (same rfl)
  | sendLamports src dst amount =>
    simp only [EnvIx.run, World.systemTransfer, bind_ok, require_ok, pure_ok] at h
    obtain ⟨_, h1, _, _, rfl⟩ := h; exact keep rfl (same rfl)
  | createMint n md =>
    simp only [EnvIx.run, bind_ok, require_ok, pure_ok] at h
    obtain ⟨_, h1, b, h2, rfl⟩ := h
    obtain ⟨_, _, rfl⟩ := openMint_ok h2; exact keep rfl (same rfl)
  | setFee m f =>
    simp only [EnvIx.run, bind_ok, require_ok, fetch_ok, pure_ok] at h
    obtain ⟨md, h1, _, h2, rfl⟩ := h; exact keep rfl (same rfl)
  | setBlocked n x y =>
    simp only [EnvIx.run, bind_ok, require_ok, fetch_ok, pure_ok] at h
    obtain ⟨md, h1, _, h2, rfl⟩ := h; exact keep rfl (same rfl)
  | setMintAuthority m s a =>
    simp only [EnvIx.run, bind_ok, require_ok, fetch_ok, pure_ok] at h
    obtain ⟨md, h1, _, h2, rfl⟩ := h; exact keep rfl (same rfl)
  | setFreezeAuthority m s a =>
    simp only [EnvIx.run, bind_ok, require_ok, fetch_ok, pure_ok] at h
    obtain ⟨md, h1, _, h2, rfl⟩ := h; exact keep rfl (same rfl)
  | mintTo m e x tp amt =>
    simp only [EnvIx.run, bind_ok, require_ok, pure_ok] at h
    obtain ⟨_, h1, b, h2, rfl⟩ := h
    obtain ⟨_, tt, _, h3, _, _, _, _, _, _, rfl⟩ := mintTo_ok h2
    exact keep rfl (one h3 rfl rfl)
  | transfer s e x m tp amt dec =>
    simp only [EnvIx.run, bind_ok, require_ok, pure_ok] at h
    obtain ⟨_, h1, b, h2, rfl⟩ := h
    obtain ⟨tf, tt, md, hf, _⟩ := transferChecked_ok h2
    exact keep rfl (moved hf)
  | delegateTransfer s e x m tp amt =>
    simp only [EnvIx.run, bind_ok, require_ok, fetch_ok, pure_ok] at h
    obtain ⟨md, h1, _, _, b, h3, rfl⟩ := h
    obtain ⟨tf, tt, md, hf⟩ := transferCore_ok h3
    exact keep rfl (moved hf)
  | burn s o amt =>
    simp only [EnvIx.run, bind_ok, require_ok, fetch_ok, pure_ok] at h
    obtain ⟨t, h1, _, _, b, h4, rfl⟩ := h
    obtain ⟨tf, md, h5, _, _, _, rfl⟩ := burn_ok h4
    exact keep rfl (one h5 rfl rfl)
  | delegateBurn s x amt =>
    simp only [EnvIx.run, bind_ok, require_ok, fetch_ok, pure_ok] at h
    obtain ⟨t, h1, md, h2, _, _, b, h4, rfl⟩ := h
    obtain ⟨tf, md, h5, _, _, _, rfl⟩ := burn_ok h4
    exact keep rfl (one h5 rfl rfl)
  | approve x o e l =>
    simp only [EnvIx.run, bind_ok, require_ok, fetch_ok, pure_ok] at h
    obtain ⟨t, h1, _, ⟨rfl, h2⟩, _, ⟨_, h3⟩, rfl⟩ := h
    by_cases e : a = x
    · subst e
      have hap : upd w.approvals a _ a = _ := hap
      rw [upd_same] at hap; cases hap
      exact .inl ⟨t, h1, h1, rfl, h2, h3⟩
    · exact keep (upd_ne _ _ e) (same rfl)
  | changeSettings x o s =>
    simp only [EnvIx.run, bind_ok, require_ok, fetch_ok, pure_ok] at h
    obtain ⟨t, h1, _, _, _, _, rfl⟩ := h
    exact keep rfl (same rfl)
  | revoke x o =>
    simp only [EnvIx.run, bind_ok, require_ok, fetch_ok, pure_ok] at h
    obtain ⟨t, h1, _, _, rfl⟩ := h
    exact keep (gone rfl).2 (same rfl)
  | approvedTransfer s e x m tp amt dec =>
    simp only [EnvIx.run, bind_ok, require_ok, fetch_ok, pure_ok] at h
    obtain ⟨t, h1, ap, h2, _, _, _, _, b, h4, rfl⟩ := h
    obtain ⟨tf, tt, md, hf, _⟩ := transferChecked_ok h4
    refine .inr ⟨?_, moved hf⟩
    by_cases hse : s = e
    · have hap : (if s = e then w.approvals else _) a = _ := hap
      rw [if_pos hse] at hap
      exact ⟨k, Nat.le_refl _, hap⟩
    · exact spent (y := ap.1) (l := ap.2) h2 (if_neg hse)
  | approvedBurn s x amt =>
    simp only [EnvIx.run, bind_ok, require_ok, fetch_ok, pure_ok] at h
    obtain ⟨t, h1, ap, h2, _, _, _, _, b, h4, rfl⟩ := h
    obtain ⟨tf, md, h5, _, _, _, rfl⟩ := burn_ok h4
    exact .inr ⟨spent (y := ap.1) (l := ap.2) h2 rfl, one h5 rfl rfl⟩
  | metaplexFreeze x e f =>
    simp only [EnvIx.run, bind_ok, require_ok, fetch_ok, pure_ok] at h
    obtain ⟨t, h1, md, h2, ap, h3, _, h4, _, h5, rfl⟩ := h
    exact keep rfl (one h1 rfl rfl)
  | metaplexBurn acc o m =>
    simp only [EnvIx.run, bind_ok, require_ok, fetch_ok, pure_ok] at h
    obtain ⟨t, h1, _, _, _, _, md, h6, _, _, b, h7, rfl⟩ := h
    obtain ⟨tf, md', h5, _, _, _, rfl⟩ := burn_ok h7
    obtain ⟨hne, he⟩ := gone (x := acc) rfl
    refine keep he (fun t ht => ⟨t, ?_, rfl⟩)
    simp only [setToken_tokens, upd_ne _ _ hne, setMint_tokens]
    exact ht
  | metaplexCreate | metaplexUpdate | metaplexSign | metaplexVerify | metaplexUnverify =>
    obtain ⟨m, rfl, he⟩ := metaStep_ok rfl h
    exact keep rfl (same rfl)
  | createAta payer addr owner tp mint =>
    simp only [EnvIx.run, bind_ok, require_ok] at h
    obtain ⟨_, h1, h2⟩ := h
    obtain ⟨b, l, rfl, hb, hl, rfl⟩ := createAta_ok h2
    obtain ⟨_, hnn, _, rfl⟩ := openAccount_ok hb
    exact keep rfl (new hnn rfl)
  | createTokenAccount n o m tp =>
    simp only [EnvIx.run, bind_ok, pure_ok] at h
    obtain ⟨b, h1, rfl⟩ := h
    obtain ⟨_, hnn, _, rfl⟩ := openAccount_ok h1
    exact keep rfl (new hnn rfl)
  | setOwner x o o' =>
    simp only [EnvIx.run, bind_ok, require_ok, fetch_ok, pure_ok] at h
    obtain ⟨t, h1, _, _, _, _, rfl⟩ := h
    obtain ⟨hne, he⟩ := gone (x := x) rfl
    exact keep he (fun t ht => ⟨t, by rw [setToken_tokens, upd_ne _ _ hne]; exact ht, rfl⟩)
  | closeToken x o e =>
    simp only [EnvIx.run, bind_ok, require_ok, fetch_ok, pure_ok] at h
    obtain ⟨t, h1, _, _, _, _, rfl⟩ := h
    obtain ⟨hne, he⟩ := gone (x := x) rfl
    exact keep he (fun t ht => ⟨t, by rw [setToken_tokens, upd_ne _ _ hne]; exact ht, rfl⟩)
  | setFrozen x e f =>
    simp only [EnvIx.run, bind_ok, require_ok, fetch_ok, pure_ok] at h
    obtain ⟨t, h1, md, h2, _, _, rfl⟩ := h
    exact keep rfl (one h1 rfl rfl)

theorem did_approval {rt : Runtime} {w w' : World} {ix : Ix} (hr : Reachable rt w) (h : step rt w ix = .ok w')
    {a d : Addr} {k : Nat} (hap : w'.approvals a = some (d, k)) :
    (∃ t, w.bank.tokens a = some t ∧ w'.bank.tokens a = some t ∧ ix = .env (.approve a t.owner d k) ∧
      t.owner.canSign = true ∧ d ≠ t.owner) ∨
    ((∃ k', k ≤ k' ∧ w.approvals a = some (d, k')) ∧
      ∀ t, w.bank.tokens a = some t → ∃ t', w'.bank.tokens a = some t' ∧ t'.owner = t.owner) := by
  by_cases hix : isSablier ix = true
  · refine .inr ⟨⟨k, Nat.le_refl _, by rw [← (step_did h).approvals hix]; exact hap⟩, fun t ht => ?_⟩
    obtain ⟨t', h1, ⟨_, _, h2⟩, _⟩ := sablier_account hr h hix ht
    exact ⟨t', h1, h2⟩
  · cases ix with
    | lockup i => cases i <;> exact absurd rfl hix
    | merkle i => cases i <;> exact absurd rfl hix
    | env i =>
      rcases env_approval h hap with ⟨t, h1, h2, rfl, h3⟩ | h
      · exact .inl ⟨t, h1, h2, rfl, h3⟩
      · exact .inr h

/-- Who has a delegate: an existing account of an owner that can sign, and the delegate is somebody else. -/
theorem _root_.Solsab.Reachable.approvalsOK {rt : Runtime} {w : World} (hr : Reachable rt w) {a d : Addr} {k : Nat}
    (hap : w.approvals a = some (d, k)) :
    ∃ t, w.bank.tokens a = some t ∧ t.owner.canSign = true ∧ d ≠ t.owner := by
  obtain ⟨w₀, hg, hs⟩ := hr
  induction hs generalizing a d k with
  | refl => rw [hg.no_approvals] at hap; cases hap
  | tail ix hst h ih =>
    rcases did_approval ⟨w₀, hg, hst⟩ h hap with ⟨t, _, h1, _, h2, h3⟩ | ⟨⟨k', _, h1⟩, h2⟩
    · exact ⟨t, h1, h2, h3⟩
    · obtain ⟨t, h3, h4, h5⟩ := ih h1
      obtain ⟨t', h6, h7⟩ := h2 t h3
      exact ⟨t', h6, by rw [h7]; exact h4, by rw [h7]; exact h5⟩

/-- **C87**: no vault ever has a delegate: no account at the associated address of a stream, a campaign, a treasury
or any other address without a private key can be moved by an approved delegate. -/
theorem C87_vaults_have_none {rt : Runtime} {w : World} (hr : Reachable rt w) {o : Addr} (ho : o.canSign = false)
    (tp : TokenProgram) (m : Addr) : w.approvals (.ata o tp m) = none := by
  cases h : w.approvals (.ata o tp m) with
  | none => rfl
  | some x =>
    obtain ⟨t, h1, h2, _⟩ := hr.approvalsOK (d := x.1) (k := x.2) h
    rcases hr.bankInv.tok_addr _ _ h1 with ⟨_, e⟩ | ⟨o', e, h3⟩
    · cases e
    · injection e with e1
      rw [h3 (e1 ▸ ho), ← e1, ho] at h2; cases h2

/-- **C87**: a delegate comes from the owner's signature alone: no instruction of the two programs changes an
approval, and any other step that leaves a delegate on an account either is the owner's own `approve`, or found
that delegate there with at least the same allowance. -/
theorem C87_only_by_owner {rt : Runtime} {w w' : World} (hr : Reachable rt w) {ix : Ix} (h : step rt w ix = .ok w') :
    (isSablier ix = true → w'.approvals = w.approvals) ∧
    ∀ a d k, w'.approvals a = some (d, k) →
      (∃ k', k ≤ k' ∧ w.approvals a = some (d, k')) ∨
      (∃ t, w.bank.tokens a = some t ∧ ix = .env (.approve a t.owner d k) ∧ signerOf ix = some t.owner ∧
        t.owner.canSign = true) := by
  refine ⟨(step_did h).approvals, fun a d k hap => ?_⟩
  rcases did_approval hr h hap with ⟨t, h1, _, rfl, h2, _⟩ | ⟨h1, _⟩
  · exact .inr ⟨t, h1, rfl, rfl, h2⟩
  · exact .inl h1

/-- **C87**, the hazard: a delegate approved on the account that holds a stream's NFT can take the stream: it moves
the NFT to the associated account of anybody (itself, say), who is then the holder. -/
theorem C87_delegate_takes_stream {rt : Runtime} {w : World} (hr : Reachable rt w) {s : Addr} {n : Nat}
    {np : TokenProgram} {p d q : Addr} {k : Nat} (hp : Holds w s n np p)
    (hap : w.approvals (.ata p np (.streamNftMint s n)) = some (d, k)) (hk : 0 < k) (hd : d.canSign = true)
    (hz : ∀ t, w.bank.tokens (.ata p np (.streamNftMint s n)) = some t → t.frozen = false)
    {tq : TokenData} (hq : w.bank.tokens (.ata q np (.streamNftMint s n)) = some tq) (ho : tq.owner = q)
    (hzq : tq.frozen = false) :
    ∃ w', step rt w (.env (.approvedTransfer (.ata p np (.streamNftMint s n)) (.ata q np (.streamNftMint s n)) d
        (.streamNftMint s n) np 1 0)) = .ok w' ∧
      Holds w' s n np q ∧
      ∀ ix c w'', ix.withdrawAccts = some c → c.streamData = streamAddr s n → c.streamRecipient ≠ q →
        step rt w' ix ≠ .ok w'' := by
  obtain ⟨t, h1, h2, h3⟩ := hp
  obtain ⟨t', e, hos, _⟩ := hr.approvalsOK hap
  rw [h1] at e; cases e
  obtain ⟨q1, q2⟩ := ata_token hr.bankInv h1
  obtain ⟨r1, r2⟩ := ata_token hr.bankInv hq
  obtain ⟨md, hm, hpr⟩ := hr.bankInv.tok_mint _ _ h1
  rw [q2] at hm
  obtain ⟨hpl, _, _, _, hdec, hbl, _⟩ := hr.bankInv.nft _ _ rfl hm
  have hfee : md.fee 1 = 0 := by unfold MintData.fee; rw [hpl.1]
  have hb : ∃ b, w.bank.transferChecked (.ata p np (.streamNftMint s n)) (.ata q np (.streamNftMint s n)) t.owner
      (.streamNftMint s n) np 1 0 = .ok b := by
    by_cases e : (Addr.ata p np (.streamNftMint s n)) = .ata q np (.streamNftMint s n)
    · refine ⟨w.bank, transferChecked_of (tf := t) (tt := tq) (md := md) ?_ rfl hdec⟩
      exact { src := h1, dst := hq, mint := hm, prog := ⟨q1, r1, by rw [hpr, q1]⟩, mints := ⟨q2, r2⟩,
              thawed := ⟨hz _ h1, hzq⟩, unblocked := hbl, funds := by omega, result := .inl ⟨e, rfl⟩ }
    · refine ⟨w.bank.move (.ata p np (.streamNftMint s n)) (.ata q np (.streamNftMint s n)) t tq 1 (md.fee 1),
        transferChecked_of (tf := t) (tt := tq) (md := md) ?_ rfl hdec⟩
      have h0 : tq.amount = 0 := by
        by_contra hz
        exact e ((C30_unique_holder hr h1 q2 (by omega)).2.2 _ _ hq r2 (by omega)).symm
      exact { src := h1, dst := hq, mint := hm, prog := ⟨q1, r1, by rw [hpr, q1]⟩, mints := ⟨q2, r2⟩,
              thawed := ⟨hz _ h1, hzq⟩, unblocked := hbl, funds := by omega,
              result := .inr ⟨e, by rw [hfee, h0]; decide, rfl⟩ }
  obtain ⟨b, hb⟩ := hb
  have hst : ∃ w', step rt w (.env (.approvedTransfer (.ata p np (.streamNftMint s n)) (.ata q np (.streamNftMint s n)) d
        (.streamNftMint s n) np 1 0)) = .ok w' := by
    simp only [step, EnvIx.run, bind_ok, require_ok, pure_ok, fetch_ok]
    exact ⟨_, t, h1, (d, k), hap, (), ⟨rfl, hd, hos⟩, (), hk, b, hb, rfl⟩
  obtain ⟨w', hst⟩ := hst
  exact ⟨w', hst, C84_handover hr (by decide) (.inr hst) hq ho⟩

/-- **C87**: a delegate's freeze (the only other thing a delegate can do, through Metaplex) is harmless to the stream:
it changes no vault and no holder. -/
theorem C87_freeze_harmless {rt : Runtime} {w w' : World} (hr : Reachable rt w) {a d : Addr} {f : Bool}
    (h : step rt w (.env (.metaplexFreeze a d f)) = .ok w') :
    (∀ o tp m, o.canSign = false → w'.bank.tokens (.ata o tp m) = w.bank.tokens (.ata o tp m)) ∧
    (∀ s n np p, Holds w s n np p ↔ Holds w' s n np p) ∧ w'.lk = w.lk ∧ w'.mi = w.mi ∧ w'.log = w.log := by
  simp only [step, EnvIx.run, bind_ok, require_ok, pure_ok, fetch_ok] at h
  obtain ⟨t, h1, md, h2, ap, h3, _, h4, _, h5, rfl⟩ := h
  refine ⟨fun o tp m ho => ?_, fun s n np p => ?_, rfl, rfl, rfl⟩
  · refine upd_ne _ _ (fun e => ?_)
    rw [← e, C87_vaults_have_none hr ho] at h3; cases h3
  · unfold Holds
    by_cases e : Addr.ata p np (.streamNftMint s n) = a
    · subst e
      simp only [setToken_tokens, upd_same]
      constructor
      · rintro ⟨t', k1, k2, k3⟩
        rw [h1] at k1; cases k1
        exact ⟨_, rfl, k2, k3⟩
      · rintro ⟨t', k1, k2, k3⟩
        cases k1
        exact ⟨t, h1, k2, k3⟩
    · simp only [setToken_tokens, upd_ne _ _ e]

/-! ### Examples -/

/-- Bob lets carol move the NFT of stream 1; carol has an account for it. -/
def delegation : List Ix :=
  [ .env (.createAta bob (.ata carol tok (nft 1)) carol tok (nft 1)),
    .env (.approve (.ata bob tok (nft 1)) bob carol 1) ]
def ixFreeze : Ix := .env (.metaplexFreeze (.ata bob tok (nft 1)) carol true)
def worldA : World := after world2 delegation
theorem reachA : Reachable rt worldA := reach2.steps (steps_after (by decide +kernel))

example := C87_vaults_have_none reachA (o := str 1) rfl tok mint

/-- The approval of the example is the owner's. -/
example := C87_only_by_owner (rt := rt) (ix := .env (.approve (.ata bob tok (nft 1)) bob carol 1))
  (w := after world2 [.env (.createAta bob (.ata carol tok (nft 1)) carol tok (nft 1))])
  (reach2.steps (steps_after (by decide +kernel))) (step_after (by decide +kernel))

/-- Carol takes bob's stream. -/
example := C87_delegate_takes_stream reachA (s := alice) (n := 1) (np := tok) (p := bob) (d := carol) (q := carol)
  (k := 1) ⟨⟨tok, nft 1, bob, 1, false⟩, by decide +kernel, rfl, rfl⟩ (by decide +kernel) (by decide) rfl
  (fun t h => by
    have : worldA.bank.tokens (.ata bob tok (.streamNftMint alice 1)) = some ⟨tok, nft 1, bob, 1, false⟩ := by decide +kernel
    rw [this] at h; cases h; rfl)
  (tq := ⟨tok, nft 1, carol, 0, false⟩) (by decide +kernel) rfl rfl

example := C87_freeze_harmless reachA (step_after (ix := ixFreeze) (by decide +kernel))

end Solsab.Props
