import Verif.Proofs.NftInv
/-!
# Mints of the classic token program, and mints without freeze authority
-/

namespace Solsab

/-- All mints have only the extensions their program offers. -/
def AllExtensionsOk (b : Bank) : Prop := ∀ m md, b.mints m = some md → md.ExtensionsOk

private theorem ext_upd {b : Bank} (hb : AllExtensionsOk b) {m : Addr} {md' : MintData} (h : md'.ExtensionsOk) :
    AllExtensionsOk (b.setMint m (some md')) := by
  intro x md hx
  simp only [setMint_mints, upd_apply] at hx
  split at hx
  · cases hx; exact h
  · exact hb x md hx

private theorem ext_same {md md' : MintData} (h : md.ExtensionsOk) (h1 : md'.program = md.program)
    (h2 : md'.feeConfig = md.feeConfig) (h3 : md'.permanentDelegate = md.permanentDelegate)
    (h4 : md'.transferBlocked = md.transferBlocked) (h5 : md'.startsFrozen = md.startsFrozen) : md'.ExtensionsOk := by
  unfold MintData.ExtensionsOk MintData.Plain at *
  rw [h1, h2, h3, h4, h5]; exact h

theorem BSafe.extensions {b b' : Bank} (h : BSafe b b') (hb : AllExtensionsOk b) : AllExtensionsOk b' := by
  cases h with
  | openAta h => obtain ⟨_, _, _, rfl⟩ := openAccount_ok h; exact hb
  | openKey h => obtain ⟨_, _, _, rfl⟩ := openAccount_ok h; exact hb
  | openMintKey hs h => obtain ⟨_, _, rfl⟩ := openMint_ok h; exact ext_upd hb hs.2
  | openMintNft ha h => obtain ⟨_, _, rfl⟩ := openMint_ok h; exact ext_upd hb fun _ => ⟨⟨rfl, rfl⟩, rfl, rfl⟩
  | mintTo hs h => obtain ⟨_, _, h1, _, _, _, _, _, _, _, rfl⟩ := mintTo_ok h; exact ext_upd hb (ext_same (hb _ _ h1) rfl rfl rfl rfl rfl)
  | mintNft ha hm hs h => obtain ⟨_, _, h1, _, _, _, _, _, _, _, rfl⟩ := mintTo_ok h; exact ext_upd hb (ext_same (hb _ _ h1) rfl rfl rfl rfl rfl)
  | lock _ hm => exact ext_upd hb (ext_same (hb _ _ hm) rfl rfl rfl rfl rfl)
  | transfer hs h =>
    obtain ⟨_, _, _, hf, _⟩ := transferChecked_ok h
    rcases hf.result with ⟨_, rfl⟩ | ⟨_, _, rfl⟩ <;> exact hb
  | delegate hm hd h =>
    obtain ⟨_, _, _, hf⟩ := transferCore_ok h
    rcases hf.result with ⟨_, rfl⟩ | ⟨_, _, rfl⟩ <;> exact hb
  | burn ht ho h => obtain ⟨_, _, _, h1, _, _, rfl⟩ := burn_ok h; exact ext_upd hb (ext_same (hb _ _ h1) rfl rfl rfl rfl rfl)
  | delegateBurn ht hm hd h => obtain ⟨_, _, _, h1, _, _, rfl⟩ := burn_ok h; exact ext_upd hb (ext_same (hb _ _ h1) rfl rfl rfl rfl rfl)
  | @setFee m md f hm hf =>
    refine ext_upd hb fun hp => ?_
    have := (hb _ _ hm hp).1.1
    rw [this] at hf; cases hf
  | setBlocked hm hp2 => refine ext_upd hb fun hp => ?_; rw [show _ = _ from hp2] at hp; cases hp
  | setMintAuth hm _ _ => exact ext_upd hb (ext_same (hb _ _ hm) rfl rfl rfl rfl rfl)
  | setFreezeAuth hm _ _ => exact ext_upd hb (ext_same (hb _ _ hm) rfl rfl rfl rfl rfl)
  | setOwner _ _ => exact hb
  | close _ _ _ => exact hb
  | setFrozen _ _ _ => exact hb

theorem BSafes.extensions {b b' : Bank} (h : BSafes b b') (hb : AllExtensionsOk b) : AllExtensionsOk b' := by
  induction h with
  | refl => exact hb
  | tail _ hs ih => exact hs.extensions ih

theorem Reachable.extensions {rt : Runtime} {w : World} (h : Reachable rt w) : AllExtensionsOk w.bank := by
  refine h.induct (P := fun w => AllExtensionsOk w.bank) ?_ ?_
  · intro w hg m md hm; rw [hg.no_mints] at hm; cases hm
  · intro w ix w' hr ih hd
    rcases hd.bank with h | ⟨_, _, _, _, _, _, hp, _⟩
    · exact h.extensions ih
    · intro m md hm; rw [hp.mints_eq] at hm; exact ih m md hm

/-- A token that nobody can freeze: it has no freeze authority (and is not a stream NFT). -/
def NoFreeze (b : Bank) (m : Addr) : Prop :=
  m.isNftMint = false ∧ ∃ md, b.mints m = some md ∧ md.freezeAuthority = none

private theorem nofreeze_upd {b : Bank} {x m : Addr} {md md' : MintData} (h : NoFreeze b x) (hm : b.mints m = some md)
    (hk : md.freezeAuthority = none → md'.freezeAuthority = none) : NoFreeze (b.setMint m (some md')) x := by
  obtain ⟨hn, mx, h1, h2⟩ := h
  refine ⟨hn, ?_⟩
  simp only [setMint_mints, upd_apply]
  split
  · rename_i he; rw [he, hm] at h1; cases h1; exact ⟨_, rfl, hk h2⟩
  · exact ⟨mx, h1, h2⟩

theorem BSafe.noFreeze {b b' : Bank} (h : BSafe b b') {x : Addr} (hx : NoFreeze b x) : NoFreeze b' x := by
  cases h with
  | openAta h => obtain ⟨_, _, _, rfl⟩ := openAccount_ok h; exact hx
  | openKey h => obtain ⟨_, _, _, rfl⟩ := openAccount_ok h; exact hx
  | openMintKey hs h =>
    obtain ⟨h1, _, rfl⟩ := openMint_ok h
    obtain ⟨hn, mx, h2, h3⟩ := hx
    refine ⟨hn, mx, ?_, h3⟩
    rw [setMint_mints, upd_ne]
    · exact h2
    · intro he; rw [he, h1] at h2; cases h2
  | openMintNft ha h =>
    obtain ⟨h1, _, rfl⟩ := openMint_ok h
    obtain ⟨hn, mx, h2, h3⟩ := hx
    refine ⟨hn, mx, ?_, h3⟩
    rw [setMint_mints, upd_ne]
    · exact h2
    · intro he; rw [he, h1] at h2; cases h2
  | mintTo hs h => obtain ⟨_, _, h1, _, _, _, _, _, _, _, rfl⟩ := mintTo_ok h; exact nofreeze_upd hx h1 id
  | mintNft ha hm hs h => obtain ⟨_, _, h1, _, _, _, _, _, _, _, rfl⟩ := mintTo_ok h; exact nofreeze_upd hx h1 id
  | @lock m md ha hm =>
    obtain ⟨hn, mx, h2, h3⟩ := hx
    refine ⟨hn, mx, ?_, h3⟩
    rw [Lockup.lockAuthority, setMint_mints, upd_ne]
    · exact h2
    · intro he; rw [he, ha] at hn; cases hn
  | transfer hs h =>
    obtain ⟨_, _, _, hf, _⟩ := transferChecked_ok h
    rcases hf.result with ⟨_, rfl⟩ | ⟨_, _, rfl⟩ <;> exact hx
  | delegate hm hd h =>
    obtain ⟨_, _, _, hf⟩ := transferCore_ok h
    rcases hf.result with ⟨_, rfl⟩ | ⟨_, _, rfl⟩ <;> exact hx
  | burn ht ho h => obtain ⟨_, _, _, h1, _, _, rfl⟩ := burn_ok h; exact nofreeze_upd hx h1 id
  | delegateBurn ht hm hd h => obtain ⟨_, _, _, h1, _, _, rfl⟩ := burn_ok h; exact nofreeze_upd hx h1 id
  | setFee hm hf => exact nofreeze_upd hx hm id
  | setBlocked hm _ => exact nofreeze_upd hx hm id
  | setMintAuth hm _ _ => exact nofreeze_upd hx hm id
  | setFreezeAuth hm ha _ => exact nofreeze_upd hx hm fun h0 => by rw [h0] at ha; cases ha
  | setOwner _ _ => exact hx
  | close _ _ _ => exact hx
  | setFrozen _ _ _ => exact hx

/-- An unfrozen program-owned account of a token without freeze authority stays unfrozen. -/
theorem BSafe.thawed {b b' : Bank} (h : BSafe b b') {a : Addr} {t : TokenData} (ha : b.tokens a = some t)
    (ho : t.owner.canSign = false) (hx : NoFreeze b t.mint) (ht : t.frozen = false) :
    ∃ t', b'.tokens a = some t' ∧ t'.frozen = false := by
  have open_ : ∀ {x : Addr} {u : TokenData}, b.tokens x = none →
      ∃ t', (b.setToken x (some u)).tokens a = some t' ∧ t'.frozen = false := by
    intro x u hx
    refine ⟨t, ?_, ht⟩
    rw [setToken_tokens, upd_ne]
    · exact ha
    · intro he; rw [he, hx] at ha; cases ha
  have set_ : ∀ {x : Addr} {u u' : TokenData}, b.tokens x = some u → u'.frozen = u.frozen →
      ∃ t', upd b.tokens x (some u') a = some t' ∧ t'.frozen = false := by
    intro x u u' hu hf
    rw [upd_apply]
    split
    · rename_i he; rw [he, hu] at ha; cases ha; exact ⟨_, rfl, hf.trans ht⟩
    · exact ⟨t, ha, ht⟩
  have signer : ∀ {x : Addr} {u : TokenData}, b.tokens x = some u → u.owner.canSign = true → a ≠ x := by
    intro x u hx hu he
    rw [he, hx] at ha; cases ha; rw [hu] at ho; cases ho
  have move_ : ∀ {s d m tp amt tf tt md b''}, TransferFacts b s d m tp amt b'' tf tt md →
      ∃ t', b''.tokens a = some t' ∧ t'.frozen = false := by
    intro s d m tp amt tf tt md b'' hf
    rcases hf.result with ⟨_, rfl⟩ | ⟨_, _, rfl⟩
    · exact ⟨t, ha, ht⟩
    · simp only [Bank.move, setToken_tokens, upd_apply]
      split
      · rename_i he; exact ⟨_, rfl, hf.thawed.2⟩
      · split
        · exact ⟨_, rfl, hf.thawed.1⟩
        · exact ⟨t, ha, ht⟩
  cases h with
  | openAta h => obtain ⟨_, h1, _, rfl⟩ := openAccount_ok h; exact open_ h1
  | openKey h => obtain ⟨_, h1, _, rfl⟩ := openAccount_ok h; exact open_ h1
  | openMintKey hs h => obtain ⟨h1, _, rfl⟩ := openMint_ok h; exact ⟨t, ha, ht⟩
  | openMintNft _ h => obtain ⟨h1, _, rfl⟩ := openMint_ok h; exact ⟨t, ha, ht⟩
  | mintTo hs h => obtain ⟨_, _, _, h1, _, _, _, _, _, _, rfl⟩ := mintTo_ok h; exact set_ h1 rfl
  | mintNft _ hm hs h => obtain ⟨_, _, _, h1, _, _, _, _, _, _, rfl⟩ := mintTo_ok h; exact set_ h1 rfl
  | lock _ hm => exact ⟨t, ha, ht⟩
  | transfer hs h => obtain ⟨tf, _, _, hf, h1, _⟩ := transferChecked_ok h; exact move_ hf
  | delegate hm hd h => obtain ⟨tf, tt, md', hf⟩ := transferCore_ok h; exact move_ hf
  | burn ht' hu h => obtain ⟨tf, md, h1, h2, _, _, rfl⟩ := burn_ok h; exact set_ h1 rfl
  | delegateBurn ht' hm hd h => obtain ⟨tf, md', h1, h2, _, _, rfl⟩ := burn_ok h; exact set_ h1 rfl
  | setFee hm hf => exact ⟨t, ha, ht⟩
  | setBlocked hm _ => exact ⟨t, ha, ht⟩
  | setMintAuth hm _ _ => exact ⟨t, ha, ht⟩
  | setFreezeAuth hm _ _ => exact ⟨t, ha, ht⟩
  | setOwner ht' hs => exact set_ ht' rfl
  | close ht' hs _ =>
    refine ⟨t, ?_, ht⟩
    rw [setToken_tokens, upd_ne _ _ (signer ht' hs)]; exact ha
  | @setFrozen y _ _ _ _ ht' hm hfa =>
    by_cases he : a = y
    · obtain ⟨_, mx, h1, h2⟩ := hx
      subst he
      rw [ht'] at ha; cases ha
      rw [hm] at h1; cases h1
      rw [h2] at hfa; cases hfa
    · exact ⟨t, by rw [setToken_tokens, upd_ne _ _ he]; exact ha, ht⟩

theorem BSafes.frozen {b b' : Bank} (h : BSafes b b') {a : Addr} {t : TokenData} (ha : b.tokens a = some t)
    (ho : t.owner.canSign = false) (hx : NoFreeze b t.mint) (ht : t.frozen = false) :
    NoFreeze b' t.mint ∧ ∃ t', b'.tokens a = some t' ∧ t'.frozen = false := by
  induction h with
  | refl => exact ⟨hx, t, ha, ht⟩
  | tail hpre hs ih =>
    obtain ⟨h1, t₁, h2, h3⟩ := ih
    obtain ⟨t₂, k1, k2, _⟩ := hpre.account ha ho
    rw [h2] at k1; cases k1
    exact ⟨hs.noFreeze h1, hs.thawed h2 (by rw [k2.2.2]; exact ho) (by rw [k2.2.1]; exact h1) h3⟩

/-- ... whatever happens. -/
theorem Did.frozen {rt : Runtime} {w w' : World} {ix : Ix} (h : Did rt w ix w') {a : Addr} {t : TokenData}
    (ha : w.bank.tokens a = some t) (ho : t.owner.canSign = false) (hx : NoFreeze w.bank t.mint)
    (ht : t.frozen = false) : NoFreeze w'.bank t.mint ∧ ∃ t', w'.bank.tokens a = some t' ∧ t'.frozen = false := by
  rcases h.bank with h | ⟨s, d, x, m, tp, amt, hp, _⟩
  · exact h.frozen ha ho hx ht
  · obtain ⟨hn, mx, h1, h2⟩ := hx
    refine ⟨⟨hn, mx, hp.mint h1, h2⟩, ?_⟩
    obtain ⟨_, _, _, b₁, _, _, he, htr⟩ := hp
    obtain ⟨tf, tt, md, hf, _⟩ := transferChecked_ok htr
    have ha₁ := he.token ha
    rcases hf.result with ⟨_, e⟩ | ⟨_, _, e⟩
    · exact ⟨t, by rw [e]; exact ha₁, ht⟩
    · rw [e]
      simp only [Bank.move, setToken_tokens, upd_apply]
      split
      · exact ⟨_, rfl, hf.thawed.2⟩
      · split
        · exact ⟨_, rfl, hf.thawed.1⟩
        · exact ⟨t, ha₁, ht⟩

theorem Steps.frozen {rt : Runtime} {w w' : World} (hs : Steps rt w w') {a : Addr} {t : TokenData}
    (ha : w.bank.tokens a = some t) (ho : t.owner.canSign = false) (hx : NoFreeze w.bank t.mint)
    (ht : t.frozen = false) :
    NoFreeze w'.bank t.mint ∧ ∃ t', w'.bank.tokens a = some t' ∧ TokKept t t' ∧ t'.frozen = false := by
  induction hs with
  | refl => exact ⟨hx, t, ha, .refl _, ht⟩
  | tail ix _ h ih =>
    obtain ⟨h1, t₁, h2, h3, h4⟩ := ih
    have hd := step_did h
    obtain ⟨k1, t₂, k2, k3⟩ := hd.frozen h2 (by rw [h3.2.2]; exact ho) (by rw [h3.2.1]; exact h1) h4
    obtain ⟨t₃, k4, k5, _⟩ := hd.account h2 (by rw [h3.2.2]; exact ho)
    rw [k2] at k4; cases k4
    exact ⟨by rw [h3.2.1] at k1; exact k1, t₂, k2, h3.trans k5, k3⟩

end Solsab
