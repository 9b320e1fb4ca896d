import Verif.Proofs.VaultInv
import Verif.Spec.Terms
/-!
# Stream NFT mints exist exactly for existing streams; the collection
-/

namespace Solsab

open Spec Lockup

theorem mints_none_upd {b : Bank} {m a : Addr} {md : MintData} {o : Option MintData} (hm : b.mints m = some md)
    (ha : b.mints a = none) : upd b.mints m o a = none := by
  rw [upd_ne]
  · exact ha
  · intro he; rw [he, hm] at ha; cases ha

theorem openAccount_mints {b b' : Bank} {a o m : Addr} {tp} (h : b.openAccount a o m tp = .ok b') :
    b'.mints = b.mints := by
  obtain ⟨_, _, _, rfl⟩ := openAccount_ok h; rfl

theorem transferCore_mints {b b' : Bank} {s d m : Addr} {tp amt} (h : b.transferCore s d m tp amt = .ok b') :
    b'.mints = b.mints := by
  obtain ⟨_, _, _, hf⟩ := transferCore_ok h
  rcases hf.result with ⟨_, rfl⟩ | ⟨_, _, rfl⟩ <;> rfl

theorem transferChecked_mints {b b' : Bank} {s d x m : Addr} {tp amt dec}
    (h : b.transferChecked s d x m tp amt dec = .ok b') : b'.mints = b.mints := by
  obtain ⟨_, _, _, hf, _⟩ := transferChecked_ok h
  rcases hf.result with ⟨_, rfl⟩ | ⟨_, _, rfl⟩ <;> rfl

theorem mintTo_mints_none {b b' : Bank} {m d x a : Addr} {tp amt} (h : b.mintTo m d x tp amt = .ok b')
    (ha : b.mints a = none) : b'.mints a = none := by
  obtain ⟨_, _, h1, _, _, _, _, _, _, _, rfl⟩ := mintTo_ok h
  exact mints_none_upd h1 ha

theorem burn_mints_none {b b' : Bank} {s a : Addr} {amt} (h : b.burn s amt = .ok b')
    (ha : b.mints a = none) : b'.mints a = none := by
  obtain ⟨_, _, _, h1, _, _, rfl⟩ := burn_ok h
  exact mints_none_upd h1 ha

/-- Outside actors create mints only at keypair addresses. -/
theorem env_mints {rt : Runtime} {w w' : World} {i : EnvIx} (h : i.run rt w = .ok w') {a : Addr}
    (hn : a.isNftMint = true) (ha : w.bank.mints a = none) : w'.bank.mints a = none := by
  cases i with
  | tick t =>
    simp only [EnvIx.run, bind_ok, require_ok, pure_ok] at h
    obtain ⟨_, _, rfl⟩ := h; exact ha
  | setOracle p f d => simp only [EnvIx.run, pure_ok] at h; subst h; exact ha
  | setWallet n amount => simp only [EnvIx.run, pure_ok] at h; subst h; exact ha
  | sendLamports src dst amount =>
    simp only [EnvIx.run, World.systemTransfer, bind_ok, require_ok, pure_ok] at h
    obtain ⟨_, h1, _, _, rfl⟩ := h; exact ha
  | createMint n md =>
    simp only [EnvIx.run, bind_ok, require_ok, pure_ok] at h
    obtain ⟨_, h1, b, h2, rfl⟩ := h
    obtain ⟨_, _, rfl⟩ := openMint_ok h2
    show upd w.bank.mints _ _ a = none
    rw [upd_ne]
    · exact ha
    · intro he; rw [he] at hn; cases hn
  | setFee m f =>
    simp only [EnvIx.run, bind_ok, require_ok, fetch_ok, pure_ok] at h
    obtain ⟨md, h1, _, h2, rfl⟩ := h; exact mints_none_upd h1 ha
  | setBlocked n x y =>
    simp only [EnvIx.run, bind_ok, require_ok, fetch_ok, pure_ok] at h
    obtain ⟨md, h1, _, _, rfl⟩ := h; exact mints_none_upd h1 ha
  | setMintAuthority m s x =>
    simp only [EnvIx.run, bind_ok, require_ok, fetch_ok, pure_ok] at h
    obtain ⟨md, h1, _, ⟨h2, h3⟩, rfl⟩ := h; exact mints_none_upd h1 ha
  | setFreezeAuthority m s x =>
    simp only [EnvIx.run, bind_ok, require_ok, fetch_ok, pure_ok] at h
    obtain ⟨md, h1, _, ⟨h2, h3⟩, rfl⟩ := h; exact mints_none_upd h1 ha
  | mintTo m d x tp amt =>
    simp only [EnvIx.run, bind_ok, require_ok, pure_ok] at h
    obtain ⟨_, h1, b, h2, rfl⟩ := h; exact mintTo_mints_none h2 ha
  | transfer s d x m tp amt dec =>
    simp only [EnvIx.run, bind_ok, require_ok, pure_ok] at h
    obtain ⟨_, h1, b, h2, rfl⟩ := h
    show b.mints a = none
    rw [transferChecked_mints h2]; exact ha
  | delegateTransfer s d x m tp amt =>
    simp only [EnvIx.run, bind_ok, require_ok, fetch_ok, pure_ok] at h
    obtain ⟨md, h1, _, ⟨h2, _⟩, b, h3, rfl⟩ := h
    show b.mints a = none
    rw [transferCore_mints h3]; exact ha
  | burn s o amt =>
    simp only [EnvIx.run, bind_ok, require_ok, fetch_ok, pure_ok] at h
    obtain ⟨t, h1, _, ⟨h2, h3⟩, b, h4, rfl⟩ := h; exact burn_mints_none h4 ha
  | delegateBurn s x amt =>
    simp only [EnvIx.run, bind_ok, require_ok, fetch_ok, pure_ok] at h
    obtain ⟨t, h1, md, h2, _, ⟨h3, _⟩, b, h4, rfl⟩ := h; exact burn_mints_none h4 ha
  | approve a' o d k =>
    simp only [EnvIx.run, bind_ok, require_ok, fetch_ok, pure_ok] at h
    obtain ⟨t, h1, _, h2, _, h3, rfl⟩ := h; exact ha
  | changeSettings a' x s =>
    simp only [EnvIx.run, bind_ok, require_ok, fetch_ok, pure_ok] at h
    obtain ⟨t, h1, _, h2, _, h3, rfl⟩ := h; exact ha
  | revoke a' x =>
    simp only [EnvIx.run, bind_ok, require_ok, fetch_ok, pure_ok] at h
    obtain ⟨t, h1, _, h2, rfl⟩ := h; exact ha
  | approvedTransfer s d x m tp amt dec =>
    simp only [EnvIx.run, bind_ok, require_ok, fetch_ok, pure_ok] at h
    obtain ⟨t, h1, ap, h2, _, h3, _, h6, b, h7, rfl⟩ := h
    show b.mints a = none
    rw [transferChecked_mints h7]; exact ha
  | approvedBurn s x amt =>
    simp only [EnvIx.run, bind_ok, require_ok, fetch_ok, pure_ok] at h
    obtain ⟨t, h1, ap, h2, _, h3, _, h6, b, h7, rfl⟩ := h; exact burn_mints_none h7 ha
  | metaplexFreeze a' x f =>
    simp only [EnvIx.run, bind_ok, require_ok, fetch_ok, pure_ok] at h
    obtain ⟨t, h1, md, h2, ap, h3, _, h4, _, h5, rfl⟩ := h; exact ha
  | metaplexBurn acc o m =>
    simp only [EnvIx.run, bind_ok, require_ok, fetch_ok, pure_ok] at h
    obtain ⟨t, h1, _, ⟨h2, h3⟩, _, ⟨h4, h5⟩, md, h6, _, _, b, h7, rfl⟩ := h
    have h8 : b.mints a = none := burn_mints_none h7 ha
    exact h8
  | metaplexCreate | metaplexUpdate | metaplexSign | metaplexVerify | metaplexUnverify =>
    obtain ⟨m, rfl, _⟩ := metaStep_ok rfl h
    exact ha
  | createAta payer addr owner tp mint =>
    simp only [EnvIx.run, bind_ok, require_ok] at h
    obtain ⟨_, h1, h2⟩ := h
    obtain ⟨b, l, rfl, hb, hl, rfl⟩ := createAta_ok h2
    show b.mints a = none
    rw [openAccount_mints hb]; exact ha
  | createTokenAccount n o m tp =>
    simp only [EnvIx.run, bind_ok, pure_ok] at h
    obtain ⟨b, h1, rfl⟩ := h
    show b.mints a = none
    rw [openAccount_mints h1]; exact ha
  | setOwner a' o o' =>
    simp only [EnvIx.run, bind_ok, require_ok, fetch_ok, pure_ok] at h
    obtain ⟨t, h1, _, ⟨h2, h3⟩, _, _, rfl⟩ := h; exact ha
  | closeToken a' o d =>
    simp only [EnvIx.run, bind_ok, require_ok, fetch_ok, pure_ok] at h
    obtain ⟨t, h1, _, ⟨h2, h3⟩, _, h4, rfl⟩ := h; exact ha
  | setFrozen a' x f =>
    simp only [EnvIx.run, bind_ok, require_ok, fetch_ok, pure_ok] at h
    obtain ⟨t, h1, md, h2, _, ⟨h3, h4⟩, rfl⟩ := h; exact ha

theorem Payout.mints_eq {b b' : Bank} {s d x m : Addr} {tp amt} (h : Payout b b' s d x m tp amt) :
    b'.mints = b.mints := by
  obtain ⟨_, _, _, b₁, _, _, he, ht⟩ := h
  rw [transferChecked_mints ht, he.mints]

/-- The mint of a stream NFT appears only when that stream is created. -/
theorem Did.nft_mint {rt : Runtime} {w w' : World} {ix : Ix} (h : Did rt w ix w') {s : Addr} {n : Nat}
    (ha : w.bank.mints (.streamNftMint s n) = none) :
    w'.bank.mints (.streamNftMint s n) = none ∨
    ∃ sd, w'.lk.streams (.streamData (.streamNftMint s n)) = some sd := by
  cases h with
  | @init c f p sw md b₁ b₂ b₃ l _ h =>
    left; rw [h.result]
    obtain ⟨_, _, r1⟩ := openMint_ok h.openMint
    have e2 := openAccount_mints h.openAta
    have ha3 := mintTo_mints_none (a := .streamNftMint s n) h.mintTo (by
      rw [e2, r1, setMint_mints, upd_ne _ _ (by simp)]; exact ha)
    show (lockAuthority b₃ .nftCollectionMint md).mints _ = none
    rw [lockAuthority, setMint_mints]
    rw [upd_ne _ _ (by simp)]; exact ha3
  | @create c p nd dm md cm k name b₁ b₂ b₃ b₄ b₆ l _ _ h =>
    by_cases he : Addr.streamNftMint s n = c.streamNftMint
    · right
      rw [he, ← h.streamAddr, h.result]
      simp
    · left
      rw [h.result]
      obtain ⟨_, _, r1⟩ := openMint_ok h.openMint
      have e2 := openAccount_mints h.openNftAta
      have e3 := openAccount_mints h.openVault
      have ha4 := mintTo_mints_none (a := .streamNftMint s n) h.mintTo (by
        rw [e3, e2, r1, setMint_mints, upd_ne _ _ he]; exact ha)
      have e6 := transferChecked_mints h.transfer
      show b₆.mints _ = none
      rw [e6]
      show upd b₄.mints _ _ _ = none
      rw [upd_ne _ _ he]; exact ha4
  | withdraw _ h => left; rw [h.payout.mints_eq]; exact ha
  | cancel _ h => left; rw [h.payout.mints_eq]; exact ha
  | renounce _ h => left; rw [h.result]; exact ha
  | collect _ _ h => left; rw [h.result]; exact ha
  | miInit _ _ _ _ h => left; rw [h]; exact ha
  | campaign _ _ h =>
    left; rw [h.result]
    have := openAccount_mints h.openVault
    simp only [this]; exact ha
  | claim _ h => left; rw [h.payout.mints_eq]; exact ha
  | clawback _ h => left; rw [h.payout.mints_eq]; exact ha
  | miCollect _ _ h => left; rw [h.result]; exact ha
  | env i _ h => left; exact env_mints h rfl ha

theorem SameTerms.refl (sd : StreamData) : SameTerms sd sd := ⟨rfl, rfl, rfl, rfl, rfl, rfl, rfl, rfl⟩

theorem SameTerms.trans {a b c : StreamData} (h : SameTerms a b) (h' : SameTerms b c) : SameTerms a c :=
  ⟨h'.1.trans h.1, h'.2.trans h.2, h'.3.trans h.3, h'.4.trans h.4, h'.5.trans h.5, h'.6.trans h.6, h'.7.trans h.7,
    h'.8.trans h.8⟩

/-- The one-step evolution of an existing stream's data. -/
inductive Evolves (now : Nat) (sd : StreamData) : StreamData → Prop
  | same : Evolves now sd sd
  | withdraw {amount sd'} (hd : sd.isDepleted = false) (hp : 0 < amount)
      (hle : amount ≤ streamedNow now sd - sd.amounts.withdrawn) (h : sd.withdraw amount = .ok sd') : Evolves now sd sd'
  | cancel (hc : sd.isCancelable = true) (hn : sd.wasCanceled = false) (hd : sd.isDepleted = false)
      (hlt : streamedNow now sd < sd.amounts.deposited) :
      Evolves now sd (sd.cancel (sd.amounts.deposited - streamedNow now sd) (streamedNow now sd - sd.amounts.withdrawn))
  | renounce (hc : sd.isCancelable = true) (hlt : streamedNow now sd < sd.amounts.deposited) :
      Evolves now sd sd.renounce

theorem Did.evolves {rt : Runtime} {w w' : World} {ix : Ix} (hr : Reachable rt w) (h : Did rt w ix w') {x : Addr}
    {sd : StreamData} (hx : w.lk.streams x = some sd) :
    ∃ sd', w'.lk.streams x = some sd' ∧ Evolves w.now sd sd' ∧ (ix.Spares x → sd' = sd) := by
  rcases h.stream x with ⟨hq, hsp⟩ | ⟨c, p, nd, dm, md, cm, k, name, b₁, b₂, b₃, b₄, b₆, l, he, _, hp, hok⟩ |
      ⟨c, amount, sd₀, sd₁, dm, b₁, b₂, l, he, hix, hok⟩ | ⟨c, sd₀, dm, streamed, b₁, b₂, l, he, hix, hok⟩ |
      ⟨c, sd₀, streamed, he, hix, hok⟩
  · exact ⟨sd, by rw [hq.data]; exact hx, .same, fun _ => rfl⟩
  · subst he; rw [hok.fresh] at hx; cases hx
  · subst he
    have := hok.accts.stream; rw [hx] at this; cases this
    obtain ⟨y, hy, hle⟩ := hok.withdrawable
    rw [(hr.streamOK hx).getWithdrawable] at hy; cases hy
    exact ⟨sd₁, by rw [hok.result]; simp, .withdraw hok.notDepleted hok.pos hle hok.data, fun hsp => absurd hix hsp.w⟩
  · subst he
    have := hok.accts.stream; rw [hx] at this; cases this
    have hy := hok.streamed_eq
    rw [(hr.streamOK hx).getStreamed] at hy; cases hy
    refine ⟨_, by rw [hok.result]; simp only [upd_same],
      .cancel hok.cancelable hok.notCanceled hok.notDepleted hok.notSettled, fun hsp => absurd (by rw [hix]; rfl) hsp.c⟩
  · subst he
    have := hok.stream; rw [hx] at this; cases this
    have hy := hok.streamed_eq
    rw [(hr.streamOK hx).getStreamed] at hy; cases hy
    exact ⟨_, by rw [hok.result]; simp only [upd_same], .renounce hok.cancelable hok.notSettled,
      fun hsp => absurd (by rw [hix]; rfl) hsp.r⟩

theorem Evolves.terms {now sd sd'} (h : Evolves now sd sd') : SameTerms sd sd' := by
  cases h with
  | same => exact .refl _
  | withdraw _ _ _ h => obtain ⟨_, _, rfl⟩ := withdraw_data h; exact ⟨rfl, rfl, rfl, rfl, rfl, rfl, rfl, rfl⟩
  | cancel => exact ⟨rfl, rfl, rfl, rfl, rfl, rfl, rfl, rfl⟩
  | renounce => exact ⟨rfl, rfl, rfl, rfl, rfl, rfl, rfl, rfl⟩

theorem Reachable.nftMintsOK {rt : Runtime} {w : World} (h : Reachable rt w) : NftMintsOK w := by
  refine h.induct ?_ ?_
  · intro w hg s n; rw [hg.no_mints, hg.no_streams]; rfl
  · intro w ix w' hr ih hd s n
    have hi := ih s n
    cases hm : w.bank.mints (.streamNftMint s n) with
    | some md =>
      rw [hm] at hi
      cases hs : w.lk.streams (.streamData (.streamNftMint s n)) with
      | none => rw [hs] at hi; cases hi
      | some sd =>
        obtain ⟨md', h1, _⟩ := hd.mint hm
        obtain ⟨sd', h2, _⟩ := hd.evolves hr hs
        rw [h1, h2]; rfl
    | none =>
      rw [hm] at hi
      have hs : w.lk.streams (.streamData (.streamNftMint s n)) = none := by
        cases hs : w.lk.streams (.streamData (.streamNftMint s n)) with
        | none => rfl
        | some sd => rw [hs] at hi; cases hi
      rcases hd.stream (.streamData (.streamNftMint s n)) with ⟨hq, _⟩ |
        ⟨c, p, nd, dm, md, cm, k, name, b₁, b₂, b₃, b₄, b₆, l, he, _, hp, hok⟩ |
        ⟨c, amount, sd₀, sd₁, dm, b₁, b₂, l, he, _, hok⟩ | ⟨c, sd₀, dm, streamed, b₁, b₂, l, he, _, hok⟩ |
        ⟨c, sd₀, streamed, he, _, hok⟩
      · rw [hq.data, hs]
        rcases hd.nft_mint hm with h | ⟨sd, h⟩
        · rw [h]; rfl
        · rw [hq.data, hs] at h; cases h
      · have hmm : c.streamNftMint = .streamNftMint s n := by
          have := hok.streamAddr; rw [he] at this; injection this with this; exact this.symm
        rw [← he]
        have h1 : w'.lk.streams c.streamData = some (StreamData.create c.depositTokenMint (rt.bump c.streamData) p.cliffTime
          p.cliffUnlockAmount p.depositAmount p.endTime p.salt p.isCancelable c.sender p.startTime p.startUnlockAmount) := by
          rw [hok.result]; simp
        rw [h1]
        have h2 : (lockAuthority b₄ c.streamNftMint md).mints c.streamNftMint =
          some { md with authority := some (.edition c.streamNftMint), freezeAuthority := some (.edition c.streamNftMint) } := by
          simp [lockAuthority]
        have h3 : w'.bank = b₆ := by rw [hok.result]
        rw [h3, transferChecked_mints hok.transfer, ← hmm, h2]; rfl
      · rw [← he, hok.accts.stream] at hs; cases hs
      · rw [← he, hok.accts.stream] at hs; cases hs
      · rw [← he, hok.stream] at hs; cases hs

/-- A stream that exists can be loaded by every instruction and view that names it correctly. -/
theorem Reachable.load {rt : Runtime} {w : World} (h : Reachable rt w) {s : Addr} {n : Nat} {sd : StreamData}
    (hx : w.lk.streams (.streamData (.streamNftMint s n)) = some sd) :
    loadStream rt w (.streamData (.streamNftMint s n)) (.streamNftMint s n) = .ok sd := by
  refine loadStream_ok.2 ⟨hx, rfl, (h.streamOK hx).bump, ?_⟩
  have := h.nftMintsOK s n
  rw [hx] at this
  exact Option.isSome_iff_exists.1 this

end Solsab
