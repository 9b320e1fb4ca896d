import Verif.Proofs.NftInv
/-!
# Treasuries, their lamports, and the NFT collection
-/

namespace Solsab

open Spec Lockup

/-! ## Treasury configuration -/

theorem Did.lkTreasury {rt : Runtime} {w w' : World} {ix : Ix} (h : Did rt w ix w') :
    w'.lk.treasury = w.lk.treasury ∨
    ∃ c f p s, ix = .lockup (.initialize c f p s) ∧ w.lk.treasury = none ∧
      w'.lk.treasury = some ⟨rt.bump (.treasury .lockup), f, p, s⟩ := by
  cases h with
  | init hix h => right; exact ⟨_, _, _, _, hix, h.noTreasury, by rw [h.result]⟩
  | create _ _ h => left; rw [h.result]
  | withdraw _ h => left; rw [h.result]
  | cancel _ h => left; rw [h.result]
  | renounce _ h => left; rw [h.result]
  | collect _ _ h => left; rw [h.result]
  | miInit _ _ _ _ h => left; rw [h]
  | campaign _ _ h => left; rw [h.result]
  | claim _ h => left; rw [h.result]
  | clawback _ h => left; rw [h.result]
  | miCollect _ _ h => left; rw [h.result]
  | env i hix h => left; rw [(env_ok h).lk]

theorem Did.miTreasury {rt : Runtime} {w w' : World} {ix : Ix} (h : Did rt w ix w') :
    w'.mi.treasury = w.mi.treasury ∨
    ∃ c f p s, ix = .merkle (.initialize c f p s) ∧ w.mi.treasury = none ∧
      w'.mi.treasury = some ⟨rt.bump (.treasury .merkle), f, p, s⟩ := by
  cases h with
  | init hix h => left; rw [h.result]
  | create _ _ h => left; rw [h.result]
  | withdraw _ h => left; rw [h.result]
  | cancel _ h => left; rw [h.result]
  | renounce _ h => left; rw [h.result]
  | collect _ _ h => left; rw [h.result]
  | miInit hix _ hn _ h => right; exact ⟨_, _, _, _, hix, hn, by rw [h]⟩
  | campaign _ _ h => left; rw [h.result]
  | claim _ h => left; rw [h.result]
  | clawback _ h => left; rw [h.result]
  | miCollect _ _ h => left; rw [h.result]
  | env i hix h => left; rw [(env_ok h).mi]

theorem Reachable.lkTreasury_bump {rt : Runtime} {w : World} (h : Reachable rt w) :
    ∀ tr, w.lk.treasury = some tr → tr.bump = rt.bump (.treasury .lockup) := by
  refine h.induct (P := fun w => ∀ tr, w.lk.treasury = some tr → tr.bump = rt.bump (.treasury .lockup)) ?_ ?_
  · intro w hg tr ht; rw [hg.no_lk_treasury] at ht; cases ht
  · intro w ix w' _ ih hd tr ht
    rcases hd.lkTreasury with h | ⟨_, _, _, _, _, _, h⟩
    · rw [h] at ht; exact ih tr ht
    · rw [h] at ht; cases ht; rfl

theorem Reachable.miTreasury_bump {rt : Runtime} {w : World} (h : Reachable rt w) :
    ∀ tr, w.mi.treasury = some tr → tr.bump = rt.bump (.treasury .merkle) := by
  refine h.induct (P := fun w => ∀ tr, w.mi.treasury = some tr → tr.bump = rt.bump (.treasury .merkle)) ?_ ?_
  · intro w hg tr ht; rw [hg.no_mi_treasury] at ht; cases ht
  · intro w ix w' _ ih hd tr ht
    rcases hd.miTreasury with h | ⟨_, _, _, _, _, _, h⟩
    · rw [h] at ht; exact ih tr ht
    · rw [h] at ht; cases ht; rfl

theorem Steps.lkTreasury {rt : Runtime} {w w' : World} (h : Steps rt w w') {tr : Treasury}
    (ht : w.lk.treasury = some tr) : w'.lk.treasury = some tr := by
  induction h with
  | refl => exact ht
  | tail ix _ hs ih =>
    rcases (step_did hs).lkTreasury with h | ⟨_, _, _, _, _, hn, _⟩
    · rw [h]; exact ih
    · rw [ih] at hn; cases hn

theorem Steps.miTreasury {rt : Runtime} {w w' : World} (h : Steps rt w w') {tr : Treasury}
    (ht : w.mi.treasury = some tr) : w'.mi.treasury = some tr := by
  induction h with
  | refl => exact ht
  | tail ix _ hs ih =>
    rcases (step_did hs).miTreasury with h | ⟨_, _, _, _, _, hn, _⟩
    · rw [h]; exact ih
    · rw [ih] at hn; cases hn

/-! ## Lamports of addresses that cannot sign -/

theorem LamRel.pda {p a : Addr} {l l' : Addr → Nat} (h : LamRel p l l') (hp : p.canSign = true)
    (ha : a.canSign = false) : l a ≤ l' a :=
  h a (by intro he; rw [he, hp] at ha; cases ha)

/-- Only `collect_fees` of program `p` takes lamports out of the treasury of `p`. -/
theorem Did.lam_treasury {rt : Runtime} {w w' : World} {ix : Ix} (hr : Reachable rt w) (h : Did rt w ix w') (p : Prog)
    (hc : ix.collects ≠ some p) : w.lamports (.treasury p) ≤ w'.lamports (.treasury p) := by
  have other : ∀ {cl rc : Addr} {q : Prog} {tr sp am}, q ≠ p →
      CollectOk rt w cl rc (.treasury q) q tr sp am w' → w.lamports (.treasury p) ≤ w'.lamports (.treasury p) := by
    intro cl rc q tr sp am hq h
    rw [h.result]
    simp only [upd_apply, Addr.treasury.injEq]
    have : ¬ p = q := fun he => hq he.symm
    by_cases h1 : Addr.treasury p = rc
    · rw [if_pos h1, ← h1]; simp [this]
    · rw [if_neg h1]; simp [this]
  cases h with
  | init _ h => rw [h.result]; exact h.lam.pda h.signs rfl
  | create _ _ h => rw [h.result]; exact h.lam.pda h.signs rfl
  | withdraw _ h => rw [h.result]; exact h.lam.pda h.accts.signs rfl
  | cancel _ h => rw [h.result]; exact h.lam.pda h.accts.signs rfl
  | renounce _ h => rw [h.result]
  | collect hix _ h =>
    have hq : Prog.lockup ≠ p := by rintro rfl; rw [hix] at hc; exact hc rfl
    have := h.treasuryAddr
    rw [this] at h
    exact other hq h
  | miInit _ hs _ hl h => rw [h]; exact hl.pda hs rfl
  | campaign _ _ h => rw [h.result]; exact h.lam.pda h.signs rfl
  | claim _ h => rw [h.result]; exact h.lam.pda h.accts.signs rfl
  | clawback _ h => rw [h.result]; exact h.lam.pda h.accts.signs rfl
  | miCollect hix _ h =>
    have hq : Prog.merkle ≠ p := by rintro rfl; rw [hix] at hc; exact hc rfl
    have := h.treasuryAddr
    rw [this] at h
    exact other hq h
  | env i hix h =>
    refine (env_ok h).lam _ rfl ?_
    cases ht : w.bank.tokens (.treasury p) with
    | none => rfl
    | some t =>
      rcases hr.bankInv.tok_addr _ t ht with ⟨n, hn⟩ | ⟨o, ho, _⟩ <;> simp at *

/-! ## The NFT collection -/

/-- The stream NFTs named in creation records are at stream NFT addresses. -/
def LogMints (log : List LogEntry) : Prop := ∀ e ∈ log, ∀ d t r n x m,
  e.event = .createLockupLinearStream d t r n x m → ∃ s k, m = .streamNftMint s k

theorem LogMints.tail {e : LogEntry} {log : List LogEntry} (h : LogMints (e :: log)) : LogMints log :=
  fun e' he' => h e' (List.mem_cons_of_mem _ he')

theorem live_add {metas metas' : Addr → Option Metadata} {s : Addr} {n : Nat}
    (ho : ∀ a k, Addr.streamNftMint a k ≠ .streamNftMint s n →
      (metas' (.streamNftMint a k)).isSome = (metas (.streamNftMint a k)).isSome)
    (h1 : metas (.streamNftMint s n) = none) (h2 : (metas' (.streamNftMint s n)).isSome = true) (log : List LogEntry)
    (hl : LogMints log) :
    total (liveNft metas') log = total (liveNft metas) log + total (creationOf s n) log := by
  induction log with
  | nil => rfl
  | cons e log ih =>
    rw [total_cons, total_cons, total_cons, ih hl.tail]
    have : liveNft metas' e.event = liveNft metas e.event + creationOf s n e.event := by
      have hm := hl e (List.mem_cons_self ..)
      revert hm
      cases e.event <;> intro hm <;> simp only [liveNft, creationOf]
      rename_i m
      obtain ⟨a, k, rfl⟩ := hm _ _ _ _ _ _ rfl
      by_cases hm : Addr.streamNftMint a k = .streamNftMint s n
      · rw [hm, h1, h2]; simp
      · rw [ho _ _ hm, if_neg hm]; simp
    omega

theorem live_congr {metas metas' : Addr → Option Metadata}
    (ho : ∀ s n, metas' (.streamNftMint s n) = metas (.streamNftMint s n)) (log : List LogEntry) (hl : LogMints log) :
    total (liveNft metas') log = total (liveNft metas) log := by
  induction log with
  | nil => rfl
  | cons e log ih =>
    rw [total_cons, total_cons, ih hl.tail]
    have hm := hl e (List.mem_cons_self ..)
    revert hm
    cases e.event <;> intro hm <;> simp only [liveNft]
    obtain ⟨a, k, rfl⟩ := hm _ _ _ _ _ _ rfl
    rw [ho]

/-- The treasury of the lockup program holds the collection NFT. -/
def CollHeld (w : World) : Prop := ∃ tp t, w.bank.tokens (.ata (.treasury .lockup) tp .nftCollectionMint) = some t ∧
  t.owner = .treasury .lockup ∧ t.mint = .nftCollectionMint ∧ t.amount = 1

/-- Metadata of a stream NFT. -/
def StreamMeta (rt : Runtime) (w : World) (m : Addr) (mm : Metadata) : Prop := ∃ s n sd name,
  m = .streamNftMint s n ∧ w.lk.streams (.streamData m) = some sd ∧ nftName (rt.keyBytes m) = .ok name ∧
  mm = ⟨name, some .nftCollectionMint, none, streamNftInfo .nftCollectionMint⟩

/-- Metadata that has nothing to do with the programs. -/
structure Foreign (m : Addr) (mm : Metadata) : Prop where
  addr : ∃ k, m = .key k
  coll : ∀ c, mm.collection = some c → ∃ k, c = .key k
  creators : ∀ c ∈ mm.info.creators, c.verified = true → ∃ k, c.address = .key k

/-- Metadata of the collection with `k` items. -/
def collMeta (k : Nat) : Metadata := ⟨COLLECTION_NAME, none, some k, signedCollectionInfo⟩

structure CollOK (rt : Runtime) (w : World) : Prop where
  absent : w.lk.nftCollectionData = none → w.lk.treasury = none ∧ total creation w.log = 0
  present : ∀ nd, w.lk.nftCollectionData = some nd → nd.bump = rt.bump .nftCollectionData ∧
    nd.totalSupply = total creation w.log ∧ (∃ tr, w.lk.treasury = some tr) ∧ CollHeld w ∧
    (∃ md, w.bank.mints .nftCollectionMint = some md) ∧
    w.metas .nftCollectionMint = some (collMeta (total (liveNft w.metas) w.log))
  metas : ∀ m mm, w.metas m = some mm → m ≠ .nftCollectionMint → StreamMeta rt w m mm ∨ Foreign m mm
  collPresent : ∀ cm, w.metas .nftCollectionMint = some cm → ∃ nd, w.lk.nftCollectionData = some nd
  logMints : LogMints w.log

theorem CollOK.coll {rt : Runtime} {w : World} (h : CollOK rt w) {cm : Metadata}
    (hm : w.metas .nftCollectionMint = some cm) : cm = collMeta (total (liveNft w.metas) w.log) := by
  obtain ⟨nd, hn⟩ := h.collPresent cm hm
  obtain ⟨_, _, _, _, _, e⟩ := h.present nd hn
  rw [hm] at e; injection e

theorem CollOK.stream {rt : Runtime} {w : World} (h : CollOK rt w) {s : Addr} {n : Nat} {mm : Metadata}
    (hm : w.metas (.streamNftMint s n) = some mm) : StreamMeta rt w (.streamNftMint s n) mm := by
  rcases h.metas _ _ hm (by simp) with h | h
  · exact h
  · obtain ⟨k, hk⟩ := h.addr; cases hk

theorem StreamMeta.mono {rt : Runtime} {w w' : World} {ix : Ix} (hr : Reachable rt w) (hd : Did rt w ix w') {m : Addr}
    {mm : Metadata} (h : StreamMeta rt w m mm) : StreamMeta rt w' m mm := by
  obtain ⟨s, n, sd, name, e1, e2, e3, e4⟩ := h
  obtain ⟨sd', e5, _⟩ := hd.evolves hr e2
  exact ⟨s, n, sd', name, e1, e5, e3, e4⟩

theorem canSign_key {a : Addr} (h : a.canSign = true) : ∃ k, a = .key k := by
  cases a <;> first | exact ⟨_, rfl⟩ | cases h

/-- An NFT address is the collection or a stream NFT. -/
theorem isNftMint_cases {a : Addr} (h : a.isNftMint = true) : a = .nftCollectionMint ∨ ∃ s n, a = .streamNftMint s n := by
  cases a <;> first | exact .inl rfl | exact .inr ⟨_, _, rfl⟩ | cases h

theorem CollOK.nft {rt : Runtime} {w : World} (h : CollOK rt w) {a : Addr} (ha : a.isNftMint = true) {mm : Metadata}
    (hm : w.metas a = some mm) : mm.info.updateAuthority = .nftCollectionMint ∧
      (∀ c ∈ mm.info.creators.map (·.address), c = .nftCollectionMint) ∧ mm.info.claimed = none ∧
      (∀ c, mm.collection = some c → c = .nftCollectionMint) := by
  rcases isNftMint_cases ha with rfl | ⟨s, n, rfl⟩
  · rw [h.coll hm]
    refine ⟨rfl, ?_, rfl, fun c hc => by cases hc⟩
    simp [collMeta, signedCollectionInfo, collectionInfo, NftInfo.sign]
  · obtain ⟨_, _, _, _, _, _, _, rfl⟩ := h.stream hm
    refine ⟨rfl, ?_, rfl, ?_⟩
    · simp [streamNftInfo]
    · intro c hc; injection hc with hc; exact hc.symm

theorem CollOK.foreign {rt : Runtime} {w : World} (h : CollOK rt w) {a : Addr} (ha : a.isNftMint = false) {mm : Metadata}
    (hm : w.metas a = some mm) : Foreign a mm := by
  rcases h.metas a mm hm (by rintro rfl; cases ha) with ⟨s, n, _, _, rfl, _⟩ | h
  · cases ha
  · exact h

/-- Nobody outside can change the metadata of the collection or of a stream NFT, or obtain membership in the
collection for another token. -/
theorem MetaEdit.kept {rt : Runtime} {w : World} {m' : Addr → Option Metadata} (hb : BankInv w.bank)
    (ih : CollOK rt w) (h : MetaEdit w m') : (∀ x, x.isNftMint = true → m' x = w.metas x) ∧
      ∀ x mm, m' x = some mm → x.isNftMint = false → Foreign x mm := by
  have one : ∀ (mint : Addr) (x' : Metadata), Foreign mint x' →
      (∀ x, x.isNftMint = true → upd w.metas mint (some x') x = w.metas x) ∧
      ∀ x mm, upd w.metas mint (some x') x = some mm → x.isNftMint = false → Foreign x mm := by
    intro mint x' hf
    refine ⟨fun x hx => upd_ne _ _ ?_, ?_⟩
    · rintro rfl; obtain ⟨k, rfl⟩ := hf.addr; cases hx
    · intro x mm hm hx
      by_cases he : x = mint
      · subst he; rw [upd_same] at hm; cases hm; exact hf
      · rw [upd_ne _ _ he] at hm; exact ih.foreign hx hm
  have key : ∀ a mm, w.metas a = some mm → (∀ e : a.isNftMint = true, False) → Foreign a mm := by
    intro a mm hm hn
    refine ih.foreign ?_ hm
    cases e : a.isNftMint with
    | false => rfl
    | true => exact (hn e).elim
  cases h with
  | create mint authority md x h1 h2 h3 h4 h5 h6 h =>
    subst h
    refine one _ _ ⟨?_, ?_, ?_⟩
    · rcases hb.mint_addr _ _ h1 with hk | hk
      · exact hk
      · obtain ⟨_, _, ⟨y, hy, hs⟩, _⟩ := hb.nft _ _ hk h1
        rw [h2] at hy; cases hy
        rw [h3] at hs; cases hs
    · intro c hc; rw [h5] at hc; cases hc
    · intro c hc hv; rw [h6 c hc hv]; exact canSign_key h3
  | update mint x x' h1 h2 h3 h4 h =>
    subst h
    have hf := key _ _ h1 (fun e => by rw [(ih.nft e h1).1] at h2; cases h2)
    refine one _ _ ⟨hf.addr, by rw [h3]; exact hf.coll, ?_⟩
    intro c hc hv
    rcases h4 c hc hv with e | ⟨c', hc', e1, e2⟩
    · rw [e]; exact canSign_key h2
    · rw [← e1]; exact hf.creators c' hc' e2
  | sign mint creator x h1 h2 h3 h =>
    subst h
    have hf := key _ _ h1 (fun e => by rw [(ih.nft e h1).2.1 _ h3] at h2; cases h2)
    refine one _ _ ⟨hf.addr, hf.coll, ?_⟩
    intro c hc hv
    simp only [NftInfo.sign, List.mem_map] at hc
    obtain ⟨c', hc', rfl⟩ := hc
    by_cases he : c'.address = creator
    · rw [if_pos he]; show ∃ k, c'.address = _; rw [he]; exact canSign_key h2
    · rw [if_neg he] at hv ⊢; exact hf.creators c' hc' hv
  | verify item coll im cm k c h1 h2 h3 h4 h =>
    have hcf := key _ _ h2 (fun e => by rw [(ih.nft e h2).1] at h3; cases h3)
    have hif := key _ _ h1 (fun e => by
      rcases h4 with ⟨_, h4, _⟩ | ⟨h4, _⟩
      · rw [(ih.nft e h1).2.2.1] at h4; cases h4
      · have := (ih.nft e h1).2.2.2 _ h4
        obtain ⟨k, hk⟩ := hcf.addr
        rw [this] at hk; cases hk)
    have hc : ∀ c', c = some c' → ∃ k, c' = .key k := by
      rcases h4 with ⟨_, _, rfl⟩ | ⟨_, rfl⟩
      · intro c' e; injection e with e; rw [← e]; exact hcf.addr
      · intro c' e; cases e
    subst h
    obtain ⟨ki, rfl⟩ := hif.addr
    obtain ⟨kc, rfl⟩ := hcf.addr
    refine ⟨?_, ?_⟩
    · intro x hx
      rw [upd_ne _ _ (by rintro rfl; cases hx), upd_ne _ _ (by rintro rfl; cases hx)]
    · intro x mm hm hx
      by_cases he : x = .key ki
      · subst he
        rw [upd_same, upd_apply] at hm
        split at hm
        · cases hm; exact ⟨⟨_, rfl⟩, hc, hcf.creators⟩
        · rw [h1] at hm; cases hm; exact ⟨⟨_, rfl⟩, hc, hif.creators⟩
      · rw [upd_ne _ _ he, upd_apply] at hm
        split at hm
        · rename_i he; subst he; cases hm; exact ⟨⟨_, rfl⟩, hcf.coll, hcf.creators⟩
        · exact ih.foreign hx hm

theorem CollHeld.did {rt : Runtime} {w w' : World} {ix : Ix} (hr : Reachable rt w) (h : Did rt w ix w')
    (hh : CollHeld w) : CollHeld w' := by
  obtain ⟨tp, t, h1, h2, h3, h4⟩ := hh
  have hb := hr.bankInv
  obtain ⟨md, hm, _⟩ := hb.tok_mint _ _ h1
  rw [h3] at hm
  have hpl := (hb.nft _ md rfl hm).1
  have key : ∃ t', w'.bank.tokens (.ata (.treasury .lockup) tp .nftCollectionMint) = some t' ∧ TokKept t t' ∧
      t.amount ≤ t'.amount := by
    rcases h.bank with hs | ⟨s, d, x, m, tp', amt, hp, hwho⟩
    · obtain ⟨t', e1, e2, e3⟩ := hs.account h1 (by rw [h2]; rfl)
      exact ⟨t', e1, e2, e3 ⟨md, by rw [h3]; exact hm, hpl.2⟩⟩
    · have hne : Addr.ata (.treasury .lockup) tp .nftCollectionMint ≠ s := by
        rw [hp.srcAddr]
        intro he
        injection he with he _ _
        rcases hwho with ⟨_, m', hm'⟩ | ⟨_, cd, _, hcd⟩
        · rw [hm'] at he; cases he
        · rw [hcd] at he; cases he
      obtain ⟨t', e1, e2⟩ := hp.other h1 hne
      exact ⟨t', e1, e2.kept, e2.2.2.2⟩
  obtain ⟨t', e1, e2, e3⟩ := key
  have hb' := hb.step h
  obtain ⟨md', hm', _⟩ := hb'.tok_mint _ _ e1
  rw [e2.2.1, h3] at hm'
  have h5 := (hb'.supply _ _ hm').2.single (.ata (.treasury .lockup) tp .nftCollectionMint)
  rw [bal_of_token e1, if_pos (by rw [e2.2.1, h3])] at h5
  have := (hb'.nft _ md' rfl hm').2.1
  exact ⟨tp, t', e1, by rw [e2.2.2, h2], by rw [e2.2.1, h3], by omega⟩

/-- Steps that touch neither the collection nor any stream-creation record. -/
theorem CollOK.quiet' {rt : Runtime} {w w' : World} {ix : Ix} (hr : Reachable rt w) (hd : Did rt w ix w')
    (h : CollOK rt w) (h1 : w'.lk.nftCollectionData = w.lk.nftCollectionData) (h2 : w'.lk.treasury = w.lk.treasury)
    (hk : (∀ x, x.isNftMint = true → w'.metas x = w.metas x) ∧
      ∀ x mm, w'.metas x = some mm → x.isNftMint = false → Foreign x mm) (h4 : total creation w'.log = total creation w.log)
    (h5 : total (liveNft w.metas) w'.log = total (liveNft w.metas) w.log) (h6 : LogMints w.log → LogMints w'.log) :
    CollOK rt w' := by
  have hl := h6 h.logMints
  have hlive : total (liveNft w'.metas) w'.log = total (liveNft w.metas) w.log := by
    rw [live_congr (metas := w.metas) (fun s n => hk.1 _ rfl) _ hl, h5]
  refine ⟨?_, ?_, ?_, ?_, hl⟩
  · intro hn; rw [h1] at hn; rw [h2, h4]; exact h.absent hn
  · intro nd hn
    rw [h1] at hn
    obtain ⟨e1, e2, e3, e4, ⟨md, e5⟩, e6⟩ := h.present nd hn
    obtain ⟨md', e7, _⟩ := hd.mint e5
    rw [h2, h4, hlive, hk.1 _ rfl]
    exact ⟨e1, e2, e3, e4.did hr hd, ⟨md', e7⟩, e6⟩
  · intro m mm hm hne
    cases hn : m.isNftMint with
    | true =>
      rcases isNftMint_cases hn with rfl | ⟨s, n, rfl⟩
      · exact (hne rfl).elim
      · rw [hk.1 _ rfl] at hm; exact .inl ((h.stream hm).mono hr hd)
    | false => exact .inr (hk.2 _ _ hm hn)
  · intro cm hm; rw [hk.1 _ rfl] at hm; rw [h1]; exact h.collPresent cm hm

theorem CollOK.quiet {rt : Runtime} {w w' : World} {ix : Ix} (hr : Reachable rt w) (hd : Did rt w ix w')
    (h : CollOK rt w) (h1 : w'.lk.nftCollectionData = w.lk.nftCollectionData) (h2 : w'.lk.treasury = w.lk.treasury)
    (h3 : w'.metas = w.metas ∨ MetaEdit w w'.metas) (h4 : total creation w'.log = total creation w.log)
    (h5 : total (liveNft w.metas) w'.log = total (liveNft w.metas) w.log) (h6 : LogMints w.log → LogMints w'.log) :
    CollOK rt w' := by
  refine h.quiet' hr hd h1 h2 ?_ h4 h5 h6
  rcases h3 with e | e
  · rw [e]; exact ⟨fun _ _ => rfl, fun x mm hm hx => h.foreign hx hm⟩
  · exact e.kept hr.bankInv h

theorem Reachable.collOK {rt : Runtime} {w : World} (h : Reachable rt w) : CollOK rt w := by
  refine h.induct ?_ ?_
  · intro w hg
    refine ⟨fun _ => ⟨hg.no_lk_treasury, by rw [hg.no_log]; rfl⟩, ?_, ?_, ?_, ?_⟩
    · intro nd hn; rw [hg.no_collection] at hn; cases hn
    · intro m mm hm; rw [hg.no_metas] at hm; cases hm
    · intro m hm; rw [hg.no_metas] at hm; cases hm
    · intro e he; rw [hg.no_log] at he; cases he
  · intro w ix w' hr ih hd
    have hd' := hd
    cases hd with
    | @init c f p s md b₁ b₂ b₃ l hix h =>
      have habs := ih.absent h.noCollectionData
      obtain ⟨_, _, rfl⟩ := openMint_ok h.openMint
      obtain ⟨_, _, _, rfl⟩ := openAccount_ok h.openAta
      obtain ⟨md₀, tt, m1, m2, _, _, m5, _, _, _, rfl⟩ := mintTo_ok h.mintTo
      rw [setToken_tokens, upd_same] at m2
      cases m2
      have hlive : total (liveNft w'.metas) w'.log = 0 := by
        have hl : w'.log = w.log := by rw [h.result]
        rw [hl]
        have : ∀ log : List LogEntry, total creation log = 0 → total (liveNft w'.metas) log = 0 := by
          intro log
          induction log with
          | nil => intro _; rfl
          | cons e log ihl =>
            rw [total_cons, total_cons]
            intro hz
            have h1 : liveNft w'.metas e.event ≤ creation e.event := by
              cases e.event <;> simp only [liveNft, creation]
              · exact Nat.le_refl _
              · split <;> omega
              all_goals exact Nat.le_refl _
            have := ihl (by omega)
            omega
        exact this _ habs.2
      refine ⟨?_, ?_, ?_, ?_, ?_⟩
      · intro hn; rw [h.result] at hn; cases hn
      · intro nd hn
        rw [hlive]
        have hlog : w'.log = w.log := by rw [h.result]
        rw [hlog]
        rw [h.result] at hn
        simp only [Option.some.injEq] at hn
        subst hn
        refine ⟨rfl, habs.2.symm, ?_, ?_, ?_, ?_⟩
        · rw [h.result]; exact ⟨_, rfl⟩
        · refine ⟨c.nftTokenProgram, ⟨c.nftTokenProgram, .nftCollectionMint, .treasury .lockup, 0 + 1, false⟩, ?_, rfl, rfl, rfl⟩
          rw [h.result, ← h.ataAddr]
          simp [lockAuthority, Bank.opensFrozen, freshNftMint]
        · rw [h.result]
          exact ⟨{ md with authority := some (.edition .nftCollectionMint), freezeAuthority := some (.edition .nftCollectionMint) },
            by simp [lockAuthority]⟩
        · rw [h.result]; simp [collMeta]
      · intro m mm hm hne
        have hm' : w.metas m = some mm := by rw [h.result] at hm; simp only [upd_ne _ _ hne] at hm; exact hm
        rcases ih.metas m mm hm' hne with hs | hf
        · exact .inl (hs.mono hr hd')
        · exact .inr hf
      · intro cm hm; rw [h.result]; exact ⟨_, rfl⟩
      · rw [h.result]; exact ih.logMints
    | @create c p nd dm md cm k name b₁ b₂ b₃ b₄ b₆ l hix hp h =>
      obtain ⟨e1, e2, e3, e4, ⟨md₀, e5⟩, e6⟩ := ih.present nd h.collectionData
      have hcm := ih.coll h.collMeta
      have e7 := h.collSize
      rw [hcm] at e7
      have hk : total (liveNft w.metas) w.log = k := by injection e7
      rw [hk] at hcm
      have hmA := h.nftMintAddr
      have hfresh := h.fresh
      have hN : total (creationOf c.sender p.salt) w.log = 0 := by
        have := hr.streamsOK c.streamData
        rw [hfresh] at this
        exact this.2.2.2 _ _ (by rw [h.streamAddr, hmA])
      have hmetas : w'.metas = upd (upd (upd w.metas c.streamNftMint (some ⟨name, none, none, streamNftInfo .nftCollectionMint⟩))
          c.streamNftMint (some ⟨name, some .nftCollectionMint, none, streamNftInfo .nftCollectionMint⟩))
          .nftCollectionMint (some { cm with collectionSize := some (k + 1) }) := by rw [h.result]
      have hlog : w'.log = ⟨w.now, .createLockupLinearStream dm.decimals c.depositTokenMint c.recipient p.salt
        c.streamData c.streamNftMint⟩ :: w.log := by rw [h.result]
      have hms : w'.metas c.streamNftMint = some ⟨name, some .nftCollectionMint, none, streamNftInfo .nftCollectionMint⟩ := by
        rw [hmetas, upd_ne _ _ (by rw [hmA]; simp), upd_same]
      have hlive : total (liveNft w'.metas) w'.log = k + 1 := by
        rw [hlog, total_cons]
        have h1 : liveNft w'.metas (.createLockupLinearStream dm.decimals c.depositTokenMint c.recipient p.salt
          c.streamData c.streamNftMint) = 1 := by simp [liveNft, hms]
        rw [h1, live_add (metas := w.metas) (s := c.sender) (n := p.salt) ?_ ?_ ?_ _ ih.logMints, hN, hk]
        · omega
        · intro a j hx
          rw [← hmA] at hx
          rw [hmetas, upd_ne _ _ (by simp), upd_ne _ _ hx, upd_ne _ _ hx]
        · rw [← hmA]; exact h.noMeta
        · rw [← hmA, hms]; rfl
      refine ⟨?_, ?_, ?_, ?_, ?_⟩
      · intro hn; rw [h.result] at hn; cases hn
      · intro nd' hn
        have hn' : nd' = { nd with totalSupply := nd.totalSupply + 1 } := by
          rw [h.result] at hn; simp only [Option.some.injEq] at hn; exact hn.symm
        subst hn'
        obtain ⟨md', e8, _⟩ := hd'.mint e5
        refine ⟨e1, ?_, ?_, e4.did hr hd', ⟨md', e8⟩, ?_⟩
        · rw [hlog, total_cons, ← e2]; simp [creation]; omega
        · rw [h.result]; exact e3
        · rw [hlive, hmetas, upd_same, hcm]; rfl
      · intro m mm hm hne
        by_cases hmm : m = c.streamNftMint
        · subst hmm
          rw [hms] at hm
          cases hm
          refine .inl ⟨c.sender, p.salt, StreamData.create c.depositTokenMint (rt.bump c.streamData) p.cliffTime p.cliffUnlockAmount
              p.depositAmount p.endTime p.salt p.isCancelable c.sender p.startTime p.startUnlockAmount, name, hmA, ?_,
              h.nftName, rfl⟩
          · rw [← h.streamAddr, h.result]; simp
        · rw [hmetas, upd_ne _ _ hne, upd_ne _ _ hmm, upd_ne _ _ hmm] at hm
          rcases ih.metas m mm hm hne with hs | hf
          · exact .inl (hs.mono hr hd')
          · exact .inr hf
      · intro cm' hm; rw [h.result]; exact ⟨_, rfl⟩
      · rw [hlog]
        intro e he
        rcases List.mem_cons.1 he with rfl | he
        · intro d t r n x m hev
          simp only [Event.createLockupLinearStream.injEq] at hev
          obtain ⟨_, _, _, _, _, rfl⟩ := hev
          exact ⟨_, _, hmA⟩
        · exact ih.logMints e he
    | withdraw hix h =>
      refine ih.quiet hr hd' ?_ ?_ (.inl ?_) ?_ ?_ ?_ <;> rw [h.result] <;> simp [total_cons, creation, liveNft, LogMints]
    | cancel hix h =>
      refine ih.quiet hr hd' ?_ ?_ (.inl ?_) ?_ ?_ ?_ <;> rw [h.result] <;> simp [total_cons, creation, liveNft, LogMints]
    | renounce hix h =>
      refine ih.quiet hr hd' ?_ ?_ (.inl ?_) ?_ ?_ ?_ <;> rw [h.result] <;> simp [total_cons, creation, liveNft, LogMints]
    | collect hix _ h =>
      refine ih.quiet hr hd' ?_ ?_ (.inl ?_) ?_ ?_ ?_ <;> rw [h.result] <;> simp [total_cons, creation, liveNft, LogMints]
    | campaign _ hix h =>
      refine ih.quiet hr hd' ?_ ?_ (.inl ?_) ?_ ?_ ?_ <;> rw [h.result] <;> simp [total_cons, creation, liveNft, LogMints]
    | claim hix h =>
      refine ih.quiet hr hd' ?_ ?_ (.inl ?_) ?_ ?_ ?_ <;> rw [h.result] <;> simp [total_cons, creation, liveNft, LogMints]
    | clawback hix h =>
      refine ih.quiet hr hd' ?_ ?_ (.inl ?_) ?_ ?_ ?_ <;> rw [h.result] <;> simp [total_cons, creation, liveNft, LogMints]
    | miCollect hix _ h =>
      refine ih.quiet hr hd' ?_ ?_ (.inl ?_) ?_ ?_ ?_ <;> rw [h.result] <;> simp [total_cons, creation, liveNft, LogMints]
    | miInit hix _ _ _ h => refine ih.quiet hr hd' ?_ ?_ (.inl ?_) ?_ ?_ ?_ <;> rw [h]; exact id
    | env i hix h =>
      have he := env_ok h
      rcases he.metas with hm | ⟨acc, owner, mint, t, m, b, _, hb⟩ | ⟨hm, _⟩
      · exact ih.quiet hr hd' (by rw [he.lk]) (by rw [he.lk]) (.inl hm) (by rw [he.log]) (by rw [he.log])
          (by rw [he.log]; exact id)
      rotate_left
      · exact ih.quiet hr hd' (by rw [he.lk]) (by rw [he.lk]) (.inr hm) (by rw [he.log]) (by rw [he.log])
          (by rw [he.log]; exact id)
      · have hbi := hr.bankInv
        -- the collection NFT itself cannot be burned
        have hnc : mint ≠ .nftCollectionMint := by
          intro hc
          have hme := hb.meta_eq
          rw [hc] at hme
          obtain ⟨nd, hnd⟩ := ih.collPresent m hme
          obtain ⟨_, _, _, ⟨tp, t', h1, h2, h3, h4⟩, ⟨md, e5⟩, _⟩ := ih.present nd hnd
          have hne : acc ≠ .ata (.treasury .lockup) tp .nftCollectionMint := by
            intro ha
            have := hb.tok
            rw [ha, h1] at this
            cases this
            have hs := hb.signs
            rw [← hb.owner_eq, h2] at hs
            cases hs
          have := (hbi.supply _ _ e5).2.pair hne
          rw [bal_of_token hb.tok, bal_of_token h1, if_pos (by rw [hb.mint_eq, hc]), if_pos h3, hb.one, h4] at this
          have := (hbi.nft _ md rfl e5).2.1
          omega
        rcases ih.metas mint m hb.meta_eq hnc with hs | hf
        rotate_left
        · -- burning a token that has nothing to do with the programs
          have hk : (∀ x, x.isNftMint = true → w'.metas x = w.metas x) ∧
              ∀ x mm, w'.metas x = some mm → x.isNftMint = false → Foreign x mm := by
            obtain ⟨j, hj⟩ := hf.addr
            have h1 : ∀ x, x.isNftMint = true → upd w.metas mint none x = w.metas x :=
              fun x hx => upd_ne _ _ (by rintro rfl; rw [hj] at hx; cases hx)
            have h2 : ∀ x mm, upd w.metas mint none x = some mm → x.isNftMint = false → Foreign x mm := by
              intro x mm hm hx
              rw [upd_apply] at hm
              split at hm
              · cases hm
              · exact ih.foreign hx hm
            have hm := congrArg World.metas hb.result
            dsimp only at hm
            rw [hm]
            cases hc : m.collection with
            | none => exact ⟨h1, h2⟩
            | some c =>
              obtain ⟨q, rfl⟩ := hf.coll _ hc
              cases hcm : upd w.metas mint none (.key q) with
              | none => simp only [hcm]; exact ⟨h1, h2⟩
              | some cm =>
                simp only [hcm]
                refine ⟨fun x hx => ?_, ?_⟩
                · rw [upd_ne _ _ (by rintro rfl; cases hx)]; exact h1 x hx
                · intro x mm hm hx
                  by_cases hq : x = .key q
                  · subst hq
                    rw [upd_same] at hm; cases hm
                    have := h2 _ _ hcm rfl
                    exact ⟨this.addr, this.coll, this.creators⟩
                  · rw [upd_ne _ _ hq] at hm; exact h2 _ _ hm hx
          exact ih.quiet' hr hd' (by rw [he.lk]) (by rw [he.lk]) hk (by rw [he.log]) (by rw [he.log])
            (by rw [he.log]; exact id)
        obtain ⟨s, n, sd, nm, f2, f3, f4, f5⟩ := hs
        have f1 : m.collection = some .nftCollectionMint := by rw [f5]
        subst f2
        have hcm : ∃ cm, w.metas .nftCollectionMint = some cm := by
          cases hnd : w.lk.nftCollectionData with
          | none =>
            have h0 := (ih.absent hnd).2
            have h1 := (hr.streamOK f3).logN
            have haddr := (hr.streamOK f3).addr
            injection haddr with haddr
            injection haddr with ha hn
            rw [← ha, ← hn] at h1
            have : ∀ log : List LogEntry, total (creationOf s n) log ≤ total creation log := by
              intro log
              induction log with
              | nil => exact Nat.le_refl _
              | cons e log ihl =>
                rw [total_cons, total_cons]
                have : creationOf s n e.event ≤ creation e.event := by
                  cases e.event <;> simp only [creationOf, creation]
                  · exact Nat.le_refl _
                  · split <;> omega
                  all_goals exact Nat.le_refl _
                omega
            have := this w.log
            omega
          | some nd => obtain ⟨_, _, _, _, _, h1⟩ := ih.present nd hnd; exact ⟨_, h1⟩
        obtain ⟨cm, hcm⟩ := hcm
        have hmetas : w'.metas = upd (upd w.metas (.streamNftMint s n) none) .nftCollectionMint
            (some { cm with collectionSize := cm.collectionSize.map (· - 1) }) := by
          rw [hb.result]
          simp only [f1]
          rw [upd_ne _ _ (by simp), hcm]
        have hN : total (creationOf s n) w.log = 1 := by
          have h1 := (hr.streamOK f3).logN
          have haddr := (hr.streamOK f3).addr
          injection haddr with haddr
          injection haddr with ha hn
          rw [← ha, ← hn] at h1
          exact h1
        have hlive : total (liveNft w.metas) w.log = total (liveNft w'.metas) w.log + 1 := by
          rw [← hN]
          refine live_add ?_ ?_ ?_ _ ih.logMints
          · intro a j hx
            rw [hmetas, upd_ne _ _ (by simp), upd_ne _ _ hx]
          · rw [hmetas, upd_ne _ _ (by simp), upd_same]
          · rw [hb.meta_eq]; rfl
        refine ⟨?_, ?_, ?_, ?_, ?_⟩
        · intro hn; rw [he.lk] at hn; rw [he.lk, he.log]; exact ih.absent hn
        · intro nd hn
          rw [he.lk] at hn
          obtain ⟨e1, e2, e3, e4, ⟨md, e5⟩, e6⟩ := ih.present nd hn
          obtain ⟨md', e8, _⟩ := hd'.mint e5
          rw [he.lk, he.log]
          refine ⟨e1, e2, e3, e4.did hr hd', ⟨md', e8⟩, ?_⟩
          have e9 : w'.metas .nftCollectionMint = some { cm with collectionSize := cm.collectionSize.map (· - 1) } := by
            rw [hmetas, upd_same]
          rw [e9, ih.coll hcm, hlive]
          simp only [collMeta, Option.map_some, Nat.add_sub_cancel]
        · intro m' mm hm hne
          rw [hmetas, upd_ne _ _ hne] at hm
          have hm' : m' ≠ .streamNftMint s n := by
            rintro rfl; rw [upd_same] at hm; cases hm
          rw [upd_ne _ _ hm'] at hm
          rcases ih.metas m' mm hm hne with hs | hf
          · exact .inl (hs.mono hr hd')
          · exact .inr hf
        · intro cm' hm; rw [he.lk]; exact ih.collPresent cm hcm
        · rw [he.log]; exact ih.logMints

end Solsab
