import Verif.Proofs.Ext
import Verif.Proofs.Base58
/-!
# `create_with_timestamps_ll` with the right accounts
-/

namespace Solsab

open Lockup Spec

theorem nftName_ok (key : Bytes32) : ∃ name, nftName key = .ok name ∧ name.length = 32 := by
  have h := (Base58.encode_length key).1
  unfold nftName
  refine ⟨_, bind_ok.2 ⟨(), require_ok.2 (by omega), bind_ok.2 ⟨_, subU64_ok.2 ⟨by omega, rfl⟩, rfl⟩⟩, ?_⟩
  simp only [List.length_append, List.length_take, List.length_drop]
  have h1 : NFT_NAME_PREFIX.length = 19 := by decide
  have h2 : "...".toList.length = 3 := by decide
  omega

theorem ok_bind {α β : Type} (a : α) (f : α → Res β) : ((Except.ok a : Res α) >>= f) = f a := rfl

theorem req_bind {β : Type} {c : Prop} [Decidable c] {e : Err} {f : Unit → Res β} (h : c) :
    (require c e >>= f) = f () := by rw [require_ok.2 h]; rfl

theorem fetch_bind {α β : Type} {o : Option α} {e : Err} {f : α → Res β} {a : α} (h : o = some a) :
    (fetch o e >>= f) = f a := by rw [fetch_ok.2 h]; rfl

theorem payRent_new {rt : Runtime} {w : World} {p a : Addr} {k : Nat} (hne : p ≠ a)
    (h : max (rt.rent k) 1 ≤ w.lamports p) :
    ∃ l, w.payRent rt p a k = .ok { w with lamports := l } ∧ w.lamports p - max (rt.rent k) 1 ≤ l p := by
  unfold World.payRent
  refine ⟨_, bind_ok.2 ⟨(), require_ok.2 (by omega), rfl⟩, ?_⟩
  rw [upd_ne _ _ hne, upd_same]
  omega

theorem payMetaplex_new {rt : Runtime} {w : World} {p m : Addr} (hs : p.canSign = true)
    (h : metaplexRent rt ≤ w.lamports p) : ∃ l, payMetaplex rt w p m = .ok { w with lamports := l } := by
  have hne : ∀ a : Addr, a.canSign = false → p ≠ a := by
    intro a ha e; rw [e, ha] at hs; cases hs
  unfold metaplexRent at h
  unfold payMetaplex
  obtain ⟨l₁, h1, g1⟩ : ∃ l, w.systemTransfer p (.metadata m) rt.metaplexFee = .ok { w with lamports := l } ∧
      w.lamports p - rt.metaplexFee ≤ l p := by
    unfold World.systemTransfer
    refine ⟨_, bind_ok.2 ⟨(), require_ok.2 (by omega), rfl⟩, ?_⟩
    rw [upd_ne _ _ (hne _ rfl), upd_same]
  obtain ⟨l₂, h2, g2⟩ := payRent_new (rt := rt) (w := { w with lamports := l₁ }) (k := rt.metadataSpace)
    (hne (.metadata m) rfl) (by show _ ≤ l₁ p; omega)
  replace g2 : l₁ p - max (rt.rent rt.metadataSpace) 1 ≤ l₂ p := g2
  obtain ⟨l₃, h3, _⟩ := payRent_new (rt := rt) (w := { w with lamports := l₂ }) (k := rt.editionSpace)
    (hne (.edition m) rfl) (by show _ ≤ l₂ p; omega)
  exact ⟨l₃, bind_ok.2 ⟨_, h1, bind_ok.2 ⟨_, h2, h3⟩⟩⟩

theorem openAccount_new {b : Bank} {a o m : Addr} {tp : TokenProgram} {md : MintData}
    (hm : b.mints m = some md) (hp : md.program = tp) (h1 : b.tokens a = none) (h2 : b.mints a = none) :
    b.openAccount a o m tp = .ok (b.setToken a (some ⟨tp, m, o, 0, md.startsFrozen⟩)) := by
  unfold Bank.openAccount
  exact bind_ok.2 ⟨md, fetch_ok.2 hm, bind_ok.2 ⟨(), require_ok.2 hp, bind_ok.2 ⟨(), require_ok.2 ⟨h1, h2⟩, rfl⟩⟩⟩

theorem createAta_new {rt : Runtime} {w : World} {p o m : Addr} {tp : TokenProgram} {md : MintData}
    (hm : w.bank.mints m = some md) (hp : md.program = tp) (h1 : w.bank.tokens (.ata o tp m) = none)
    (h2 : w.bank.mints (.ata o tp m) = none) (hs : p.canSign = true)
    (hl : max (rt.rent (World.tokenSpace rt m tp)) 1 ≤ w.lamports p) :
    ∃ l, w.createAta rt p (.ata o tp m) o tp m = .ok { w with
        bank := w.bank.setToken (.ata o tp m) (some ⟨tp, m, o, 0, md.startsFrozen⟩), lamports := l } ∧
      w.lamports p - max (rt.rent (World.tokenSpace rt m tp)) 1 ≤ l p := by
  obtain ⟨l, h3, h4⟩ := payRent_new (rt := rt)
    (w := { w with bank := w.bank.setToken (.ata o tp m) (some ⟨tp, m, o, 0, md.startsFrozen⟩) })
    (p := p) (a := .ata o tp m) (k := World.tokenSpace rt m tp)
    (by intro he; rw [he] at hs; cases hs) hl
  refine ⟨l, ?_, h4⟩
  unfold World.createAta
  exact bind_ok.2 ⟨(), require_ok.2 rfl, bind_ok.2 ⟨_, openAccount_new hm hp h1 h2, h3⟩⟩

/-- Which error `check_create` reports. -/
theorem checkCreate_error (dep st cl en su cu : Nat) (hd : dep < 2 ^ 64) :
    (checkCreate dep st cl en su cu = .error (.lockup .depositAmountZero) ↔ dep = 0) ∧
    (checkCreate dep st cl en su cu = .error (.lockup .startTimeZero) ↔ dep ≠ 0 ∧ st = 0) ∧
    (checkCreate dep st cl en su cu = .error (.lockup .startTimeNotLessThanEndTime) ↔ dep ≠ 0 ∧ st ≠ 0 ∧ en ≤ st) ∧
    (checkCreate dep st cl en su cu = .error (.lockup .startTimeNotLessThanCliffTime) ↔
      dep ≠ 0 ∧ st ≠ 0 ∧ st < en ∧ cl ≠ 0 ∧ cl ≤ st) ∧
    (checkCreate dep st cl en su cu = .error (.lockup .cliffTimeNotLessThanEndTime) ↔
      dep ≠ 0 ∧ st ≠ 0 ∧ st < en ∧ st < cl ∧ en ≤ cl) ∧
    (checkCreate dep st cl en su cu = .error (.lockup .cliffTimeZeroUnlockAmountNotZero) ↔
      dep ≠ 0 ∧ st ≠ 0 ∧ st < en ∧ cl = 0 ∧ cu ≠ 0) ∧
    (checkCreate dep st cl en su cu = .error (.lockup .unlockAmountsSumTooHigh) ↔
      dep ≠ 0 ∧ st ≠ 0 ∧ st < en ∧ ((cl = 0 ∧ cu = 0) ∨ (st < cl ∧ cl < en)) ∧ dep < su + cu) ∧
    (∀ e, checkCreate dep st cl en su cu = .error e → ∃ e', e = .lockup e') := by
  unfold checkCreate
  by_cases h1 : dep = 0
  · rw [if_pos h1]; simp [h1]
  rw [if_neg h1]
  by_cases h2 : st = 0
  · rw [if_pos h2]; simp [h1, h2]
  rw [if_neg h2]
  by_cases h3 : st ≥ en
  · rw [if_pos h3]
    have h3' : ¬ st < en := by omega
    simp [h1, h2, h3, h3']
  rw [if_neg h3]
  have h3' : st < en := by omega
  have h3'' : ¬ en ≤ st := by omega
  by_cases h4 : cl > 0
  · have h4' : cl ≠ 0 := by omega
    rw [if_pos h4]
    by_cases h5 : st ≥ cl
    · have h5' : ¬ st < cl := by omega
      rw [if_pos h5]; simp [bind_err, h1, h2, h3', h3'', h4', h5, h5']
    · have h5' : st < cl := by omega
      have h5'' : ¬ cl ≤ st := by omega
      rw [if_neg h5]
      by_cases h6 : cl ≥ en
      · have h6' : ¬ cl < en := by omega
        rw [if_pos h6]; simp [bind_err, h1, h2, h3', h3'', h4', h5', h5'', h6, h6']
      · have h6' : cl < en := by omega
        have h6'' : ¬ en ≤ cl := by omega
        rw [if_neg h6]
        by_cases h7 : su + cu < 2 ^ 64
        · rw [if_pos h7]
          by_cases h8 : su + cu > dep
          · rw [if_pos h8]
            have h8' : dep < su + cu := h8
            simp [bind_err, h1, h2, h3', h3'', h4', h5', h5'', h6', h6'', h8']
          · rw [if_neg h8]
            have h8' : ¬ dep < su + cu := h8
            simp [bind_err, h1, h2, h3', h3'', h4', h5', h5'', h6', h6'', h8']
        · rw [if_neg h7]
          have h8' : dep < su + cu := by omega
          simp [bind_err, h1, h2, h3', h3'', h4', h5', h5'', h6', h6'', h8']
  · have h4' : cl = 0 := by omega
    rw [if_neg h4]
    by_cases h5 : cu > 0
    · have h5' : cu ≠ 0 := by omega
      rw [if_pos h5]; simp [bind_err, h1, h2, h3', h3'', h4', h5']
    · have h5' : cu = 0 := by omega
      rw [if_neg h5]
      by_cases h7 : su + cu < 2 ^ 64
      · rw [if_pos h7]
        by_cases h8 : su + cu > dep
        · rw [if_pos h8]
          have h8' : dep < su := by omega
          simp [bind_err, h1, h2, h3', h3'', h4', h5', h8']
        · rw [if_neg h8]
          have h8' : ¬ dep < su := by omega
          simp [bind_err, h1, h2, h3', h3'', h4', h5', h8']
      · rw [if_neg h7]
        have h8' : dep < su := by omega
        simp [bind_err, h1, h2, h3', h3'', h4', h5', h8']

/-- The ledger right after the accounts of a new stream have been created and its NFT minted. -/
def createBank (fz : Bool) (b : Bank) (c : CreateAccts) : Bank :=
  let b := b.setMint c.streamNftMint (some { freshNftMint c.nftTokenProgram with
    supply := 1, authority := some (.edition c.streamNftMint), freezeAuthority := some (.edition c.streamNftMint) })
  let b := b.setToken c.streamDataAta (some ⟨c.depositTokenProgram, c.depositTokenMint, c.streamData, 0, fz⟩)
  b.setToken c.recipientStreamNftAta (some ⟨c.nftTokenProgram, c.streamNftMint, c.recipient, 1, false⟩)

theorem setToken_comm (b : Bank) {a a' : Addr} (h : a ≠ a') (x y : Option TokenData) :
    (b.setToken a x).setToken a' y = (b.setToken a' y).setToken a x := by
  simp only [Bank.setToken]
  congr 1
  funext z
  simp only [upd_apply]
  by_cases h1 : z = a
  · by_cases h2 : z = a'
    · exact absurd (h1.symm.trans h2) h
    · simp [h1, h]
  · simp [h1]

/-- With the right accounts a create reaches its parameter check, and after the check only the deposit
transfer is left to fail. -/
theorem CreateReady.split {rt : Runtime} {w : World} (hr : Reachable rt w) {c : CreateAccts} {n : Nat}
    {md : MintData} {nd : NftCollectionData} (h : CreateReady rt w c n md nd) (p : CreateParams)
    (hp : p.salt = n) : ∃ w₁ : World, w₁.bank = createBank md.startsFrozen w.bank c ∧ w₁.now = w.now ∧ w₁.settings = w.settings ∧
      createWithTimestamps rt w c p =
      (checkCreate p.depositAmount p.startTime p.cliffTime p.endTime p.startUnlockAmount p.cliffUnlockAmount >>=
        fun _ => w₁.transferTokens c.creatorAta c.streamDataAta c.creator c.depositTokenMint
          c.depositTokenProgram p.depositAmount md.decimals >>= fun w₂ =>
        pure (World.emit { w₂ with lk := { w₂.lk with
          streams := upd w₂.lk.streams c.streamData (some (StreamData.create c.depositTokenMint
            (rt.bump c.streamData) p.cliffTime p.cliffUnlockAmount p.depositAmount p.endTime p.salt
            p.isCancelable c.sender p.startTime p.startUnlockAmount))
          nftCollectionData := some { nd with totalSupply := nd.totalSupply + 1 } } }
          (.createLockupLinearStream md.decimals c.depositTokenMint c.recipient p.salt c.streamData
            c.streamNftMint))) := by
  have hb := hr.bankInv
  have hcoll := hr.collOK
  obtain ⟨hbump, _, _, _, ⟨cmd, hcm⟩, hmeta⟩ := hcoll.present nd h.collection
  obtain ⟨ta, hta1, hta2⟩ := h.creatorAta
  obtain ⟨name, hname, hlen⟩ := nftName_ok (rt.keyBytes c.streamNftMint)
  have hrent := h.funds
  unfold createRent metaplexRent at hrent
  have hspace : ∀ a b tp, World.tokenSpace rt (.streamNftMint a b) tp = World.tokenSpace rt .nftCollectionMint tp := by
    intro a b tp; cases tp <;> rfl
  have hsign := h.signer
  obtain ⟨cr, cra, rec, snd, cdt, cmt, dmt, snm, rna, sdt, sda, dtp, ntp⟩ := c
  obtain ⟨_, _, hmint, _, _, hun, hvu, _, a1, a2, a3, a4, a5, a6, a7, a8⟩ := h
  simp only at *
  subst hp
  obtain ⟨salt, dep, st, cl, en, su, cu, ca⟩ := p
  simp only at *
  subst a1 a2 a3 a4 a5 a6 a7 a8
  have hnone : w.bank.mints (.streamNftMint snd salt) = none := by
    simpa [streamExists] using hun
  have hstream : w.lk.streams (streamAddr snd salt) = none := by
    have := hr.nftMintsOK snd salt
    rw [hnone] at this
    cases hs : w.lk.streams (.streamData (.streamNftMint snd salt)) with
    | none => exact hs
    | some sd => rw [hs] at this; cases this
  have htok : w.bank.tokens (.streamNftMint snd salt) = none := by
    cases ht : w.bank.tokens (.streamNftMint snd salt) with
    | none => rfl
    | some t =>
      rcases hb.tok_addr _ _ ht with ⟨n, hn⟩ | ⟨o, hn, _⟩ <;> cases hn
  have hnta : w.bank.tokens (.ata rec ntp (.streamNftMint snd salt)) = none := by
    cases ht : w.bank.tokens (.ata rec ntp (.streamNftMint snd salt)) with
    | none => rfl
    | some t =>
      obtain ⟨_, e⟩ := ata_token hb ht
      obtain ⟨m, hm, _⟩ := hb.tok_mint _ _ ht
      rw [e, hnone] at hm; cases hm
  have hdne : dmt ≠ .streamNftMint snd salt := by
    intro he; rw [he, hnone] at hmint; cases hmint
  have hmetaN : w.metas (.streamNftMint snd salt) = none := by
    cases hm : w.metas (.streamNftMint snd salt) with
    | none => rfl
    | some mm =>
      obtain ⟨s, n, sd, _, e, hs, _⟩ := hcoll.stream hm
      exact absurd hs (by rw [show Addr.streamData (.streamNftMint snd salt) = streamAddr snd salt from rfl, hstream]; simp)
  -- the account phase
  have e1 : w.bank.checkAta (.ata cr md.program dmt) cr md.program dmt = .ok ta :=
    checkAta_ok.2 ⟨hta1, hta2, rfl, (ata_token hb hta1).1⟩
  have e2 : w.bank.openMint (.streamNftMint snd salt) (freshNftMint ntp) =
      .ok (w.bank.setMint (.streamNftMint snd salt) (some (freshNftMint ntp))) := by
    unfold Bank.openMint
    exact bind_ok.2 ⟨(), require_ok.2 ⟨hnone, htok⟩, rfl⟩
  obtain ⟨l₁, e3, f3⟩ := payRent_new (rt := rt) (p := cr) (a := .streamNftMint snd salt) (k := World.mintSpace)
    (w := { w with bank := w.bank.setMint (.streamNftMint snd salt) (some (freshNftMint ntp)) })
    (by intro he; rw [he] at hsign; cases hsign) (by simp only; omega)
  simp only at e3 f3
  obtain ⟨l₂, e4, f4⟩ := createAta_new (rt := rt) (p := cr) (o := rec) (m := .streamNftMint snd salt) (tp := ntp)
    (md := freshNftMint ntp)
    (w := { w with bank := w.bank.setMint (.streamNftMint snd salt) (some (freshNftMint ntp)), lamports := l₁ })
    (by simp) rfl hnta (by simp only [setMint_mints]; rw [upd_ne _ _ (by simp)]; exact ata_not_mint hb _ _ _)
    hsign (by simp only [hspace]; omega)
  simp only [hspace, show (freshNftMint ntp).startsFrozen = false from rfl] at e4 f4
  obtain ⟨l₃, e5, f5⟩ := payRent_new (rt := rt) (p := cr) (a := streamAddr snd salt) (k := streamDataSpace)
    (w := { w with
      bank := (w.bank.setMint (.streamNftMint snd salt) (some (freshNftMint ntp))).setToken
        (.ata rec ntp (.streamNftMint snd salt)) (some ⟨ntp, .streamNftMint snd salt, rec, 0, false⟩)
      lamports := l₂ })
    (by intro he; rw [he] at hsign; cases hsign) (by simp only; omega)
  simp only at e5 f5
  obtain ⟨l₄, e6, f6⟩ := createAta_new (rt := rt) (p := cr) (o := streamAddr snd salt) (m := dmt) (tp := md.program)
    (md := md)
    (w := { w with
      bank := (w.bank.setMint (.streamNftMint snd salt) (some (freshNftMint ntp))).setToken
        (.ata rec ntp (.streamNftMint snd salt)) (some ⟨ntp, .streamNftMint snd salt, rec, 0, false⟩)
      lamports := l₃ })
    (by simp only [setToken_mints, setMint_mints]; rw [upd_ne _ _ hdne]; exact hmint) rfl
    (by simp only [setToken_tokens, setMint_tokens]
        rw [upd_ne _ _ (by intro he; injection he with _ _ he; exact hdne he)]; exact hvu)
    (by simp only [setToken_mints, setMint_mints]; rw [upd_ne _ _ (by simp)]; exact ata_not_mint hb _ _ _)
    hsign (by simp only; omega)
  simp only at e6 f6
  obtain ⟨l₅, e8⟩ := payMetaplex_new (rt := rt) (p := cr) (m := .streamNftMint snd salt)
    (w := { w with
      bank := (((((w.bank.setMint (.streamNftMint snd salt) (some (freshNftMint ntp))).setToken
          (.ata rec ntp (.streamNftMint snd salt)) (some ⟨ntp, .streamNftMint snd salt, rec, 0, false⟩)).setToken
          (.ata (streamAddr snd salt) md.program dmt) (some ⟨md.program, dmt, streamAddr snd salt, 0, md.startsFrozen⟩)).setMint
          (.streamNftMint snd salt) (some { freshNftMint ntp with supply := (freshNftMint ntp).supply + 1 })).setToken
          (.ata rec ntp (.streamNftMint snd salt)) (some ⟨ntp, .streamNftMint snd salt, rec, 0 + 1, false⟩))
      lamports := l₄ }) hsign (by unfold metaplexRent; simp only; omega)
  simp only at e8
  refine ⟨{ w with
    lamports := l₅
    bank := createBank md.startsFrozen w.bank ⟨cr, .ata cr md.program dmt, rec, snd, .nftCollectionData, .nftCollectionMint, dmt,
      .streamNftMint snd salt, .ata rec ntp (.streamNftMint snd salt), streamAddr snd salt,
      .ata (streamAddr snd salt) md.program dmt, md.program, ntp⟩
    metas := upd (upd (upd w.metas (.streamNftMint snd salt) (some ⟨name, none, none, streamNftInfo .nftCollectionMint⟩))
      (.streamNftMint snd salt) (some ⟨name, some .nftCollectionMint, none, streamNftInfo .nftCollectionMint⟩))
      .nftCollectionMint (some (collMeta (total (liveNft w.metas) w.log + 1))) }, rfl, rfl, rfl, ?_⟩
  -- the NFT
  have e7 : nftCreateStream rt { w with
      bank := ((w.bank.setMint (.streamNftMint snd salt) (some (freshNftMint ntp))).setToken
        (.ata rec ntp (.streamNftMint snd salt)) (some ⟨ntp, .streamNftMint snd salt, rec, 0, false⟩)).setToken
        (.ata (streamAddr snd salt) md.program dmt) (some ⟨md.program, dmt, streamAddr snd salt, 0, md.startsFrozen⟩)
      lamports := l₄ } cr (.streamNftMint snd salt) .nftCollectionMint (.ata rec ntp (.streamNftMint snd salt)) ntp =
      .ok { w with
        lamports := l₅
        bank := createBank md.startsFrozen w.bank ⟨cr, .ata cr md.program dmt, rec, snd, .nftCollectionData, .nftCollectionMint, dmt,
          .streamNftMint snd salt, .ata rec ntp (.streamNftMint snd salt), streamAddr snd salt,
          .ata (streamAddr snd salt) md.program dmt, md.program, ntp⟩
        metas := upd (upd (upd w.metas (.streamNftMint snd salt) (some ⟨name, none, none, streamNftInfo .nftCollectionMint⟩))
          (.streamNftMint snd salt) (some ⟨name, some .nftCollectionMint, none, streamNftInfo .nftCollectionMint⟩))
          .nftCollectionMint (some (collMeta (total (liveNft w.metas) w.log + 1))) } := by
    have hta_ne : Addr.ata rec ntp (.streamNftMint snd salt) ≠ .ata (streamAddr snd salt) md.program dmt := by
      intro he; injection he with _ _ he; exact hdne he.symm
    unfold nftCreateStream
    rw [hname, ok_bind]
    have m1 : Bank.mintTo (((w.bank.setMint (.streamNftMint snd salt) (some (freshNftMint ntp))).setToken
        (.ata rec ntp (.streamNftMint snd salt)) (some ⟨ntp, .streamNftMint snd salt, rec, 0, false⟩)).setToken
        (.ata (streamAddr snd salt) md.program dmt) (some ⟨md.program, dmt, streamAddr snd salt, 0, md.startsFrozen⟩))
        (.streamNftMint snd salt) (.ata rec ntp (.streamNftMint snd salt)) .nftCollectionMint ntp 1 =
        .ok (((((w.bank.setMint (.streamNftMint snd salt) (some (freshNftMint ntp))).setToken
          (.ata rec ntp (.streamNftMint snd salt)) (some ⟨ntp, .streamNftMint snd salt, rec, 0, false⟩)).setToken
          (.ata (streamAddr snd salt) md.program dmt) (some ⟨md.program, dmt, streamAddr snd salt, 0, md.startsFrozen⟩)).setMint
          (.streamNftMint snd salt) (some { freshNftMint ntp with supply := (freshNftMint ntp).supply + 1 })).setToken
          (.ata rec ntp (.streamNftMint snd salt)) (some ⟨ntp, .streamNftMint snd salt, rec, 0 + 1, false⟩)) := by
      unfold Bank.mintTo
      refine bind_ok.2 ⟨freshNftMint ntp, fetch_ok.2 (by simp), ?_⟩
      refine bind_ok.2 ⟨⟨ntp, .streamNftMint snd salt, rec, 0, false⟩, fetch_ok.2 ?_, ?_⟩
      · simp only [setToken_tokens]; rw [upd_ne _ _ hta_ne, upd_same]
      refine bind_ok.2 ⟨(), require_ok.2 ⟨rfl, rfl⟩, bind_ok.2 ⟨(), require_ok.2 rfl, bind_ok.2 ⟨(), require_ok.2 rfl,
        bind_ok.2 ⟨(), require_ok.2 rfl, bind_ok.2 ⟨(), require_ok.2 (by simp [freshNftMint]), bind_ok.2 ⟨(), require_ok.2 (by simp), rfl⟩⟩⟩⟩⟩⟩
    rw [m1, ok_bind]
    have hbank : lockAuthority (((((w.bank.setMint (.streamNftMint snd salt) (some (freshNftMint ntp))).setToken
          (.ata rec ntp (.streamNftMint snd salt)) (some ⟨ntp, .streamNftMint snd salt, rec, 0, false⟩)).setToken
          (.ata (streamAddr snd salt) md.program dmt) (some ⟨md.program, dmt, streamAddr snd salt, 0, md.startsFrozen⟩)).setMint
          (.streamNftMint snd salt) (some { freshNftMint ntp with supply := (freshNftMint ntp).supply + 1 })).setToken
          (.ata rec ntp (.streamNftMint snd salt)) (some ⟨ntp, .streamNftMint snd salt, rec, 0 + 1, false⟩))
          (.streamNftMint snd salt) { freshNftMint ntp with supply := (freshNftMint ntp).supply + 1 } =
        createBank md.startsFrozen w.bank ⟨cr, .ata cr md.program dmt, rec, snd, .nftCollectionData, .nftCollectionMint, dmt,
          .streamNftMint snd salt, .ata rec ntp (.streamNftMint snd salt), streamAddr snd salt,
          .ata (streamAddr snd salt) md.program dmt, md.program, ntp⟩ := by
      simp only [lockAuthority, createBank, Bank.setMint, Bank.setToken]
      congr 1
      · funext z; simp only [upd_apply]; split <;> rfl
      · funext z; simp only [upd_apply]; split
        · rfl
        · rfl
    refine bind_ok.2 ⟨_, bind_ok.2 ⟨(), require_ok.2 hmetaN, bind_ok.2 ⟨(), require_ok.2 ⟨by omega, by decide +kernel, by decide +kernel⟩,
      bind_ok.2 ⟨(), require_ok.2 ⟨by decide, .inl rfl⟩, bind_ok.2 ⟨{ freshNftMint ntp with supply := (freshNftMint ntp).supply + 1 }, fetch_ok.2 (by simp),
      bind_ok.2 ⟨(), require_ok.2 rfl, bind_ok.2 ⟨(), require_ok.2 ⟨rfl, rfl⟩, bind_ok.2 ⟨_, e8, rfl⟩⟩⟩⟩⟩⟩⟩, ?_⟩
    unfold metaplexVerifyItem
    refine bind_ok.2 ⟨⟨name, none, none, streamNftInfo .nftCollectionMint⟩, fetch_ok.2 (by simp), bind_ok.2 ⟨collMeta (total (liveNft w.metas) w.log), fetch_ok.2 ?_,
      bind_ok.2 ⟨(), require_ok.2 rfl, bind_ok.2 ⟨(), require_ok.2 ⟨rfl, rfl⟩, bind_ok.2 ⟨_, fetch_ok.2 rfl, ?_⟩⟩⟩⟩⟩
    · simp only; rw [upd_ne _ _ (by simp)]; exact hmeta
    · rw [pure_ok, ← hbank]; rfl
  unfold createWithTimestamps
  simp only
  rw [req_bind hsign, e1, ok_bind, req_bind trivial, fetch_bind (by assumption), req_bind hbump, req_bind trivial,
    fetch_bind hcm, fetch_bind hmint, req_bind rfl, req_bind trivial, e2, ok_bind, e3, ok_bind, e4, ok_bind,
    req_bind (show streamAddr snd salt = .streamData (.streamNftMint snd salt) from rfl), req_bind hstream, e5, ok_bind, e6, ok_bind]
  cases checkCreate dep st cl en su cu with
  | error e => rfl
  | ok u =>
    rw [ok_bind, ok_bind, e7, ok_bind]
    have hcount : nd.create = .ok { nd with totalSupply := nd.totalSupply + 1 } := by
      unfold NftCollectionData.create
      exact bind_ok.2 ⟨_, addU64_ok.2 ⟨by assumption, rfl⟩, rfl⟩
    rw [hcount, ok_bind]

end Solsab
