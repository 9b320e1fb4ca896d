import Verif.Proofs.CreateReady
import Verif.Proofs.NftSupply
import Verif.Proofs.Metadata
import Verif.Proofs.Settings
import Verif.Spec.Effects
import Verif.Props.Solvency
/-!
# C26–C32, C56: creating streams, the stream NFT, the collection
-/

namespace Solsab.Props

open Lockup Spec Demo

/-! ## C32: the NFT name -/

/-- **C32**: for every mint key the name is computed without a panic, is
`Sablier LL Stream #` + first five characters + `...` + last five characters of the base58 text, and has
exactly 32 characters (all ASCII). -/
theorem C32_name_fits (key : Bytes32) : ∃ name, nftName key = .ok name ∧ name.length = 32 ∧
    ∃ pre mid suf : List Char, Base58.encode key.val = pre ++ mid ++ suf ∧ pre.length = 5 ∧ suf.length = 5 ∧
      name = "Sablier LL Stream #".toList ++ pre ++ "...".toList ++ suf := by
  have h := (Base58.encode_length key).1
  obtain ⟨name, h1, h2⟩ := nftName_ok key
  refine ⟨name, h1, h2, (Base58.encode key.val).take 5,
    ((Base58.encode key.val).drop 5).take ((Base58.encode key.val).length - 10),
    (Base58.encode key.val).drop ((Base58.encode key.val).length - 5), ?_, ?_, ?_, ?_⟩
  · rw [List.append_assoc]
    conv_lhs => rw [← List.take_append_drop 5 (Base58.encode key.val)]
    congr 1
    conv_lhs => rw [← List.take_append_drop ((Base58.encode key.val).length - 10) ((Base58.encode key.val).drop 5)]
    congr 1
    rw [List.drop_drop]
    congr 1
    omega
  · rw [List.length_take]; omega
  · rw [List.length_drop]; omega
  · simp only [nftName, bind_ok, require_ok, subU64_ok] at h1
    obtain ⟨_, _, off, ⟨_, rfl⟩, h1⟩ := h1
    cases h1
    rfl

/-- The base58 text of every 32-byte key has 32 to 44 characters. -/
theorem C32_base58_length (key : Bytes32) :
    32 ≤ (Base58.encode key.val).length ∧ (Base58.encode key.val).length ≤ 44 := Base58.encode_length key

/-- **C32**: the text is the address: the base-58 numeral of the 32 bytes with one `1` per leading zero byte. -/
theorem C32_base58_text (key : Bytes32) : IsAddressText key (Base58.encode key.val) := addressText key

/-- **C32**: different addresses have different texts. -/
theorem C32_base58_injective {k k' : Bytes32} (h : Base58.encode k.val = Base58.encode k'.val) : k = k' :=
  addressText_inj (addressText k) (by rw [h]; exact addressText k')

/-- The system program's key (32 zero bytes) is 32 ones; the name takes the first and last five. -/
example : (nftName ⟨List.replicate 32 0, rfl⟩).toOption = some "Sablier LL Stream #11111...11111".toList := by
  decide

/-! ## C26: parameter validation -/

/-- **C26**: the parameter check accepts exactly the valid terms. -/
theorem C26_check (dep st cl en su cu : UInt64) :
    checkCreate dep.toNat st.toNat cl.toNat en.toNat su.toNat cu.toNat = .ok () ↔
      (0 < dep.toNat ∧ 0 < st.toNat ∧ st.toNat < en.toNat ∧
        ((cl.toNat = 0 ∧ cu.toNat = 0) ∨ (st.toNat < cl.toNat ∧ cl.toNat < en.toNat)) ∧
        su.toNat + cu.toNat ≤ dep.toNat) :=
  checkCreate_ok dep.toNat_lt

example : checkCreate 1000 2000 3000 6000 100 200 = .ok () := rfl

/-- **C26**: a stream can only be created with valid terms, ... -/
theorem C26_only_valid {rt : Runtime} {w w' : World} {c : CreateAccts} {salt : Fin (2 ^ 128)}
    {dep st cl en su cu : UInt64} {ca : Bool}
    (hs : step rt w (.lockup (.createWithTimestamps c salt dep st cl en su cu ca)) = .ok w') :
    ValidTerms ⟨cl.toNat, en.toNat, st.toNat⟩ ⟨su.toNat, cu.toNat, dep.toNat, 0, 0⟩ := by
  obtain ⟨_, _, _, _, _, _, _, _, _, _, _, _, h⟩ := create_ok hs
  exact (checkCreate_ok dep.toNat_lt).1 h.check

example := C26_only_valid (rt := rt) (w := after world0 setup)
  (step_after (ix := .lockup (.createWithTimestamps (createAccts 1) 1 1000 2000 3000 6000 100 200 true))
    (by decide +kernel))

/-- ... and with the right accounts, exactly the first violated condition is reported, in this order. -/
theorem C26_create_errors {rt : Runtime} {w : World} (hr : Reachable rt w) {c : CreateAccts} {salt : Fin (2 ^ 128)}
    {md : MintData} {nd : NftCollectionData} (hc : CreateReady rt w c salt.val md nd)
    (dep st cl en su cu : UInt64) (ca : Bool) :
    let res := step rt w (.lockup (.createWithTimestamps c salt dep st cl en su cu ca))
    ((∃ e, res = .error (.lockup e)) ↔
      ¬ ValidTerms ⟨cl.toNat, en.toNat, st.toNat⟩ ⟨su.toNat, cu.toNat, dep.toNat, 0, 0⟩) ∧
    (res = .error (.lockup .depositAmountZero) ↔ dep = 0) ∧
    (res = .error (.lockup .startTimeZero) ↔ dep ≠ 0 ∧ st = 0) ∧
    (res = .error (.lockup .startTimeNotLessThanEndTime) ↔ dep ≠ 0 ∧ st ≠ 0 ∧ en ≤ st) ∧
    (res = .error (.lockup .startTimeNotLessThanCliffTime) ↔
      dep ≠ 0 ∧ st ≠ 0 ∧ st < en ∧ cl ≠ 0 ∧ cl ≤ st) ∧
    (res = .error (.lockup .cliffTimeNotLessThanEndTime) ↔
      dep ≠ 0 ∧ st ≠ 0 ∧ st < en ∧ st < cl ∧ en ≤ cl) ∧
    (res = .error (.lockup .cliffTimeZeroUnlockAmountNotZero) ↔
      dep ≠ 0 ∧ st ≠ 0 ∧ st < en ∧ cl = 0 ∧ cu ≠ 0) ∧
    (res = .error (.lockup .unlockAmountsSumTooHigh) ↔
      dep ≠ 0 ∧ st ≠ 0 ∧ st < en ∧ ((cl = 0 ∧ cu = 0) ∨ (st < cl ∧ cl < en)) ∧
      dep.toNat < su.toNat + cu.toNat) := by
  intro res
  obtain ⟨w₁, _, _, _, he⟩ := CreateReady.split hr hc
    { salt := salt.val, depositAmount := dep.toNat, startTime := st.toNat, cliffTime := cl.toNat,
      endTime := en.toNat, startUnlockAmount := su.toNat, cliffUnlockAmount := cu.toNat,
      isCancelable := ca } rfl
  have hres : res = _ := he
  simp only at hres
  have hext : ∀ f : World → World, External (w₁.transferTokens c.creatorAta c.streamDataAta c.creator
      c.depositTokenMint c.depositTokenProgram dep.toNat md.decimals >>= fun w₂ => (pure (f w₂) : Res World)) := by
    intro f; external; exact transferTokens_external
  have hx := hext fun w₂ => (World.emit { w₂ with lk := { w₂.lk with
          streams := upd w₂.lk.streams c.streamData (some (StreamData.create c.depositTokenMint
            (rt.bump c.streamData) cl.toNat cu.toNat dep.toNat en.toNat salt.val
            ca c.sender st.toNat su.toNat))
          nftCollectionData := some { nd with totalSupply := nd.totalSupply + 1 } } }
          (.createLockupLinearStream md.decimals c.depositTokenMint c.recipient salt.val c.streamData
            c.streamNftMint))
  rw [hres]
  clear hres res he
  have hno := fun e (h : _ = Except.error (Err.lockup e)) => hx _ h
  clear hx hext
  generalize (w₁.transferTokens c.creatorAta c.streamDataAta c.creator
      c.depositTokenMint c.depositTokenProgram dep.toNat md.decimals >>= fun w₂ => (pure _ : Res World)) = r at *
  have hd := dep.toNat_lt
  rw [← UInt64.toNat_inj, ← UInt64.toNat_inj (a := st), ← UInt64.toNat_inj (a := cl), ← UInt64.toNat_inj (a := cu)]
  simp only [ne_eq, ← UInt64.toNat_inj, UInt64.le_iff_toNat_le, UInt64.lt_iff_toNat_lt, UInt64.toNat_zero]
  generalize dep.toNat = dep at *
  generalize st.toNat = st at *
  generalize cl.toNat = cl at *
  generalize en.toNat = en at *
  generalize su.toNat = su at *
  generalize cu.toNat = cu at *
  have key : ∀ e, (checkCreate dep st cl en su cu >>= fun _ => r) = .error (.lockup e) ↔
      checkCreate dep st cl en su cu = .error (.lockup e) := by
    intro e
    rw [bind_err]
    constructor
    · rintro (h | ⟨_, _, h⟩)
      · exact h
      · exact absurd h (hno e)
    · exact .inl
  obtain ⟨k1, k2, k3, k4, k5, k6, k7, k8⟩ := checkCreate_error dep st cl en su cu hd
  refine ⟨?_, (key _).trans k1, (key _).trans k2, (key _).trans k3, (key _).trans k4, (key _).trans k5,
    (key _).trans k6, (key _).trans k7⟩
  rw [← checkCreate_ok (u := ()) hd]
  simp only [key]
  cases hk : checkCreate dep st cl en su cu with
  | ok u => simp
  | error e =>
    obtain ⟨e', rfl⟩ := k8 e hk
    simp

theorem demoReady1 : CreateReady rt world1 (createAccts 7) 7 { plainMint with supply := 1000000 } ⟨2, 255⟩ := by
  constructor
  case creatorAta => exact ⟨⟨tok, Demo.mint, alice, 998300, false⟩, by decide +kernel, rfl⟩
  all_goals decide +kernel

example := C26_create_errors (salt := 7) reach1 demoReady1 1000 2000 2000 6000 100 200 true

/-- **C56**: with the right accounts, valid terms, enough of the token and no token-side obstacle, a create
succeeds. -/
theorem C56_create_succeeds {rt : Runtime} {w : World} (hr : Reachable rt w) {c : CreateAccts}
    {salt : Fin (2 ^ 128)} {md : MintData} {nd : NftCollectionData} (hc : CreateReady rt w c salt.val md nd)
    {dep st cl en su cu : UInt64} (ca : Bool)
    (hv : ValidTerms ⟨cl.toNat, en.toNat, st.toNat⟩ ⟨su.toNat, cu.toNat, dep.toNat, 0, 0⟩)
    {t : TokenData} (ht : w.bank.tokens c.creatorAta = some t) (hbal : dep.toNat ≤ t.amount)
    (hfr : t.frozen = false) (hgd : (w.settings c.creatorAta).cpiGuard = false) (hbl : md.transferBlocked = false)
    (hsf : md.startsFrozen = false) :
    ∃ w', step rt w (.lockup (.createWithTimestamps c salt dep st cl en su cu ca)) = .ok w' := by
  obtain ⟨w₁, hb₁, _, hst, he⟩ := CreateReady.split hr hc
    { salt := salt.val, depositAmount := dep.toNat, startTime := st.toNat, cliffTime := cl.toNat,
      endTime := en.toNat, startUnlockAmount := su.toNat, cliffUnlockAmount := cu.toNat,
      isCancelable := ca } rfl
  simp only at he
  show ∃ w', createWithTimestamps rt w c _ = .ok w'
  rw [he, (checkCreate_ok (u := ()) dep.toNat_lt).2 hv, ok_bind]
  have hb := hr.bankInv
  obtain ⟨t', ht', ho⟩ := hc.creatorAta
  rw [ht] at ht'; cases ht'
  have hsign := hc.signer
  have hne1 : c.creatorAta ≠ c.recipientStreamNftAta := by
    intro h
    have hm := hc.mint
    rw [hc.a1, hc.a6] at h
    injection h with _ _ h
    have := hc.unused
    rw [h] at hm
    rw [streamExists, hm] at this
    cases this
  have hne2 : c.creatorAta ≠ c.streamDataAta := by
    intro h
    rw [hc.a1, hc.a8] at h
    injection h with h _ _
    rw [h] at hsign; cases hsign
  have hne3 : c.streamDataAta ≠ c.recipientStreamNftAta := by
    intro h
    have hm := hc.mint
    rw [hc.a8, hc.a6] at h
    injection h with _ _ h
    have := hc.unused
    rw [h] at hm
    rw [streamExists, hm] at this
    cases this
  have hne4 : c.depositTokenMint ≠ c.streamNftMint := by
    intro h
    have hm := hc.mint
    have := hc.unused
    rw [h, hc.a5] at hm
    rw [streamExists, hm] at this
    cases this
  have htk := ata_token hb (hc.a1 ▸ ht)
  have s1 : w₁.bank.tokens c.creatorAta = some t := by
    rw [hb₁]; simp only [createBank, setToken_tokens, setMint_tokens]
    rw [upd_ne _ _ hne1, upd_ne _ _ hne2]; exact ht
  have s2 : w₁.bank.tokens c.streamDataAta =
      some ⟨c.depositTokenProgram, c.depositTokenMint, c.streamData, 0, md.startsFrozen⟩ := by
    rw [hb₁]; simp only [createBank, setToken_tokens, setMint_tokens]
    rw [upd_ne _ _ hne3, upd_same]
  have s3 : w₁.bank.mints c.depositTokenMint = some md := by
    rw [hb₁]; simp only [createBank, setToken_mints, setMint_mints]
    rw [upd_ne _ _ hne4]; exact hc.mint
  refine bind_succeeds (a := { w₁ with bank := w₁.bank.move c.creatorAta c.streamDataAta t (TokenData.mk
    c.depositTokenProgram c.depositTokenMint c.streamData 0 md.startsFrozen) dep.toNat (md.fee dep.toNat) }) ?_ ⟨_, rfl⟩
  refine transferTokens_iff.2 ⟨⟨by rw [hst]; exact hgd, by rw [hst, hr.noSettings hc.vaultUnused]; rfl⟩, ?_⟩
  unfold Bank.transferChecked Bank.transferCore
  refine ⟨_, bind_ok.2 ⟨t, fetch_ok.2 s1, bind_ok.2 ⟨md, fetch_ok.2 s3, bind_ok.2 ⟨(), require_ok.2 ho,
    bind_ok.2 ⟨(), require_ok.2 rfl, bind_ok.2 ⟨t, fetch_ok.2 s1, bind_ok.2 ⟨_, fetch_ok.2 s2,
    bind_ok.2 ⟨md, fetch_ok.2 s3, bind_ok.2 ⟨(), require_ok.2 ⟨htk.1.trans hc.a4.symm, rfl, hc.a4.symm⟩,
    bind_ok.2 ⟨(), require_ok.2 ⟨htk.2, rfl⟩, bind_ok.2 ⟨(), require_ok.2 ⟨hfr, hsf⟩,
    bind_ok.2 ⟨(), require_ok.2 hbl, bind_ok.2 ⟨(), require_ok.2 hbal, ?_⟩⟩⟩⟩⟩⟩⟩⟩⟩⟩⟩⟩, rfl⟩
  rw [if_neg hne2]
  exact bind_ok.2 ⟨(), require_ok.2 (by have := dep.toNat_lt; simp only; omega), rfl⟩

example := C56_create_succeeds (salt := 7) (dep := 1000) (st := 2000) (cl := 0) (en := 6000) (su := 100) (cu := 0)
  reach1 demoReady1 true (by unfold ValidTerms; decide) (t := ⟨tok, Demo.mint, alice, 998300, false⟩) (by decide +kernel) (by decide) rfl rfl rfl rfl

/-! ## C27: what a create does -/

/-- The ledger before the deposit transfer of a successful create. -/
theorem CreateOk.bank_eq {rt w c p w' nd dm md cm k name b₁ b₂ b₃ b₄ b₆ l}
    (h : CreateOk rt w c p w' nd dm md cm k name b₁ b₂ b₃ b₄ b₆ l) :
    c.streamDataAta ≠ c.recipientStreamNftAta ∧ w.bank.tokens c.streamDataAta = none ∧
    w.bank.mints c.streamNftMint = none ∧ c.depositTokenMint ≠ c.streamNftMint ∧
    lockAuthority b₄ c.streamNftMint md = createBank dm.startsFrozen w.bank c := by
  obtain ⟨hn, _, rfl⟩ := openMint_ok h.openMint
  obtain ⟨_, hr0, _, rfl⟩ := openAccount_ok h.openNftAta
  obtain ⟨_, hv0, _, rfl⟩ := openAccount_ok h.openVault
  obtain ⟨m0, tt, e1, e2, _, _, _, _, _, _, rfl⟩ := mintTo_ok h.mintTo
  have hdne : c.depositTokenMint ≠ c.streamNftMint := by
    intro he; have := h.mint; rw [he, hn] at this; cases this
  have hne : c.streamDataAta ≠ c.recipientStreamNftAta := by
    rw [h.vaultAddr, h.nftAtaAddr]
    intro he; injection he with _ _ he; exact hdne he
  refine ⟨hne, ?_, hn, hdne, ?_⟩
  · rw [setToken_tokens, upd_ne _ _ hne] at hv0; exact hv0
  have hm := h.nftMint
  simp only [setToken_mints, setMint_mints, upd_same, Option.some.injEq] at hm e1
  rw [setToken_tokens, upd_ne _ _ (Ne.symm hne), setToken_tokens, upd_same] at e2
  cases e2
  subst e1 hm
  have hf1 : (w.bank.setMint c.streamNftMint (some (freshNftMint c.nftTokenProgram))).opensFrozen c.streamNftMint = false :=
    Bank.opensFrozen_some (md := freshNftMint c.nftTokenProgram) (by simp)
  rw [hf1]
  have hf2 : ((w.bank.setMint c.streamNftMint (some (freshNftMint c.nftTokenProgram))).setToken c.recipientStreamNftAta
      (some ⟨c.nftTokenProgram, c.streamNftMint, c.recipient, 0, false⟩)).opensFrozen c.depositTokenMint = dm.startsFrozen :=
    Bank.opensFrozen_some (by rw [setToken_mints, setMint_mints, upd_ne _ _ hdne]; exact h.mint)
  rw [hf2]
  simp only [lockAuthority, createBank, Bank.setMint, Bank.setToken]
  congr 1
  · funext z; simp only [upd_apply]; split <;> rfl
  · funext z; simp only [upd_apply]; split <;> rfl

theorem CreateOk.effect {rt w c p w' nd dm md cm k name b₁ b₂ b₃ b₄ b₆ l} (hb : BankInv w.bank)
    (h : CreateOk rt w c p w' nd dm md cm k name b₁ b₂ b₃ b₄ b₆ l) :
    CreateEffect rt w w' c p.salt p.depositAmount p.startTime p.cliffTime p.endTime p.startUnlockAmount
      p.cliffUnlockAmount p.isCancelable dm nd := by
  obtain ⟨hne, hv0, hm0, hdne, hbank⟩ := CreateOk.bank_eq h
  obtain ⟨tf, tt, md₂, hf, ho, _⟩ := transferChecked_ok h.transfer
  rw [hbank] at hf
  have hmd : md₂ = dm := by
    have := hf.mint
    simp only [createBank, setToken_mints, setMint_mints] at this
    rw [upd_ne _ _ hdne, h.mint] at this
    exact (Option.some.inj this).symm
  subst hmd
  have hcne1 : c.creatorAta ≠ c.recipientStreamNftAta := by
    rw [h.creatorAtaAddr, h.nftAtaAddr]
    intro he; injection he with _ _ he; exact hdne he
  have hcne2 : c.creatorAta ≠ c.streamDataAta := by
    rw [h.creatorAtaAddr, h.vaultAddr]
    intro he; injection he with he _ _
    have := h.signs
    rw [he, h.streamAddr] at this; cases this
  have hsrc := hf.src
  simp only [createBank, setToken_tokens, setMint_tokens] at hsrc
  rw [upd_ne _ _ hcne1, upd_ne _ _ hcne2] at hsrc
  have hdst := hf.dst
  simp only [createBank, setToken_tokens, setMint_tokens] at hdst
  rw [upd_ne _ _ hne, upd_same] at hdst
  have hdst := (Option.some.inj hdst).symm
  subst hdst
  have hsf : md₂.startsFrozen = false := hf.thawed.2
  rcases hf.result with ⟨he, _⟩ | ⟨_, _, hres⟩
  · exact absurd he hcne2
  have hw'b : w'.bank = b₆ := by rw [h.result]
  have htok : ∀ a, w'.bank.tokens a = if a = c.streamDataAta then
        some ⟨c.depositTokenProgram, c.depositTokenMint, c.streamData,
          0 + (p.depositAmount - md₂.fee p.depositAmount), md₂.startsFrozen⟩
      else if a = c.creatorAta then some { tf with amount := tf.amount - p.depositAmount }
      else (createBank md₂.startsFrozen w.bank c).tokens a := by
    intro a; rw [hw'b, hres]; rfl
  have hmints : w'.bank.mints = (createBank md₂.startsFrozen w.bank c).mints := by rw [hw'b, hres]; rfl
  obtain ⟨cr, cra, rec, snd, cdt, cmt, dmt, snm, rna, sdt, sda, dtp, ntp⟩ := c
  have q1 := h.creatorAtaAddr; have q2 := h.nftMintAddr; have q3 := h.nftAtaAddr
  have q4 := h.streamAddr; have q5 := h.vaultAddr; have q6 := h.program
  simp only at q1 q2 q3 q4 q5 q6
  subst q2 q4
  subst q3
  subst q6
  subst q1 q5
  simp only at *
  refine
    { mint := h.mint, opensThawed := hsf, collection := h.collectionData, signed := h.signs, fresh := h.fresh
      streams := by rw [h.result]; rfl
      paid := ⟨tf, hsrc, ho, hf.funds, by rw [htok, if_neg hcne2, if_pos rfl]⟩
      vaultFresh := hv0
      vault := by
        show w'.bank.tokens (.ata (.streamData (.streamNftMint snd p.salt)) _ _) = _
        rw [htok, if_pos rfl, Nat.zero_add, hsf]; rfl
      nftFresh := hm0
      nft := by
        rw [hmints]
        exact ⟨_, by simp only [createBank, setToken_mints, setMint_mints, upd_same]; rfl, rfl, rfl, rfl⟩
      nftHeld := by
        rw [htok, if_neg (Ne.symm hne), if_neg (Ne.symm hcne1)]
        simp [createBank]
      nftMeta := ?_
      tokens := ?_
      mints := ?_
      metas := ?_
      treasury := by rw [h.result]
      merkle := by rw [h.result]
      clock := by rw [h.result]
      counter := by rw [h.result]
      lamports := by rw [h.result]; exact h.lam
      log := by rw [h.result]; rfl }
  · refine ⟨_, name, addressText _, nftName_spec h.nftName, ?_⟩
    rw [h.result]; simp only
    rw [upd_ne _ _ (by simp), upd_same]; rfl
  · intro a h1 h2 h3
    simp only [streamAddr] at h1 h2 h3
    rw [htok, if_neg h2, if_neg h1]
    simp only [createBank, setToken_tokens, setMint_tokens]
    rw [upd_ne _ _ h3, upd_ne _ _ h2]
  · intro m hm
    rw [hmints]
    simp only [createBank, setToken_mints, setMint_mints]
    rw [upd_ne _ _ hm]
  · intro m h1 h2
    rw [h.result]; simp only
    rw [upd_ne _ _ h2, upd_ne _ _ h1, upd_ne _ _ h1]

/-- **C27**: the full effect of a successful `create_with_timestamps_ll`. -/
theorem C27_create_effect {rt : Runtime} {w w' : World} (hr : Reachable rt w) {c : CreateAccts}
    {salt : Fin (2 ^ 128)} {dep st cl en su cu : UInt64} {ca : Bool}
    (hs : step rt w (.lockup (.createWithTimestamps c salt dep st cl en su cu ca)) = .ok w') :
    ∃ md nd, CreateEffect rt w w' c salt.val dep.toNat st.toNat cl.toNat en.toNat su.toNat cu.toNat ca md nd := by
  obtain ⟨nd, dm, _, _, _, _, _, _, _, _, _, _, h⟩ := create_ok hs
  exact ⟨dm, nd, CreateOk.effect hr.bankInv h⟩

example := C27_create_effect reachF0 (step_after (ix := ixFeeCreate) (by decide +kernel))

/-! ## C28: durations -/

/-- **C28**: with durations whose sums with the current time fit 64 bits, the durations variant is the
timestamps variant with start = now, end = now + total, cliff = now + cliff duration (0 if that is 0);
otherwise it panics (the transaction fails). -/
theorem C28_durations {rt : Runtime} {w : World} (c : CreateAccts) (salt : Fin (2 ^ 128))
    (dep cd td su cu : UInt64) (ca : Bool) :
    step rt w (.lockup (.createWithDurations c salt dep cd td su cu ca)) =
      if w.now + td.toNat < 2 ^ 64 ∧ (cd ≠ 0 → w.now + cd.toNat < 2 ^ 64) then
        step rt w (.lockup (.createWithTimestamps c salt dep (UInt64.ofNat w.now)
          (if cd = 0 then 0 else UInt64.ofNat (w.now + cd.toNat)) (UInt64.ofNat (w.now + td.toNat)) su cu ca))
      else .error .panic := by
  have hn := now_lt w
  show createWithDurations rt w c _ = if _ then createWithTimestamps rt w c _ else _
  have ofn : ∀ {x : Nat}, x < 2 ^ 64 → (UInt64.ofNat x).toNat = x := by
    intro x hx; rw [UInt64.toNat_ofNat']; exact Nat.mod_eq_of_lt hx
  by_cases hc : cd = 0
  · subst hc
    by_cases ht : w.now + td.toNat < 2 ^ 64
    · have hP : w.now + td.toNat < 2 ^ 64 ∧ ((0 : UInt64) ≠ 0 → w.now + (0 : UInt64).toNat < 2 ^ 64) :=
        ⟨ht, fun h => absurd rfl h⟩
      rw [if_pos hP]
      unfold createWithDurations
      simp only [UInt64.toNat_zero, gt_iff_lt, Nat.lt_irrefl, if_false, if_true, ok_bind, addU64, if_pos ht, ofn hn, ofn ht]
    · have hP : ¬(w.now + td.toNat < 2 ^ 64 ∧ ((0 : UInt64) ≠ 0 → w.now + (0 : UInt64).toNat < 2 ^ 64)) :=
        fun h => ht h.1
      rw [if_neg hP]
      unfold createWithDurations
      simp only [UInt64.toNat_zero, gt_iff_lt, Nat.lt_irrefl, if_false, ok_bind, addU64, if_neg ht]
      rfl
  · have hc' : 0 < cd.toNat := by
      rcases Nat.eq_zero_or_pos cd.toNat with h | h
      · exact absurd (UInt64.toNat_inj.1 (by simpa using h)) hc
      · exact h
    by_cases ht : w.now + td.toNat < 2 ^ 64
    · by_cases hcl : w.now + cd.toNat < 2 ^ 64
      · have hP : w.now + td.toNat < 2 ^ 64 ∧ (cd ≠ 0 → w.now + cd.toNat < 2 ^ 64) := ⟨ht, fun _ => hcl⟩
        rw [if_pos hP]
        unfold createWithDurations
        simp only [gt_iff_lt, hc', if_true, addU64, if_pos ht, if_pos hcl, ok_bind, if_neg hc, ofn hn, ofn ht, ofn hcl]
      · have hP : ¬(w.now + td.toNat < 2 ^ 64 ∧ (cd ≠ 0 → w.now + cd.toNat < 2 ^ 64)) := fun h => hcl (h.2 hc)
        rw [if_neg hP]
        unfold createWithDurations
        simp only [gt_iff_lt, hc', if_true, addU64, if_neg hcl]
        rfl
    · have hP : ¬(w.now + td.toNat < 2 ^ 64 ∧ (cd ≠ 0 → w.now + cd.toNat < 2 ^ 64)) := fun h => ht h.1
      rw [if_neg hP]
      unfold createWithDurations
      simp only [gt_iff_lt, hc', if_true, addU64, if_neg ht]
      split <;> rfl

example : World.now (after world0 setup) + (9000 : UInt64).toNat < 2 ^ 64 ∧
    ((3000 : UInt64) ≠ 0 → World.now (after world0 setup) + (3000 : UInt64).toNat < 2 ^ 64) := by decide +kernel

/-! ## C29: one stream per (sender, salt) -/

/-- **C29**: in every history a `(sender, salt)` pair is used at most once, and `stream_exists` is true
exactly when the creation event of that pair is in the history. -/
theorem C29_unique {rt : Runtime} {w : World} (hr : Reachable rt w) (s : Addr) (n : Nat) :
    total (creationOf s n) w.log ≤ 1 ∧ (streamExists w s n = true ↔ total (creationOf s n) w.log = 1) := by
  have h := hr.streamsOK (streamAddr s n)
  have hm := hr.nftMintsOK s n
  unfold streamExists
  rw [hm]
  cases hs : w.lk.streams (.streamData (.streamNftMint s n)) with
  | none =>
    rw [show streamAddr s n = .streamData (.streamNftMint s n) from rfl, hs] at h
    have := h.2.2.2 s n rfl
    rw [this]; simp
  | some sd =>
    have hok := hr.streamOK hs
    have h1 := hok.addr
    have h2 := hok.logN
    unfold streamAddr at h1
    injection h1 with h1
    injection h1 with h3 h4
    rw [← h3, ← h4] at h2
    rw [h2]; simp

example := C29_unique reach8 alice 1

/-- **C29**: once true, `stream_exists` stays true. -/
theorem C29_exists_forever {rt : Runtime} {w w' : World} (hr : Reachable rt w) (hs : Steps rt w w') {s : Addr}
    {n : Nat} (he : streamExists w s n = true) : streamExists w' s n = true := hs.exists hr he

example := C29_exists_forever reach1 steps12 (s := alice) (n := 2) (by decide +kernel)

/-- **C29**: a second creation for the same pair fails, with whatever accounts and terms, in either variant. -/
theorem C29_no_second {rt : Runtime} {w : World} {c : CreateAccts} {salt : Fin (2 ^ 128)}
    (he : streamExists w c.sender salt.val = true) (dep a b d su cu : UInt64) (ca : Bool) :
    (∃ e, step rt w (.lockup (.createWithTimestamps c salt dep a b d su cu ca)) = .error e) ∧
    (∃ e, step rt w (.lockup (.createWithDurations c salt dep a b su cu ca)) = .error e) := by
  have key : ∀ p : CreateParams, p.salt = salt.val → ∀ w', createWithTimestamps rt w c p ≠ .ok w' := by
    intro p hp w' h
    obtain ⟨_, _, _, _, _, _, _, _, _, _, _, _, h⟩ := create_ok h
    obtain ⟨hn, _, _⟩ := openMint_ok h.openMint
    rw [h.nftMintAddr, hp] at hn
    rw [streamExists, hn] at he; cases he
  constructor
  · cases h : step rt w (.lockup (.createWithTimestamps c salt dep a b d su cu ca)) with
    | error e => exact ⟨e, rfl⟩
    | ok w' => exact absurd h (key _ rfl w')
  · cases h : step rt w (.lockup (.createWithDurations c salt dep a b su cu ca)) with
    | error e => exact ⟨e, rfl⟩
    | ok w' =>
      obtain ⟨_, _, h⟩ := createWithDurations_eq h
      exact absurd h (key _ rfl w')

example := C29_no_second (rt := rt) (w := world1) (c := createAccts 1) (salt := 1) (by decide +kernel) 5 6 7 8 0 0 false

/-! ## C30: the stream NFT is unique -/

/-- **C30**: a token account that holds any of a stream NFT holds exactly 1, the supply is then exactly 1,
and no other token account in the whole ledger holds any. -/
theorem C30_unique_holder {rt : Runtime} {w : World} (hr : Reachable rt w) {s : Addr} {n : Nat} {a : Addr}
    {t : TokenData} (ha : w.bank.tokens a = some t) (hm : t.mint = .streamNftMint s n) (hp : 0 < t.amount) :
    t.amount = 1 ∧ (∃ md, w.bank.mints (.streamNftMint s n) = some md ∧ md.supply = 1) ∧
    ∀ a' t', w.bank.tokens a' = some t' → t'.mint = .streamNftMint s n → 0 < t'.amount → a' = a := by
  have hb := hr.bankInv
  obtain ⟨md, h1, _⟩ := hb.tok_mint a t ha
  rw [hm] at h1
  obtain ⟨_, hsup, _⟩ := hb.nft _ _ rfl h1
  obtain ⟨_, hsum⟩ := hb.supply _ _ h1
  have hs1 := hsum.single a
  rw [bal_of_token ha, if_pos hm] at hs1
  refine ⟨by omega, ⟨md, h1, by omega⟩, ?_⟩
  intro a' t' ha' hm' hp'
  by_contra hne
  have := hsum.pair hne
  rw [bal_of_token ha, bal_of_token ha', if_pos hm, if_pos hm'] at this
  omega

example := C30_unique_holder reach3 (s := alice) (n := 1) (a := .ata bob tok (nft 1))
  (t := ⟨tok, nft 1, bob, 1, false⟩) (by decide +kernel) (by decide +kernel) (by decide +kernel)

/-- **C30**: after creation the supply of the stream NFT never grows (so a burned NFT never comes back). -/
theorem C30_supply {rt : Runtime} {w w' : World} (hr : Reachable rt w) (hs : Steps rt w w') {s : Addr} {n : Nat}
    {md : MintData} (hm : w.bank.mints (.streamNftMint s n) = some md) :
    md.supply ≤ 1 ∧ ∃ md', w'.bank.mints (.streamNftMint s n) = some md' ∧ md'.supply ≤ md.supply :=
  ⟨(hr.bankInv.nft _ _ rfl hm).2.1, Steps.nft_supply hr hs md hm⟩

example : ((world1.bank.mints (nft 1)).map (·.supply)) = some 1 := by decide +kernel

/-- **C30**: two withdrawals that could both succeed in the same state name the same stream recipient. -/
theorem C30_one_recipient {rt : Runtime} {w w₁ w₂ : World} (hr : Reachable rt w) {ix₁ ix₂ : Ix}
    {c₁ c₂ : WithdrawAccts} (h1 : ix₁.withdrawAccts = some c₁) (h2 : ix₂.withdrawAccts = some c₂)
    (hs : c₁.streamData = c₂.streamData) (e1 : step rt w ix₁ = .ok w₁) (e2 : step rt w ix₂ = .ok w₂) :
    c₁.streamRecipient = c₂.streamRecipient := by
  obtain ⟨_, g1⟩ := withdrawIx hr h1 e1
  obtain ⟨_, _, _, _, _, _, k1⟩ := withdraw_ok g1
  obtain ⟨_, g2⟩ := withdrawIx hr h2 e2
  obtain ⟨_, _, _, _, _, _, k2⟩ := withdraw_ok g2
  obtain ⟨t1, a1, b1, d1, f1⟩ := k1.accts.nft
  obtain ⟨t2, a2, b2, d2, f2⟩ := k2.accts.nft
  have hm : c₁.streamNftMint = c₂.streamNftMint := by
    have := k1.accts.streamAddr; rw [hs, k2.accts.streamAddr] at this; injection this with this; exact this.symm
  have hx := k1.accts.streamAddr
  have hok := (hr.streamOK k1.accts.stream).addr
  rw [hx] at hok
  injection hok with hok
  have q1 := (ata_token hr.bankInv (k1.accts.nftAddr ▸ a1)).2
  have q2 := (ata_token hr.bankInv (k2.accts.nftAddr ▸ a2)).2
  have hq := (C30_unique_holder hr a1 (q1.trans hok) (by omega)).2.2 _ _ a2 (by rw [q2, ← hm, hok]) (by omega)
  rw [hq, a1] at a2; cases a2
  rw [← b1, ← b2]

example := C30_one_recipient reach3 (ix₁ := .lockup (.withdraw (withdrawAccts bob 1) 5))
  (ix₂ := .lockup (.withdrawMax (withdrawAccts carol 1))) rfl rfl rfl (step_after (by decide +kernel))
  (step_after (by decide +kernel))

/-! ## C31: the collection -/

/-- **C31**: the stored `total_supply` is the number of streams ever created; the verified size of the
Metaplex collection is the number of streams whose NFT has not been burned through Metaplex. -/
theorem C31_counter {rt : Runtime} {w : World} (hr : Reachable rt w) {nd : NftCollectionData}
    (hn : w.lk.nftCollectionData = some nd) :
    nd.totalSupply = total creation w.log ∧
    ∃ cm, w.metas .nftCollectionMint = some cm ∧ cm.collectionSize = some (total (liveNft w.metas) w.log) := by
  obtain ⟨_, h1, _, _, _, h2⟩ := hr.collOK.present nd hn
  exact ⟨h1, _, h2, rfl⟩

example := C31_counter reach8 (nd := ⟨2, 255⟩) (by decide +kernel)
example : total creation world8.log = 2 := by decide +kernel

end Solsab.Props
