import Verif.Props.Create
import Verif.Props.Withdraw
import Verif.Props.Cancel
import Verif.Props.Campaign
import Verif.Proofs.Classic
import Verif.Proofs.ConfigInv
import Verif.Spec.Classic
/-!
# C78 — nobody can stop the payouts of a classic, unfreezable token
-/

namespace Solsab.Props

open Solsab Spec Lockup Merkle Demo

theorem _root_.Solsab.Reachable.collection_treasury {rt : Runtime} {w : World} (h : Reachable rt w) :
    ∀ nd, w.lk.nftCollectionData = some nd → ∃ tr, w.lk.treasury = some tr := by
  refine h.induct (P := fun w => ∀ nd, w.lk.nftCollectionData = some nd → ∃ tr, w.lk.treasury = some tr) ?_ ?_
  · intro w hg nd hn; rw [hg.no_collection] at hn; cases hn
  · intro w ix w' _ ih hd nd hn
    cases hd with
    | init hix h => exact ⟨_, by rw [h.result]⟩
    | create _ _ h => rw [h.result]; exact ih _ h.collectionData
    | withdraw _ h => rw [h.result] at hn ⊢; exact ih nd hn
    | cancel _ h => rw [h.result] at hn ⊢; exact ih nd hn
    | renounce _ h => rw [h.result] at hn ⊢; exact ih nd hn
    | collect _ _ h => rw [h.result] at hn ⊢; exact ih nd hn
    | miInit _ _ _ _ h => rw [h] at hn ⊢; exact ih nd hn
    | campaign _ _ h => rw [h.result] at hn ⊢; exact ih nd hn
    | claim _ h => rw [h.result] at hn ⊢; exact ih nd hn
    | clawback _ h => rw [h.result] at hn ⊢; exact ih nd hn
    | miCollect _ _ h => rw [h.result] at hn ⊢; exact ih nd hn
    | env i hix h => rw [(env_ok h).lk] at hn ⊢; exact ih nd hn

/-- The facts about a stream in an unblockable token that last from its creation on. -/
structure Unblocked (rt : Runtime) (w : World) (s : Addr) (n : Nat) (m : Addr) : Prop where
  stream : ∃ sd, w.lk.streams (streamAddr s n) = some sd ∧ sd.depositedTokenMint = m
  treasury : ∃ tr, w.lk.treasury = some tr
  mint : ∃ md, w.bank.mints m = some md ∧ md.program = .token ∧ md.Plain ∧ md.transferBlocked = false ∧ md.startsFrozen = false
  thawed : ∀ t, w.bank.tokens (.ata (streamAddr s n) .token m) = some t → t.frozen = false

theorem noFreeze_of {rt : Runtime} {w : World} (hr : Reachable rt w) {m : Addr} {md : MintData}
    (hm : w.bank.mints m = some md) (hf : md.freezeAuthority = none) : NoFreeze w.bank m := by
  refine ⟨?_, md, hm, hf⟩
  cases hn : m.isNftMint with
  | false => rfl
  | true =>
    obtain ⟨_, _, _, ⟨x, h, _⟩, _⟩ := hr.bankInv.nft m md hn hm
    rw [hf] at h; cases h

theorem Steps.mintKept {rt : Runtime} {w w' : World} (hs : Steps rt w w') {m : Addr} {md : MintData}
    (hm : w.bank.mints m = some md) : ∃ md', w'.bank.mints m = some md' ∧ MintKept md md' := by
  induction hs with
  | refl => exact ⟨md, hm, .refl _⟩
  | tail ix _ h ih =>
    obtain ⟨m₁, h1, h2⟩ := ih
    obtain ⟨m₂, h3, h4⟩ := (step_did h).mint h1
    exact ⟨m₂, h3, h2.trans h4⟩

/-- Mint facts of an unblockable token. -/
theorem classic_later {rt : Runtime} {w₁ w : World} (hr : Reachable rt w₁) (hs : Steps rt w₁ w) {m : Addr}
    (hu : UnblockableToken w₁ m) :
    ∃ md, w.bank.mints m = some md ∧ md.program = .token ∧ md.Plain ∧ md.transferBlocked = false ∧ md.startsFrozen = false := by
  obtain ⟨md, hm, hp, _⟩ := hu
  obtain ⟨md', hm', hk⟩ := Steps.mintKept hs hm
  have hp' : md'.program = .token := by rw [hk.1, hp]
  obtain ⟨h1, h2⟩ := (hr.steps hs).extensions m md' hm' hp'
  exact ⟨md', hm', hp', h1, h2⟩

theorem unblocked_of {rt : Runtime} {w₀ w₁ w : World} (hr : Reachable rt w₀) {ix : Ix} (hc : step rt w₀ ix = .ok w₁)
    {s : Addr} {n : Nat} {sd : StreamData} (h0 : streamExists w₀ s n = false)
    (h1 : w₁.lk.streams (streamAddr s n) = some sd) (hu : UnblockableToken w₁ sd.depositedTokenMint)
    (hs : Steps rt w₁ w) : Unblocked rt w s n sd.depositedTokenMint := by
  have hr₁ := hr.step hc
  have hn : w₀.lk.streams (streamAddr s n) = none := by
    cases h : w₀.lk.streams (streamAddr s n) with
    | none => rfl
    | some sd => rw [hr.exists_iff.mpr ⟨sd, h⟩] at h0; cases h0
  have hd := step_did hc
  rcases hd.stream (streamAddr s n) with h | ⟨c, p, nd, dm, md, cm, k, name, b₁, b₂, b₃, b₄, b₆, l, hx, hix, hp, h⟩ | h | h | h
  · rw [h.1.1, hn] at h1; cases h1
  · have he := CreateOk.effect hr.bankInv h
    have hsn : streamAddr c.sender p.salt = streamAddr s n := by
      rw [← hx, h.streamAddr, h.nftMintAddr]; rfl
    rw [he.streams, hsn] at h1
    simp only [upd_same, Option.some.injEq] at h1
    have hm : sd.depositedTokenMint = c.depositTokenMint := by rw [← h1]
    obtain ⟨tr, htr⟩ := hr.collection_treasury _ he.collection
    have htr₁ : w₁.lk.treasury = some tr := by rw [he.treasury]; exact htr
    have hu' := hu
    obtain ⟨md₁, hm₁, hp₁, hf₁⟩ := hu
    have hnf := noFreeze_of hr₁ hm₁ hf₁
    have hmp : dm.program = .token := by
      obtain ⟨md', k1, k2⟩ := hd.mint he.mint
      rw [← hm, hm₁] at k1; cases k1
      rw [← k2.1]; exact hp₁
    have hv := he.vault
    rw [hsn, hmp] at hv
    rw [hm] at hnf
    obtain ⟨_, t', ht', _, htf⟩ := hs.frozen hv rfl hnf rfl
    obtain ⟨sd', hx', hl⟩ := hs.stream hr₁ (x := streamAddr s n) (sd := sd) (by
      rw [he.streams, hsn]; simp only [upd_same, h1])
    refine ⟨⟨sd', hx', ?_⟩, ⟨tr, hs.lkTreasury htr₁⟩, classic_later hr₁ hs hu', ?_⟩
    · exact hl.terms.mint
    · rw [hm]; intro t ht; rw [ht'] at ht; cases ht; exact htf
  · obtain ⟨_, _, _, _, _, _, _, _, hx, _, h⟩ := h
    have := h.accts.stream; rw [hx, hn] at this; cases this
  · obtain ⟨_, _, _, _, _, _, _, hx, _, h⟩ := h
    have := h.accts.stream; rw [hx, hn] at this; cases this
  · obtain ⟨_, _, _, hx, _, h⟩ := h
    have := h.stream; rw [hx, hn] at this; cases this

/-- A stream in an unblockable token, created by some instruction; later, whatever has happened in between, the stream
NFT sits in the associated account of `holder`.  Then *any* signer who can pay for a missing token account can make the
stream pay any positive amount up to the withdrawable amount to the holder, and the holder can direct it anywhere:
the instruction succeeds and the destination account grows by exactly that amount. -/
theorem C78_withdraw {rt : Runtime} {w₀ w₁ w : World} (hr : Reachable rt w₀) {ix : Ix} (hc : step rt w₀ ix = .ok w₁)
    {s : Addr} {n : Nat} {sd : StreamData} (h0 : streamExists w₀ s n = false)
    (h1 : w₁.lk.streams (streamAddr s n) = some sd) (hu : UnblockableToken w₁ sd.depositedTokenMint)
    (hs : Steps rt w₁ w)
    {holder signer dest : Addr} {np : TokenProgram} {t : TokenData}
    (hnft : w.bank.tokens (.ata holder np (.streamNftMint s n)) = some t) (ho : t.owner = holder) (ha : t.amount = 1)
    (hsig : signer.canSign = true) (hdest : dest = holder ∨ signer = holder)
    (hrec : CanReceive rt w signer dest sd.depositedTokenMint)
    {x : Nat} (hx : withdrawableAmountOf rt w (viewOf s n) = .ok x) {amount : UInt64} (hpos : 0 < amount.toNat)
    (hle : amount.toNat ≤ x) :
    ∃ c w', step rt w (.lockup (.withdraw c amount)) = .ok w' ∧ c.signer = signer ∧ c.streamData = streamAddr s n ∧
      (dest ≠ streamAddr s n →
        w'.bank.balance (.ata dest .token sd.depositedTokenMint) =
          w.bank.balance (.ata dest .token sd.depositedTokenMint) + amount.toNat) := by
  obtain ⟨⟨sd', hsd', hm'⟩, ⟨tr, htr⟩, ⟨md, hmd, hprog, hplain, hub⟩, hth⟩ := unblocked_of hr hc h0 h1 hu hs
  have hrw := (hr.step hc).steps hs
  let c : WithdrawAccts :=
    { signer := signer, streamRecipient := holder, withdrawalRecipient := dest
      withdrawalRecipientAta := .ata dest .token sd.depositedTokenMint
      treasury := .treasury .lockup, depositedTokenMint := sd.depositedTokenMint
      recipientStreamNftAta := .ata holder np (.streamNftMint s n)
      streamData := streamAddr s n, streamDataAta := .ata (streamAddr s n) .token sd.depositedTokenMint
      streamNftMint := .streamNftMint s n
      chainlinkProgram := tr.chainlinkProgram, chainlinkSolUsdFeed := tr.chainlinkSolUsdFeed
      depositedTokenProgram := .token, nftTokenProgram := np }
  have hready : WithdrawReady rt w c s n sd' md :=
    { stream := hsd', mint := by rw [hm']; exact hmd, signer := hsig, dest := hdest
      treasury := ⟨tr, htr, rfl, rfl⟩
      a1 := rfl, a2 := rfl, a3 := rfl, a4 := hm'.symm, a5 := hprog.symm, a6 := rfl
      a7 := by rw [hprog, hm'], a8 := by rw [hprog, hm']
      nft := ⟨t, hnft, ho, ha⟩
      usable := by
        rw [hprog]
        rcases hrec with ⟨u, h1, h2, _⟩ | ⟨h1, h2⟩
        · exact .inl ⟨u, h1, h2⟩
        · exact .inr ⟨h1, h2⟩ }
  have htransfer : Transferable w md c.streamDataAta c.withdrawalRecipientAta :=
    { unblocked := hub.1, opensThawed := fun _ => hub.2, srcThawed := hth
      noMemo := congrArg Settings.memoRequired (hrw.classicAtaSettings _ _)
      dstThawed := by
        intro u hu
        rcases hrec with ⟨u', h1, _, h2⟩ | ⟨h1, _⟩
        · rw [h1] at hu; cases hu; exact h2
        · rw [h1] at hu; cases hu }
  obtain ⟨w', hw'⟩ := C12_withdraw_succeeds hrw hready hplain htransfer hx hpos hle
  refine ⟨c, w', hw', rfl, rfl, fun hne => ?_⟩
  obtain ⟨sd₂, _, md₂, e1, _, e2, _, _, _, _, _, _, hpaid, _⟩ := C08_withdraw_effect hrw hw'
  rw [show c.streamData = streamAddr s n from rfl, hsd'] at e1
  cases e1
  rw [hm', hmd] at e2
  cases e2
  have hne' : c.withdrawalRecipientAta ≠ c.streamDataAta := by
    intro h; injection h with h; exact hne h
  have := (hpaid hne').2.2
  rw [plain_fee hplain] at this
  exact this

/-- Likewise the sender of such a stream can always take back what is refundable. -/
theorem C78_cancel {rt : Runtime} {w₀ w₁ w : World} (hr : Reachable rt w₀) {ix : Ix} (hc : step rt w₀ ix = .ok w₁)
    {s : Addr} {n : Nat} {sd : StreamData} (h0 : streamExists w₀ s n = false)
    (h1 : w₁.lk.streams (streamAddr s n) = some sd) (hu : UnblockableToken w₁ sd.depositedTokenMint)
    (hs : Steps rt w₁ w) (hsig : s.canSign = true) (hrec : CanReceive rt w s s sd.depositedTokenMint)
    {x : Nat} (hx : refundableAmountOf rt w (viewOf s n) = .ok x) (hpos : 0 < x) :
    ∃ c w', step rt w (.lockup (.cancel c)) = .ok w' ∧ c.sender = s ∧ c.streamData = streamAddr s n ∧
      w'.bank.balance (.ata s .token sd.depositedTokenMint) =
        w.bank.balance (.ata s .token sd.depositedTokenMint) + x := by
  obtain ⟨⟨sd', hsd', hm'⟩, _, ⟨md, hmd, hprog, hplain, hub⟩, hth⟩ := unblocked_of hr hc h0 h1 hu hs
  have hrw := (hr.step hc).steps hs
  let c : CancelAccts :=
    { sender := s, senderAta := .ata s .token sd.depositedTokenMint
      depositedTokenMint := sd.depositedTokenMint
      streamData := streamAddr s n, streamDataAta := .ata (streamAddr s n) .token sd.depositedTokenMint
      streamNftMint := .streamNftMint s n, depositedTokenProgram := .token }
  have hready : CancelReady rt w c s n sd' md :=
    { stream := hsd', mint := by rw [hm']; exact hmd, signer := hsig, sender := rfl
      a2 := rfl, a3 := rfl, a4 := hm'.symm, a5 := hprog.symm
      a7 := by rw [hprog, hm'], a8 := by rw [hprog, hm']
      usable := by
        rw [hprog]
        rcases hrec with ⟨u, h1, h2, _⟩ | ⟨h1, h2⟩
        · exact .inl ⟨u, h1, h2⟩
        · exact .inr ⟨h1, h2⟩ }
  have htransfer : Transferable w md c.streamDataAta c.senderAta :=
    { unblocked := hub.1, opensThawed := fun _ => hub.2, srcThawed := hth
      noMemo := congrArg Settings.memoRequired (hrw.classicAtaSettings _ _)
      dstThawed := by
        intro u hu
        rcases hrec with ⟨u', h1, _, h2⟩ | ⟨h1, _⟩
        · rw [h1] at hu; cases hu; exact h2
        · rw [h1] at hu; cases hu }
  obtain ⟨w', hw'⟩ := C14_cancel_succeeds hrw hready hplain htransfer hx hpos
  refine ⟨c, w', hw', rfl, rfl, ?_⟩
  obtain ⟨s₂, n₂, sd₂, _, md₂, x₂, y₂, e1, e2, _, e3, e4, _, _, _, _, _, _, _, _, _, _, _, _, _, hpaid, _⟩ :=
    C14_cancel_effect hrw hw'
  obtain ⟨rfl, rfl⟩ := streamAddr_inj (show streamAddr s n = streamAddr s₂ n₂ from e1)
  rw [hsd'] at e2
  cases e2
  rw [hm', hmd] at e3
  cases e3
  rw [hx] at e4
  cases e4
  rw [plain_fee hplain] at hpaid
  exact hpaid

/-- And a claim of an unblockable token whose proof fits, in the campaign's window, not yet made and covered by the
campaign's vault, can be carried out by anyone who can pay for the accounts. -/
theorem C78_claim {rt : Runtime} {w₀ w₁ w : World} (hr : Reachable rt w₀) {ix : Ix} (hc : step rt w₀ ix = .ok w₁)
    {x : Addr} {cd : Campaign} (h0 : w₀.mi.campaigns x = none) (h1 : w₁.mi.campaigns x = some cd)
    (hu : UnblockableToken w₁ cd.airdropTokenMint) (hs : Steps rt w₁ w)
    {tr : Treasury} (htr : w.mi.treasury = some tr)
    {claimer recipient : Addr} (hsig : claimer.canSign = true)
    (hrec : CanReceive rt w claimer recipient cd.airdropTokenMint)
    {i : UInt32} {a : UInt64} {p : List Bytes32}
    (hfresh : hasClaimedView w x i.toNat = .ok false) (hfund : claimRent rt cd.airdropTokenMint .token ≤ w.lamports claimer)
    (hwin : InWindow w.now cd.campaignStartTime cd.expirationTime)
    (hproof : computeRoot rt (leafHash rt i.toNat recipient a.toNat) p = cd.merkleRoot)
    (hbal : a.toNat ≤ w.bank.balance (.ata x .token cd.airdropTokenMint)) :
    ∃ c w', step rt w (.merkle (.claim c i a p)) = .ok w' ∧ c.claimer = claimer ∧ c.campaign = x ∧
      (recipient ≠ x →
        w'.bank.balance (.ata recipient .token cd.airdropTokenMint) =
          w.bank.balance (.ata recipient .token cd.airdropTokenMint) + a.toNat) := by
  have hr₁ := hr.step hc
  have hrw := hr₁.steps hs
  obtain ⟨md, hmd, hprog, hplain, hub⟩ := classic_later hr₁ hs hu
  obtain ⟨ft, hcd, _⟩ := hs.campaign h1
  -- the vault
  have hth : ∀ t, w.bank.tokens (.ata x .token cd.airdropTokenMint) = some t → t.frozen = false := by
    have hd := step_did hc
    rcases hd.campaign_cases x with h | ⟨c, q, dm, b, l, hx, _, _, _, h⟩ | h | h
    · rw [h.1.data, h0] at h1; cases h1
    · have hcd₁ : cd.airdropTokenMint = c.airdropTokenMint := by
        rw [h.result, hx] at h1
        simp only [upd_same, Option.some.injEq] at h1
        rw [← h1]; rfl
      obtain ⟨md₁, hm₁, hp₁, hf₁⟩ := hu
      have hnf := noFreeze_of hr₁ hm₁ hf₁
      have hmp : dm.program = .token := by
        obtain ⟨md', k1, k2⟩ := hd.mint h.mint
        rw [← hcd₁, hm₁] at k1; cases k1
        rw [← k2.1]; exact hp₁
      obtain ⟨_, _, _, hb⟩ := openAccount_ok h.openVault
      have hv : w₁.bank.tokens (.ata x .token cd.airdropTokenMint) =
          some ⟨.token, cd.airdropTokenMint, x, 0, false⟩ := by
        rw [h.result, hb, hcd₁, Bank.opensFrozen_some h.mint, (hr.extensions _ _ h.mint hmp).2.2]
        simp only [setToken_tokens]
        rw [h.vaultAddr, hx, ← h.program, hmp, upd_same]
      obtain ⟨_, t', ht', _, htf⟩ := hs.frozen hv (by rw [← hx, h.addr]; rfl) hnf rfl
      intro t ht; rw [ht'] at ht; cases ht; exact htf
    · obtain ⟨_, _, _, _, _, _, _, _, _, hx, _, h⟩ := h
      have := h.accts.campaign; rw [hx, h0] at this; cases this
    · obtain ⟨_, _, _, _, _, _, _, hx, _, h⟩ := h
      have := h.accts.campaign; rw [hx, h0] at this; cases this
  let c : ClaimAccts :=
    { claimer := claimer, recipient := recipient, recipientAta := .ata recipient .token cd.airdropTokenMint
      treasury := .treasury .merkle, airdropTokenMint := cd.airdropTokenMint, campaign := x
      campaignAta := .ata x .token cd.airdropTokenMint, claimReceipt := .claimReceipt x i.toNat
      airdropTokenProgram := .token
      chainlinkProgram := tr.chainlinkProgram, chainlinkSolUsdFeed := tr.chainlinkSolUsdFeed }
  have hready : ClaimReady rt w c x { cd with firstClaimTime := ft } md i.toNat :=
    { campaign := hcd, mint := hmd, signer := hsig, treasury := ⟨tr, htr, rfl, rfl⟩
      a1 := rfl, a2 := rfl, a3 := rfl, a4 := hprog.symm, a5 := by rw [hprog], a6 := by rw [hprog], a7 := rfl
      usable := by
        rw [hprog]
        rcases hrec with ⟨u, h1, h2, _⟩ | ⟨h1, h2⟩
        · exact .inl ⟨u, h1, h2⟩
        · exact .inr ⟨h1, h2⟩ }
  have htransfer : Transferable w md c.campaignAta c.recipientAta :=
    { unblocked := hub.1, opensThawed := fun _ => hub.2, srcThawed := hth
      noMemo := congrArg Settings.memoRequired (hrw.classicAtaSettings _ _)
      dstThawed := by
        intro u hu
        rcases hrec with ⟨u', h1, _, h2⟩ | ⟨h1, _⟩
        · rw [h1] at hu; cases hu; exact h2
        · rw [h1] at hu; cases hu }
  obtain ⟨w', hw'⟩ := C45_claim_succeeds hrw hready hfresh (by rw [hprog]; exact hfund) hwin hproof hplain.1 htransfer hbal
  refine ⟨c, w', hw', rfl, rfl, fun hne => ?_⟩
  obtain ⟨cd₂, md₂, e1, e2, _, _, _, _, hpaid, _⟩ := C45_claim_effect hrw hw'
  have e1' := fetch_ok.1 e1
  rw [show c.campaign = x from rfl, hcd] at e1'
  cases e1'
  rw [hmd] at e2
  cases e2
  have := (hpaid hne).2.2
  rw [plain_fee hplain] at this
  exact this

/-! ### A concrete history: stream 1 of the demo is created, time passes -/

def demoU0 : World := Demo.after Demo.world0 Demo.setup
def demoU1 : World := Demo.after demoU0 [.lockup (.createWithTimestamps (createAccts 1) 1 1000 2000 3000 6000 100 200 true)]
def demoU2 : World := Demo.after demoU1 [.env (.tick 4000)]

theorem demoU0_reach : Reachable Demo.rt demoU0 := Demo.reach0.steps (Demo.steps_after (by decide +kernel))
theorem demoU1_step : step Demo.rt demoU0 (.lockup (.createWithTimestamps (createAccts 1) 1 1000 2000 3000 6000 100 200 true)) =
    .ok demoU1 := Demo.step_after (by decide +kernel)
theorem demoU2_steps : Steps Demo.rt demoU1 demoU2 := Demo.steps_after (by decide +kernel)

def demoUStream : StreamData :=
  { amounts := { startUnlock := 100, cliffUnlock := 200, deposited := 1000, refunded := 0, withdrawn := 0 }
    depositedTokenMint := Demo.mint, bump := 255, salt := 1, isCancelable := true, isDepleted := false
    timestamps := { cliff := 3000, «end» := 6000, start := 2000 }, sender := alice, wasCanceled := false }

theorem demoU1_stream : demoU1.lk.streams (streamAddr alice 1) = some demoUStream := by decide +kernel
theorem demoU2_stream : demoU2.lk.streams (streamAddr alice 1) = some demoUStream := by decide +kernel
theorem demoU1_token : UnblockableToken demoU1 demoUStream.depositedTokenMint :=
  ⟨{ plainMint with supply := 1000000 }, by decide +kernel, rfl, rfl⟩
theorem demoU2_reach : Reachable Demo.rt demoU2 := (demoU0_reach.step demoU1_step).steps demoU2_steps

theorem demoU2_withdrawable : withdrawableAmountOf Demo.rt demoU2 (viewOf alice 1) = .ok 533 := by
  rw [(demoU2_reach.viewsOf (s := alice) (n := 1) demoU2_stream).withdrawable]
  exact congrArg Except.ok (by decide +kernel)

theorem demoU2_refundable : refundableAmountOf Demo.rt demoU2 (viewOf alice 1) = .ok 467 := by
  rw [(demoU2_reach.viewsOf (s := alice) (n := 1) demoU2_stream).refundable]
  exact congrArg Except.ok (by decide +kernel)

/-- Carol, a stranger, makes the stream pay 500 to bob. -/
example := C78_withdraw demoU0_reach demoU1_step (s := alice) (n := 1) (by decide +kernel) demoU1_stream demoU1_token
  demoU2_steps (holder := bob) (signer := carol) (dest := bob) (np := tok) (t := ⟨tok, nft 1, bob, 1, false⟩)
  (by decide +kernel) rfl rfl rfl (.inl rfl) (.inr ⟨by decide +kernel, by decide +kernel⟩) demoU2_withdrawable
  (amount := 500) (by decide +kernel) (by decide +kernel)

/-- Alice takes back what is not streamed. -/
example := C78_cancel demoU0_reach demoU1_step (s := alice) (n := 1) (by decide +kernel) demoU1_stream demoU1_token
  demoU2_steps rfl (.inl ⟨⟨tok, Demo.mint, alice, 999000, false⟩, by decide +kernel, rfl, rfl⟩) demoU2_refundable (by decide)

def demoV1 : World := Demo.after Demo.world1
  [.merkle (.createCampaign ⟨alice, Demo.mint, camp, campVault, tok⟩ root 1500 800000 campaignName [81, 109] 800 2)]
def demoV2 : World := Demo.after demoV1 [.env (.transfer (ataOf alice) campVault alice Demo.mint tok 800 6), .env (.tick 4000)]

theorem demoV1_step : step Demo.rt Demo.world1 (.merkle (.createCampaign ⟨alice, Demo.mint, camp, campVault, tok⟩ root 1500
    800000 campaignName [81, 109] 800 2)) = .ok demoV1 := Demo.step_after (by decide +kernel)
theorem demoV2_steps : Steps Demo.rt demoV1 demoV2 := Demo.steps_after (by decide +kernel)
def demoVCampaign : Campaign := ⟨Demo.mint, 255, 1500, alice, 800000, 0, [81, 109], root, campaignName⟩
theorem demoV1_campaign : demoV1.mi.campaigns camp = some demoVCampaign := by decide +kernel
theorem demoV1_token : UnblockableToken demoV1 demoVCampaign.airdropTokenMint :=
  ⟨{ plainMint with supply := 1000000 }, by decide +kernel, rfl, rfl⟩

/-- Bob's 500 can be claimed for him by carol. -/
example := C78_claim Demo.reach1 demoV1_step (x := camp) (by decide +kernel) demoV1_campaign demoV1_token demoV2_steps
  (tr := ⟨255, collector, oracleProgram, feed⟩) (by decide +kernel) (claimer := carol) (recipient := bob) rfl
  (.inr ⟨by decide +kernel, by decide +kernel⟩) (i := 0) (a := 500) (p := [leaf1]) (by decide +kernel)
  (by decide +kernel) ⟨by decide +kernel, by decide +kernel⟩ (by decide +kernel) (by decide +kernel)

end Solsab.Props
