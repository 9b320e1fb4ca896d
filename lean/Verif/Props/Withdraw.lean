import Verif.Proofs.Ext
import Verif.Proofs.Settings
import Verif.Props.Schedule
/-!
# C05 (instructions), C06–C09, C12: withdraw and withdraw_max
-/

namespace Solsab.Props

open Lockup Spec Demo

/-- **C05**, instructions: on any reachable state, with any accounts and arguments, the instructions that
operate on an existing stream or campaign never panic (no overflow, underflow, division by zero, failed
unwrap). -/
theorem C05_no_panic {rt : Runtime} {w : World} (hr : Reachable rt w) (ix : Ix)
    (h : ix.withdrawsFrom ≠ none ∨ ix.cancels ≠ none ∨ ix.renounces ≠ none ∨ ix.claimsFrom ≠ none ∨
      ix.clawsBack ≠ none) :
    step rt w ix ≠ .error .panic := by
  match ix with
  | .lockup (.withdraw c a) => exact withdraw_no_panic hr c _
  | .lockup (.withdrawMax c) => exact withdrawMax_no_panic hr c
  | .lockup (.cancel c) => exact cancel_no_panic hr c
  | .lockup (.renounce c) => exact renounce_no_panic hr c
  | .merkle (.claim c i a p) => exact Merkle.claim_no_panic c _ _ p
  | .merkle (.clawback c a) => exact Merkle.clawback_no_panic hr c _
  | .lockup (.initialize ..) => simp [Ix.withdrawsFrom, Ix.cancels, Ix.renounces, Ix.claimsFrom, Ix.clawsBack] at h
  | .lockup (.createWithTimestamps ..) => simp [Ix.withdrawsFrom, Ix.cancels, Ix.renounces, Ix.claimsFrom, Ix.clawsBack] at h
  | .lockup (.createWithDurations ..) => simp [Ix.withdrawsFrom, Ix.cancels, Ix.renounces, Ix.claimsFrom, Ix.clawsBack] at h
  | .lockup (.collectFees ..) => simp [Ix.withdrawsFrom, Ix.cancels, Ix.renounces, Ix.claimsFrom, Ix.clawsBack] at h
  | .merkle (.initialize ..) => simp [Ix.withdrawsFrom, Ix.cancels, Ix.renounces, Ix.claimsFrom, Ix.clawsBack] at h
  | .merkle (.createCampaign ..) => simp [Ix.withdrawsFrom, Ix.cancels, Ix.renounces, Ix.claimsFrom, Ix.clawsBack] at h
  | .merkle (.collectFees ..) => simp [Ix.withdrawsFrom, Ix.cancels, Ix.renounces, Ix.claimsFrom, Ix.clawsBack] at h
  | .env _ => simp [Ix.withdrawsFrom, Ix.cancels, Ix.renounces, Ix.claimsFrom, Ix.clawsBack] at h

example : step rt world3 ixCancel ≠ .error .panic :=
  C05_no_panic reach3 _ (.inr (.inl (by simp [ixCancel, Ix.cancels])))

/-- The stream named by a successful withdraw. -/
theorem withdraw_stream {rt : Runtime} {w w' : World} (hr : Reachable rt w) {c : WithdrawAccts} {amount : Nat}
    (h : withdraw rt w c amount = .ok w') :
    ∃ s n sd sd' dm b₁ b₂ l, c.streamData = streamAddr s n ∧ c.streamNftMint = .streamNftMint s n ∧
      ViewsAt rt w s n sd ∧ WithdrawOk rt w c amount w' sd sd' dm b₁ b₂ l := by
  obtain ⟨sd, sd', dm, b₁, b₂, l, hw⟩ := withdraw_ok h
  have hok := hr.streamOK hw.accts.stream
  have hst := hw.accts.stream
  have h1 := hok.addr
  refine ⟨sd.sender, sd.salt, sd, sd', dm, b₁, b₂, l, h1, ?_, ?_, hw⟩
  · have h2 := hw.accts.streamAddr
    rw [h1] at h2
    injection h2 with h2
    exact h2.symm
  · rw [h1] at hst
    exact hr.viewsOf hst

/-- **C06**, success: what a successful withdraw implies about the state before. -/
theorem C06_withdraw_success {rt : Runtime} {w w' : World} (hr : Reachable rt w) {c : WithdrawAccts}
    {amount : UInt64} (h : step rt w (.lockup (.withdraw c amount)) = .ok w') :
    ∃ s n x st, c.streamData = streamAddr s n ∧ streamExists w s n = true ∧
      withdrawableAmountOf rt w (viewOf s n) = .ok x ∧ statusOf rt w (viewOf s n) = .ok st ∧
      0 < amount.toNat ∧ amount.toNat ≤ x ∧ st ≠ .depleted := by
  obtain ⟨s, n, sd, sd', dm, b₁, b₂, l, h1, _, hv, hw⟩ := withdraw_stream hr (h : withdraw rt w c _ = _)
  refine ⟨s, n, _, _, h1, hr.exists_iff.2 ⟨sd, hv.stream⟩, hv.withdrawable, hv.status, hw.pos, ?_, ?_⟩
  · obtain ⟨x, hx, hle⟩ := hw.withdrawable
    rw [hv.ok.getWithdrawable] at hx
    cases hx; exact hle
  · rw [hw.notDepleted]
    simp only [Bool.false_eq_true, if_false]
    repeat' split
    all_goals simp

example : ∃ w', step rt world2 ixWithdraw = .ok w' := ⟨_, step_after (by decide +kernel)⟩

/-- **C06**, rejections: with the right accounts, each rejection code is reported exactly in its case, and a
positive amount that does not exceed the withdrawable one is not rejected by the program. -/
theorem C06_withdraw_errors {rt : Runtime} {w : World} (hr : Reachable rt w) {c : WithdrawAccts} {s : Addr}
    {n : Nat} {sd : StreamData} {md : MintData} (hc : WithdrawReady rt w c s n sd md) (amount : UInt64) :
    ∃ x st, withdrawableAmountOf rt w (viewOf s n) = .ok x ∧ statusOf rt w (viewOf s n) = .ok st ∧
      (step rt w (.lockup (.withdraw c amount)) = .error (.lockup .streamDepleted) ↔ st = .depleted) ∧
      (step rt w (.lockup (.withdraw c amount)) = .error (.lockup .withdrawAmountZero) ↔
        st ≠ .depleted ∧ amount.toNat = 0) ∧
      (step rt w (.lockup (.withdraw c amount)) = .error (.lockup .overdraw) ↔
        st ≠ .depleted ∧ x < amount.toNat) ∧
      ((∃ e, step rt w (.lockup (.withdraw c amount)) = .error (.lockup e)) ↔
        st = .depleted ∨ amount.toNat = 0 ∨ x < amount.toNat) := by
  have hv := hr.viewsOf hc.stream
  obtain ⟨w₁, ha⟩ := WithdrawReady.accounts hr hc
  obtain ⟨b, l, hacc, _, rfl⟩ := withdrawAccounts_ok ha
  refine ⟨_, _, hv.withdrawable, hv.status, ?_⟩
  have hstep : step rt w (.lockup (.withdraw c amount)) =
      withdrawHandler { w with bank := b, lamports := l } c sd md amount.toNat := by
    show withdraw rt w c amount.toNat = _
    unfold withdraw
    rw [ha]; rfl
  have hst : (if sd.isDepleted = true then StreamStatus.depleted
      else if sd.wasCanceled = true then .canceled
      else if w.now < sd.timestamps.start then .pending
      else if streamedNow w.now sd < sd.amounts.deposited then .streaming else .settled) = .depleted ↔
      sd.isDepleted = true := by
    cases sd.isDepleted with
    | true => simp
    | false =>
      simp only [Bool.false_eq_true, if_false, iff_false]
      repeat' split
      all_goals simp
  obtain ⟨r, hr1, hr2⟩ := withdrawHandler_split (rt := rt) (w := { w with bank := b, lamports := l }) (c := c)
    (md := md) (amount := amount.toNat) (log := w.log) hv.ok
  generalize (if sd.isDepleted = true then StreamStatus.depleted
      else if sd.wasCanceled = true then .canceled
      else if w.now < sd.timestamps.start then .pending
      else if streamedNow w.now sd < sd.amounts.deposited then .streaming else .settled) = st at hst ⊢
  rw [hstep, hr2]
  have hext : ∀ e, r ≠ .error (.lockup e) := fun e he => hr1 _ he
  have hnow : World.now { w with bank := b, lamports := l } = w.now := rfl
  rw [hnow]
  generalize streamedNow w.now sd - sd.amounts.withdrawn = x
  unfold checkWithdraw
  cases hd : sd.isDepleted with
  | true => simp [bind_err, hst, hd]
  | false =>
    by_cases h0 : amount.toNat = 0
    · simp [h0, bind_err, hst, hd]
    · by_cases h1 : x < amount.toNat
      · simp [h0, h1, bind_err, hst, hd]
      · simp [h0, h1, bind_err, hext, hst, hd]

theorem demo_withdrawReady : WithdrawReady rt world3 (withdrawAccts carol 1) alice 1
    ⟨⟨100, 200, 1000, 0, 200⟩, Demo.mint, 255, 1, true, false, ⟨3000, 6000, 2000⟩, alice, false⟩
    { plainMint with supply := 1000000 } := by
  constructor
  case nft => exact ⟨⟨tok, nft 1, bob, 1, false⟩, by decide +kernel⟩
  case usable => exact .inl ⟨⟨tok, Demo.mint, bob, 700, false⟩, by decide +kernel⟩
  case treasury => exact ⟨⟨255, collector, oracleProgram, feed⟩, by decide +kernel⟩
  all_goals decide +kernel

example := C06_withdraw_errors reach3 demo_withdrawReady 333

/-- A withdraw or withdraw_max is a withdraw of some `u64` amount. -/
theorem withdrawIx {rt : Runtime} {w w' : World} (hr : Reachable rt w) {ix : Ix} {c : WithdrawAccts}
    (hc : ix.withdrawAccts = some c) (h : step rt w ix = .ok w') :
    ∃ amount, withdraw rt w c amount = .ok w' := by
  match ix, hc with
  | .lockup (.withdraw c a), rfl => exact ⟨_, h⟩
  | .lockup (.withdrawMax c), rfl =>
    obtain ⟨_, a, _, _, h'⟩ := withdrawMax_ok h
    exact ⟨a, h'⟩

/-- **C07**: whoever signs, a withdraw pays the wallet that holds the stream NFT, or a wallet which that
holder, as signer, chose; every other token account in the ledger is untouched. -/
theorem C07_pays_holder {rt : Runtime} {w w' : World} (hr : Reachable rt w) {ix : Ix} {c : WithdrawAccts}
    (hc : ix.withdrawAccts = some c) (h : step rt w ix = .ok w') :
    ∃ s n tp md sd, c.streamData = streamAddr s n ∧ w.lk.streams (streamAddr s n) = some sd ∧
      w.bank.mints sd.depositedTokenMint = some md ∧ c.signer.canSign = true ∧
      -- the named recipient owns its associated account, and that holds the one NFT
      (∃ t, w.bank.tokens (.ata c.streamRecipient tp (.streamNftMint s n)) = some t ∧
        t.owner = c.streamRecipient ∧ t.mint = .streamNftMint s n ∧ t.amount = 1) ∧
      -- tokens go to its associated account, or elsewhere only with its signature
      (c.withdrawalRecipient = c.streamRecipient ∨ c.signer = c.streamRecipient) ∧
      (∃ t, w'.bank.tokens (.ata c.withdrawalRecipient md.program sd.depositedTokenMint) = some t ∧
        t.owner = c.withdrawalRecipient) ∧
      ∀ a, a ≠ .ata (streamAddr s n) md.program sd.depositedTokenMint →
        a ≠ .ata c.withdrawalRecipient md.program sd.depositedTokenMint →
        w'.bank.tokens a = w.bank.tokens a := by
  obtain ⟨amount, h⟩ := withdrawIx hr hc h
  obtain ⟨s, n, sd, sd', dm, b₁, b₂, l, h1, h2, hv, hw⟩ := withdraw_stream hr h
  have ha := hw.accts
  have hb := hr.bankInv
  have hm : w.bank.mints sd.depositedTokenMint = some dm := by rw [← ha.mintAddr]; exact ha.mint
  obtain ⟨md, t, hvt⟩ := hr.vaultsOK _ _ hv.stream
  have hmd : md = dm := by
    have := hvt.mint; rw [hm] at this; cases this; rfl
  subst hmd
  obtain ⟨tv, hv1, hv2, hv3⟩ := ha.vault
  have hpr : c.depositedTokenProgram = md.program := by
    obtain ⟨md', hm1, hm2⟩ := hb.tok_mint _ _ hv1
    have hvm := (ata_token hb (by rw [← ha.vaultAddr]; exact hv1)).2
    rw [hvm, ha.mintAddr, hm] at hm1
    cases hm1
    rw [hm2, hv3]
  have hdst : c.withdrawalRecipientAta = .ata c.withdrawalRecipient md.program sd.depositedTokenMint := by
    rw [ha.ensure.1, hpr, ha.mintAddr]
  have hvlt : c.streamDataAta = .ata (streamAddr s n) md.program sd.depositedTokenMint := by
    rw [ha.vaultAddr, hpr, ha.mintAddr, h1]
  refine ⟨s, n, c.nftTokenProgram, md, sd, h1, hv.stream, hm, ha.signs, ?_, ha.dest, ?_, ?_⟩
  · obtain ⟨t, ht1, ht2, ht3, ht4⟩ := ha.nft
    rw [ha.nftAddr, h2] at ht1
    exact ⟨t, ht1, ht2, (ata_token hb ht1).2, ht4⟩
  · obtain ⟨t0, h01, _, h03, _⟩ := ha.ensure.dst
    obtain ⟨tf, tt, md', hf, _⟩ := transferChecked_ok hw.transfer
    obtain ⟨t', h', hk⟩ := transferFacts_kept hf h01
    refine ⟨t', ?_, ?_⟩
    · rw [hw.result, ← hdst]; exact h'
    · rw [← h03]; exact hk.2.2
  · intro a h3 h4
    exact hw.payout.frame (by rw [hvlt]; exact h3) (by rw [hdst]; exact h4)

example := C07_pays_holder reach4 (ix := ixWithdrawMax) rfl (step_after (by decide +kernel))

/-- **C08**: the exact effect of a successful withdraw of `amount`. -/
theorem C08_withdraw_effect {rt : Runtime} {w w' : World} (hr : Reachable rt w) {c : WithdrawAccts}
    {amount : UInt64} (h : step rt w (.lockup (.withdraw c amount)) = .ok w') :
    ∃ sd sd' md, w.lk.streams c.streamData = some sd ∧ w'.lk.streams c.streamData = some sd' ∧
      w.bank.mints sd.depositedTokenMint = some md ∧
      -- recorded
      sd'.amounts.withdrawn = sd.amounts.withdrawn + amount.toNat ∧
      sd'.amounts.refunded = sd.amounts.refunded ∧ sd'.wasCanceled = sd.wasCanceled ∧ SameTerms sd sd' ∧
      sd'.isDepleted = decide (sd'.amounts.withdrawn + sd'.amounts.refunded = sd'.amounts.deposited) ∧
      sd'.isCancelable = (sd.isCancelable && !sd'.isDepleted) ∧
      -- paid
      (c.withdrawalRecipientAta ≠ c.streamDataAta →
        amount.toNat ≤ w.bank.balance c.streamDataAta ∧
        w'.bank.balance c.streamDataAta = w.bank.balance c.streamDataAta - amount.toNat ∧
        w'.bank.balance c.withdrawalRecipientAta =
          w.bank.balance c.withdrawalRecipientAta + (amount.toNat - md.fee amount.toNat)) ∧
      -- announced
      w'.log = ⟨w.now, .withdrawFromLockupStream sd.depositedTokenMint 0 c.streamData c.streamNftMint amount.toNat⟩
        :: w.log ∧
      -- and nothing else
      (∀ x, x ≠ c.streamData → w'.lk.streams x = w.lk.streams x) ∧
      (∀ a, a ≠ c.streamDataAta → a ≠ c.withdrawalRecipientAta → w'.bank.tokens a = w.bank.tokens a) ∧
      w'.bank.mints = w.bank.mints ∧ w'.mi = w.mi ∧ w'.lk.treasury = w.lk.treasury ∧
      w'.lk.nftCollectionData = w.lk.nftCollectionData ∧ w'.metas = w.metas ∧ w'.clock = w.clock := by
  obtain ⟨sd, sd', dm, b₁, b₂, l, hw⟩ := withdraw_ok (h : withdraw rt w c _ = _)
  have ha := hw.accts
  have hm : w.bank.mints sd.depositedTokenMint = some dm := by rw [← ha.mintAddr]; exact ha.mint
  have hpay := hw.payout
  have hme := hpay.mints_eq
  obtain ⟨_, _, hd⟩ := withdraw_data hw.data
  refine ⟨sd, sd', dm, ha.stream, by rw [hw.result]; simp, hm, by rw [hd], by rw [hd], by rw [hd],
    ?_, ?_, ?_, ?_, by rw [hw.result, ha.mintAddr], ?_, ?_, hme, by rw [hw.result], by rw [hw.result],
    by rw [hw.result], by rw [hw.result], by rw [hw.result]⟩
  · rw [hd]; exact ⟨rfl, rfl, rfl, rfl, rfl, rfl, rfl, rfl⟩
  · have := ((hr.step h).streamOK (x := c.streamData) (sd := sd') (by rw [hw.result]; simp)).depleted
    rw [Bool.eq_iff_iff, this, decide_eq_true_iff]
  · rw [hd]
    have := hw.notDepleted
    simp only
    split
    · simp
    · rw [this]; simp
  · intro hne
    obtain ⟨t, t', hs1, _, _, _, hs5, hs6, _, hs8⟩ := hpay.src
    rw [if_neg hne] at hs8
    obtain ⟨md', t2, hd1, hd2, _, _, hd5⟩ := hpay.dst hne
    rw [ha.mint] at hd1; cases hd1
    refine ⟨?_, ?_, ?_⟩
    · unfold Bank.balance; rw [hs1]; exact hs5
    · unfold Bank.balance; rw [hs1, hs6]; exact hs8
    · conv_lhs => unfold Bank.balance
      rw [hd2]; exact hd5
  · intro x hx
    rw [hw.result]; exact upd_ne _ _ hx
  · intro a h1 h2
    exact hpay.frame h1 h2

example := C08_withdraw_effect reach2 (c := withdrawAccts bob 1) (amount := 200) (w' := after world2 [ixWithdraw])
  (step_after (ix := ixWithdraw) (by decide +kernel))

/-- The demo withdraw: 200 leave the vault of 1000 and reach the (new) account. -/
example : world2.bank.balance (vault 1) = 1000 ∧ (after world2 [ixWithdraw]).bank.balance (vault 1) = 800 ∧
    (after world2 [ixWithdraw]).bank.balance (ataOf bob) = 200 := by decide +kernel

/-- **C09**: `withdraw_max` is `withdraw` of what `withdrawable_amount_of` reports. -/
theorem C09_max_is_withdraw {rt : Runtime} {w : World} (hr : Reachable rt w) {c : WithdrawAccts} {s : Addr}
    {n : Nat} (hc : c.streamData = streamAddr s n) (he : streamExists w s n = true) :
    ∃ x : UInt64, withdrawableAmountOf rt w (viewOf s n) = .ok x.toNat ∧
      step rt w (.lockup (.withdrawMax c)) = step rt w (.lockup (.withdraw c x)) := by
  obtain ⟨sd, hv⟩ := hr.views he
  have hlt : streamedNow w.now sd - sd.amounts.withdrawn < 2 ^ 64 := by
    have := hv.ok.dep64
    have := hv.ok.streamed.2
    omega
  have htn : (UInt64.ofNat (streamedNow w.now sd - sd.amounts.withdrawn)).toNat =
      streamedNow w.now sd - sd.amounts.withdrawn := by
    rw [UInt64.toNat_ofNat']; exact Nat.mod_eq_of_lt hlt
  refine ⟨UInt64.ofNat (streamedNow w.now sd - sd.amounts.withdrawn), by rw [htn]; exact hv.withdrawable, ?_⟩
  show withdrawMax rt w c = withdraw rt w c _
  rw [htn]
  unfold withdrawMax withdraw
  cases ha : withdrawAccounts rt w c with
  | error e => rfl
  | ok r =>
    obtain ⟨w₁, sd₁, dm⟩ := r
    obtain ⟨b, l, hacc, _, rfl⟩ := withdrawAccounts_ok ha
    have : sd₁ = sd := by
      have h1 := hacc.stream
      rw [hc, hv.stream] at h1; cases h1; rfl
    subst this
    show (getWithdrawableAmount w.now _ _ _ _ >>= _ : Res World) = _
    rw [hv.ok.getWithdrawable]
    rfl

example := C09_max_is_withdraw reach4 (c := withdrawAccts carol 1) (s := alice) (n := 1) rfl (by decide +kernel)

/-- **C09**: right after a `withdraw_max` nothing is withdrawable. -/
theorem C09_nothing_left {rt : Runtime} {w w' : World} (hr : Reachable rt w) {c : WithdrawAccts} {s : Addr}
    {n : Nat} (hc : c.streamData = streamAddr s n) (h : step rt w (.lockup (.withdrawMax c)) = .ok w') :
    withdrawableAmountOf rt w' (viewOf s n) = .ok 0 := by
  obtain ⟨sd, a, h1, h2, h3⟩ := withdrawMax_ok (h : withdrawMax rt w c = _)
  obtain ⟨sd₂, sd', dm, b₁, b₂, l, hw⟩ := withdraw_ok h3
  have h4 := hw.accts.stream
  rw [h1] at h4; cases h4
  have hok := hr.streamOK h1
  rw [hok.getWithdrawable] at h2
  cases h2
  have hr' := hr.step h
  have hsd' : w'.lk.streams (streamAddr s n) = some sd' := by rw [← hc, hw.result]; simp
  have hv := hr'.viewsOf hsd'
  rw [hv.withdrawable]
  obtain ⟨_, _, hd⟩ := withdraw_data hw.data
  have hnow : w'.now = w.now := by rw [hw.result]; rfl
  have hsn : streamedNow w'.now sd' = streamedNow w.now sd := by rw [hd, hnow]; rfl
  rw [hsn]
  have : sd'.amounts.withdrawn = sd.amounts.withdrawn + (streamedNow w.now sd - sd.amounts.withdrawn) := by rw [hd]
  rw [this]
  have := hok.streamed.1
  congr 1
  omega

example := C09_nothing_left reach4 (c := withdrawAccts carol 1) (s := alice) (n := 1) rfl
  (step_after (ix := ixWithdrawMax) (by decide +kernel))

/-- **C09**: with the right accounts, `withdraw_max` reports `WithdrawAmountZero` exactly when a stream that
is not depleted has nothing withdrawable. -/
theorem C09_zero {rt : Runtime} {w : World} (hr : Reachable rt w) {c : WithdrawAccts} {s : Addr}
    {n : Nat} {sd : StreamData} {md : MintData} (hc : WithdrawReady rt w c s n sd md) :
    step rt w (.lockup (.withdrawMax c)) = .error (.lockup .withdrawAmountZero) ↔
      withdrawableAmountOf rt w (viewOf s n) = .ok 0 ∧ statusOf rt w (viewOf s n) ≠ .ok .depleted := by
  obtain ⟨x, hx, heq⟩ := C09_max_is_withdraw hr hc.a2 (hr.exists_iff.2 ⟨sd, hc.stream⟩)
  obtain ⟨x', st, h1, h2, _, h3, _, _⟩ := C06_withdraw_errors hr hc x
  rw [hx] at h1; cases h1
  rw [heq, h3, hx, h2]
  simp only [ne_eq, Except.ok.injEq]
  constructor
  · rintro ⟨ha, hb⟩; exact ⟨hb, ha⟩
  · rintro ⟨ha, hb⟩; exact ⟨hb, ha⟩

example := C09_zero reach3 demo_withdrawReady

/-- **C12**, every withdraw: in a plain token whose transfers work, a positive amount not above
`withdrawable_amount_of` can be withdrawn with the right accounts. -/
theorem C12_withdraw_succeeds {rt : Runtime} {w : World} (hr : Reachable rt w) {c : WithdrawAccts} {s : Addr}
    {n : Nat} {sd : StreamData} {md : MintData} (hc : WithdrawReady rt w c s n sd md) (hp : md.Plain)
    (ht : Transferable w md c.streamDataAta c.withdrawalRecipientAta) {x : Nat}
    (hx : withdrawableAmountOf rt w (viewOf s n) = .ok x) {amount : UInt64} (h0 : 0 < amount.toNat)
    (hle : amount.toNat ≤ x) :
    ∃ w', step rt w (.lockup (.withdraw c amount)) = .ok w' := by
  have hv := hr.viewsOf hc.stream
  rw [hv.withdrawable] at hx
  cases hx
  have hok := hv.ok
  obtain ⟨w₁, ha⟩ := WithdrawReady.accounts hr hc
  obtain ⟨b, l, hacc, _, rfl⟩ := withdrawAccounts_ok ha
  have hnd : sd.isDepleted = false := by
    cases hd : sd.isDepleted with
    | false => rfl
    | true => rw [hok.sched_full hd] at hle; omega
  obtain ⟨md', t, hvt⟩ := hr.vaultsOK _ _ hc.stream
  have hmd : md' = md := by
    have := hvt.mint; rw [hc.mint] at this; cases this; rfl
  subst hmd
  have hdep := hok.dep64
  have hstr := hok.streamed
  have hsum := hok.sum_le
  have hcap : streamedNow w.now sd ≤ sd.amounts.deposited - sd.amounts.refunded := by
    cases hcn : sd.wasCanceled with
    | false => have := (hok.live hcn).1; omega
    | true => simp [streamedNow, hcn]
  have hvt1 : w.bank.tokens c.streamDataAta = some t := by rw [hc.a7]; exact hvt.vault
  have hamt : amount.toNat ≤ t.amount := by
    have := hvt.solvent hp
    omega
  have hens := hacc.ensure
  rw [hc.a4, hc.a5] at hens
  obtain ⟨b₂, hb₂⟩ := transfer_of hr.bankInv hens hc.mint rfl hp.1 hc.a7 hvt1 hvt.owner ht.unblocked
    (ht.srcThawed t hvt1) ht.dstThawed ht.opensThawed hamt
  have hcheck : checkWithdraw sd.isDepleted amount.toNat (streamedNow w.now sd - sd.amounts.withdrawn) = .ok () :=
    checkWithdraw_ok.2 ⟨hnd, h0, hle⟩
  have hdata : ∃ sd', sd.withdraw amount.toNat = .ok sd' := by
    unfold StreamData.withdraw
    rw [addU64_ok.2 ⟨show sd.amounts.withdrawn + amount.toNat < 2 ^ 64 by omega, rfl⟩]
    show ∃ sd', (subU64 sd.amounts.deposited sd.amounts.refunded >>= _) = Except.ok sd'
    rw [subU64_ok.2 ⟨by omega, rfl⟩]
    simp only [bind, Except.bind]
    split <;> exact ⟨_, rfl⟩
  obtain ⟨sd', hsd'⟩ := hdata
  have hunl : World.Unlocked { w with bank := b, lamports := l } c.streamDataAta c.withdrawalRecipientAta :=
    ⟨by rw [hc.a7]; exact congrArg Settings.cpiGuard (hr.vaultSettings rfl _ _), ht.noMemo⟩
  refine bind_succeeds ha (bind_succeeds hok.getWithdrawable (bind_succeeds hcheck (bind_succeeds hsd'
    (bind_succeeds (chargeFee_zero _ _ _ _ _) (bind_succeeds (a := { w with bank := b₂, lamports := l })
      (transferTokens_iff.2 ⟨hunl, b₂, ?_, rfl⟩) ⟨_, rfl⟩)))))
  rw [hc.a2, hc.a4, hc.a5]
  exact hb₂

theorem demo_transferable3 : Transferable world3 { plainMint with supply := 1000000 }
    (withdrawAccts carol 1).streamDataAta (withdrawAccts carol 1).withdrawalRecipientAta := by
  refine ⟨rfl, ?_, ?_, fun _ => rfl, ?_⟩
  · intro t ht
    have : world3.bank.tokens (withdrawAccts carol 1).streamDataAta = some ⟨tok, Demo.mint, str 1, 800, false⟩ := by
      decide +kernel
    rw [this] at ht; cases ht; rfl
  · intro t ht
    have : world3.bank.tokens (withdrawAccts carol 1).withdrawalRecipientAta =
        some ⟨tok, Demo.mint, bob, 700, false⟩ := by decide +kernel
    rw [this] at ht; cases ht; rfl
  · decide +kernel

example : ∃ w', step rt world3 (.lockup (.withdraw (withdrawAccts carol 1) 333)) = .ok w' :=
  C12_withdraw_succeeds (x := 333) reach3 demo_withdrawReady (by decide) demo_transferable3
    (show withdrawableAmountOf rt world3 (viewOf alice 1) = .ok 333 by
      have h := (reach3.viewsOf (s := alice) (n := 1) demo_withdrawReady.stream).withdrawable
      rw [h]; exact congrArg Except.ok (by decide +kernel))
    (by decide +kernel) (by decide +kernel)

/-- **C12**: from the end time on, anyone with the right accounts empties a stream that is not depleted:
`withdraw_max` succeeds, pays all that is left and leaves the stream depleted. -/
theorem C12_full_withdrawal {rt : Runtime} {w : World} (hr : Reachable rt w) {c : WithdrawAccts} {s : Addr}
    {n : Nat} {sd : StreamData} {md : MintData} (hc : WithdrawReady rt w c s n sd md) (hp : md.Plain)
    (ht : Transferable w md c.streamDataAta c.withdrawalRecipientAta)
    (hend : sd.timestamps.end ≤ w.now) (hnd : statusOf rt w (viewOf s n) ≠ .ok .depleted) :
    ∃ w' sd', step rt w (.lockup (.withdrawMax c)) = .ok w' ∧
      statusOf rt w' (viewOf s n) = .ok .depleted ∧
      w'.lk.streams (streamAddr s n) = some sd' ∧
      sd'.amounts.withdrawn + sd'.amounts.refunded = sd'.amounts.deposited ∧
      (c.withdrawalRecipientAta ≠ c.streamDataAta →
        w'.bank.balance c.withdrawalRecipientAta = w.bank.balance c.withdrawalRecipientAta +
          (sd.amounts.deposited - sd.amounts.withdrawn - sd.amounts.refunded)) := by
  have hv := hr.viewsOf hc.stream
  have hok := hv.ok
  have hd : sd.isDepleted = false := by
    cases h : sd.isDepleted with
    | false => rfl
    | true => rw [hv.status, h] at hnd; exact absurd rfl hnd
  have hneq : sd.amounts.withdrawn + sd.amounts.refunded ≠ sd.amounts.deposited := fun h => by
    have := hok.depleted.2 h; rw [hd] at this; cases this
  have hsum := hok.sum_le
  have hstr : streamedNow w.now sd = sd.amounts.deposited - sd.amounts.refunded := by
    unfold streamedNow
    split
    · rfl
    · rename_i hcn
      have hcn : sd.wasCanceled = false := by simpa using hcn
      rw [scheduled_end hok.terms hend, (hok.live hcn).1]
      rfl
  obtain ⟨x, hx, heq⟩ := C09_max_is_withdraw hr hc.a2 (hr.exists_iff.2 ⟨sd, hc.stream⟩)
  have hxv : x.toNat = streamedNow w.now sd - sd.amounts.withdrawn := by
    rw [hv.withdrawable] at hx
    exact (ok_inj.1 hx).symm
  obtain ⟨w', hw'⟩ := C12_withdraw_succeeds hr hc hp ht hx (amount := x) (by omega) (Nat.le_refl _)
  obtain ⟨sd₀, sd', md', h1, h2, h3, h4, h5, h6, h7, _, _, h8, h9, _⟩ := C08_withdraw_effect hr hw'
  rw [hc.a2, hc.stream] at h1; cases h1
  rw [hc.mint] at h3; cases h3
  rw [hc.a2] at h2
  have hv' := (hr.step hw').viewsOf h2
  have hfin : sd'.amounts.withdrawn + sd'.amounts.refunded = sd'.amounts.deposited := by
    rw [h4, h5, h7.deposited]; omega
  refine ⟨w', sd', by rw [heq]; exact hw', ?_, h2, hfin, ?_⟩
  · rw [hv'.status, hv'.ok.depleted.2 hfin]; rfl
  · intro hne
    rw [(h8 hne).2.2, plain_fee hp]
    omega

/-- Stream 2 of the demo has ended in `world7`; nothing was withdrawn. -/
theorem demo_withdrawReady7 : WithdrawReady rt world7 (withdrawAccts carol 2) alice 2
    ⟨⟨0, 0, 700, 0, 0⟩, Demo.mint, 255, 2, false, false, ⟨0, 10000, 1000⟩, alice, false⟩
    { plainMint with supply := 1000000 } := by
  constructor
  case nft => exact ⟨⟨tok, nft 2, bob, 1, false⟩, by decide +kernel⟩
  case usable => exact .inl ⟨⟨tok, Demo.mint, bob, 1033, false⟩, by decide +kernel⟩
  case treasury => exact ⟨⟨255, collector, oracleProgram, feed⟩, by decide +kernel⟩
  all_goals decide +kernel

theorem demo_transferable7 :
    Transferable world7 { plainMint with supply := 1000000 } (vault 2) (ataOf bob) := by
  refine ⟨rfl, ?_, ?_, fun _ => rfl, by decide +kernel⟩
  · intro t ht
    have : world7.bank.tokens (vault 2) = some ⟨tok, Demo.mint, str 2, 700, false⟩ := by decide +kernel
    rw [this] at ht; cases ht; rfl
  · intro t ht
    have : world7.bank.tokens (ataOf bob) = some ⟨tok, Demo.mint, bob, 1033, false⟩ := by decide +kernel
    rw [this] at ht; cases ht; rfl

example := C12_full_withdrawal reach7 demo_withdrawReady7 (by decide) demo_transferable7 (by decide +kernel)
  (by rw [(reach7.viewsOf (s := alice) (n := 2) demo_withdrawReady7.stream).status]
      intro h
      have := ok_inj.1 h
      revert this
      decide +kernel)

end Solsab.Props
