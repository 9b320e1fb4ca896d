import Verif.Props.Withdraw
/-!
# C13–C17: cancel and renounce
-/

namespace Solsab.Props

open Lockup Spec Demo

/-- The stream named by a successful cancel. -/
theorem cancel_stream {rt : Runtime} {w w' : World} (hr : Reachable rt w) {c : CancelAccts}
    (h : cancel rt w c = .ok w') :
    ∃ s n sd dm b₁ b₂ l, c.streamData = streamAddr s n ∧ c.sender = s ∧ sd.sender = s ∧ ViewsAt rt w s n sd ∧
      CancelOk rt w c w' sd dm (streamedNow w.now sd) b₁ b₂ l := by
  obtain ⟨sd, dm, st, b₁, b₂, l, hw⟩ := cancel_ok h
  have hst := hw.accts.stream
  have hok := hr.streamOK hst
  have h1 := hok.addr
  have h2 := hw.streamed_eq
  rw [hok.getStreamed] at h2
  cases h2
  refine ⟨sd.sender, sd.salt, sd, dm, b₁, b₂, l, h1, hw.accts.sender, rfl, ?_, hw⟩
  rw [h1] at hst
  exact hr.viewsOf hst

/-- The stream named by a successful renounce. -/
theorem renounce_stream {rt : Runtime} {w w' : World} (hr : Reachable rt w) {c : RenounceAccts}
    (h : renounce rt w c = .ok w') :
    ∃ s n sd, c.streamData = streamAddr s n ∧ c.sender = s ∧ sd.sender = s ∧ ViewsAt rt w s n sd ∧
      RenounceOk rt w c w' sd (streamedNow w.now sd) := by
  obtain ⟨sd, st, hw⟩ := renounce_ok h
  have hst := hw.stream
  have hok := hr.streamOK hst
  have h1 := hok.addr
  have h2 := hw.streamed_eq
  rw [hok.getStreamed] at h2
  cases h2
  refine ⟨sd.sender, sd.salt, sd, h1, hw.sender, rfl, ?_, hw⟩
  rw [h1] at hst
  exact hr.viewsOf hst

theorem streamAddr_inj {s s' : Addr} {n n' : Nat} (h : streamAddr s n = streamAddr s' n') : s = s' ∧ n = n' := by
  unfold streamAddr at h
  injection h with h
  injection h with h1 h2
  exact ⟨h1, h2⟩

/-- **C13**, cancel: the stream of `(s, n)` can be canceled only with the signature of `s`. -/
theorem C13_only_sender_cancels {rt : Runtime} {w w' : World} (hr : Reachable rt w) {c : CancelAccts} {s : Addr}
    {n : Nat} (hc : c.streamData = streamAddr s n) (h : step rt w (.lockup (.cancel c)) = .ok w') :
    c.sender = s ∧ s.canSign = true ∧ ∃ sd, w.lk.streams (streamAddr s n) = some sd ∧ sd.sender = s := by
  obtain ⟨s', n', sd, dm, b₁, b₂, l, h1, h2, h3, hv, hw⟩ := cancel_stream hr (h : cancel rt w c = _)
  obtain ⟨rfl, rfl⟩ := streamAddr_inj (hc.symm.trans h1)
  exact ⟨h2, by rw [← h2]; exact hw.accts.signs, sd, hv.stream, h3⟩

example := C13_only_sender_cancels reach3 (c := cancelAccts 1) (s := alice) (n := 1) rfl
  (step_after (ix := ixCancel) (by decide +kernel))

/-- **C13**, renounce. -/
theorem C13_only_sender_renounces {rt : Runtime} {w w' : World} (hr : Reachable rt w) {c : RenounceAccts}
    {s : Addr} {n : Nat} (hc : c.streamData = streamAddr s n) (h : step rt w (.lockup (.renounce c)) = .ok w') :
    c.sender = s ∧ s.canSign = true ∧ ∃ sd, w.lk.streams (streamAddr s n) = some sd ∧ sd.sender = s := by
  obtain ⟨s', n', sd, h1, h2, h3, hv, hw⟩ := renounce_stream hr (h : renounce rt w c = _)
  obtain ⟨rfl, rfl⟩ := streamAddr_inj (hc.symm.trans h1)
  exact ⟨h2, by rw [← h2]; exact hw.signs, sd, hv.stream, h3⟩

example := C13_only_sender_renounces reach5 (c := ⟨alice, str 2, nft 2⟩) (s := alice) (n := 2) rfl
  (step_after (ix := ixRenounce) (by decide +kernel))

/-- **C14**, effect: a successful cancel pays the sender's associated account what `refundable_amount_of`
reported just before, records it, announces it, and touches nothing else. -/
theorem C14_cancel_effect {rt : Runtime} {w w' : World} (hr : Reachable rt w) {c : CancelAccts}
    (h : step rt w (.lockup (.cancel c)) = .ok w') :
    ∃ s n sd sd' md x y, c.streamData = streamAddr s n ∧ w.lk.streams (streamAddr s n) = some sd ∧
      w'.lk.streams (streamAddr s n) = some sd' ∧ w.bank.mints sd.depositedTokenMint = some md ∧
      refundableAmountOf rt w (viewOf s n) = .ok x ∧ 0 < x ∧
      withdrawableAmountOf rt w (viewOf s n) = .ok y ∧
      -- recorded
      sd.amounts.refunded = 0 ∧ sd'.amounts.refunded = x ∧ sd'.wasCanceled = true ∧ sd'.isCancelable = false ∧
      sd'.isDepleted = decide (y = 0) ∧ sd'.amounts.withdrawn = sd.amounts.withdrawn ∧ SameTerms sd sd' ∧
      -- paid to the sender's associated account
      c.senderAta = .ata s md.program sd.depositedTokenMint ∧
      c.streamDataAta = .ata (streamAddr s n) md.program sd.depositedTokenMint ∧
      x ≤ w.bank.balance c.streamDataAta ∧
      w'.bank.balance c.streamDataAta = w.bank.balance c.streamDataAta - x ∧
      w'.bank.balance c.senderAta = w.bank.balance c.senderAta + (x - md.fee x) ∧
      -- announced
      w'.log = ⟨w.now, .cancelLockupStream sd.depositedTokenMint y x c.streamData c.streamNftMint⟩ :: w.log ∧
      -- and nothing else
      (∀ z, z ≠ c.streamData → w'.lk.streams z = w.lk.streams z) ∧
      (∀ a, a ≠ c.streamDataAta → a ≠ c.senderAta → w'.bank.tokens a = w.bank.tokens a) ∧
      w'.bank.mints = w.bank.mints ∧ w'.mi = w.mi ∧ w'.lk.treasury = w.lk.treasury ∧
      w'.lk.nftCollectionData = w.lk.nftCollectionData ∧ w'.clock = w.clock ∧ w'.metas = w.metas := by
  obtain ⟨s, n, sd, dm, b₁, b₂, l, h1, h2, h3, hv, hw⟩ := cancel_stream hr (h : cancel rt w c = _)
  have ha := hw.accts
  have hb := hr.bankInv
  have hm : w.bank.mints sd.depositedTokenMint = some dm := by rw [← ha.mintAddr]; exact ha.mint
  have hpay := hw.payout
  have hpr : c.depositedTokenProgram = dm.program := by
    obtain ⟨tv, hv1, hv2, hv3⟩ := ha.vault
    obtain ⟨md', hm1, hm2⟩ := hb.tok_mint _ _ hv1
    have hvm := (ata_token hb (by rw [← ha.vaultAddr]; exact hv1)).2
    rw [hvm, ha.mintAddr, hm] at hm1
    cases hm1
    rw [hm2, hv3]
  have hsa : c.senderAta = .ata s dm.program sd.depositedTokenMint := by
    rw [ha.ensure.1, hpr, ha.mintAddr, h2]
  have hva : c.streamDataAta = .ata (streamAddr s n) dm.program sd.depositedTokenMint := by
    rw [ha.vaultAddr, hpr, ha.mintAddr, h1]
  have hne : c.senderAta ≠ c.streamDataAta := by
    rw [hsa, hva]
    intro h
    injection h with h _ _
    have := ha.signs
    rw [h2, h] at this
    cases this
  obtain ⟨t, t', hs1, _, _, _, hs5, hs6, _, hs8⟩ := hpay.src
  rw [if_neg hne] at hs8
  obtain ⟨md', t2, hd1, hd2, _, _, hd5⟩ := hpay.dst hne
  rw [ha.mint] at hd1; cases hd1
  have hx := hv.refundable
  rw [hw.cancelable, if_pos rfl] at hx
  have hsd' : w'.lk.streams (streamAddr s n) = some (sd.cancel
      (sd.amounts.deposited - streamedNow w.now sd) (streamedNow w.now sd - sd.amounts.withdrawn)) := by
    rw [hw.result, ← h1]; exact upd_same _ _ _
  refine ⟨s, n, sd, sd.cancel (sd.amounts.deposited - streamedNow w.now sd)
    (streamedNow w.now sd - sd.amounts.withdrawn), dm, sd.amounts.deposited - streamedNow w.now sd,
    streamedNow w.now sd - sd.amounts.withdrawn, h1, hv.stream, hsd', hm, hx,
    Nat.sub_pos_of_lt hw.notSettled, hv.withdrawable, (hv.ok.live hw.notCanceled).1, rfl, rfl, rfl, ?_, rfl,
    ⟨rfl, rfl, rfl, rfl, rfl, rfl, rfl, rfl⟩, hsa, hva, ?_, ?_, ?_, by rw [hw.result, ha.mintAddr], ?_,
    fun a h1 h2 => hpay.frame h1 h2, hpay.mints_eq, by rw [hw.result], by rw [hw.result], by rw [hw.result],
    by rw [hw.result], by rw [hw.result]⟩
  · simp [StreamData.cancel, hw.notDepleted]
  · unfold Bank.balance; rw [hs1]; exact hs5
  · unfold Bank.balance; rw [hs1, hs6]; exact hs8
  · conv_lhs => unfold Bank.balance
    rw [hd2]; exact hd5
  · intro z hz
    rw [hw.result]; exact upd_ne _ _ hz

example := C14_cancel_effect reach3 (c := cancelAccts 1) (step_after (ix := ixCancel) (by decide +kernel))

/-- In the demo: 467 of the 800 in the vault go back to alice. -/
example : world3.bank.balance (vault 1) = 800 ∧ world4.bank.balance (vault 1) = 333 ∧
    world4.bank.balance (ataOf alice) = world3.bank.balance (ataOf alice) + 467 := by decide +kernel

/-- **C14**, rejections: with the right accounts the program rejects a cancel exactly when
`refundable_amount_of` is zero, and each code is reported exactly in its case. -/
theorem C14_cancel_errors {rt : Runtime} {w : World} (hr : Reachable rt w) {c : CancelAccts} {s : Addr}
    {n : Nat} {sd : StreamData} {md : MintData} (hc : CancelReady rt w c s n sd md) :
    ∃ x st, refundableAmountOf rt w (viewOf s n) = .ok x ∧ statusOf rt w (viewOf s n) = .ok st ∧
      ((∃ e, step rt w (.lockup (.cancel c)) = .error (.lockup e)) ↔ x = 0) ∧
      (step rt w (.lockup (.cancel c)) = .error (.lockup .streamDepleted) ↔ st = .depleted) ∧
      (step rt w (.lockup (.cancel c)) = .error (.lockup .streamCanceled) ↔ st = .canceled) ∧
      (step rt w (.lockup (.cancel c)) = .error (.lockup .streamIsNotCancelable) ↔
        st ≠ .depleted ∧ st ≠ .canceled ∧ sd.isCancelable = false) ∧
      (step rt w (.lockup (.cancel c)) = .error (.lockup .streamSettled) ↔
        st = .settled ∧ sd.isCancelable = true) := by
  have hv := hr.viewsOf hc.stream
  obtain ⟨w₁, ha⟩ := CancelReady.accounts hr hc
  obtain ⟨b, l, hacc, _, rfl⟩ := cancelAccounts_ok ha
  refine ⟨_, _, hv.refundable, hv.status, ?_⟩
  have hstep : step rt w (.lockup (.cancel c)) =
      cancelHandler { w with bank := b, lamports := l } c sd md := by
    show cancel rt w c = _
    unfold cancel
    rw [ha]; rfl
  obtain ⟨r, hr1, hr2⟩ := cancelHandler_split (rt := rt) (w := { w with bank := b, lamports := l }) (c := c)
    (md := md) (log := w.log) hv.ok
  rw [hstep, hr2]
  have hext : ∀ e, r ≠ .error (.lockup e) := fun e he => hr1 _ he
  have hnow : World.now { w with bank := b, lamports := l } = w.now := rfl
  rw [hnow]
  have hstr := hv.ok.streamed
  have hcn := hv.ok.cancelable
  have hdep := hv.ok.terms.1
  have hpend : w.now < sd.timestamps.start → sd.wasCanceled = false → streamedNow w.now sd = 0 := by
    intro h h'
    simp [streamedNow, h', scheduled, h]
  generalize streamedNow w.now sd = x at *
  unfold checkCancel
  cases hd : sd.isDepleted with
  | true =>
    have : sd.isCancelable = false := by
      cases h : sd.isCancelable with
      | false => rfl
      | true => have := (hcn h).2; rw [hd] at this; cases this
    simp [bind_err, this]
  | false =>
    cases hw : sd.wasCanceled with
    | true =>
      have : sd.isCancelable = false := by
        cases h : sd.isCancelable with
        | false => rfl
        | true => have := (hcn h).1; rw [hw] at this; cases this
      simp [bind_err, this]
    | false =>
      have hpend := fun h => hpend h hw
      by_cases h1 : w.now < sd.timestamps.start
      · have h0 := hpend h1
        subst h0
        have h5 : ¬ sd.amounts.deposited = 0 := by omega
        cases h : sd.isCancelable with
        | false => simp [bind_err, h1]
        | true => simp [bind_err, h1, h5, hext]
      · cases h : sd.isCancelable with
        | false =>
          by_cases h4 : x < sd.amounts.deposited
          · simp [bind_err, h1, h4]
          · simp [bind_err, h1, h4]
        | true =>
          by_cases h4 : x < sd.amounts.deposited
          · have h5 : ¬ sd.amounts.deposited ≤ x := by omega
            have h6 : ¬ sd.amounts.deposited - x = 0 := by omega
            simp [bind_err, h1, h4, h5, h6, hext]
          · have h5 : sd.amounts.deposited ≤ x := by omega
            have h6 : sd.amounts.deposited - x = 0 := by omega
            simp [bind_err, h1, h4, h5, h6]

theorem demo_cancelReady : CancelReady rt world3 (cancelAccts 1) alice 1
    ⟨⟨100, 200, 1000, 0, 200⟩, Demo.mint, 255, 1, true, false, ⟨3000, 6000, 2000⟩, alice, false⟩
    { plainMint with supply := 1000000 } := by
  constructor
  case usable => exact .inl ⟨⟨tok, Demo.mint, alice, 997500, false⟩, by decide +kernel⟩
  all_goals decide +kernel

example := C14_cancel_errors reach3 demo_cancelReady

/-- **C14**, liveness: with the right accounts, in a plain token whose transfers work, a stream with a
positive `refundable_amount_of` can be canceled. -/
theorem C14_cancel_succeeds {rt : Runtime} {w : World} (hr : Reachable rt w) {c : CancelAccts} {s : Addr}
    {n : Nat} {sd : StreamData} {md : MintData} (hc : CancelReady rt w c s n sd md) (hp : md.Plain)
    (ht : Transferable w md c.streamDataAta c.senderAta) {x : Nat}
    (hx : refundableAmountOf rt w (viewOf s n) = .ok x) (h0 : 0 < x) :
    ∃ w', step rt w (.lockup (.cancel c)) = .ok w' := by
  have hv := hr.viewsOf hc.stream
  rw [hv.refundable] at hx
  have hca : sd.isCancelable = true := by
    cases h : sd.isCancelable with
    | true => rfl
    | false => rw [h] at hx; simp at hx; omega
  rw [hca, if_pos rfl] at hx
  cases hx
  have hok := hv.ok
  obtain ⟨w₁, ha⟩ := CancelReady.accounts hr hc
  obtain ⟨b, l, hacc, _, rfl⟩ := cancelAccounts_ok ha
  obtain ⟨hnc, hnd⟩ := hok.cancelable hca
  obtain ⟨md', t, hvt⟩ := hr.vaultsOK _ _ hc.stream
  have hmd : md' = md := by
    have := hvt.mint; rw [hc.mint] at this; cases this; rfl
  subst hmd
  have hstr := hok.streamed
  have href := (hok.live hnc).1
  have hvt1 : w.bank.tokens c.streamDataAta = some t := by rw [hc.a7]; exact hvt.vault
  have hamt : sd.amounts.deposited - streamedNow w.now sd ≤ t.amount := by
    have := hvt.solvent hp
    omega
  have hens := hacc.ensure
  rw [hc.a4, hc.a5] at hens
  obtain ⟨b₂, hb₂⟩ := transfer_of hr.bankInv hens hc.mint rfl hp.1 hc.a7 hvt1 hvt.owner ht.unblocked
    (ht.srcThawed t hvt1) ht.dstThawed ht.opensThawed hamt
  have hcheck : checkCancel sd.isCancelable sd.isDepleted sd.wasCanceled (streamedNow w.now sd)
      sd.amounts.deposited = .ok () := checkCancel_ok.2 ⟨hnd, hnc, hca, by omega⟩
  have hunl : World.Unlocked { w with bank := b, lamports := l } c.streamDataAta c.senderAta :=
    ⟨by rw [hc.a7]; exact congrArg Settings.cpiGuard (hr.vaultSettings rfl _ _), ht.noMemo⟩
  refine bind_succeeds ha (bind_succeeds hok.getStreamed (bind_succeeds hcheck
    (bind_succeeds (subU64_ok.2 ⟨by omega, rfl⟩) (bind_succeeds (subU64_ok.2 ⟨hstr.1, rfl⟩)
      (bind_succeeds (a := { w with bank := b₂, lamports := l }) (transferTokens_iff.2 ⟨hunl, b₂, ?_, rfl⟩) ⟨_, rfl⟩)))))
  rw [hc.a2, hc.a4, hc.a5]
  exact hb₂

theorem demo_cancelTransferable : Transferable world3 { plainMint with supply := 1000000 }
    (cancelAccts 1).streamDataAta (cancelAccts 1).senderAta := by
  refine ⟨rfl, ?_, ?_, fun _ => rfl, by decide +kernel⟩
  · intro t ht
    have : world3.bank.tokens (cancelAccts 1).streamDataAta = some ⟨tok, Demo.mint, str 1, 800, false⟩ := by
      decide +kernel
    rw [this] at ht; cases ht; rfl
  · intro t ht
    have : world3.bank.tokens (cancelAccts 1).senderAta =
        some ⟨tok, Demo.mint, alice, 997500, false⟩ := by decide +kernel
    rw [this] at ht; cases ht; rfl

example : ∃ w', step rt world3 (.lockup (.cancel (cancelAccts 1))) = .ok w' :=
  C14_cancel_succeeds (x := 467) reach3 demo_cancelReady (by decide) demo_cancelTransferable
    (by rw [(reach3.viewsOf (s := alice) (n := 1) demo_cancelReady.stream).refundable]
        exact congrArg Except.ok (by decide +kernel))
    (by omega)

/-- **C15**: a cancel does not change what the recipient can withdraw at that instant, and from then on the
streamed amount is frozen at what it was, whatever happens later. -/
theorem C15_vested_safe {rt : Runtime} {w w' w'' : World} (hr : Reachable rt w) {c : CancelAccts} {s : Addr}
    {n : Nat} (hc : c.streamData = streamAddr s n) (h : step rt w (.lockup (.cancel c)) = .ok w')
    (hs : Steps rt w' w'') :
    ∃ x v r dep, withdrawableAmountOf rt w (viewOf s n) = .ok x ∧ withdrawableAmountOf rt w' (viewOf s n) = .ok x ∧
      streamedAmountOf rt w (viewOf s n) = .ok v ∧ refundableAmountOf rt w (viewOf s n) = .ok r ∧
      (w.lk.streams (streamAddr s n)).map (·.amounts.deposited) = some dep ∧ v + r = dep ∧
      streamedAmountOf rt w'' (viewOf s n) = .ok v ∧ refundableAmountOf rt w'' (viewOf s n) = .ok 0 := by
  obtain ⟨s', n', sd, dm, b₁, b₂, l, h1, h2, h3, hv, hw⟩ := cancel_stream hr (h : cancel rt w c = _)
  obtain ⟨rfl, rfl⟩ := streamAddr_inj (hc.symm.trans h1)
  have hr' := hr.step h
  have hsd' : w'.lk.streams (streamAddr s n) = some (sd.cancel (sd.amounts.deposited - streamedNow w.now sd)
      (streamedNow w.now sd - sd.amounts.withdrawn)) := by rw [hw.result, ← h1]; exact upd_same _ _ _
  have hv' := hr'.viewsOf hsd'
  obtain ⟨sd'', hsd'', hl⟩ := hs.stream hr' hsd'
  have hv'' := (hr'.steps hs).viewsOf hsd''
  have hns := hw.notSettled
  have hx := hv.refundable
  rw [hw.cancelable, if_pos rfl] at hx
  have hlk := hl.locked rfl
  have hcs := hl.canceled rfl
  refine ⟨_, _, _, sd.amounts.deposited, hv.withdrawable, ?_, hv.streamed, hx, by rw [hv.stream]; rfl, by omega,
    ?_, ?_⟩
  · rw [hv'.withdrawable]
    congr 1
    show sd.amounts.deposited - (sd.amounts.deposited - streamedNow w.now sd) - sd.amounts.withdrawn = _
    omega
  · rw [hv''.streamed]
    congr 1
    unfold streamedNow
    rw [hcs.1, if_pos rfl, hl.terms.deposited, hcs.2]
    show sd.amounts.deposited - (sd.amounts.deposited - streamedNow w.now sd) = _
    unfold streamedNow at *
    omega
  · rw [hv''.refundable, hlk.1]
    rfl

example := C15_vested_safe reach3 (c := cancelAccts 1) (s := alice) (n := 1) (w'' := world5) rfl
  (step_after (ix := ixCancel) (by decide +kernel)) steps45

/-- **C16**: after a renounce no cancel of the stream ever succeeds and nothing is ever refunded. -/
theorem C16_renounce_final {rt : Runtime} {w w' w'' : World} (hr : Reachable rt w) {c : RenounceAccts} {s : Addr}
    {n : Nat} (hc : c.streamData = streamAddr s n) (h : step rt w (.lockup (.renounce c)) = .ok w')
    (hs : Steps rt w' w'') :
    (∀ c' w₃, c'.streamData = streamAddr s n → step rt w'' (.lockup (.cancel c')) ≠ .ok w₃) ∧
    (∃ sd, w''.lk.streams (streamAddr s n) = some sd ∧ sd.amounts.refunded = 0 ∧ sd.wasCanceled = false) ∧
    total (refundedBy (streamAddr s n)) w''.log = 0 := by
  obtain ⟨s', n', sd, h1, h2, h3, hv, hw⟩ := renounce_stream hr (h : renounce rt w c = _)
  obtain ⟨rfl, rfl⟩ := streamAddr_inj (hc.symm.trans h1)
  have hr' := hr.step h
  have hsd' : w'.lk.streams (streamAddr s n) = some sd.renounce := by
    rw [hw.result, ← h1]; exact upd_same _ _ _
  obtain ⟨sd'', hsd'', hl⟩ := hs.stream hr' hsd'
  have hlk := hl.locked rfl
  have hnc := (hv.ok.cancelable hw.cancelable).1
  have h0 := (hv.ok.live hnc).1
  have hr'' := hr'.steps hs
  have hz : sd''.amounts.refunded = 0 := hlk.2.2.trans h0
  refine ⟨?_, ⟨sd'', hsd'', hz, hlk.2.1.trans hnc⟩, by rw [(hr''.streamOK hsd'').logR, hz]⟩
  intro c' w₃ hc' h'
  obtain ⟨_, _, sd₃, _, _, _, _, _, _, _, _, hw₃⟩ := cancel_stream hr'' (h' : cancel rt w'' c' = _)
  have := hw₃.accts.stream
  rw [hc', hsd''] at this
  cases this
  have := hw₃.cancelable
  rw [hlk.1] at this
  cases this

example := C16_renounce_final reach5 (c := ⟨alice, str 2, nft 2⟩) (s := alice) (n := 2) (w'' := world8) rfl
  (step_after (ix := ixRenounce) (by decide +kernel)) (steps67.trans steps78)

/-- **C16**: no history cancels a stream twice. -/
theorem C16_cancel_once {rt : Runtime} {w : World} (hr : Reachable rt w) (s : Addr) (n : Nat) :
    total (cancelOf (streamAddr s n)) w.log ≤ 1 := by
  have h := hr.streamsOK (streamAddr s n)
  cases hx : w.lk.streams (streamAddr s n) with
  | none => rw [hx] at h; simp only at h; omega
  | some sd =>
    rw [(hr.streamOK hx).logC]
    split <;> omega

example : total (cancelOf (streamAddr alice 1)) world8.log = 1 := by decide +kernel

/-- **C16**, the other way round: after a successful cancel, no cancel or renounce of it ever succeeds. -/
theorem C16_cancel_final {rt : Runtime} {w w' w'' : World} (hr : Reachable rt w) {c : CancelAccts} {s : Addr}
    {n : Nat} (hc : c.streamData = streamAddr s n) (h : step rt w (.lockup (.cancel c)) = .ok w')
    (hs : Steps rt w' w'') {ix : Ix} (hix : ix.cancels = some (streamAddr s n) ∨ ix.renounces = some (streamAddr s n))
    (w₃ : World) : step rt w'' ix ≠ .ok w₃ := by
  intro h'
  obtain ⟨s', n', sd, dm, b₁, b₂, l, h1, h2, h3, hv, hw⟩ := cancel_stream hr (h : cancel rt w c = _)
  obtain ⟨rfl, rfl⟩ := streamAddr_inj (hc.symm.trans h1)
  have hr' := hr.step h
  have hsd' : w'.lk.streams (streamAddr s n) = some (sd.cancel (sd.amounts.deposited - streamedNow w.now sd)
      (streamedNow w.now sd - sd.amounts.withdrawn)) := by rw [hw.result, ← h1]; exact upd_same _ _ _
  obtain ⟨sd'', hsd'', hl⟩ := hs.stream hr' hsd'
  have hlk := (hl.locked rfl).1
  have hr'' := hr'.steps hs
  rcases hix with hix | hix
  · match ix, hix with
    | .lockup (.cancel c'), hix =>
      obtain ⟨_, _, sd₃, _, _, _, _, _, _, _, _, hw₃⟩ := cancel_stream hr'' (h' : cancel rt w'' c' = _)
      have := hw₃.accts.stream
      rw [Option.some.inj hix, hsd''] at this
      cases this
      have := hw₃.cancelable
      rw [hlk] at this
      cases this
  · match ix, hix with
    | .lockup (.renounce c'), hix =>
      obtain ⟨_, _, sd₃, _, _, _, _, hw₃⟩ := renounce_stream hr'' (h' : renounce rt w'' c' = _)
      have := hw₃.stream
      rw [Option.some.inj hix, hsd''] at this
      cases this
      have := hw₃.cancelable
      rw [hlk] at this
      cases this

example := C16_cancel_final reach3 (c := cancelAccts 1) (s := alice) (n := 1) (w'' := world8)
  (ix := ixCancel) rfl (step_after (ix := ixCancel) (by decide +kernel))
  (steps45.trans (steps56.trans (steps67.trans steps78))) (.inl rfl)

/-- **C17**: with the right accounts, renounce succeeds exactly when the stream is cancelable and not fully
streamed, and otherwise reports `StreamAlreadyNonCancelable`. -/
theorem C17_renounce_rule {rt : Runtime} {w : World} (hr : Reachable rt w) {c : RenounceAccts} {s : Addr}
    {n : Nat} {sd : StreamData} (hs : w.lk.streams (streamAddr s n) = some sd) (hc : RenounceReady c s n) :
    ∃ x, streamedAmountOf rt w (viewOf s n) = .ok x ∧
      ((∃ w', step rt w (.lockup (.renounce c)) = .ok w') ↔ sd.isCancelable = true ∧ x < sd.amounts.deposited) ∧
      (step rt w (.lockup (.renounce c)) = .error (.lockup .streamAlreadyNonCancelable) ↔
        ¬ (sd.isCancelable = true ∧ x < sd.amounts.deposited)) := by
  have hv := hr.viewsOf hs
  have hsend : sd.sender = s := by
    have := hv.ok.addr
    exact (streamAddr_inj this).1.symm
  refine ⟨_, hv.streamed, ?_⟩
  have hl : loadStream rt w c.streamData c.streamNftMint = .ok sd := by
    rw [hc.a2, hc.a3]; exact hr.load hs
  have hstep : step rt w (.lockup (.renounce c)) =
      (checkRenounce sd.isCancelable sd.amounts.deposited (streamedNow w.now sd) >>= fun _ =>
        .ok (World.emit { w with lk := { w.lk with streams := upd w.lk.streams c.streamData (some sd.renounce) } }
          (.renounceLockupStream sd.depositedTokenMint c.streamData c.streamNftMint))) := by
    show renounce rt w c = _
    unfold renounce
    have h1 : require (c.sender.canSign = true) (.anchor .accountNotSigner) = .ok () := require_ok.2 hc.signer
    have h2 : require (c.sender = sd.sender) (.anchor .constraintAddress) = .ok () :=
      require_ok.2 (by rw [hc.sender, hsend])
    rw [h1]
    show (loadStream rt w c.streamData c.streamNftMint >>= _ : Res World) = _
    rw [hl]
    show (require (c.sender = sd.sender) (.anchor .constraintAddress) >>= _ : Res World) = _
    rw [h2]
    show (getStreamedAmount w.now _ _ _ _ >>= _ : Res World) = _
    rw [hv.ok.getStreamed]
    rfl
  rw [hstep]
  unfold checkRenounce
  by_cases h1 : sd.isCancelable = true ∧ streamedNow w.now sd < sd.amounts.deposited
  · have h2 : ¬ sd.amounts.deposited ≤ streamedNow w.now sd := by omega
    simp [h1.1, h2, h1.2, bind, Except.bind]
  · have h2 : (!sd.isCancelable || decide (streamedNow w.now sd ≥ sd.amounts.deposited)) = true := by
      cases h : sd.isCancelable with
      | false => rfl
      | true =>
        have : ¬ streamedNow w.now sd < sd.amounts.deposited := fun hh => h1 ⟨h, hh⟩
        simp; omega
    rw [if_pos h2]
    simp [h1, bind, Except.bind]

example := C17_renounce_rule reach5 (c := ⟨alice, str 2, nft 2⟩) (s := alice) (n := 2)
  (sd := ⟨⟨0, 0, 700, 0, 0⟩, Demo.mint, 255, 2, true, false, ⟨0, 10000, 1000⟩, alice, false⟩)
  (by decide +kernel) (by constructor <;> decide +kernel)

/-- **C17**: renounce clears the cancelable flag, emits its event and changes nothing else in the world. -/
theorem C17_renounce_effect {rt : Runtime} {w w' : World} {c : RenounceAccts}
    (h : step rt w (.lockup (.renounce c)) = .ok w') :
    ∃ sd, w.lk.streams c.streamData = some sd ∧
      w' = { w with
        lk := { w.lk with streams := fun x => if x = c.streamData then some { sd with isCancelable := false }
                                              else w.lk.streams x }
        log := ⟨w.now, .renounceLockupStream sd.depositedTokenMint c.streamData c.streamNftMint⟩ :: w.log } := by
  obtain ⟨sd, st, hw⟩ := renounce_ok (h : renounce rt w c = _)
  exact ⟨sd, hw.stream, hw.result⟩

example := C17_renounce_effect (w := world5) (step_after (ix := ixRenounce) (by decide +kernel))

end Solsab.Props
