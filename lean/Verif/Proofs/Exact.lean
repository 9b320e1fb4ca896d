import Verif.Proofs.StreamSteps
/-!
# Exact conditions and results of the instructions on a stream when the destination account exists
-/

namespace Solsab

open Spec Lockup

theorem ensureAta_existing {rt : Runtime} {w w' : World} {payer addr owner mint : Addr} {tp : TokenProgram}
    (he : w.bank.tokens addr ≠ none) :
    w.ensureAta rt payer addr owner tp mint = .ok w' ↔ w' = w ∧ w.bank.Ensure addr owner tp mint w.bank := by
  unfold World.ensureAta Bank.Ensure
  cases h : w.bank.tokens addr with
  | none => exact absurd h he
  | some t =>
    simp only [bind_ok, require_ok, pure_ok, h, true_and, reduceCtorEq, false_and, or_false, Option.some.injEq]
    constructor
    · rintro ⟨_, ⟨h1, h2⟩, _, h3, _, h4, rfl⟩
      exact ⟨rfl, h4, t, rfl, h1, h2, h3⟩
    · rintro ⟨rfl, h4, _, rfl, h1, h2, h3⟩
      exact ⟨(), ⟨h1, h2⟩, (), h3, (), h4, rfl⟩

namespace Lockup

theorem withdrawAccounts_exact {rt : Runtime} {w w₁ : World} {c : WithdrawAccts} {sd : StreamData}
    {dm : MintData} (he : w.bank.tokens c.withdrawalRecipientAta ≠ none) :
    withdrawAccounts rt w c = .ok (w₁, sd, dm) ↔ w₁ = w ∧ WithdrawAccountsOk rt w c sd dm w.bank := by
  simp only [withdrawAccounts, bind_ok, require_ok, fetch_ok, pure_ok, loadTreasury_ok, loadStream_ok,
    checkAta_ok, Prod.mk.injEq, ensureAta_existing he]
  constructor
  · rintro ⟨_, hs, _, hd, tr, ⟨ht, hta, htb⟩, sd', ⟨h1, h2, h3, h4⟩, _, hm, dm', hdm, nft, ⟨n1, n2, n3, n4⟩, _,
      n5, v, ⟨v1, v2, v3, v4⟩, _, c1, _, c2, w₂, ⟨rfl, hb⟩, rfl, rfl, rfl⟩
    refine ⟨rfl, ⟨hs, ?_, ⟨tr, ht, htb, c1, c2⟩, hta, h1, h2, h3, h4, hm, hdm, ⟨nft, n1, n2, n4, n5⟩, n3,
      ⟨v, v1, v2, v4⟩, v3, hb⟩⟩
    rcases hd with h | ⟨_, h⟩
    · exact .inl h
    · exact .inr h
  · rintro ⟨rfl, hs, hd, ⟨tr, ht, htb, c1, c2⟩, hta, h1, h2, h3, h4, hm, hdm, ⟨nft, n1, n2, n4, n5⟩, n3,
      ⟨v, v1, v2, v4⟩, v3, hb⟩
    refine ⟨(), hs, (), ?_, tr, ⟨ht, hta, htb⟩, sd, ⟨h1, h2, h3, h4⟩, (), hm, dm, hdm, nft, ⟨n1, n2, n3, n4⟩, (), n5, v,
      ⟨v1, v2, v3, v4⟩, (), c1, (), c2, w₁, ⟨rfl, hb⟩, rfl, rfl, rfl⟩
    by_cases h : c.withdrawalRecipient = c.streamRecipient
    · exact .inl h
    · rcases hd with h' | h'
      · exact .inl h'
      · exact .inr ⟨h, h'⟩

theorem cancelAccounts_exact {rt : Runtime} {w w₁ : World} {c : CancelAccts} {sd : StreamData}
    {dm : MintData} (he : w.bank.tokens c.senderAta ≠ none) :
    cancelAccounts rt w c = .ok (w₁, sd, dm) ↔ w₁ = w ∧ CancelAccountsOk rt w c sd dm w.bank := by
  simp only [cancelAccounts, bind_ok, require_ok, fetch_ok, pure_ok, loadStream_ok,
    checkAta_ok, Prod.mk.injEq, ensureAta_existing he]
  constructor
  · rintro ⟨_, hs, sd', ⟨h1, h2, h3, h4⟩, _, hsn, _, hm, dm', hdm, v, ⟨v1, v2, v3, v4⟩, w₂, ⟨rfl, hb⟩, rfl, rfl, rfl⟩
    exact ⟨rfl, hs, hsn, h1, h2, h3, h4, hm, hdm, ⟨v, v1, v2, v4⟩, v3, hb⟩
  · rintro ⟨rfl, hs, hsn, h1, h2, h3, h4, hm, hdm, ⟨v, v1, v2, v4⟩, v3, hb⟩
    exact ⟨(), hs, sd, ⟨h1, h2, h3, h4⟩, (), hsn, (), hm, dm, hdm, v, ⟨v1, v2, v3, v4⟩, w₁, ⟨rfl, hb⟩, rfl, rfl, rfl⟩

/-- The record after a payout of `x`. -/
def StreamData.paid (sd : StreamData) (x : Nat) : StreamData :=
  if sd.amounts.deposited - sd.amounts.refunded ≤ sd.amounts.withdrawn + x then
    { sd with amounts := { sd.amounts with withdrawn := sd.amounts.withdrawn + x }
              isCancelable := false, isDepleted := true }
  else { sd with amounts := { sd.amounts with withdrawn := sd.amounts.withdrawn + x } }

theorem withdraw_paid {rt now log a} {sd : StreamData} {x : Nat} (h : StreamOK rt now log a sd)
    (hx : sd.amounts.withdrawn + x ≤ streamedNow now sd) : sd.withdraw x = .ok (sd.paid x) := by
  have h1 := h.streamed
  have h2 := h.dep64
  have h3 := h.sum_le
  unfold StreamData.withdraw StreamData.paid addU64 subU64
  simp only [show sd.amounts.withdrawn + x < 2 ^ 64 by omega, if_true, bind, Except.bind, pure, Except.pure,
    show sd.amounts.refunded ≤ sd.amounts.deposited by omega, ge_iff_le]
  split <;> rfl

theorem withdraw_exact {rt : Runtime} {w w' : World} (hr : Reachable rt w) {c : WithdrawAccts} {x : Nat}
    {sd : StreamData} (hx : w.lk.streams c.streamData = some sd)
    (he : w.bank.tokens c.withdrawalRecipientAta ≠ none) :
    withdraw rt w c x = .ok w' ↔ ∃ dm b, WithdrawAccountsOk rt w c sd dm w.bank ∧
      sd.isDepleted = false ∧ 0 < x ∧ sd.amounts.withdrawn + x ≤ streamedNow w.now sd ∧
      w.Unlocked c.streamDataAta c.withdrawalRecipientAta ∧
      w.bank.transferChecked c.streamDataAta c.withdrawalRecipientAta c.streamData c.depositedTokenMint
        c.depositedTokenProgram x dm.decimals = .ok b ∧
      w' = { w with
        bank := b
        lk := { w.lk with streams := upd w.lk.streams c.streamData (some (sd.paid x)) }
        log := ⟨w.now, .withdrawFromLockupStream c.depositedTokenMint 0 c.streamData c.streamNftMint x⟩ :: w.log } := by
  have hok := hr.streamOK hx
  have hle := hok.streamed.1
  constructor
  · intro h
    simp only [withdraw, bind_ok] at h
    obtain ⟨⟨w₁, sd', dm⟩, ha, hh⟩ := h
    obtain ⟨rfl, hacc⟩ := (withdrawAccounts_exact he).1 ha
    have e := hacc.stream
    rw [hx] at e; cases e
    obtain ⟨⟨y, hy, hxy⟩, hd, hp, sd'', b₂, hsd, hb, rfl⟩ := withdrawHandler_ok hh
    rw [hok.getWithdrawable] at hy; cases hy
    have hxle : sd.amounts.withdrawn + x ≤ streamedNow w₁.now sd := by omega
    rw [withdraw_paid hok hxle] at hsd; cases hsd
    exact ⟨dm, b₂, hacc, hd, hp, hxle, withdrawHandler_unlocked hh, hb, rfl⟩
  · rintro ⟨dm, b, hacc, hd, hp, hxle, hu, hb, rfl⟩
    simp only [withdraw, bind_ok]
    refine ⟨⟨w, sd, dm⟩, (withdrawAccounts_exact he).2 ⟨rfl, hacc⟩, ?_⟩
    simp only [withdrawHandler, bind_ok, checkWithdraw_ok, WITHDRAWAL_FEE_USD, chargeFee_zero, ok_inj, pure_ok]
    exact ⟨_, hok.getWithdrawable, (), ⟨hd, hp, by omega⟩, _, withdraw_paid hok hxle, (w, 0), rfl,
      { w with bank := b }, transferTokens_iff.2 ⟨hu, b, hb, rfl⟩, rfl⟩

theorem cancel_exact {rt : Runtime} {w w' : World} (hr : Reachable rt w) {c : CancelAccts}
    {sd : StreamData} (hx : w.lk.streams c.streamData = some sd) (he : w.bank.tokens c.senderAta ≠ none) :
    cancel rt w c = .ok w' ↔ ∃ dm b, CancelAccountsOk rt w c sd dm w.bank ∧
      sd.isDepleted = false ∧ sd.wasCanceled = false ∧ sd.isCancelable = true ∧
      streamedNow w.now sd < sd.amounts.deposited ∧
      w.Unlocked c.streamDataAta c.senderAta ∧
      w.bank.transferChecked c.streamDataAta c.senderAta c.streamData c.depositedTokenMint
        c.depositedTokenProgram (sd.amounts.deposited - streamedNow w.now sd) dm.decimals = .ok b ∧
      w' = { w with
        bank := b
        lk := { w.lk with streams := upd w.lk.streams c.streamData <|
          (some (sd.cancel (sd.amounts.deposited - streamedNow w.now sd)
            (streamedNow w.now sd - sd.amounts.withdrawn))) }
        log := ⟨w.now, .cancelLockupStream c.depositedTokenMint (streamedNow w.now sd - sd.amounts.withdrawn)
          (sd.amounts.deposited - streamedNow w.now sd) c.streamData c.streamNftMint⟩ :: w.log } := by
  have hok := hr.streamOK hx
  have hle := hok.streamed
  constructor
  · intro h
    simp only [cancel, bind_ok] at h
    obtain ⟨⟨w₁, sd', dm⟩, ha, hh⟩ := h
    obtain ⟨rfl, hacc⟩ := (cancelAccounts_exact he).1 ha
    have e := hacc.stream
    rw [hx] at e; cases e
    obtain ⟨st, b, hs, ⟨h1, h2, h3, h4⟩, _, hb, rfl⟩ := cancelHandler_ok hh
    rw [hok.getStreamed] at hs; cases hs
    exact ⟨dm, b, hacc, h1, h2, h3, h4, cancelHandler_unlocked hh, hb, rfl⟩
  · rintro ⟨dm, b, hacc, h1, h2, h3, h4, hu, hb, rfl⟩
    simp only [cancel, bind_ok]
    refine ⟨⟨w, sd, dm⟩, (cancelAccounts_exact he).2 ⟨rfl, hacc⟩, ?_⟩
    simp only [cancelHandler, bind_ok, checkCancel_ok, subU64_ok, pure_ok]
    exact ⟨_, hok.getStreamed, (), ⟨h1, h2, h3, h4⟩, _, ⟨hle.2, rfl⟩, _, ⟨hle.1, rfl⟩,
      { w with bank := b }, transferTokens_iff.2 ⟨hu, b, hb, rfl⟩, rfl⟩

theorem renounce_exact {rt : Runtime} {w w' : World} (hr : Reachable rt w) {c : RenounceAccts}
    {sd : StreamData} (hx : w.lk.streams c.streamData = some sd) :
    renounce rt w c = .ok w' ↔ (c.sender.canSign = true ∧ c.sender = sd.sender ∧
      c.streamData = .streamData c.streamNftMint ∧ sd.bump = rt.bump c.streamData ∧
      ∃ md, w.bank.mints c.streamNftMint = some md) ∧ sd.isCancelable = true ∧
      streamedNow w.now sd < sd.amounts.deposited ∧
      w' = { w with
        lk := { w.lk with streams := upd w.lk.streams c.streamData (some sd.renounce) }
        log := ⟨w.now, .renounceLockupStream sd.depositedTokenMint c.streamData c.streamNftMint⟩ :: w.log } := by
  have hok := hr.streamOK hx
  simp only [renounce, bind_ok, require_ok, loadStream_ok, checkRenounce_ok, pure_ok]
  constructor
  · rintro ⟨_, hs, sd', ⟨h1, h2, h3, h4⟩, _, hsn, s, hst, _, ⟨hc, hlt⟩, rfl⟩
    rw [hx] at h1; cases h1
    rw [hok.getStreamed] at hst; cases hst
    exact ⟨⟨hs, hsn, h2, h3, h4⟩, hc, hlt, rfl⟩
  · rintro ⟨⟨hs, hsn, h2, h3, h4⟩, hc, hlt, rfl⟩
    exact ⟨(), hs, sd, ⟨hx, h2, h3, h4⟩, (), hsn, _, hok.getStreamed, (), ⟨hc, hlt⟩, rfl⟩

end Lockup

/-! ## Two transfers out of the same account commute -/

theorem transferChecked_of {b b' : Bank} {s d x m : Addr} {tp : TokenProgram} {amt dec : Nat}
    {tf tt : TokenData} {md : MintData} (hf : TransferFacts b s d m tp amt b' tf tt md) (ho : tf.owner = x)
    (hd : md.decimals = dec) : b.transferChecked s d x m tp amt dec = .ok b' := by
  simp only [Bank.transferChecked, Bank.transferCore, bind_ok, fetch_ok, require_ok]
  refine ⟨tf, hf.src, md, hf.mint, (), ho, (), hd, tf, hf.src, tt, hf.dst, md, hf.mint, (), hf.prog, (), hf.mints, (),
    hf.thawed, (), hf.unblocked, (), hf.funds, ?_⟩
  rcases hf.result with ⟨rfl, rfl⟩ | ⟨h1, h2, rfl⟩
  · rw [if_pos rfl]; rfl
  · rw [if_neg h1]
    simp only [bind_ok, require_ok, pure_ok]
    exact ⟨(), h2, trivial⟩

theorem transfer_swap {b b₁ b₂ : Bank} {v r s x m : Addr} {tp : TokenProgram} {k l dec dec' : Nat}
    (hr : r ≠ v) (hs : s ≠ v)
    (h1 : b.transferChecked v r x m tp k dec = .ok b₁) (h2 : b₁.transferChecked v s x m tp l dec' = .ok b₂) :
    ∃ b₁', b.transferChecked v s x m tp l dec' = .ok b₁' ∧ b₁'.transferChecked v r x m tp k dec = .ok b₂ := by
  obtain ⟨tf, tr, md, hf, ho, hd⟩ := transferChecked_ok h1
  obtain ⟨tf', ts, md', hf', ho', hd'⟩ := transferChecked_ok h2
  rcases hf.result with ⟨hvr, _⟩ | ⟨_, hov, hb1⟩
  · exact absurd hvr.symm hr
  rcases hf'.result with ⟨hvs, _⟩ | ⟨_, hov', hb2⟩
  · exact absurd hvs.symm hs
  have t1 : b₁.tokens = upd (upd b.tokens v (some { tf with amount := tf.amount - k })) r
      (some { tr with amount := tr.amount + (k - md.fee k) }) := by rw [hb1]; rfl
  have m1 : b₁.mints = b.mints := by rw [hb1]; rfl
  have e1 := hf'.src
  rw [t1, upd_ne _ _ hr.symm, upd_same] at e1
  have e1 := Option.some.inj e1
  have e2 := hf'.mint
  rw [m1, hf.mint] at e2
  have e2 := Option.some.inj e2
  subst e1 e2
  have f0 := hf.funds
  have f1 : l ≤ tf.amount - k := hf'.funds
  by_cases hrs : s = r
  · subst hrs
    have e3 := hf'.dst
    rw [t1, upd_same] at e3
    have e3 := Option.some.inj e3
    subst e3
    have hov'' : tr.amount + (k - md.fee k) + (l - md.fee l) < 2 ^ 64 := hov'
    refine ⟨b.move v s tf tr l (md.fee l), transferChecked_of (tf := tf) (tt := tr) (md := md)
      ⟨hf.src, hf.dst, hf.mint, hf.prog, hf.mints, hf.thawed, hf.unblocked, by omega,
        .inr ⟨hs.symm, by omega, rfl⟩⟩ ho hd', ?_⟩
    refine transferChecked_of (tf := { tf with amount := tf.amount - l })
      (tt := { tr with amount := tr.amount + (l - md.fee l) }) (md := md)
      ⟨?_, ?_, hf.mint, hf.prog, hf.mints, hf.thawed, hf.unblocked, ?_, .inr ⟨hs.symm, ?_, ?_⟩⟩ ho hd
    · show upd (upd _ _ _) _ _ v = _
      rw [upd_ne _ _ hs.symm, upd_same]
    · exact upd_same _ _ _
    · show k ≤ tf.amount - l
      omega
    · show tr.amount + (l - md.fee l) + (k - md.fee k) < 2 ^ 64
      omega
    · rw [hb2, hb1]
      unfold Bank.move Bank.setToken
      congr 1
      funext a
      by_cases ha : a = s
      · subst ha
        simp only [upd_same]
        congr 2; omega
      · by_cases ha' : a = v
        · subst ha'
          simp only [upd_ne _ _ ha, upd_same]
          congr 2; omega
        · simp only [upd_ne _ _ ha, upd_ne _ _ ha']
  · have e3 := hf'.dst
    rw [t1, upd_ne _ _ hrs, upd_ne _ _ hs] at e3
    refine ⟨b.move v s tf ts l (md.fee l), transferChecked_of (tf := tf) (tt := ts) (md := md)
      ⟨hf.src, e3, hf.mint, ⟨hf.prog.1, hf'.prog.2.1, hf.prog.2.2⟩, ⟨hf.mints.1, hf'.mints.2⟩,
        ⟨hf.thawed.1, hf'.thawed.2⟩, hf.unblocked, by omega, .inr ⟨hs.symm, hov', rfl⟩⟩ ho hd', ?_⟩
    refine transferChecked_of (tf := { tf with amount := tf.amount - l })
      (tt := tr) (md := md)
      ⟨?_, ?_, hf.mint, hf.prog, hf.mints, hf.thawed, hf.unblocked, ?_, .inr ⟨hr.symm, hov, ?_⟩⟩ ho hd
    · show upd (upd _ _ _) _ _ v = _
      rw [upd_ne _ _ hs.symm, upd_same]
    · show upd (upd _ _ _) _ _ r = _
      rw [upd_ne _ _ (fun e => hrs e.symm), upd_ne _ _ hr]; exact hf.dst
    · show k ≤ tf.amount - l
      omega
    · rw [hb2, hb1]
      unfold Bank.move Bank.setToken
      congr 1
      funext a
      by_cases ha : a = s
      · subst ha
        simp only [upd_same, upd_ne _ _ hrs, upd_ne _ _ hs]
      · by_cases ha' : a = r
        · subst ha'
          simp only [upd_same, upd_ne _ _ ha, upd_ne _ _ hr]
        · by_cases ha'' : a = v
          · subst ha''
            simp only [upd_ne _ _ ha, upd_ne _ _ ha', upd_same]
            congr 2; omega
          · simp only [upd_ne _ _ ha, upd_ne _ _ ha', upd_ne _ _ ha'']

end Solsab
