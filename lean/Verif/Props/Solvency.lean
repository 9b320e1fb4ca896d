import Verif.Proofs.CreateReady
import Verif.Proofs.VaultFlow
import Verif.Props.Cancel
/-!
# C18–C21, C25: vault solvency, accounting, isolation
-/

namespace Solsab.Props

open Lockup Spec Demo

/-- **C18**: the vault of a stream in a plain token exists, belongs to the stream account, and holds at least
what is still owed (deposit − withdrawn − refunded), in every reachable state. -/
theorem C18_solvent {rt : Runtime} {w : World} (hr : Reachable rt w) {s : Addr} {n : Nat} {sd : StreamData}
    (hs : w.lk.streams (streamAddr s n) = some sd) :
    ∃ md t, w.bank.mints sd.depositedTokenMint = some md ∧
      w.bank.tokens (.ata (streamAddr s n) md.program sd.depositedTokenMint) = some t ∧
      t.owner = streamAddr s n ∧ t.mint = sd.depositedTokenMint ∧
      (md.Plain → sd.amounts.deposited - sd.amounts.withdrawn - sd.amounts.refunded ≤ t.amount) := by
  obtain ⟨md, t, hv⟩ := hr.vaultsOK _ _ hs
  refine ⟨md, t, hv.mint, hv.vault, hv.owner, hv.tmint, fun hp => ?_⟩
  have := hv.solvent hp
  omega

example := C18_solvent reach4 (s := alice) (n := 1)
  (sd := ⟨⟨100, 200, 1000, 467, 200⟩, Demo.mint, 255, 1, false, false, ⟨3000, 6000, 2000⟩, alice, true⟩)
  (by decide +kernel)

/-- **C18**, from the events alone: what the stream's events say was paid out, plus the vault, covers the
deposit. -/
theorem C18_solvent_history {rt : Runtime} {w : World} (hr : Reachable rt w) {s : Addr} {n : Nat}
    {sd : StreamData} (hs : w.lk.streams (streamAddr s n) = some sd) {md : MintData}
    (hm : w.bank.mints sd.depositedTokenMint = some md) (hp : md.Plain) :
    sd.amounts.deposited ≤ w.bank.balance (.ata (streamAddr s n) md.program sd.depositedTokenMint) +
      total (withdrawnBy (streamAddr s n)) w.log + total (refundedBy (streamAddr s n)) w.log := by
  obtain ⟨md', t, hv⟩ := hr.vaultsOK _ _ hs
  have e := hv.mint; rw [hm] at e; cases e
  have hok := hr.streamOK hs
  rw [hok.logW, hok.logR, Bank.balance, hv.vault]
  exact hv.solvent hp

example := C18_solvent_history reach4 (s := alice) (n := 1)
  (sd := ⟨⟨100, 200, 1000, 467, 200⟩, Demo.mint, 255, 1, false, false, ⟨3000, 6000, 2000⟩, alice, true⟩)
  (md := { plainMint with supply := 1000000 }) (by decide +kernel) (by decide +kernel) (by decide)

/-- **C19 fails**: with a Token-2022 mint that charges a transfer fee there is a reachable state whose stream
vault holds less than what is owed, ... -/
theorem C19_fails : ∃ rt w s n sd md t, Reachable rt w ∧ w.lk.streams (streamAddr s n) = some sd ∧
    w.bank.mints sd.depositedTokenMint = some md ∧ md.permanentDelegate = none ∧
    w.bank.tokens (.ata (streamAddr s n) md.program sd.depositedTokenMint) = some t ∧
    t.amount < sd.amounts.deposited - sd.amounts.withdrawn - sd.amounts.refunded :=
  ⟨rt, worldF1, alice, 3, ⟨⟨0, 0, 1000, 0, 0⟩, feeMint, 255, 3, true, false, ⟨0, 6000, 2000⟩, alice, false⟩,
    { feeMintData with supply := 10000 }, ⟨.token2022, feeMint, str 3, 990, false⟩, reachF1, by decide +kernel,
    by decide +kernel, rfl, by decide +kernel, by decide⟩

/-- ... and there `withdraw_max` of the ended stream fails for lack of tokens, although
`withdrawable_amount_of` reports the full deposit. -/
theorem C19_fails_withdraw : Reachable rt worldF2 ∧
    (withdrawableAmountOf rt worldF2 (viewOf alice 3)).toOption = some 1000 ∧
    (match step rt worldF2 (.lockup (.withdrawMax feeWithdrawAccts)) with
      | .error (.token .insufficientFunds) => true | _ => false) = true ∧
    (step rt worldF2 (.lockup (.withdraw feeWithdrawAccts 990))).isOk = true :=
  ⟨reachF2, by decide +kernel, by decide +kernel, by decide +kernel⟩

/-- **C19**, for every mint the program accepts: right after creation the vault holds exactly
`deposit − fee(deposit)`, where `fee` is the token's own transfer fee, so the stream is fully backed exactly if that
fee is zero; and unless the mint has a permanent delegate, from then on, in every history,
vault + withdrawn + refunded never drops below that amount: the shortfall never exceeds the initial fee. -/
theorem C19_floor {rt : Runtime} {w w' w'' : World} (hr : Reachable rt w) {ix : Ix} {s : Addr} {n : Nat}
    (hix : ix.creates = some (streamAddr s n)) (h : step rt w ix = .ok w') (hs : Steps rt w' w'') :
    ∃ sd md t md'' sd'' t'', w'.lk.streams (streamAddr s n) = some sd ∧ w''.lk.streams (streamAddr s n) = some sd'' ∧
      w'.bank.mints sd.depositedTokenMint = some md ∧
      w'.bank.tokens (.ata (streamAddr s n) md.program sd.depositedTokenMint) = some t ∧
      t.amount = sd.amounts.deposited - md.fee sd.amounts.deposited ∧
      sd.amounts.withdrawn = 0 ∧ sd.amounts.refunded = 0 ∧
      w''.bank.mints sd.depositedTokenMint = some md'' ∧
      w''.bank.tokens (.ata (streamAddr s n) md.program sd.depositedTokenMint) = some t'' ∧
      t''.owner = streamAddr s n ∧
      (md.permanentDelegate = none →
        sd.amounts.deposited - md.fee sd.amounts.deposited ≤
          t''.amount + sd''.amounts.withdrawn + sd''.amounts.refunded) := by
  have hd := step_did h
  have hr' := hr.step h
  rcases hd.stream (streamAddr s n) with ⟨hq, hsp⟩ |
    ⟨c, p, nd, dm, md, cm, k, name, b₁, b₂, b₃, b₄, b₆, l, hc, hcr, hp', hok⟩ |
    ⟨c, amount, sd₁, sd₂, dm, b₁, b₂, l, hc, hix', hok'⟩ | ⟨c, sd₁, dm, streamed, b₁, b₂, l, hc, hix', hok'⟩ |
    ⟨c, sd₁, streamed, hc, hix', hok'⟩
  · exfalso
    -- a successful create changes the stream account
    cases ix with
    | merkle i => cases hix
    | env i => cases hix
    | lockup i =>
      cases i with
      | createWithTimestamps c salt dep st cl en su cu ca =>
        obtain ⟨_, _, _, _, _, _, _, _, _, _, _, _, hok⟩ := create_ok (h : createWithTimestamps rt w c _ = _)
        have h1 := hok.fresh
        have h2 := hq.data
        have h3 : c.streamData = streamAddr s n := Option.some.inj hix
        rw [← h3, hok.result] at h2
        simp only [upd_same] at h2
        rw [h1] at h2; cases h2
      | createWithDurations c salt dep cd td su cu ca =>
        obtain ⟨_, _, h⟩ := createWithDurations_eq (h : createWithDurations rt w c _ = _)
        obtain ⟨_, _, _, _, _, _, _, _, _, _, _, _, hok⟩ := create_ok h
        have h1 := hok.fresh
        have h2 := hq.data
        have h3 : c.streamData = streamAddr s n := Option.some.inj hix
        rw [← h3, hok.result] at h2
        simp only [upd_same] at h2
        rw [h1] at h2; cases h2
      | _ => cases hix
  · have hb6 : w'.bank = b₆ := by rw [hok.result]
    obtain ⟨md', t, h1, h2, h3, h4, h5, h6, h7⟩ := CreateOk.vault hok hr.bankInv
    have hsd : w'.lk.streams (streamAddr s n) = some (StreamData.create c.depositTokenMint (rt.bump c.streamData)
        p.cliffTime p.cliffUnlockAmount p.depositAmount p.endTime p.salt p.isCancelable c.sender p.startTime
        p.startUnlockAmount) := by rw [hok.result, ← hc]; simp
    obtain ⟨md₁, t₁, hv⟩ := hr'.vaultsOK _ _ hsd
    have e1 : md₁ = md' := by
      have := hv.mint
      rw [hb6] at this
      rw [show (StreamData.create c.depositTokenMint (rt.bump c.streamData)
        p.cliffTime p.cliffUnlockAmount p.depositAmount p.endTime p.salt p.isCancelable c.sender p.startTime
        p.startUnlockAmount).depositedTokenMint = c.depositTokenMint from rfl, h1] at this
      cases this; rfl
    subst e1
    have e2 : t₁ = t := by
      have := hv.vault
      have hva := hok.vaultAddr
      rw [hc, ← hok.program, ← h2.1] at hva
      rw [hb6] at this
      rw [hva] at h3
      rw [show (StreamData.create c.depositTokenMint (rt.bump c.streamData)
        p.cliffTime p.cliffUnlockAmount p.depositAmount p.endTime p.salt p.isCancelable c.sender p.startTime
        p.startUnlockAmount).depositedTokenMint = c.depositTokenMint from rfl, h3] at this
      cases this; rfl
    subst e2
    obtain ⟨sd'', hsd'', hl⟩ := hs.stream hr' hsd
    obtain ⟨md'', t'', hv'', hk, hfl⟩ := hs.vault_flow hr' hsd hsd'' hv
    refine ⟨_, md₁, t₁, md'', sd'', t'', hsd, hsd'', hv.mint, hv.vault, h7, rfl, rfl, ?_, ?_, hv''.owner, ?_⟩
    · rw [← hl.terms.mint]; exact hv''.mint
    · rw [← hl.terms.mint, ← hk.1]; exact hv''.vault
    · intro hpd
      have := hfl hpd
      rw [h7] at this
      exact this
  all_goals
    exfalso
    cases ix with
    | merkle i => cases hix
    | env i => cases hix
    | lockup i => cases i <;> first | (cases hix; done) | (cases hix'; done)

example := C19_floor reachF0 (ix := ixFeeCreate) (s := alice) (n := 3) (w'' := worldF2) rfl
  (step_after (by decide +kernel)) stepsF2

/-- **C19**, the other way to lose solvency: whoever is the permanent delegate of the mint can, in any reachable
state and in one operation of the token program, empty the vault of any stream in that token unless it is frozen. -/
theorem C19_delegate {rt : Runtime} {w : World} (hr : Reachable rt w) {s : Addr} {n : Nat} {sd : StreamData}
    (hs : w.lk.streams (streamAddr s n) = some sd) {md : MintData} {d : Addr}
    (hm : w.bank.mints sd.depositedTokenMint = some md) (hd : md.permanentDelegate = some d)
    (hk : d.canSign = true) {t : TokenData}
    (ht : w.bank.tokens (.ata (streamAddr s n) md.program sd.depositedTokenMint) = some t) (hf : t.frozen = false) :
    ∃ w', step rt w (.env (.delegateBurn (.ata (streamAddr s n) md.program sd.depositedTokenMint) d t.amount)) = .ok w' ∧
      w'.bank.balance (.ata (streamAddr s n) md.program sd.depositedTokenMint) = 0 ∧
      w'.lk.streams (streamAddr s n) = some sd := by
  obtain ⟨md', t', hv⟩ := hr.vaultsOK _ _ hs
  have e := hv.mint; rw [hm] at e; cases e
  have e := hv.vault; rw [ht] at e; cases e
  have hsup : t.amount ≤ md.supply := by
    have := ((hr.bankInv.supply _ _ hm).2).single (.ata (streamAddr s n) md.program sd.depositedTokenMint)
    rw [Bank.bal, ht] at this
    simpa [hv.tmint] using this
  have hm' : w.bank.mints t.mint = some md := by rw [hv.tmint]; exact hm
  have hb : w.bank.burn (.ata (streamAddr s n) md.program sd.depositedTokenMint) t.amount =
      .ok ((w.bank.setMint t.mint (some { md with supply := md.supply - t.amount })).setToken
        (.ata (streamAddr s n) md.program sd.depositedTokenMint) (some { t with amount := t.amount - t.amount })) := by
    rw [Bank.burn, fetch_bind ht, fetch_bind hm', req_bind hf, req_bind ⟨Nat.le_refl _, hsup⟩]
    rfl
  generalize hbb : (w.bank.setMint t.mint (some { md with supply := md.supply - t.amount })).setToken
    (.ata (streamAddr s n) md.program sd.depositedTokenMint) (some { t with amount := t.amount - t.amount }) = b at hb
  refine ⟨{ w with bank := b }, ?_, ?_, hs⟩
  · rw [step, EnvIx.run]
    rw [fetch_bind ht, fetch_bind hm', req_bind ⟨hd, hk⟩, hb]
    rfl
  · subst hbb; simp [Bank.balance]

/-- A stream of alice in a token of which carol is permanent delegate. -/
def worldDelegate : World := after world1
  [ .env (.createMint 8 { feeMintData with feeConfig := none, permanentDelegate := some carol }),
    .env (.createAta alice (feeAta alice) alice .token2022 feeMint),
    .env (.mintTo feeMint (feeAta alice) alice .token2022 10000), ixFeeCreate ]

example := C19_delegate (w := worldDelegate) (reach1.steps (steps_after (by decide +kernel))) (s := alice) (n := 3)
  (sd := ⟨⟨0, 0, 1000, 0, 0⟩, feeMint, 255, 3, true, false, ⟨0, 6000, 2000⟩, alice, false⟩)
  (by decide +kernel)
  (md := { feeMintData with feeConfig := none, permanentDelegate := some carol, supply := 10000 }) (d := carol)
  (by decide +kernel) rfl rfl (t := ⟨.token2022, feeMint, str 3, 1000, false⟩) (by decide +kernel) rfl

/-- **C20**: in every reachable state the events of a stream pay out at most its deposit, with equality exactly
when it is depleted; the stored totals are the sums of the events. -/
theorem C20_paid_le_deposit {rt : Runtime} {w : World} (hr : Reachable rt w) {s : Addr} {n : Nat}
    {sd : StreamData} (hs : w.lk.streams (streamAddr s n) = some sd) :
    sd.amounts.withdrawn = total (withdrawnBy (streamAddr s n)) w.log ∧
    sd.amounts.refunded = total (refundedBy (streamAddr s n)) w.log ∧
    total (withdrawnBy (streamAddr s n)) w.log + total (refundedBy (streamAddr s n)) w.log ≤ sd.amounts.deposited ∧
    (sd.isDepleted = true ↔
      total (withdrawnBy (streamAddr s n)) w.log + total (refundedBy (streamAddr s n)) w.log =
        sd.amounts.deposited) := by
  have hok := hr.streamOK hs
  rw [hok.logW, hok.logR]
  exact ⟨rfl, rfl, hok.sum_le, hok.depleted⟩

example := C20_paid_le_deposit reach5 (s := alice) (n := 1)
  (sd := ⟨⟨100, 200, 1000, 467, 533⟩, Demo.mint, 255, 1, false, true, ⟨3000, 6000, 2000⟩, alice, true⟩)
  (by decide +kernel)

/-- **C20** for a stream that does not exist (yet): no events. -/
theorem C20_no_events_before_creation {rt : Runtime} {w : World} (hr : Reachable rt w) {s : Addr} {n : Nat}
    (hs : streamExists w s n = false) :
    total (withdrawnBy (streamAddr s n)) w.log = 0 ∧ total (refundedBy (streamAddr s n)) w.log = 0 := by
  have hx : w.lk.streams (streamAddr s n) = none := by
    cases h : w.lk.streams (streamAddr s n) with
    | none => rfl
    | some sd => have := hr.exists_iff.2 ⟨sd, h⟩; rw [hs] at this; cases this
  have h := hr.streamsOK (streamAddr s n)
  rw [hx] at h
  exact ⟨h.1, h.2.1⟩

example := C20_no_events_before_creation reach8 (s := bob) (n := 1) (by decide +kernel)

/-- **C21**: a depleted stream stays depleted, with the same data, forever; every withdraw, cancel and renounce
of it fails, and its streamed amount stays what was withdrawn. -/
theorem C21_depleted_final {rt : Runtime} {w w' : World} (hr : Reachable rt w) {s : Addr} {n : Nat}
    (hst : statusOf rt w (viewOf s n) = .ok .depleted) (hs : Steps rt w w') :
    ∃ sd, w.lk.streams (streamAddr s n) = some sd ∧ w'.lk.streams (streamAddr s n) = some sd ∧
      statusOf rt w' (viewOf s n) = .ok .depleted ∧ sd.isCancelable = false ∧
      streamedAmountOf rt w' (viewOf s n) = .ok (total (withdrawnBy (streamAddr s n)) w'.log) ∧
      total (withdrawnBy (streamAddr s n)) w'.log = total (withdrawnBy (streamAddr s n)) w.log ∧
      withdrawableAmountOf rt w' (viewOf s n) = .ok 0 ∧ refundableAmountOf rt w' (viewOf s n) = .ok 0 ∧
      ∀ ix w'', ix.withdrawsFrom = some (streamAddr s n) ∨ ix.cancels = some (streamAddr s n) ∨
        ix.renounces = some (streamAddr s n) → step rt w' ix ≠ .ok w'' := by
  have hx : ∃ sd, w.lk.streams (streamAddr s n) = some sd := by
    unfold statusOf at hst
    obtain ⟨sd, h, _⟩ := bind_ok.1 hst
    exact ⟨sd, (loadStream_ok.1 h).1⟩
  obtain ⟨sd, hx⟩ := hx
  have hv := hr.viewsOf hx
  have hdep : sd.isDepleted = true := by
    rw [hv.status] at hst
    by_contra hne
    rw [if_neg hne] at hst
    repeat' split at hst
    all_goals cases hst
  obtain ⟨sd', hx', hl⟩ := hs.stream hr hx
  have e := hl.depleted hdep
  rw [e] at hx'
  have hr' := hr.steps hs
  have hv' := hr'.viewsOf hx'
  have hca : sd.isCancelable = false := by
    cases h : sd.isCancelable with
    | false => rfl
    | true => have := (hv.ok.cancelable h).2; rw [hdep] at this; cases this
  have hfull := hv'.ok.sched_full hdep
  refine ⟨sd, hx, hx', ?_, hca, ?_, by rw [hv'.ok.logW, hv.ok.logW], ?_, ?_, ?_⟩
  · rw [hv'.status, if_pos hdep]
  · rw [hv'.streamed, hfull, hv'.ok.logW]
  · rw [hv'.withdrawable, hfull, Nat.sub_self]
  · rw [hv'.refundable, hca]; rfl
  · intro ix w'' hix h
    have hd := step_did h
    rcases hd.stream (streamAddr s n) with ⟨_, hsp⟩ |
      ⟨c, p, nd, dm, md, cm, k, name, b₁, b₂, b₃, b₄, b₆, l, hc, hcr, hp', hok⟩ |
      ⟨c, amount, sd₁, sd₂, dm, b₁, b₂, l, hc, hix', hok⟩ | ⟨c, sd₁, dm, streamed, b₁, b₂, l, hc, hix', hok⟩ |
      ⟨c, sd₁, streamed, hc, hix', hok⟩
    · rcases hix with h | h | h
      · exact hsp.w h
      · exact hsp.c h
      · exact hsp.r h
    · have := hok.fresh; rw [hc, hx'] at this; cases this
    · have h1 := hok.accts.stream; rw [hc, hx'] at h1; cases h1
      have := hok.notDepleted; rw [hdep] at this; cases this
    · have h1 := hok.accts.stream; rw [hc, hx'] at h1; cases h1
      have := hok.notDepleted; rw [hdep] at this; cases this
    · have h1 := hok.stream; rw [hc, hx'] at h1; cases h1
      have := hok.cancelable; rw [hca] at this; cases this

example := C21_depleted_final reach5 (s := alice) (n := 1) (w' := world8)
  (by rw [(reach5.viewsOf (s := alice) (n := 1)
        (sd := ⟨⟨100, 200, 1000, 467, 533⟩, Demo.mint, 255, 1, false, true, ⟨3000, 6000, 2000⟩, alice, true⟩)
        (by decide +kernel)).status]
      exact congrArg Except.ok (by decide +kernel))
  (steps56.trans (steps67.trans steps78))

/-- **C25**, data: an instruction that is not a withdraw, cancel or renounce naming the stream leaves its data
exactly as it was. -/
theorem C25_data_isolated {rt : Runtime} {w w' : World} (hr : Reachable rt w) {ix : Ix}
    (h : step rt w ix = .ok w') {s : Addr} {n : Nat} {sd : StreamData}
    (hs : w.lk.streams (streamAddr s n) = some sd) (h1 : ix.withdrawsFrom ≠ some (streamAddr s n))
    (h2 : ix.cancels ≠ some (streamAddr s n)) (h3 : ix.renounces ≠ some (streamAddr s n)) :
    w'.lk.streams (streamAddr s n) = some sd := by
  obtain ⟨sd', hsd', _, he⟩ := (step_did h).evolves hr hs
  rw [hsd', he ⟨h1, h2, h3⟩]

example := C25_data_isolated reach3 (ix := ixCancel) (s := alice) (n := 2)
  (sd := ⟨⟨0, 0, 700, 0, 0⟩, Demo.mint, 255, 2, true, false, ⟨0, 10000, 1000⟩, alice, false⟩)
  (step_after (by decide +kernel)) (by decide +kernel) (by decide) (by decide) (by decide)

/-- **C25**, tokens: only a withdraw, withdraw_max or cancel naming the stream can decrease its vault (any mint
without a permanent delegate, including transfer-fee mints); the vault is never closed, and stays the stream
account's. -/
theorem C25_vault_isolated {rt : Runtime} {w w' : World} (hr : Reachable rt w) {ix : Ix}
    (h : step rt w ix = .ok w') {s : Addr} {n : Nat} {sd : StreamData}
    (hs : w.lk.streams (streamAddr s n) = some sd) {md : MintData}
    (hm : w.bank.mints sd.depositedTokenMint = some md) :
    ∃ t t', w.bank.tokens (.ata (streamAddr s n) md.program sd.depositedTokenMint) = some t ∧
      w'.bank.tokens (.ata (streamAddr s n) md.program sd.depositedTokenMint) = some t' ∧
      t'.owner = streamAddr s n ∧
      (md.permanentDelegate = none → t'.amount < t.amount →
        ix.withdrawsFrom = some (streamAddr s n) ∨ ix.cancels = some (streamAddr s n)) := by
  obtain ⟨md', t, hv⟩ := hr.vaultsOK _ _ hs
  have e := hv.mint; rw [hm] at e; cases e
  have hok := hr.streamOK hs
  obtain ⟨sd', hsd', _, he⟩ := (step_did h).evolves hr hs
  obtain ⟨t', h1, h2, h3⟩ := (step_did h).vault_flow hr hs hsd' hv
  refine ⟨t, t', hv.vault, h1, by rw [h2.2.2, hv.owner], fun hpd hlt => ?_⟩
  by_contra hne
  simp only [not_or] at hne
  by_cases hren : ix.renounces = some (streamAddr s n)
  · match ix, hren with
    | .lockup (.renounce c), hren =>
      obtain ⟨_, _, hok'⟩ := renounce_ok (h : renounce rt w c = _)
      rw [hok'.result, hv.vault] at h1
      cases h1
      omega
  · have := he ⟨hne.1, hne.2, hren⟩
    subst this
    have := h3 hpd
    omega

example := C25_vault_isolated reach3 (ix := ixCancel) (s := alice) (n := 2)
  (sd := ⟨⟨0, 0, 700, 0, 0⟩, Demo.mint, 255, 2, true, false, ⟨0, 10000, 1000⟩, alice, false⟩)
  (md := { plainMint with supply := 1000000 })
  (step_after (by decide +kernel)) (by decide +kernel) (by decide +kernel)

end Solsab.Props
