import Verif.Spec.Protocol
import Verif.Props.Cancel
import Verif.Props.Withdraw
import Verif.Props.Create
/-!
# C76: the lockup program implements a small vesting machine
-/

namespace Solsab.Props

open Lockup Spec Demo

theorem ofAccount_vested {rt : Runtime} {now : Nat} {log : List LogEntry} {x : Addr} {sd : StreamData}
    (h : StreamOK rt now log x sd) (t : Nat) : (Protocol.ofAccount sd).vested t = streamedNow t sd := by
  unfold Protocol.Stream.vested streamedNow
  cases hc : sd.wasCanceled with
  | true =>
    have := (h.canceled hc).1
    rw [if_pos (by simp only [Protocol.ofAccount]; omega), if_pos rfl]; rfl
  | false =>
    have := (h.live hc).1
    have e : (Protocol.ofAccount sd).refunded = 0 := this
    simp only [e, ne_eq, not_true_eq_false, if_false, Bool.false_eq_true]
    rfl

theorem ofAccount_empty {rt : Runtime} {now : Nat} {log : List LogEntry} {x : Addr} {sd : StreamData}
    (h : StreamOK rt now log x sd) : (Protocol.ofAccount sd).empty ↔ sd.isDepleted = true := h.depleted.symm

theorem read_some {w : World} {s : Addr} {n : Nat} {p : Protocol.Stream} (h : Protocol.read w s n = some p) :
    ∃ sd, w.lk.streams (streamAddr s n) = some sd ∧ p = Protocol.ofAccount sd := by
  unfold Protocol.read at h
  cases hx : w.lk.streams (streamAddr s n) with
  | none => rw [hx] at h; cases h
  | some sd => rw [hx] at h; cases h; exact ⟨sd, rfl, rfl⟩

/-- **C76**: every view of the program is the corresponding function of the abstract stream: the two flags that the
program stores besides carry no information. -/
theorem C76_views {rt : Runtime} {w : World} (hr : Reachable rt w) (s : Addr) (n : Nat) :
    streamExists w s n = (Protocol.read w s n).isSome ∧
    ∀ p, Protocol.read w s n = some p →
      streamedAmountOf rt w (viewOf s n) = .ok (p.vested w.now) ∧
      withdrawableAmountOf rt w (viewOf s n) = .ok (p.vested w.now - p.withdrawn) ∧
      refundableAmountOf rt w (viewOf s n) = .ok (p.refundable w.now) ∧
      statusOf rt w (viewOf s n) = .ok (p.status w.now) := by
  constructor
  · cases hx : w.lk.streams (streamAddr s n) with
    | none =>
      cases he : streamExists w s n with
      | false => simp [Protocol.read, hx]
      | true => obtain ⟨sd, h⟩ := hr.exists_iff.1 he; rw [hx] at h; cases h
    | some sd => rw [hr.exists_iff.2 ⟨sd, hx⟩]; simp [Protocol.read, hx]
  · intro p hp
    obtain ⟨sd, hx, rfl⟩ := read_some hp
    have hv := hr.viewsOf hx
    have hok := hv.ok
    rw [hv.streamed, hv.withdrawable, hv.refundable, hv.status, Protocol.Stream.refundable, Protocol.Stream.status,
      ofAccount_vested hok]
    refine ⟨rfl, rfl, rfl, ?_⟩
    congr 1
    cases hd : sd.isDepleted with
    | true => rw [if_pos rfl, if_pos ((ofAccount_empty hok).2 hd)]
    | false =>
      have e : ¬ (Protocol.ofAccount sd).empty := fun h => by rw [(ofAccount_empty hok).1 h] at hd; cases hd
      simp only [Bool.false_eq_true, if_false, e]
      cases hc : sd.wasCanceled with
      | true =>
        have := (hok.canceled hc).1
        have e : (Protocol.ofAccount sd).refunded ≠ 0 := by simp only [Protocol.ofAccount]; omega
        simp only [if_true, e, ne_eq, not_false_eq_true]
      | false =>
        have := (hok.live hc).1
        have e : (Protocol.ofAccount sd).refunded = 0 := this
        simp only [Bool.false_eq_true, if_false, e, ne_eq, not_true_eq_false]
        rfl

private theorem act_withdraw {rt : Runtime} {now : Nat} {log : List LogEntry} {x : Addr} {sd sd' : StreamData} {a : Nat}
    (hok : StreamOK rt now log x sd) (hp : 0 < a) (hle : a ≤ streamedNow now sd - sd.amounts.withdrawn)
    (h : sd.withdraw a = .ok sd') :
    Protocol.act now (Protocol.ofAccount sd) (.withdraw a) = some (Protocol.ofAccount sd') := by
  obtain ⟨_, h2, rfl⟩ := withdraw_data h
  have hs := hok.streamed
  have hsum : sd.amounts.withdrawn + a + sd.amounts.refunded ≤ sd.amounts.deposited := by
    unfold streamedNow at hle hs
    cases hc : sd.wasCanceled with
    | true => rw [hc] at hle hs; simp only [if_true] at hle hs; omega
    | false =>
      rw [hc] at hle hs; simp only [Bool.false_eq_true, if_false] at hle hs
      have := (hok.live hc).1
      omega
  unfold Protocol.act
  dsimp only
  rw [if_pos ⟨hp, by rw [ofAccount_vested hok]; show sd.amounts.withdrawn + a ≤ _; omega⟩]
  simp only [Protocol.ofAccount, Protocol.Stream.empty]
  by_cases he : sd.amounts.withdrawn + a + sd.amounts.refunded = sd.amounts.deposited
  · rw [if_pos (by omega)]; simp [he]
  · rw [if_neg (by omega)]; simp [he]

private theorem spares_of_asks {ix : Ix} {x : Addr} {t : Nat} {p : Protocol.Stream} (h : Protocol.asks ix x t p = none) :
    ix.Spares x := by
  unfold Protocol.asks at h
  split at h
  all_goals try (split at h <;> [cases h; skip])
  all_goals refine ⟨?_, ?_, ?_⟩ <;> simp_all [Ix.withdrawsFrom, Ix.cancels, Ix.renounces]

private theorem spares_of_opens {ix : Ix} {t : Nat} {q : Addr × Protocol.Stream} (h : Protocol.opens ix t = some q)
    (x : Addr) : ix.Spares x := by
  unfold Protocol.opens at h
  split at h
  · exact ⟨nofun, nofun, nofun⟩
  · exact ⟨nofun, nofun, nofun⟩
  · cases h

/-- Creating: the two instructions in one form. -/
private theorem opens_ok {rt : Runtime} {w w' : World} {ix : Ix} (hr : Reachable rt w) (h : step rt w ix = .ok w')
    {y : Addr} {p : Protocol.Stream} (ho : Protocol.opens ix w.now = some (y, p)) :
    p.Fresh ∧ w.lk.streams y = none ∧
      ∃ sd, w'.lk.streams = upd w.lk.streams y (some sd) ∧ p = Protocol.ofAccount sd := by
  unfold Protocol.opens at ho
  split at ho
  · cases ho
    obtain ⟨md, nd, he⟩ := C27_create_effect hr h
    obtain ⟨h1, h2, h3, h4, h5⟩ := C26_only_valid h
    exact ⟨⟨h1, h2, h3, h4, h5, rfl, rfl⟩, he.fresh, _, he.streams, rfl⟩
  · cases ho
    rename_i c salt dep cd td su cu ca
    rw [C28_durations] at h
    split at h
    · rename_i hlt
      obtain ⟨md, nd, he⟩ := C27_create_effect hr h
      have hval := C26_only_valid h
      have hn : (UInt64.ofNat w.now).toNat = w.now := by
        rw [UInt64.toNat_ofNat']; exact Nat.mod_eq_of_lt (now_lt w)
      have ht : (UInt64.ofNat (w.now + td.toNat)).toNat = w.now + td.toNat := by
        rw [UInt64.toNat_ofNat']; exact Nat.mod_eq_of_lt hlt.1
      have hcl : (if cd = 0 then 0 else UInt64.ofNat (w.now + cd.toNat)).toNat =
          if cd = 0 then 0 else w.now + cd.toNat := by
        by_cases hc : cd = 0
        · rw [if_pos hc, if_pos hc]; rfl
        · rw [if_neg hc, if_neg hc, UInt64.toNat_ofNat']; exact Nat.mod_eq_of_lt (hlt.2 hc)
      have hst := he.streams
      rw [hn, ht, hcl] at hval hst
      obtain ⟨h1, h2, h3, h4, h5⟩ := hval
      exact ⟨⟨h1, h2, h3, h4, h5, rfl, rfl⟩, he.fresh, _, hst, rfl⟩
    · cases h
  · cases ho

private theorem creates_of_not_opens {ix : Ix} {t : Nat} (h : Protocol.opens ix t = none) (x : Addr) :
    ix.creates ≠ some x := by
  unfold Protocol.opens at h
  split at h
  · cases h
  · cases h
  · unfold Ix.creates
    split
    · rename_i h1 _ ; exact absurd rfl (h1 _ _ _ _ _ _ _ _ _)
    · rename_i h1 ; exact absurd rfl (h1 _ _ _ _ _ _ _ _)
    · nofun

/-- **C76**: whatever instruction of whichever program succeeds in a reachable state, the stream of every `(sender,
salt)` is afterwards exactly what the vesting machine says. -/
theorem C76_step {rt : Runtime} {w w' : World} (hr : Reachable rt w) {ix : Ix} (h : step rt w ix = .ok w') (s : Addr)
    (n : Nat) :
    Protocol.next ix (streamAddr s n) w.now (Protocol.read w s n) = some (Protocol.read w' s n) := by
  cases ho : Protocol.opens ix w.now with
  | some q =>
    obtain ⟨y, p⟩ := q
    obtain ⟨hf, hn, sd, hst, rfl⟩ := opens_ok hr h ho
    unfold Protocol.read
    rw [hst]
    by_cases hy : y = streamAddr s n
    · subst hy
      rw [hn, upd_same]
      simp only [Option.map_none, Protocol.next, ho, if_true, if_pos hf, Option.map_some]
    · rw [upd_ne _ _ (Ne.symm hy)]
      cases w.lk.streams (streamAddr s n) <;> simp [Protocol.next, ho, hy]
  | none =>
    cases hx : w.lk.streams (streamAddr s n) with
    | none =>
      have : w'.lk.streams (streamAddr s n) = none ∧ ix.Spares (streamAddr s n) := by
        rcases (step_did h).stream (streamAddr s n) with ⟨hq, hsp⟩ | ⟨c, p, nd, dm, md, cm, k, name, b₁, b₂, b₃, b₄, b₆, l, _, hc, _⟩ |
          ⟨c, amount, sd₀, sd₁, dm, b₁, b₂, l, he, hix, hok⟩ | ⟨c, sd₀, dm, streamed, b₁, b₂, l, he, hix, hok⟩ |
          ⟨c, sd₀, streamed, he, hix, hok⟩
        · exact ⟨by rw [hq.data]; exact hx, hsp⟩
        · exact absurd hc (creates_of_not_opens ho _)
        · have := hok.accts.stream; rw [he, hx] at this; cases this
        · have := hok.accts.stream; rw [he, hx] at this; cases this
        · have := hok.stream; rw [he, hx] at this; cases this
      simp [Protocol.read, hx, this.1, Protocol.next, ho, this.2.w, this.2.c, this.2.r]
    | some sd =>
      have hok := hr.streamOK hx
      have hread : Protocol.read w s n = some (Protocol.ofAccount sd) := by simp [Protocol.read, hx]
      rw [hread]
      simp only [Protocol.next, ho]
      cases ha : Protocol.asks ix (streamAddr s n) w.now (Protocol.ofAccount sd) with
      | none =>
        obtain ⟨sd', hx', _, hsp⟩ := (step_did h).evolves hr hx
        rw [hsp (spares_of_asks ha)] at hx'
        simp [Protocol.read, hx']
      | some a =>
        have withdrawCase : ∀ {c : WithdrawAccts} {k : Nat}, c.streamData = streamAddr s n →
            withdraw rt w c k = .ok w' →
            (Protocol.act w.now (Protocol.ofAccount sd) (.withdraw k)).map some = some (Protocol.read w' s n) := by
          intro c k hc hw
          obtain ⟨sd₀, sd', dm, b₁, b₂, l, hw⟩ := withdraw_ok hw
          have hst := hw.accts.stream
          rw [hc, hx] at hst; cases hst
          obtain ⟨y, hy, hle⟩ := hw.withdrawable
          rw [hok.getWithdrawable] at hy; cases hy
          rw [act_withdraw hok hw.pos hle hw.data]
          simp [Protocol.read, hw.result, hc]
        unfold Protocol.asks at ha
        split at ha
        · split at ha <;> cases ha
          rename_i hc
          exact withdrawCase hc h
        · split at ha <;> cases ha
          rename_i hc
          obtain ⟨sd₀, k, hst, hk, hw⟩ := withdrawMax_ok h
          rw [hc, hx] at hst; cases hst
          rw [hok.getWithdrawable] at hk; cases hk
          rw [ofAccount_vested hok]
          exact withdrawCase hc hw
        · split at ha <;> cases ha
          rename_i c hc
          obtain ⟨sd₀, dm, st, b₁, b₂, l, hw⟩ := cancel_ok (h : cancel rt w c = _)
          have hst := hw.accts.stream
          rw [hc, hx] at hst; cases hst
          have hy := hw.streamed_eq
          rw [hok.getStreamed] at hy; cases hy
          unfold Protocol.act
          dsimp only
          rw [ofAccount_vested hok, if_pos ⟨hw.cancelable, hw.notSettled⟩]
          simp only [Protocol.read, hw.result, hc, upd_same, Option.map_some]
          rfl
        · split at ha <;> cases ha
          rename_i c hc
          obtain ⟨sd₀, st, hw⟩ := renounce_ok (h : renounce rt w c = _)
          have hst := hw.stream
          rw [hc, hx] at hst; cases hst
          have hy := hw.streamed_eq
          rw [hok.getStreamed] at hy; cases hy
          unfold Protocol.act
          dsimp only
          rw [ofAccount_vested hok, if_pos ⟨hw.cancelable, hw.notSettled⟩]
          simp only [Protocol.read, hw.result, hc, upd_same, Option.map_some]
          rfl
        · cases ha

example := C76_step reach3 (step_after (ix := ixCancel) (by decide +kernel)) alice 1

private theorem Run.snoc {t u : Nat} {p q r : Protocol.Stream} {l : List (Nat × Protocol.Action)} {a : Protocol.Action}
    (h : Protocol.Run t p l u q) (ha : Protocol.act u q a = some r) : Protocol.Run t p (l ++ [(u, a)]) u r := by
  induction h with
  | nil h => exact .cons h ha (.nil (Nat.le_refl _))
  | cons h ha' _ ih => exact .cons h ha' (ih ha)

private theorem Run.wait {t u v : Nat} {p q : Protocol.Stream} {l : List (Nat × Protocol.Action)}
    (h : Protocol.Run t p l u q) (hle : u ≤ v) : Protocol.Run t p l v q := by
  induction h with
  | nil h => exact .nil (Nat.le_trans h hle)
  | cons h ha' _ ih => exact .cons h ha' (ih hle)

/-- **C76**: every history of a stream is a run of the machine. -/
theorem C76_trace {rt : Runtime} {w w' : World} (hr : Reachable rt w) (hs : Steps rt w w') {s : Addr} {n : Nat}
    {p : Protocol.Stream} (hp : Protocol.read w s n = some p) :
    ∃ l p', Protocol.read w' s n = some p' ∧ Protocol.Run w.now p l w'.now p' := by
  induction hs with
  | refl => exact ⟨[], p, hp, .nil (Nat.le_refl _)⟩
  | @tail w₁ w₂ ix hst h ih =>
    obtain ⟨l, q, hq, hrun⟩ := ih
    have hr₁ := hr.steps hst
    have hle : w₁.now ≤ w₂.now := (step_did h).now_le hr₁.clockOk
    have hn := C76_step hr₁ h s n
    rw [hq] at hn
    simp only [Protocol.next] at hn
    split at hn
    · split at hn
      · cases hn
      · simp only [Option.some.injEq] at hn
        exact ⟨l, q, hn.symm, Run.wait hrun hle⟩
    · split at hn
      · rename_i a _
        cases ha : Protocol.act w₁.now q a with
        | none => rw [ha] at hn; cases hn
        | some r =>
          rw [ha] at hn
          simp only [Option.map_some, Option.some.injEq] at hn
          exact ⟨_, r, hn.symm, Run.wait (Run.snoc hrun ha) hle⟩
      · simp only [Option.some.injEq] at hn
        exact ⟨l, q, hn.symm, Run.wait hrun hle⟩

/-- The whole life of the demo stream 1: created at 1000 (world 1), 200 withdrawn and canceled at 4000, the rest
withdrawn; here as a run of the machine. -/
example : ∃ l p', Protocol.read world5 alice 1 = some p' ∧
    Protocol.Run world2.now ⟨alice, mint, 2000, 3000, 6000, 100, 200, 1000, 0, 0, true⟩ l world5.now p' :=
  C76_trace reach2 (steps23.trans (steps34.trans steps45)) (by decide +kernel)

/-! ## Every move of the machine can be made -/

/-- **C76**: a withdrawal that the machine allows succeeds, with the right accounts and an ordinary token that can
move, and the stream is then what the machine says. -/
theorem C76_can_withdraw {rt : Runtime} {w : World} (hr : Reachable rt w) {c : WithdrawAccts} {s : Addr} {n : Nat}
    {sd : StreamData} {md : MintData} (hc : WithdrawReady rt w c s n sd md) (hp : md.Plain)
    (ht : Transferable w md c.streamDataAta c.withdrawalRecipientAta) {p p' : Protocol.Stream} {a : UInt64}
    (hread : Protocol.read w s n = some p) (ha : Protocol.act w.now p (.withdraw a.toNat) = some p') :
    ∃ w', step rt w (.lockup (.withdraw c a)) = .ok w' ∧ Protocol.read w' s n = some p' := by
  obtain ⟨_, hw, _, _⟩ := (C76_views hr s n).2 p hread
  have hcond : 0 < a.toNat ∧ p.withdrawn + a.toNat ≤ p.vested w.now := by
    unfold Protocol.act at ha
    dsimp only at ha
    split at ha
    · assumption
    · cases ha
  obtain ⟨w', h⟩ := C12_withdraw_succeeds hr hc hp ht hw hcond.1 (by omega)
  refine ⟨w', h, ?_⟩
  have hn := C76_step hr h s n
  rw [hread] at hn
  simp only [Protocol.next, Protocol.opens, Protocol.asks, hc.a2, if_true, ha, Option.map_some, Option.some.injEq] at hn
  exact hn.symm

example := C76_can_withdraw (a := 50) (p' := ⟨alice, mint, 2000, 3000, 6000, 100, 200, 1000, 250, 0, true⟩) reach3
  demo_withdrawReady (by decide) demo_transferable3 (p := ⟨alice, mint, 2000, 3000, 6000, 100, 200, 1000, 200, 0, true⟩) (by decide +kernel) (by decide +kernel)

/-- **C76**: a cancellation that the machine allows succeeds. -/
theorem C76_can_cancel {rt : Runtime} {w : World} (hr : Reachable rt w) {c : CancelAccts} {s : Addr} {n : Nat}
    {sd : StreamData} {md : MintData} (hc : CancelReady rt w c s n sd md) (hp : md.Plain)
    (ht : Transferable w md c.streamDataAta c.senderAta) {p p' : Protocol.Stream}
    (hread : Protocol.read w s n = some p) (ha : Protocol.act w.now p .cancel = some p') :
    ∃ w', step rt w (.lockup (.cancel c)) = .ok w' ∧ Protocol.read w' s n = some p' := by
  obtain ⟨_, _, hw, _⟩ := (C76_views hr s n).2 p hread
  have hcond : p.cancelable = true ∧ p.vested w.now < p.deposit := by
    unfold Protocol.act at ha
    dsimp only at ha
    split at ha
    · assumption
    · cases ha
  obtain ⟨w', h⟩ := C14_cancel_succeeds hr hc hp ht hw
    (by rw [Protocol.Stream.refundable, if_pos hcond.1]; omega)
  refine ⟨w', h, ?_⟩
  have hn := C76_step hr h s n
  rw [hread] at hn
  simp only [Protocol.next, Protocol.opens, Protocol.asks, hc.a2, if_true, ha, Option.map_some, Option.some.injEq] at hn
  exact hn.symm

example := C76_can_cancel (p' := ⟨alice, mint, 2000, 3000, 6000, 100, 200, 1000, 200, 467, false⟩) reach3
  demo_cancelReady (by decide) demo_cancelTransferable
  (p := ⟨alice, mint, 2000, 3000, 6000, 100, 200, 1000, 200, 0, true⟩) (by decide +kernel) (by decide +kernel)

/-- **C76**: a renunciation that the machine allows succeeds. -/
theorem C76_can_renounce {rt : Runtime} {w : World} (hr : Reachable rt w) {c : RenounceAccts} {s : Addr} {n : Nat}
    (hc : RenounceReady c s n) {p p' : Protocol.Stream}
    (hread : Protocol.read w s n = some p) (ha : Protocol.act w.now p .renounce = some p') :
    ∃ w', step rt w (.lockup (.renounce c)) = .ok w' ∧ Protocol.read w' s n = some p' := by
  obtain ⟨hv, _, _, _⟩ := (C76_views hr s n).2 p hread
  have hcond : p.cancelable = true ∧ p.vested w.now < p.deposit := by
    unfold Protocol.act at ha
    dsimp only at ha
    split at ha
    · assumption
    · cases ha
  obtain ⟨sd, hx, rfl⟩ := read_some hread
  obtain ⟨x, hx1, hrule, _⟩ := C17_renounce_rule hr hx hc
  rw [hv] at hx1; cases hx1
  obtain ⟨w', h⟩ := hrule.2 hcond
  refine ⟨w', h, ?_⟩
  have hn := C76_step hr h s n
  rw [hread] at hn
  simp only [Protocol.next, Protocol.opens, Protocol.asks, hc.a2, if_true, ha, Option.map_some, Option.some.injEq] at hn
  exact hn.symm

example := C76_can_renounce (c := ⟨alice, str 2, nft 2⟩) (s := alice) (n := 2)
  (p := ⟨alice, mint, 1000, 0, 10000, 0, 0, 700, 0, 0, true⟩)
  (p' := ⟨alice, mint, 1000, 0, 10000, 0, 0, 700, 0, 0, false⟩) reach5
  (by constructor <;> decide +kernel) (by decide +kernel) (by decide +kernel)

end Solsab.Props
