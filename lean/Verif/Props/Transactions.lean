import Verif.Spec.Transactions
import Verif.Props.Wire
/-!
# C92: transactions
-/

namespace Solsab.Props

open Spec Wire Abi

theorem RunsTo.unique {ids : Ids} {rt : Runtime} {h : Header} {w w₁ w₂ : World} {items : List TxItem}
    (h1 : RunsTo ids rt h w items w₁) (h2 : RunsTo ids rt h w items w₂) : w₁ = w₂ := by
  induction h1 generalizing w₂ with
  | nil => cases h2; rfl
  | message hx _ ih =>
    cases h2 with
    | message hx' rest' => rw [hx] at hx'; cases hx'; exact ih rest'
  | other hx _ _ ih =>
    cases h2 with
    | other hx' _ rest' => rw [hx] at hx'; cases hx'; exact ih rest'

/-- **C92**: a transaction takes effect as a whole, every item having succeeded in its turn, or changes nothing. -/
theorem C92_atomic (ids : Ids) (rt : Runtime) (h : Header) (w : World) (items : List TxItem) :
    (∀ w', RunsTo ids rt h w items w' → transact ids rt h w items = w') ∧
    ((∀ w', ¬ RunsTo ids rt h w items w') → transact ids rt h w items = w) := by
  constructor
  · intro w' hw
    unfold transact
    have hx : ∃ w', RunsTo ids rt h w items w' := ⟨w', hw⟩
    rw [dif_pos hx]
    exact RunsTo.unique hx.choose_spec hw
  · intro hn
    unfold transact
    rw [dif_neg fun ⟨w', hw⟩ => hn w' hw]

theorem transact_cases (ids : Ids) (rt : Runtime) (h : Header) (w : World) (items : List TxItem) :
    RunsTo ids rt h w items (transact ids rt h w items) ∨ transact ids rt h w items = w := by
  by_cases hx : ∃ w', RunsTo ids rt h w items w'
  · obtain ⟨w', hw⟩ := hx
    left
    rw [(C92_atomic ids rt h w items).1 w' hw]
    exact hw
  · exact .inr ((C92_atomic ids rt h w items).2 fun w' hw => hx ⟨w', hw⟩)

/-- **C92**: one failing message anywhere undoes the whole transaction. -/
theorem C92_failure {ids : Ids} {rt : Runtime} {h : Header} {w w₁ : World} {pre post : List TxItem} {m : Message}
    {e : WireErr} (h1 : RunsTo ids rt h w pre w₁) (h2 : exec ids rt w₁ h m = .error e) :
    transact ids rt h w (pre ++ .message m :: post) = w := by
  refine (C92_atomic ids rt h w _).2 fun w' hw => ?_
  induction h1 with
  | nil w =>
    cases hw with
    | message hx _ => rw [h2] at hx; cases hx
  | message hx _ ih =>
    cases hw with
    | message hx' rest => rw [hx] at hx'; cases hx'; exact ih h2 rest
  | other hx _ _ ih =>
    cases hw with
    | other hx' _ rest => rw [hx] at hx'; cases hx'; exact ih h2 rest

theorem RunsTo.messages {ids : Ids} {rt : Runtime} {h : Header} {w₀ w w' : World} {items : List TxItem}
    (hw : RunsTo ids rt h w items w') (hm : Messages ids rt w₀ w) : Messages ids rt w₀ w' := by
  induction hw with
  | nil => exact hm
  | message hx _ ih => exact ih (.message _ _ _ hm hx)
  | other hx _ _ ih => exact ih (.env _ hm hx)

theorem RunsTo.unsigned {ids : Ids} {rt : Runtime} {h : Header} {w₀ w w' : World} {items : List TxItem} {p : Addr}
    (hw : RunsTo ids rt h w items w') (hn : p ∉ h.signers) (hm : MessagesUnsignedBy ids rt p w₀ w) :
    MessagesUnsignedBy ids rt p w₀ w' := by
  induction hw with
  | nil => exact hm
  | message hx _ ih => exact ih (.message _ _ _ hm hx hn)
  | other hx hs _ ih => exact ih (.env _ hm hx fun he => hn (hs p he))

/-- **C92**: whatever transactions are sent, in whatever order, failed ones included, the ledger is in a state that the
theorems about all histories speak of. -/
theorem C92_ledger {ids : Ids} (hd : ids.token ≠ ids.token2022) {rt : Runtime} (w : World)
    (txs : List (Header × List TxItem)) : Steps rt w (ledger ids rt w txs) := by
  have key : ∀ (txs : List (Header × List TxItem)) (w₁ : World), Messages ids rt w w₁ →
      Messages ids rt w (ledger ids rt w₁ txs) := by
    intro txs
    induction txs with
    | nil => intro w₁ h; exact h
    | cons tx txs ih =>
      intro w₁ h
      refine ih _ ?_
      rcases transact_cases ids rt tx.1 w₁ tx.2 with hx | hx
      · exact RunsTo.messages hx h
      · show Messages ids rt w (transact ids rt tx.1 w₁ tx.2)
        rw [hx]; exact h
  exact C88_histories hd (key txs w (.refl w))

/-- **C92**: whoever signs none of them keeps all token accounts (of tokens without permanent delegate), reduced only by
what delegates approved before take. -/
theorem C92_unsigned {ids : Ids} (hd : ids.token ≠ ids.token2022) {rt : Runtime} {w : World} (hr : Reachable rt w)
    (txs : List (Header × List TxItem)) {p : Addr} (hp : p.canSign = true) (hn : ∀ tx ∈ txs, p ∉ tx.1.signers) {a : Addr}
    {t : TokenData} (ha : w.bank.tokens a = some t) (ho : t.owner = p) {md : MintData}
    (hm : w.bank.mints t.mint = some md) (hpd : md.permanentDelegate = none) :
    ∃ t', (ledger ids rt w txs).bank.tokens a = some t' ∧ t'.owner = p ∧ t'.mint = t.mint ∧ t'.program = t.program ∧
      t.amount + allowance (ledger ids rt w txs) a ≤ t'.amount + allowance w a ∧
      allowance (ledger ids rt w txs) a ≤ allowance w a := by
  have key : ∀ (txs : List (Header × List TxItem)) (w₁ : World), (∀ tx ∈ txs, p ∉ tx.1.signers) →
      MessagesUnsignedBy ids rt p w w₁ → MessagesUnsignedBy ids rt p w (ledger ids rt w₁ txs) := by
    intro txs
    induction txs with
    | nil => intro w₁ _ h; exact h
    | cons tx txs ih =>
      intro w₁ hn h
      refine ih _ (fun tx' h' => hn tx' (List.mem_cons_of_mem _ h')) ?_
      rcases transact_cases ids rt tx.1 w₁ tx.2 with hx | hx
      · exact RunsTo.unsigned hx (hn tx List.mem_cons_self) h
      · show MessagesUnsignedBy ids rt p w (transact ids rt tx.1 w₁ tx.2)
        rw [hx]; exact h
  exact C88_unsigned hd hr (key txs w hn (.refl w)) hp ha ho hm hpd

/-- **C92**: a transaction of messages to the two programs changes no account that it does not declare writable, nor the
clock, nor the oracle. -/
theorem C92_writable {ids : Ids} (hd : ids.token ≠ ids.token2022) {rt : Runtime} {w : World} {h : Header}
    (ms : List Message) :
    (∀ a, (transact ids rt h w (ms.map .message)).account a ≠ w.account a → a ∈ h.writable) ∧
    (transact ids rt h w (ms.map .message)).clock = w.clock ∧
    (transact ids rt h w (ms.map .message)).oracle = w.oracle := by
  rcases transact_cases ids rt h w (ms.map .message) with hx | hx
  · revert hx
    generalize transact ids rt h w (ms.map .message) = w'
    intro hx
    induction ms generalizing w with
    | nil => cases hx; exact ⟨fun a ha => absurd rfl ha, rfl, rfl⟩
    | cons m ms ih =>
      cases hx with
      | @message _ w₁ _ _ ret _ hx rest =>
        obtain ⟨h1, h2, h3⟩ := C88_writable hd hx
        obtain ⟨h4, h5, h6⟩ := ih rest
        refine ⟨fun a ha => ?_, h5.trans h2, h6.trans h3⟩
        by_cases hc : w₁.account a = w.account a
        · exact h4 a fun e => ha (e.trans hc)
        · exact (h1 a hc).1
  · rw [hx]; exact ⟨fun a ha => absurd rfl ha, rfl, rfl⟩

/-- **C92**: and whoever has not signed it loses nothing by it: no token account of theirs (of any token) is closed,
reassigned or reduced, and they lose no lamports. -/
theorem C92_signed {ids : Ids} (hd : ids.token ≠ ids.token2022) {rt : Runtime} {w : World} (hr : Reachable rt w)
    {h : Header} (ms : List Message) {p : Addr} (hp : p.canSign = true) (hn : p ∉ h.signers) :
    (∀ a t, w.bank.tokens a = some t → t.owner = p →
      ∃ t', (transact ids rt h w (ms.map .message)).bank.tokens a = some t' ∧ t'.program = t.program ∧
        t'.mint = t.mint ∧ t'.owner = p ∧ t.amount ≤ t'.amount) ∧
    w.lamports p ≤ (transact ids rt h w (ms.map .message)).lamports p := by
  rcases transact_cases ids rt h w (ms.map .message) with hx | hx
  · revert hx
    generalize transact ids rt h w (ms.map .message) = w'
    intro hx
    induction ms generalizing w with
    | nil => cases hx; exact ⟨fun a t ha ho => ⟨t, ha, rfl, rfl, ho, Nat.le_refl _⟩, Nat.le_refl _⟩
    | cons m ms ih =>
      cases hx with
      | @message _ w₁ _ _ ret _ hx rest =>
        obtain ⟨h1, h2⟩ := C88_signed hd hr hx hp hn
        obtain ⟨h3, h4⟩ := ih (hr.steps (C88_histories hd (.message _ _ _ (.refl w) hx))) rest
        refine ⟨fun a t ha ho => ?_, Nat.le_trans h2 h4⟩
        obtain ⟨t₁, a1, a2, a3, a4, a5⟩ := h1 a t ha ho
        obtain ⟨t₂, b1, b2, b3, b4, b5⟩ := h3 a t₁ a1 a4
        exact ⟨t₂, b1, b2.trans a2, b3.trans a3, b4, Nat.le_trans a5 b5⟩
  · rw [hx]; exact ⟨fun a t ha ho => ⟨t, ha, rfl, rfl, ho, Nat.le_refl _⟩, Nat.le_refl _⟩

/-- Under any privileges that suffice, a bundle does what its instructions do one after the other, or nothing. -/
theorem transact_planned {ids : Ids} (hd : ids.token ≠ ids.token2022) (rt : Runtime) (w : World) {h : Header}
    (ps : List Planned) (hs : ∀ p ∈ ps, Planned.Sound ids p) (grant : ∀ p ∈ ps, Header.Grants h (metasOf ids p.ix)) :
    transact ids rt h w (ps.map fun p => .message (p.toMessage ids)) = execTx rt w (ps.map Planned.ix) := by
  have one : ∀ (w : World) (h : Header) (p : Planned), Planned.Sound ids p → Header.Grants h (metasOf ids p.ix) →
      exec ids rt w h (p.toMessage ids) = asMessage (step rt w p.ix) := by
    intro w h p hp hg
    cases p with
    | lockup i call =>
      exact (C88_runs hd).1 i ⟨rfl, ⟨[], (List.append_nil _).symm⟩, call, [], hp, (List.append_nil _).symm⟩ hg
    | merkle i call =>
      exact (C88_runs hd).2 i
        ⟨rfl, ⟨[], (List.append_nil _).symm⟩, call, [], hp.1, hp.2.1, hp.2.2, (List.append_nil _).symm⟩ hg
  have key : ∀ (qs : List Planned) (w w' : World), (∀ p ∈ qs, Planned.Sound ids p) →
      (∀ p ∈ qs, Header.Grants h (metasOf ids p.ix)) →
      (RunsTo ids rt h w (qs.map fun p => .message (p.toMessage ids)) w' ↔
        runAll rt w (qs.map Planned.ix) = .ok w') := by
    intro qs
    induction qs with
    | nil =>
      intro w w' _ _
      constructor
      · intro h; cases h; rfl
      · intro h; cases h; exact .nil _
    | cons q qs ih =>
      intro w w' h1 h2
      have e := one w _ q (h1 q List.mem_cons_self) (h2 q List.mem_cons_self)
      have ih := fun w => ih w w' (fun p hp => h1 p (List.mem_cons_of_mem _ hp)) fun p hp =>
        h2 p (List.mem_cons_of_mem _ hp)
      constructor
      · intro h
        cases h with
        | @message _ w₁ _ _ ret _ hx rest =>
          rw [e] at hx
          refine bind_ok.2 ?_
          cases hst : step rt w q.ix with
          | error x => rw [hst] at hx; cases hx
          | ok w₂ => rw [hst] at hx; cases hx; exact ⟨_, rfl, (ih _).1 rest⟩
      · intro h
        obtain ⟨w₁, h3, h4⟩ := bind_ok.1 h
        refine .message (ret := []) ?_ ((ih _).2 h4)
        rw [e, h3]; rfl
  unfold execTx
  cases hrun : runAll rt w (ps.map Planned.ix) with
  | ok w' => exact (C92_atomic ids rt _ w _).1 w' ((key ps w w' hs grant).2 hrun)
  | error x =>
    refine (C92_atomic ids rt _ w _).2 fun w' hw => ?_
    have := (key ps w w' hs grant).1 hw
    rw [hrun] at this
    cases this

/-- **C92**: a client may bundle any instructions into one transaction: with the union of their privileges it does
exactly what the instructions do one after the other, or nothing if one of them fails. -/
theorem C92_bundle {ids : Ids} (hd : ids.token ≠ ids.token2022) (rt : Runtime) (w : World) (ps : List Planned)
    (hs : ∀ p ∈ ps, Planned.Sound ids p) :
    transact ids rt (bundleHeader ids ps) w (ps.map fun p => .message (p.toMessage ids)) =
      execTx rt w (ps.map Planned.ix) :=
  transact_planned hd rt w ps hs fun p hp m hm => grants_self _ m (List.mem_flatMap.2 ⟨p, hp, hm⟩)

/-! ## Example: bob's withdrawal and carol's claim for bob in one transaction -/

def demoPlan : List Planned :=
  [.lockup (.withdraw (Demo.withdrawAccts Demo.bob 1) 200) (.withdraw 200),
   .merkle (.claim (Demo.claimAccts Demo.bob 0) 0 500 [Demo.leaf1]) (.claim 0 500 [Demo.leaf1])]

theorem demo_plan : ∀ p ∈ demoPlan, Planned.Sound demoIds p := by
  intro p hp
  rcases List.mem_cons.1 hp with rfl | hp
  · rfl
  · rcases List.mem_cons.1 hp with rfl | hp
    · exact ⟨rfl, by show ([Demo.leaf1].length < 2 ^ 32); decide, trivial⟩
    · cases hp

/-- It does both. -/
example : transact demoIds Demo.rt (bundleHeader demoIds demoPlan) Demo.world2
    (demoPlan.map fun p => .message (p.toMessage demoIds)) = Demo.world3 :=
  C92_bundle demo_ids Demo.rt Demo.world2 demoPlan demo_plan

example := RunsTo.message demo_exec (.nil _)
example := C92_ledger demo_ids (rt := Demo.rt) Demo.world2 [(demoHeader, [.message demoMessage])]
example := C92_writable demo_ids (rt := Demo.rt) (w := Demo.world2) (h := demoHeader) [demoMessage]
example := C92_signed demo_ids Demo.reach2 (h := demoHeader) [demoMessage] (p := Demo.alice) rfl (by decide)
example := C92_unsigned demo_ids Demo.reach2 [(demoHeader, [.message demoMessage])] (p := Demo.alice) rfl
  (by intro tx h; rcases List.mem_singleton.1 h with rfl; decide) (a := Demo.ataOf Demo.alice)
  (t := ⟨.token, Demo.mint, Demo.alice, 997500, false⟩) (by decide +kernel) rfl
  (md := { Demo.plainMint with supply := 1000000 }) (by decide +kernel) rfl

/-- Followed by an empty message to merkle_instant, the withdrawal is undone. -/
example := C92_failure (ids := demoIds) (rt := Demo.rt) (h := demoHeader) (m := ⟨.merkle, [], []⟩)
  (e := .abi .fallbackNotFound) (RunsTo.message demo_exec (.nil _)) rfl (post := [])

end Solsab.Props
