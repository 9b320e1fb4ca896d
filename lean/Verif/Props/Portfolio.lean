import Verif.Spec.Portfolio
import Verif.Props.Withdraw
import Verif.Props.Cancel
import Verif.Props.RentRule
import Verif.Props.Deliver
/-!
# C100: collecting from many streams
-/

namespace Solsab.Props

open Spec Lockup Demo

theorem opens_withdrawMax (rt : Runtime) (w : World) (tr : Treasury) (p : Addr) (h : Holding) :
    ((opens rt w (h.withdrawMax tr p)).map fun y => charge rt y.1 + max (rt.rent y.2) 1).sum ≤ h.rent rt := by
  have e2 : tokenSize rt h.token h.program = World.tokenSpace rt h.token h.program := (tokenSize_eq rt _ _).symm
  unfold Holding.withdrawMax opens Holding.rent absent Holding.account
  simp only
  split <;> simp [charge, e2]

/-- What a withdrawal leaves thawed. -/
theorem withdraw_thawed {rt : Runtime} {w w' : World} {c : WithdrawAccts} {a : Nat} (h : withdraw rt w c a = .ok w') :
    (∀ t, w'.bank.tokens c.withdrawalRecipientAta = some t → t.frozen = false) ∧
    (∀ t, w'.bank.tokens c.streamDataAta = some t → t.frozen = false) := by
  obtain ⟨sd, sd', dm, b₁, b₂, l, hw⟩ := withdraw_ok h
  obtain ⟨tf, tt, md', hf, _⟩ := transferChecked_ok hw.transfer
  rw [hw.result]
  simp only
  rcases hf.result with ⟨he, rfl⟩ | ⟨hsd, _, rfl⟩
  · refine ⟨fun t ht => ?_, fun t ht => ?_⟩
    · rw [hf.dst] at ht; cases ht; exact hf.thawed.2
    · rw [hf.src] at ht; cases ht; exact hf.thawed.1
  · simp only [Bank.move, setToken_tokens, upd_apply, if_neg hsd, if_true]
    refine ⟨fun t ht => ?_, fun t ht => ?_⟩
    · cases ht; exact hf.thawed.2
    · cases ht; exact hf.thawed.1

theorem due_eq {rt : Runtime} {w : World} (hr : Reachable rt w) {h : Holding} {sd : StreamData}
    (hs : w.lk.streams h.stream = some sd) : h.due rt w = streamedNow w.now sd - sd.amounts.withdrawn := by
  unfold Holding.due
  rw [(hr.viewsOf (s := h.sender) (n := h.salt) hs).withdrawable]

theorem collect {rt : Runtime} {p : Addr} {tr : Treasury} (hs : List Holding) :
    ∀ {w : World}, Reachable rt w → w.lk.treasury = some tr → p.canSign = true →
      (hs.map (Holding.rent rt)).sum ≤ w.lamports p → (∀ h ∈ hs, h.Payable rt w) → (hs.map Holding.stream).Nodup →
      ∃ w', runAll rt w (hs.map (Holding.withdrawMax tr p)) = .ok w' ∧ Collected rt w w' p hs := by
  induction hs with
  | nil =>
    intro w hr _ _ _ _ _
    exact ⟨w, rfl, ⟨nofun, nofun, nofun, by simp, nofun, by simp, fun _ _ => rfl, fun _ _ => rfl, rfl, rfl, rfl, rfl, rfl⟩⟩
  | cons h hs ih =>
    intro w hr htr hp hlam hpay hnd
    have hh := hpay h (by simp)
    obtain ⟨sd, k1, k2⟩ := hh.stream
    obtain ⟨md, m1, m2, m3, m4, m5⟩ := hh.mint
    simp only [List.map_cons, List.sum_cons] at hlam
    obtain ⟨c, hc⟩ : ∃ c, h.withdrawMax tr p = .lockup (.withdrawMax c) := ⟨_, rfl⟩
    have hcc := hc
    unfold Holding.withdrawMax at hcc
    injection hcc with hcc; injection hcc with hcc
    have c1 : c.signer = p := by rw [← hcc]
    have c2 : c.withdrawalRecipientAta = h.account := by rw [← hcc]
    have c3 : c.streamDataAta = h.vault := by rw [← hcc]
    have c4 : c.streamData = h.stream := by rw [← hcc]
    have c5 : c.withdrawalRecipient = h.holder := by rw [← hcc]
    have hready : WithdrawReady rt w c h.sender h.salt sd md := by
      refine ⟨k1, by rw [k2]; exact m1, by rw [c1]; exact hp, .inl (by rw [← hcc]), ⟨tr, htr, by rw [← hcc], by rw [← hcc]⟩,
        by rw [← hcc], c4, by rw [← hcc], by rw [← hcc, k2], by rw [← hcc, m2], by rw [← hcc], by rw [c3, k2, m2]; rfl,
        by rw [c2, c5, k2, m2]; rfl, by rw [← hcc]; exact hh.holds, ?_⟩
      rw [c1, c2, c5, k2, m2]
      cases ht : w.bank.tokens h.account with
      | some t => exact .inl ⟨t, ht, (hh.account t ht).1⟩
      | none =>
        refine .inr ⟨ht, ?_⟩
        unfold CanFund
        unfold Holding.rent at hlam
        omega
    have hv := hr.viewsOf k1
    have hdue := due_eq hr k1
    have hposi := hh.positive
    obtain ⟨x, hx, hmax⟩ := C09_max_is_withdraw hr (s := h.sender) (n := h.salt) c4
      (by rw [hr.exists_iff]; exact ⟨sd, k1⟩)
    have hxd : x.toNat = h.due rt w := by rw [hdue]; rw [hv.withdrawable] at hx; exact (ok_inj.1 hx).symm
    obtain ⟨w₁, hs1⟩ := C12_withdraw_succeeds hr hready m3
      ⟨m4, by rw [c3]; exact hh.thawed, by rw [c2]; exact fun t ht => (hh.account t ht).2, fun _ => m5, by rw [c2]; exact hh.noMemo⟩
      hx (amount := x) (by rw [hxd]; exact hposi) le_rfl
    have hs' : step rt w (h.withdrawMax tr p) = .ok w₁ := by rw [hc, hmax]; exact hs1
    have hnl := C09_nothing_left hr (s := h.sender) (n := h.salt) c4 (by rw [← hc]; exact hs')
    have hth := withdraw_thawed (show withdraw rt w c x.toNat = .ok w₁ from hs1)
    obtain ⟨sd0, sd1, md', e1, e2, e3, e4, e5, e6, e7, -, -, e8, -, e9, e10, e11, e12, e13, e14, -, e15⟩ := C08_withdraw_effect hr hs1
    rw [c4] at e1 e2 e9
    rw [k1] at e1; cases e1
    rw [c2, c3] at e8 e10
    rw [k2, m1] at e3; cases e3
    have hwal : ∀ (a : Addr) tp m, h.account ≠ .ata (streamAddr a tp) h.program m := by
      intro a tp m e; unfold Holding.account at e; injection e with e; exact hh.wallet _ _ e
    obtain ⟨f1, f2, f3⟩ := e8 (hwal _ _ _)
    have hfee : md.fee x.toNat = 0 := by unfold MintData.fee; rw [m3.1]
    rw [hfee, Nat.sub_zero, hxd] at f3
    rw [hxd] at f1 f2 e4
    obtain ⟨t1, e16, e17⟩ : ∃ t, w₁.bank.tokens h.account = some t ∧ t.owner = h.holder := by
      obtain ⟨s', n', tp', md', sd', g1, g2, g3, -, -, -, g4, -⟩ := C07_pays_holder hr (ix := .lockup (.withdraw c x)) rfl hs1
      obtain ⟨rfl, rfl⟩ := streamAddr_inj (c4.symm.trans g1)
      rw [show streamAddr h.sender h.salt = h.stream from rfl, k1] at g2; cases g2
      rw [k2, m1] at g3; cases g3
      rw [c5, m2, k2] at g4
      exact g4
    rw [c2, c3] at hth
    have hset := (step_did hs1).settings rfl
    have hrent := (C60_rent_only (ix := h.withdrawMax tr p) (p := p) rfl rfl hs').2.left
    have hopens := opens_withdrawMax rt w tr p h
    have hr₁ := hr.step hs1
    have hnow : w₁.now = w.now := by unfold World.now; rw [e15]
    rw [List.map_cons, List.nodup_cons] at hnd
    have hdiff : ∀ h' ∈ hs, h'.stream ≠ h.stream := fun h' hm e => hnd.1 (List.mem_map.2 ⟨h', hm, e⟩)
    have hvv : ∀ h' ∈ hs, h'.vault ≠ h.vault := by
      intro h' hm e; unfold Holding.vault at e; injection e with e; exact hdiff h' hm e
    have hdue' : ∀ h' ∈ hs, h'.due rt w₁ = h'.due rt w := by
      intro h' hm
      obtain ⟨sd', j1, _⟩ := (hpay h' (by simp [hm])).stream
      rw [due_eq hr j1, due_eq hr₁ (by rw [e9 _ (hdiff h' hm)]; exact j1), hnow]
    have hav : ∀ h' ∈ hs, h'.account ≠ h.vault := by
      intro h' hm e; unfold Holding.account Holding.vault at e; injection e with e
      exact (hpay h' (by simp [hm])).wallet _ _ e
    have hva : ∀ h' : Holding, h'.vault ≠ h.account := fun h' e => by
      unfold Holding.vault Holding.account at e; injection e with e; exact hh.wallet _ _ e.symm
    have hpay₁ : ∀ h' ∈ hs, h'.Payable rt w₁ := by
      intro h' hm
      have hp' := hpay h' (by simp [hm])
      refine ⟨by rw [e9 _ (hdiff h' hm)]; exact hp'.stream, by rw [e11]; exact hp'.mint, ?_, hp'.wallet, ?_, ?_,
        by rw [hset]; exact hp'.noMemo, by rw [hdue' h' hm]; exact hp'.positive⟩
      · obtain ⟨tn, n1, n2, n3⟩ := hp'.holds
        refine ⟨tn, ?_, n2, n3⟩
        rw [e10 _ (fun e => ?_) (fun e => ?_)]
        · exact n1
        · unfold Holding.vault at e; injection e with e; exact hp'.wallet _ _ e
        · have htok : h.token = .streamNftMint h'.sender h'.salt := by
            unfold Holding.account at e; injection e with _ _ e; exact e.symm
          have hb₁ := hr₁.bankInv
          have hmt := (ata_token hb₁ (show w₁.bank.tokens (.ata h.holder h.program h.token) = some t1 from e16)).2
          have hm1 : w₁.bank.mints h.token = some md := by rw [e11]; exact m1
          have h1 := (hb₁.nft _ _ (by rw [htok]; rfl) hm1).2.1
          have h2 := (hb₁.supply _ _ hm1).2.single h.account
          have h3 : w.bank.balance h.account = 1 := by unfold Bank.balance; rw [← e, n1]; exact n3
          have h4 : w₁.bank.balance h.account = t1.amount := by unfold Bank.balance; rw [e16]
          have h5 : w₁.bank.bal h.token h.account = t1.amount := by unfold Bank.bal; rw [e16]; simp [hmt]
          omega
      · intro t ht
        rw [e10 _ (hvv h' hm) (hva h')] at ht
        exact hp'.thawed t ht
      · intro t ht
        by_cases hsame : h'.account = h.account
        · rw [hsame] at ht
          refine ⟨?_, hth.1 t ht⟩
          rw [e16] at ht; cases ht
          unfold Holding.account at hsame; injection hsame with hsame
          rw [hsame]; exact e17
        · rw [e10 _ (hav h' hm) hsame] at ht
          exact hp'.account t ht
    obtain ⟨w', hrun, hb⟩ := ih hr₁ (by rw [e13]; exact htr) hp (by omega) hpay₁ hnd.2
    have hr' := hr₁.steps (steps_runAll _ hrun)
    have hclock : w'.clock = w.clock := hb.clock.trans e15
    have hmem : ∀ h' ∈ hs, h' ∈ h :: hs := fun h' hm => by simp [hm]
    have hstr : w'.lk.streams h.stream = some sd1 := by
      rw [hb.streams _ fun h' hm => (hdiff h' hm).symm]; exact e2
    refine ⟨w', bind_ok.2 ⟨w₁, hs', hrun⟩, ?_⟩
    refine ⟨?_, ?_, ?_, ?_, ?_, ?_, ?_, ?_, hb.mints.trans e11, hb.airdrops.trans e12, hb.treasury.trans e13,
      hb.collection.trans e14, hclock⟩
    · intro h' hm
      rcases List.mem_cons.1 hm with rfl | hm
      · exact ⟨sd, sd1, k1, hstr, e4, e5, e6, e7⟩
      · obtain ⟨a, b, i1, i2, i3, i4⟩ := hb.recorded h' hm
        rw [e9 _ (hdiff h' hm)] at i1
        rw [hdue' h' hm] at i3
        exact ⟨a, b, i1, i2, i3, i4⟩
    · intro h' hm
      rcases List.mem_cons.1 hm with rfl | hm
      · have i1 := (hr₁.viewsOf (s := h'.sender) (n := h'.salt) e2).withdrawable
        have i2 := (hr'.viewsOf (s := h'.sender) (n := h'.salt) hstr).withdrawable
        rw [hnl] at i1
        rw [i2, show w'.now = w₁.now by unfold World.now; rw [hb.clock]]
        exact i1.symm
      · exact hb.nothingLeft h' hm
    · intro h' hm
      rcases List.mem_cons.1 hm with rfl | hm
      · have : w'.bank.balance h'.vault = w₁.bank.balance h'.vault := by
          unfold Bank.balance
          rw [hb.tokens _ fun h'' hm'' => ⟨(hvv h'' hm'').symm, fun e => hav h'' hm'' e.symm⟩]
        omega
      · have := hb.paid h' hm
        rw [hdue' h' hm] at this
        rw [← this]
        unfold Bank.balance
        rw [e10 _ (hvv h' hm) (hva h')]
    · intro a ha
      have := hb.received a fun h' hm => ha h' (hmem h' hm)
      rw [this]
      have hsum : ((hs.filter (·.account = a)).map (Holding.due rt w₁)).sum =
          ((hs.filter (·.account = a)).map (Holding.due rt w)).sum := by
        congr 1
        exact List.map_congr_left fun h' hm => hdue' h' (List.mem_filter.1 hm).1
      rw [hsum]
      by_cases haa : h.account = a
      · subst haa
        rw [f3]
        simp only [decide_true, List.filter_cons_of_pos, List.map_cons, List.sum_cons]
        omega
      · rw [List.filter_cons_of_neg (by simpa using haa)]
        congr 1
        unfold Bank.balance
        rw [e10 _ (ha h (by simp)) (Ne.symm haa)]
    · intro h' hm
      rcases List.mem_cons.1 hm with rfl | hm
      · by_cases hin : ∃ h'' ∈ hs, h''.account = h'.account
        · obtain ⟨h'', i1, i2⟩ := hin
          obtain ⟨t, i3, i4⟩ := hb.theirs h'' i1
          rw [i2] at i3
          unfold Holding.account at i2; injection i2 with i2
          exact ⟨t, i3, by rw [i4, i2]⟩
        · refine ⟨t1, ?_, e17⟩
          rw [← e16]
          exact hb.tokens _ fun h'' hm'' => ⟨fun e => hva h'' e.symm, fun e => hin ⟨h'', hm'', e.symm⟩⟩
      · exact hb.theirs h' hm
    · have := hb.rent
      simp only [List.map_cons, List.sum_cons]
      omega
    · intro y hy
      rw [hb.streams y fun h' hm => hy h' (hmem h' hm), e9 y (hy h (by simp))]
    · intro a ha
      rw [hb.tokens a fun h' hm => ha h' (hmem h' hm), e10 a (ha h (by simp)).1 (ha h (by simp)).2]

/-- **C100**: whoever has the rent can collect, for the holders, everything that is withdrawable from any list of streams, in
any tokens and in any order, in any state that can be reached: every withdrawal succeeds, everybody receives exactly what
was due to them, and nothing else changes. -/
theorem C100_collect {rt : Runtime} {w : World} (hr : Reachable rt w) {p : Addr} (hp : p.canSign = true) {tr : Treasury}
    (htr : w.lk.treasury = some tr) {hs : List Holding} (hpay : ∀ h ∈ hs, h.Payable rt w)
    (hdiff : (hs.map Holding.stream).Nodup) (hrent : (hs.map (Holding.rent rt)).sum ≤ w.lamports p) :
    ∃ w', runAll rt w (hs.map (Holding.withdrawMax tr p)) = .ok w' ∧ Collected rt w w' p hs :=
  collect hs hr htr hp hrent hpay hdiff

/-! ## Cancelling -/

theorem opens_cancel (rt : Runtime) (w : World) (s : Addr) (q : Position) :
    ((opens rt w (q.cancel s)).map fun y => charge rt y.1 + max (rt.rent y.2) 1).sum ≤ q.rent rt := by
  have e2 : tokenSize rt q.token q.program = World.tokenSpace rt q.token q.program := (tokenSize_eq rt _ _).symm
  unfold Position.cancel opens Position.rent absent Position.account
  simp only
  split <;> simp [charge, e2]

/-- What a cancellation leaves at the sender. -/
theorem cancel_thawed {rt : Runtime} {w w' : World} {c : CancelAccts} (h : cancel rt w c = .ok w') :
    ∃ t, w'.bank.tokens c.senderAta = some t ∧ t.owner = c.sender ∧ t.frozen = false := by
  obtain ⟨sd, dm, x, b₁, b₂, l, hw⟩ := cancel_ok h
  obtain ⟨tf, tt, md', hf, _⟩ := transferChecked_ok hw.transfer
  obtain ⟨t0, i1, _, i2, _⟩ := hw.accts.ensure.dst
  rw [hf.dst] at i1; cases i1
  rw [hw.result]
  simp only
  rcases hf.result with ⟨he, rfl⟩ | ⟨hsd, _, rfl⟩
  · exact ⟨tt, hf.dst, i2, hf.thawed.2⟩
  · simp only [Bank.move, setToken_tokens, upd_apply, if_true]
    exact ⟨_, rfl, i2, hf.thawed.2⟩

theorem refund_eq {rt : Runtime} {w : World} (hr : Reachable rt w) {s : Addr} {q : Position} {sd : StreamData}
    (hs : w.lk.streams (q.stream s) = some sd) :
    q.refund rt w s = if sd.isCancelable then sd.amounts.deposited - streamedNow w.now sd else 0 := by
  unfold Position.refund
  rw [(hr.viewsOf (s := s) (n := q.salt) hs).refundable]

theorem cancelAll {rt : Runtime} {s : Addr} (hsig : s.canSign = true) (qs : List Position) :
    ∀ {w : World}, Reachable rt w → (qs.map (Position.rent rt)).sum ≤ w.lamports s → (∀ q ∈ qs, q.Cancelable rt w s) →
      (qs.map Position.salt).Nodup →
      ∃ w', runAll rt w (qs.map (Position.cancel s)) = .ok w' ∧ CanceledAll rt w w' s qs := by
  have hwal : ∀ a n, s ≠ streamAddr a n := by intro a n e; rw [e] at hsig; cases hsig
  have hva : ∀ q q' : Position, q'.vault s ≠ q.account s := fun q q' e => by
    unfold Position.vault Position.account at e; injection e with e; exact hwal _ _ e.symm
  induction qs with
  | nil =>
    intro w hr _ _ _
    exact ⟨w, rfl, ⟨nofun, nofun, nofun, by simp, by simp, fun _ _ => rfl, fun _ _ => rfl, rfl, rfl, rfl, rfl, rfl⟩⟩
  | cons q qs ih =>
    intro w hr hlam hpay hnd
    have hh := hpay q (by simp)
    obtain ⟨sd, k1, k2⟩ := hh.stream
    obtain ⟨md, m1, m2, m3, m4, m5⟩ := hh.mint
    simp only [List.map_cons, List.sum_cons] at hlam
    obtain ⟨c, hc⟩ : ∃ c, q.cancel s = .lockup (.cancel c) := ⟨_, rfl⟩
    have hcc := hc
    unfold Position.cancel at hcc
    injection hcc with hcc; injection hcc with hcc
    have c1 : c.sender = s := by rw [← hcc]
    have c2 : c.senderAta = q.account s := by rw [← hcc]
    have c3 : c.streamDataAta = q.vault s := by rw [← hcc]
    have c4 : c.streamData = q.stream s := by rw [← hcc]
    have hready : CancelReady rt w c s q.salt sd md := by
      refine ⟨k1, by rw [k2]; exact m1, by rw [c1]; exact hsig, c1, c4, by rw [← hcc], by rw [← hcc, k2], by rw [← hcc, m2],
        by rw [c3, k2, m2]; rfl, by rw [c2, c1, k2, m2]; rfl, ?_⟩
      rw [c1, c2, k2, m2]
      cases ht : w.bank.tokens (q.account s) with
      | some t => exact .inl ⟨t, ht, (hh.account t ht).1⟩
      | none =>
        refine .inr ⟨ht, ?_⟩
        unfold CanFund
        unfold Position.rent at hlam
        omega
    have hv := hr.viewsOf k1
    have hdue := refund_eq hr k1
    obtain ⟨w₁, hs1⟩ := C14_cancel_succeeds hr hready m3
      ⟨m4, by rw [c3]; exact hh.thawed, by rw [c2]; exact fun t ht => (hh.account t ht).2, fun _ => m5, by rw [c2]; exact hh.noMemo⟩
      hv.refundable (by rw [← hdue]; exact hh.positive)
    have hs' : step rt w (q.cancel s) = .ok w₁ := by rw [hc]; exact hs1
    obtain ⟨tz, hz1, hz3, hz2⟩ := cancel_thawed (show cancel rt w c = .ok w₁ from hs1)
    obtain ⟨xv, -, -, -, hv1, hv2, -⟩ := C15_vested_safe hr (s := s) (n := q.salt) c4 hs1 (.refl _)
    obtain ⟨s', n', sd0, sd1, md', x, y, g1, e1, e2, e3, g2, -, -, -, e4, e5, e6, -, e7, e8, -, -, f1, f2, f3, -, e9, e10, e11,
      e12, e13, e14, e15, -⟩ := C14_cancel_effect hr hs1
    obtain ⟨rfl, rfl⟩ := streamAddr_inj (c4.symm.trans g1)
    rw [show streamAddr s q.salt = q.stream s from rfl] at e1 e2
    rw [k1] at e1; cases e1
    rw [k2, m1] at e3; cases e3
    rw [c4] at e9
    rw [c2, c3] at e10
    rw [c3] at f1 f2
    rw [c2] at f3 hz1
    have hxd : x = q.refund rt w s := by
      rw [hdue]; rw [hv.refundable] at g2; exact (ok_inj.1 g2).symm
    have hfee : md.fee x = 0 := by unfold MintData.fee; rw [m3.1]
    rw [hfee, Nat.sub_zero, hxd] at f3
    rw [hxd] at f1 f2 e4
    have hset := (step_did hs1).settings rfl
    have hrent := (C60_rent_only (ix := q.cancel s) (p := s) rfl rfl hs').2.left
    have hopens := opens_cancel rt w s q
    have hr₁ := hr.step hs1
    have hnow : w₁.now = w.now := by unfold World.now; rw [e15]
    rw [List.map_cons, List.nodup_cons] at hnd
    have hdiff : ∀ q' ∈ qs, q'.stream s ≠ q.stream s := fun q' hm e =>
      hnd.1 (List.mem_map.2 ⟨q', hm, (streamAddr_inj e).2⟩)
    have hvv : ∀ q' ∈ qs, q'.vault s ≠ q.vault s := by
      intro q' hm e; unfold Position.vault at e; injection e with e; exact hdiff q' hm e
    have hdue' : ∀ q' ∈ qs, q'.refund rt w₁ s = q'.refund rt w s := by
      intro q' hm
      obtain ⟨sd', j1, _⟩ := (hpay q' (by simp [hm])).stream
      rw [refund_eq hr j1, refund_eq hr₁ (by rw [e9 _ (hdiff q' hm)]; exact j1), hnow]
    have hpay₁ : ∀ q' ∈ qs, q'.Cancelable rt w₁ s := by
      intro q' hm
      have hp' := hpay q' (by simp [hm])
      refine ⟨by rw [e9 _ (hdiff q' hm)]; exact hp'.stream, by rw [e11]; exact hp'.mint, ?_, ?_,
        by rw [hset]; exact hp'.noMemo, by rw [hdue' q' hm]; exact hp'.positive⟩
      · intro t ht
        rw [e10 _ (hvv q' hm) (hva q q')] at ht
        exact hp'.thawed t ht
      · intro t ht
        by_cases hsame : q'.account s = q.account s
        · rw [hsame] at ht
          rw [hz1] at ht; cases ht
          exact ⟨by rw [hz3, c1], hz2⟩
        · rw [e10 _ (fun e => hva q' q e.symm) hsame] at ht
          exact hp'.account t ht
    obtain ⟨w', hrun, hb⟩ := ih hr₁ (by omega) hpay₁ hnd.2
    have hr' := hr₁.steps (steps_runAll _ hrun)
    have hclock : w'.clock = w.clock := hb.clock.trans e15
    have hmem : ∀ q' ∈ qs, q' ∈ q :: qs := fun q' hm => by simp [hm]
    have hstr : w'.lk.streams (q.stream s) = some sd1 := by
      rw [hb.streams _ fun q' hm => (hdiff q' hm).symm]; exact e2
    refine ⟨w', bind_ok.2 ⟨w₁, hs', hrun⟩, ?_⟩
    refine ⟨?_, ?_, ?_, ?_, ?_, ?_, ?_, hb.mints.trans e11, hb.airdrops.trans e12, hb.treasury.trans e13,
      hb.collection.trans e14, hclock⟩
    · intro q' hm
      rcases List.mem_cons.1 hm with rfl | hm
      · exact ⟨sd, sd1, k1, hstr, e4, e7, e5, e6, e8⟩
      · obtain ⟨a, b, i1, i2, i3, i4⟩ := hb.recorded q' hm
        rw [e9 _ (hdiff q' hm)] at i1
        rw [hdue' q' hm] at i3
        exact ⟨a, b, i1, i2, i3, i4⟩
    · intro q' hm
      rcases List.mem_cons.1 hm with rfl | hm
      · have i1 := (hr₁.viewsOf (s := s) (n := q'.salt) e2).withdrawable
        have i2 := (hr'.viewsOf (s := s) (n := q'.salt) hstr).withdrawable
        rw [i2, show w'.now = w₁.now by unfold World.now; rw [hb.clock], ← i1, hv2, hv1]
      · rw [hb.vested q' hm]
        obtain ⟨sd', j1, _⟩ := (hpay q' (by simp [hm])).stream
        rw [(hr.viewsOf (s := s) (n := q'.salt) j1).withdrawable,
          (hr₁.viewsOf (s := s) (n := q'.salt) (by
            show w₁.lk.streams (q'.stream s) = some sd'
            rw [e9 _ (hdiff q' hm)]; exact j1)).withdrawable, hnow]
    · intro q' hm
      rcases List.mem_cons.1 hm with rfl | hm
      · have : w'.bank.balance (q'.vault s) = w₁.bank.balance (q'.vault s) := by
          unfold Bank.balance
          rw [hb.tokens _ fun q'' hm'' => ⟨(hvv q'' hm'').symm, hva q'' q'⟩]
        omega
      · have := hb.paid q' hm
        rw [hdue' q' hm] at this
        rw [← this]
        unfold Bank.balance
        rw [e10 _ (hvv q' hm) (hva q q')]
    · intro a ha
      have := hb.received a fun q' hm => ha q' (hmem q' hm)
      rw [this]
      have hsum : ((qs.filter (·.account s = a)).map (Position.refund rt w₁ s)).sum =
          ((qs.filter (·.account s = a)).map (Position.refund rt w s)).sum := by
        congr 1
        exact List.map_congr_left fun q' hm => hdue' q' (List.mem_filter.1 hm).1
      rw [hsum]
      by_cases haa : q.account s = a
      · subst haa
        rw [f3]
        simp only [decide_true, List.filter_cons_of_pos, List.map_cons, List.sum_cons]
        omega
      · rw [List.filter_cons_of_neg (by simpa using haa)]
        congr 1
        unfold Bank.balance
        rw [e10 _ (ha q (by simp)) (Ne.symm haa)]
    · have := hb.rent
      simp only [List.map_cons, List.sum_cons]
      omega
    · intro y hy
      rw [hb.streams y fun q' hm => hy q' (hmem q' hm), e9 y (hy q (by simp))]
    · intro a ha
      rw [hb.tokens a fun q' hm => ha q' (hmem q' hm), e10 a (ha q (by simp)).1 (ha q (by simp)).2]

/-- **C100**: likewise a sender can cancel any list of their streams, in any tokens and in any order: every cancellation
succeeds, the sender receives exactly what was refundable, the recipients keep what they could withdraw, and nothing else
changes. -/
theorem C100_cancel {rt : Runtime} {w : World} (hr : Reachable rt w) {s : Addr} (hs : s.canSign = true)
    {qs : List Position} (hcan : ∀ q ∈ qs, q.Cancelable rt w s) (hdiff : (qs.map Position.salt).Nodup)
    (hrent : (qs.map (Position.rent rt)).sum ≤ w.lamports s) :
    ∃ w', runAll rt w (qs.map (Position.cancel s)) = .ok w' ∧ CanceledAll rt w w' s qs :=
  cancelAll hs qs hr hrent hcan hdiff


/-! ## A case -/

theorem of_any {α : Type} {f : α → Bool} {o : Option α} (h : o.any f = true) : ∃ t, o = some t ∧ f t = true := by
  cases o with
  | none => cases h
  | some t => exact ⟨t, rfl, h⟩

/-- Streams 1 and 2 of the demo, both for bob, have ended. -/
@[irreducible] def worldP : World := after world2 [.env (.tick 700000)]
theorem reachP : Reachable rt worldP := by
  unfold worldP; exact reach2.steps (steps_after (by decide +kernel))

def holding (n : Nat) : Holding := ⟨alice, n, bob, tok, mint, tok⟩

theorem payable (n : Nat)
    (h1 : (worldP.lk.streams (holding n).stream).any (fun sd => decide (sd.depositedTokenMint = mint)) = true)
    (h2 : (worldP.bank.tokens (.ata bob tok (.streamNftMint alice n))).any (fun t => decide (t.owner = bob ∧ t.amount = 1)) = true)
    (h3 : (worldP.bank.tokens (holding n).vault).all (fun t => !t.frozen) = true)
    (h4 : 0 < (holding n).due rt worldP) : (holding n).Payable rt worldP := by
  constructor
  case stream =>
    obtain ⟨sd, e, h⟩ := of_any h1
    exact ⟨sd, e, of_decide_eq_true h⟩
  case mint =>
    obtain ⟨md, e, h⟩ := of_any (o := worldP.bank.mints mint)
      (f := fun md : MintData => decide (md.program = tok ∧ md.Plain ∧ md.transferBlocked = false ∧ md.startsFrozen = false))
      (by decide +kernel)
    exact ⟨md, e, of_decide_eq_true h⟩
  case holds =>
    obtain ⟨t, e, h⟩ := of_any h2
    exact ⟨t, e, of_decide_eq_true h⟩
  case wallet => exact nofun
  case thawed => exact fun t ht => by simpa using of_all h3 ht
  case account =>
    intro t ht
    have := of_all (f := fun t : TokenData => decide (t.owner = bob ∧ t.frozen = false)) (o := worldP.bank.tokens (.ata bob tok mint))
      (by decide +kernel) ht
    exact of_decide_eq_true this
  case noMemo =>
    show (worldP.settings (.ata bob tok mint)).memoRequired = false
    decide +kernel
  case positive => exact h4

/-- Carol collects both for him. -/
example := C100_collect reachP (p := carol) rfl (tr := ⟨255, collector, oracleProgram, feed⟩) (by decide +kernel)
  (hs := [holding 2, holding 1])
  (by
    intro h hm
    simp only [List.mem_cons, List.not_mem_nil, or_false] at hm
    rcases hm with rfl | rfl
    · exact payable 2 (by decide +kernel) (by decide +kernel) (by decide +kernel) (by decide +kernel)
    · exact payable 1 (by decide +kernel) (by decide +kernel) (by decide +kernel) (by decide +kernel))
  (by decide +kernel) (by decide +kernel)

/-- While the streams run. -/
@[irreducible] def worldQ : World := world2
theorem reachQ : Reachable rt worldQ := by
  unfold worldQ; exact reach2

def position (n : Nat) : Position := ⟨n, mint, tok⟩

theorem cancelable (n : Nat)
    (h1 : (worldQ.lk.streams ((position n).stream alice)).any (fun sd => decide (sd.depositedTokenMint = mint)) = true)
    (h3 : (worldQ.bank.tokens ((position n).vault alice)).all (fun t => !t.frozen) = true)
    (h4 : 0 < (position n).refund rt worldQ alice) : (position n).Cancelable rt worldQ alice := by
  constructor
  case stream =>
    obtain ⟨sd, e, h⟩ := of_any h1
    exact ⟨sd, e, of_decide_eq_true h⟩
  case mint =>
    obtain ⟨md, e, h⟩ := of_any (o := worldQ.bank.mints mint)
      (f := fun md : MintData => decide (md.program = tok ∧ md.Plain ∧ md.transferBlocked = false ∧ md.startsFrozen = false))
      (by decide +kernel)
    exact ⟨md, e, of_decide_eq_true h⟩
  case thawed => exact fun t ht => by simpa using of_all h3 ht
  case account =>
    intro t ht
    have := of_all (f := fun t : TokenData => decide (t.owner = alice ∧ t.frozen = false))
      (o := worldQ.bank.tokens (.ata alice tok mint)) (by decide +kernel) ht
    exact of_decide_eq_true this
  case noMemo =>
    show (worldQ.settings (.ata alice tok mint)).memoRequired = false
    decide +kernel
  case positive => exact h4

/-- Alice cancels both. -/
example := C100_cancel reachQ (s := alice) rfl (qs := [position 2, position 1])
  (by
    intro q hm
    simp only [List.mem_cons, List.not_mem_nil, or_false] at hm
    rcases hm with rfl | rfl
    · exact cancelable 2 (by decide +kernel) (by decide +kernel) (by decide +kernel)
    · exact cancelable 1 (by decide +kernel) (by decide +kernel) (by decide +kernel))
  (by decide +kernel) (by decide +kernel)

end Solsab.Props
