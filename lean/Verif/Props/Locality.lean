import Verif.Proofs.LocalityIx
import Verif.Demo
import Verif.Spec.Api
/-!
# C68, C69: instructions see and change only their accounts; independent instructions commute
-/

namespace Solsab.Props

open Spec Demo

/-- **C68**: an instruction changes only accounts in its `writes` list, not the clock, not the oracle. -/
theorem C68_writes {rt : Runtime} {w w' : World} {ix : Ix} (hp : ix.ofPrograms) (h : step rt w ix = .ok w') :
    (∀ a, a ∉ ix.writes → w'.account a = w.account a) ∧ w'.clock = w.clock ∧ w'.oracle = w.oracle := by
  have := step_local (rt := rt) hp w w rfl fun _ _ => rfl
  rw [h] at this
  exact ⟨this.left, this.clock₀, this.oracle⟩

/-- **C68**: what an instruction does is determined by the clock and by the accounts it lists: on two states that
agree on them it fails with the same error, or succeeds with the same new contents and the same events. -/
theorem C68_reads {rt : Runtime} {w v : World} {ix : Ix} (hp : ix.ofPrograms) (hc : w.clock = v.clock)
    (hs : ∀ a ∈ ix.accounts, w.account a = v.account a) :
    (∀ e, step rt w ix = .error e → step rt v ix = .error e) ∧
    (∀ w', step rt w ix = .ok w' → ∃ v' es, step rt v ix = .ok v' ∧ (∀ a ∈ ix.accounts, w'.account a = v'.account a) ∧
      w'.log = es ++ w.log ∧ v'.log = es ++ v.log) := by
  have h := step_local (rt := rt) hp w v hc hs
  cases hw : step rt w ix with
  | error e =>
    cases hv : step rt v ix with
    | error e' => rw [hw, hv] at h; exact ⟨fun _ h' => by rw [← h']; exact congrArg _ h.symm, fun _ h' => by cases h'⟩
    | ok v' => rw [hw, hv] at h; exact h.elim
  | ok w' =>
    cases hv : step rt v ix with
    | error e' => rw [hw, hv] at h; exact h.elim
    | ok v' =>
      rw [hw, hv] at h
      refine ⟨fun _ h' => by (cases h'), fun w'' h' => ?_⟩
      cases h'
      obtain ⟨es, h1, h2⟩ := h.log
      exact ⟨v', es, rfl, h.same, h1, h2⟩

/-- **C68**, sanity of the vocabulary: the accounts, clock, oracle and log are the whole state. -/
theorem C68_accounts_complete {w v : World} (ha : ∀ a, w.account a = v.account a) (hc : w.clock = v.clock)
    (ho : w.oracle = v.oracle) (hl : w.log = v.log) : w = v := by
  obtain ⟨c, l, ⟨bm, bt⟩, m, ap, se, ⟨t1, nc, st⟩, ⟨t2, ca, re⟩, o, lg⟩ := w
  obtain ⟨c', l', ⟨bm', bt'⟩, m', ap', se', ⟨t1', nc', st'⟩, ⟨t2', ca', re'⟩, o', lg'⟩ := v
  have e1 : l = l' := funext fun a => congrArg Account.lamports (ha a)
  have e2 : bm = bm' := funext fun a => congrArg Account.mint (ha a)
  have e3 : bt = bt' := funext fun a => congrArg Account.token (ha a)
  have e4 : m = m' := funext fun a => congrArg Account.metadata (ha (.metadata a))
  have e5 : t1 = t1' := congrArg Account.treasury (ha (.treasury .lockup))
  have e6 : nc = nc' := congrArg Account.collection (ha .nftCollectionData)
  have e7 : st = st' := funext fun a => congrArg Account.stream (ha a)
  have e8 : t2 = t2' := congrArg Account.treasury (ha (.treasury .merkle))
  have e9 : ca = ca' := funext fun a => congrArg Account.campaign (ha a)
  have e10 : re = re' := funext fun a => congrArg Account.receipt (ha a)
  have e11 : ap = ap' := funext fun a => congrArg Account.approval (ha a)
  have e12 : se = se' := funext fun a => congrArg Account.settings (ha a)
  cases e1; cases e2; cases e3; cases e4; cases e5; cases e6; cases e7; cases e8; cases e9; cases e10; cases e11; cases e12
  cases hc; cases ho; cases hl
  rfl

/-- **C68**, views: the stream views are determined by the clock, the stream account and its NFT mint. -/
theorem C68_views {rt : Runtime} {w v : World} {c : Lockup.StreamViewAccts} (hc : w.clock = v.clock)
    (h1 : w.account c.streamData = v.account c.streamData) (h2 : w.account c.streamNftMint = v.account c.streamNftMint) :
    Lockup.streamedAmountOf rt w c = Lockup.streamedAmountOf rt v c ∧
    Lockup.withdrawableAmountOf rt w c = Lockup.withdrawableAmountOf rt v c ∧
    Lockup.refundableAmountOf rt w c = Lockup.refundableAmountOf rt v c ∧
    Lockup.statusOf rt w c = Lockup.statusOf rt v c := by
  have h : Twin [c.streamData, c.streamNftMint] [] w v w v := Twin.init hc (by
    intro a ha
    simp only [List.mem_cons, List.not_mem_nil, or_false] at ha
    rcases ha with rfl | rfl <;> assumption)
  unfold Lockup.streamedAmountOf Lockup.withdrawableAmountOf Lockup.refundableAmountOf Lockup.statusOf
  rw [h.loadStream rt (by simp) (by simp), h.now]
  exact ⟨rfl, rfl, rfl, rfl⟩

/-- A state that differs from the given one in things the withdrawal of the demo does not list: another wallet's
lamports, another stream, the oracle. -/
def altered (w : World) : World := { w with
  lamports := upd w.lamports carol 5
  lk := { w.lk with streams := upd w.lk.streams (str 2) none }
  oracle := fun _ _ => ⟨none, some 3⟩ }

theorem altered_account (w : World) (a : Addr) (h1 : a ≠ carol) (h2 : a ≠ str 2) :
    w.account a = (altered w).account a := by
  simp only [World.account, altered, upd_ne _ _ h1, upd_ne _ _ h2]

theorem altered_clock (w : World) : w.clock = (altered w).clock := rfl
theorem altered_log (w : World) : (altered w).log = w.log := rfl

example : ∃ v' es, step rt (altered world2) ixWithdraw = .ok v' ∧ v'.log = es ++ world2.log ∧
    (after world2 [ixWithdraw]).log = es ++ world2.log ∧
    (after world2 [ixWithdraw]).account (ataOf bob) = v'.account (ataOf bob) := by
  obtain ⟨v', es, h1, h2, h3, h4⟩ := (C68_reads (rt := rt) (w := world2) (v := altered world2) (ix := ixWithdraw)
    (by exact trivial) (altered_clock _) (fun a ha => altered_account _ _
      (by intro h; subst h; revert ha; decide +kernel) (by intro h; subst h; revert ha; decide +kernel))).2
    (after world2 [ixWithdraw]) (step_after (by decide +kernel))
  exact ⟨v', es, h1, by rw [h4, altered_log], h3, h2 _ (by decide +kernel)⟩

example : Lockup.withdrawableAmountOf rt world2 (viewOf alice 1) =
    Lockup.withdrawableAmountOf rt (altered world2) (viewOf alice 1) :=
  (C68_views (altered_clock _) (altered_account _ _ (by decide +kernel) (by decide +kernel))
    (altered_account _ _ (by decide +kernel) (by decide +kernel))).2.1

/-- The treasury is not changed by the withdrawal of the demo. -/
example : world2.account (.treasury .lockup) = (after world2 [ixWithdraw]).account (.treasury .lockup) :=
  ((C68_writes (rt := rt) (ix := ixWithdraw) (by exact trivial) (step_after (by decide +kernel))).1 _ (by decide +kernel)).symm

/-- **C69**: an instruction that shares no written account with another cannot influence whether the other succeeds,
or with which error it fails. -/
theorem C69_no_interference {rt : Runtime} {w w₁ : World} {ix jx : Ix} (hi : ix.ofPrograms) (hj : jx.ofPrograms)
    (hd : ∀ a ∈ ix.writes, a ∉ jx.accounts) (h : step rt w ix = .ok w₁) (e : Err) :
    step rt w₁ jx = .error e ↔ step rt w jx = .error e := by
  obtain ⟨hf, hc, _⟩ := C68_writes hi h
  have hs : ∀ a ∈ jx.accounts, w₁.account a = w.account a := fun a ha => hf a fun hw => hd a hw ha
  exact ⟨(C68_reads hj hc hs).1 e, (C68_reads hj hc.symm fun a ha => (hs a ha).symm).1 e⟩

/-- **C69**: independent instructions commute: executed in either order they lead to the same accounts, and the only
difference in the log is the order of their events. -/
theorem C69_commute {rt : Runtime} {w w₁ w₁₂ : World} {ix jx : Ix} (hi : ix.ofPrograms) (hj : jx.ofPrograms)
    (hd : Independent ix jx) (h1 : step rt w ix = .ok w₁) (h2 : step rt w₁ jx = .ok w₁₂) :
    ∃ w₂ w₂₁ ei ej, step rt w jx = .ok w₂ ∧ step rt w₂ ix = .ok w₂₁ ∧
      (∀ a, w₂₁.account a = w₁₂.account a) ∧ w₂₁.clock = w₁₂.clock ∧ w₂₁.oracle = w₁₂.oracle ∧
      w₁₂.log = ej ++ (ei ++ w.log) ∧ w₂₁.log = ei ++ (ej ++ w.log) := by
  obtain ⟨f1, c1, o1⟩ := C68_writes hi h1
  obtain ⟨f2, c2, o2⟩ := C68_writes hj h2
  obtain ⟨w₂, ej, h3, s3, l12, l2⟩ := (C68_reads hj c1 fun a ha => f1 a fun hw => hd.1 a hw ha).2 _ h2
  obtain ⟨f3, c3, o3⟩ := C68_writes hj h3
  obtain ⟨w₂₁, ei, h4, s4, l1, l21⟩ :=
    (C68_reads hi c3.symm fun a ha => (f3 a fun hw => hd.2 a hw ha).symm).2 _ h1
  obtain ⟨f4, c4, o4⟩ := C68_writes hi h4
  refine ⟨w₂, w₂₁, ei, ej, h3, h4, fun a => ?_, by rw [c4, c3, c2, c1], by rw [o4, o3, o2, o1], by rw [l12, l1],
    by rw [l21, l2]⟩
  by_cases ha : a ∈ ix.writes
  · have hax : a ∈ ix.accounts := List.mem_append_left _ ha
    rw [← s4 a hax, f2 a fun hw => hd.2 a hw hax]
  · rw [f4 a ha]
    by_cases hb : a ∈ jx.accounts
    · exact (s3 a hb).symm
    · have hb' : a ∉ jx.writes := fun hw => hb (List.mem_append_left _ hw)
      rw [f3 a hb', f2 a hb', f1 a ha]

/-- The sender cancels one stream, the recipient of another withdraws: in either order. -/
example := C69_commute (w := world3) (w₁ := world4) (w₁₂ := after world4 [.lockup (.withdrawMax (withdrawAccts bob 2))])
  (ix := ixCancel) (jx := .lockup (.withdrawMax (withdrawAccts bob 2))) (by exact trivial) (by exact trivial)
  (by unfold Independent; decide +kernel) (step_after (by decide +kernel)) (step_after (by decide +kernel))

end Solsab.Props
