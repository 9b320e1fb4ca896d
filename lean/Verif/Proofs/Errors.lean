import Verif.Proofs.StreamSteps
import Verif.Proofs.CampaignInv
/-!
# Which errors an instruction can report
-/

namespace Solsab

/-- A sequence succeeds if its parts do. -/
theorem bind_succeeds {α β : Type} {x : Res α} {f : α → Res β} {a : α} (h : x = .ok a)
    (h' : ∃ b, f a = .ok b) : ∃ b, (x >>= f) = .ok b := by
  obtain ⟨b, hb⟩ := h'
  exact ⟨b, bind_ok.2 ⟨a, h, hb⟩⟩

theorem bind_err {α β : Type} {x : Res α} {f : α → Res β} {e : Err} :
    (x >>= f) = .error e ↔ x = .error e ∨ ∃ a, x = .ok a ∧ f a = .error e := by
  cases x with
  | error e' => constructor
                · intro h; left; cases h; rfl
                · rintro (h | ⟨a, h, _⟩)
                  · cases h; rfl
                  · cases h
  | ok a => constructor
            · intro h; exact .inr ⟨a, rfl, h⟩
            · rintro (h | ⟨a', h, h'⟩)
              · cases h
              · cases h; exact h'

theorem require_err {c : Prop} [Decidable c] {e e' : Err} : require c e = .error e' ↔ ¬ c ∧ e = e' := by
  unfold require
  split
  · constructor
    · intro h; cases h
    · rintro ⟨h, _⟩; contradiction
  · constructor
    · intro h; cases h; exact ⟨by assumption, rfl⟩
    · rintro ⟨_, rfl⟩; rfl

theorem fetch_err {α : Type} {o : Option α} {e e' : Err} : fetch o e = .error e' ↔ o = none ∧ e = e' := by
  unfold fetch
  cases o with
  | none => constructor
            · intro h; cases h; exact ⟨rfl, rfl⟩
            · rintro ⟨_, rfl⟩; rfl
  | some b => constructor
              · intro h; cases h
              · rintro ⟨h, _⟩; cases h

theorem pure_err {α : Type} {a : α} {e : Err} : (pure a : Res α) = .error e ↔ False := by
  constructor
  · intro h; cases h
  · exact False.elim

theorem ok_ne_err {α : Type} {a : α} {e : Err} : (Except.ok a : Res α) = .error e ↔ False := by
  constructor
  · intro h; cases h
  · exact False.elim

/-- The computation does not panic. -/
def NoPanic {α : Type} (x : Res α) : Prop := x ≠ .error .panic

theorem NoPanic.bind {α β : Type} {x : Res α} {f : α → Res β} (h : NoPanic x)
    (hf : ∀ a, x = .ok a → NoPanic (f a)) : NoPanic (x >>= f) := by
  intro he
  rcases bind_err.1 he with h' | ⟨a, h1, h2⟩
  · exact h h'
  · exact hf a h1 h2

theorem NoPanic.pure {α : Type} (a : α) : NoPanic (Pure.pure a : Res α) := fun h => by cases h
theorem NoPanic.ok {α : Type} (a : α) : NoPanic (.ok a : Res α) := fun h => by cases h
theorem NoPanic.error {α : Type} {e : Err} (h : e ≠ .panic) : NoPanic (.error e : Res α) := by
  intro he; cases he; exact h rfl
theorem NoPanic.require {c : Prop} [Decidable c] {e : Err} (h : e ≠ .panic) : NoPanic (require c e) := by
  intro he; exact h (require_err.1 he).2
theorem NoPanic.fetch {α : Type} {o : Option α} {e : Err} (h : e ≠ .panic) : NoPanic (fetch o e) := by
  intro he; exact h (fetch_err.1 he).2

/-- Walk through a sequence of checks. -/
macro "no_panic" : tactic => `(tactic| repeat' (first
  | exact NoPanic.pure _
  | exact NoPanic.ok _
  | exact NoPanic.require (by simp)
  | exact NoPanic.fetch (by simp)
  | exact NoPanic.error (by simp)
  | (with_reducible refine NoPanic.bind ?_ (fun _ _ => ?_))
  | assumption))

theorem payRent_no_panic {rt : Runtime} {w : World} {p a : Addr} {k : Nat} : NoPanic (w.payRent rt p a k) := by
  unfold World.payRent; no_panic

theorem openAccount_no_panic {b : Bank} {a o m : Addr} {tp : TokenProgram} : NoPanic (b.openAccount a o m tp) := by
  unfold Bank.openAccount; no_panic

theorem openMint_no_panic {b : Bank} {a : Addr} {md : MintData} : NoPanic (b.openMint a md) := by
  unfold Bank.openMint; no_panic

theorem mintTo_no_panic {b : Bank} {m d x : Addr} {tp : TokenProgram} {a : Nat} : NoPanic (b.mintTo m d x tp a) := by
  unfold Bank.mintTo; no_panic

theorem createAta_no_panic {rt : Runtime} {w : World} {p a o m : Addr} {tp : TokenProgram} :
    NoPanic (w.createAta rt p a o tp m) := by
  unfold World.createAta
  have := @openAccount_no_panic w.bank a o m tp
  no_panic
  all_goals exact payRent_no_panic

theorem ensureAta_no_panic {rt : Runtime} {w : World} {p a o m : Addr} {tp : TokenProgram} :
    NoPanic (w.ensureAta rt p a o tp m) := by
  unfold World.ensureAta
  split
  · exact createAta_no_panic
  · no_panic

theorem checkAta_no_panic {b : Bank} {a o m : Addr} {tp : TokenProgram} : NoPanic (b.checkAta a o tp m) := by
  unfold Bank.checkAta; no_panic

theorem transferTokens_no_panic {w : World} {s d x m : Addr} {tp : TokenProgram} {a k : Nat} :
    NoPanic (w.transferTokens s d x m tp a k) := by
  unfold World.transferTokens Bank.transferChecked Bank.transferCore
  no_panic
  split <;> no_panic

namespace Lockup

theorem loadStream_no_panic {rt : Runtime} {w : World} {a m : Addr} : NoPanic (loadStream rt w a m) := by
  unfold loadStream; no_panic

theorem loadTreasury_no_panic {rt : Runtime} {w : World} {a : Addr} : NoPanic (loadTreasury rt w a) := by
  unfold loadTreasury; no_panic

theorem withdrawAccounts_no_panic {rt : Runtime} {w : World} {c : WithdrawAccts} :
    NoPanic (withdrawAccounts rt w c) := by
  unfold withdrawAccounts
  no_panic
  all_goals first | exact loadTreasury_no_panic | exact loadStream_no_panic | exact checkAta_no_panic
                  | exact ensureAta_no_panic

theorem cancelAccounts_no_panic {rt : Runtime} {w : World} {c : CancelAccts} :
    NoPanic (cancelAccounts rt w c) := by
  unfold cancelAccounts
  no_panic
  all_goals first | exact loadStream_no_panic | exact checkAta_no_panic | exact ensureAta_no_panic

theorem checkWithdraw_no_panic {d : Bool} {a x : Nat} : NoPanic (checkWithdraw d a x) := by
  unfold checkWithdraw; repeat' split
  all_goals no_panic

theorem checkCancel_no_panic {a b c : Bool} {x y : Nat} : NoPanic (checkCancel a b c x y) := by
  unfold checkCancel; repeat' split
  all_goals no_panic

theorem checkRenounce_no_panic {a : Bool} {x y : Nat} : NoPanic (checkRenounce a x y) := by
  unfold checkRenounce; repeat' split
  all_goals no_panic

theorem withdrawHandler_no_panic {rt : Runtime} {w : World} {c : WithdrawAccts} {sd : StreamData}
    {dm : MintData} {amount : Nat} {log x} (hok : StreamOK rt w.now log x sd) :
    NoPanic (withdrawHandler w c sd dm amount) := by
  unfold withdrawHandler
  rw [hok.getWithdrawable]
  refine NoPanic.bind (NoPanic.ok _) fun y hy => ?_
  cases hy
  refine NoPanic.bind checkWithdraw_no_panic fun u hu => ?_
  obtain ⟨h1, h2, h3⟩ := checkWithdraw_ok.1 hu
  have hst := hok.streamed
  have hd := hok.dep64
  have hs := hok.sum_le
  refine NoPanic.bind ?_ fun sd' hsd' => ?_
  · unfold StreamData.withdraw
    have e1 : addU64 sd.amounts.withdrawn amount = .ok (sd.amounts.withdrawn + amount) :=
      addU64_ok.2 ⟨by omega, rfl⟩
    have e2 : subU64 sd.amounts.deposited sd.amounts.refunded = .ok (sd.amounts.deposited - sd.amounts.refunded) :=
      subU64_ok.2 ⟨by omega, rfl⟩
    rw [e1]
    refine NoPanic.bind (NoPanic.ok _) fun y hy => ?_
    cases hy
    simp only [e2]
    refine NoPanic.bind (NoPanic.ok _) fun y hy => ?_
    split <;> no_panic
  · have : WITHDRAWAL_FEE_USD = 0 := rfl
    rw [this, chargeFee_zero]
    refine NoPanic.bind (NoPanic.ok _) fun y hy => ?_
    cases hy
    refine NoPanic.bind transferTokens_no_panic fun y hy => ?_
    no_panic

theorem withdraw_no_panic {rt : Runtime} {w : World} (hr : Reachable rt w) (c : WithdrawAccts) (amount : Nat) :
    NoPanic (withdraw rt w c amount) := by
  unfold withdraw
  refine NoPanic.bind withdrawAccounts_no_panic fun y hy => ?_
  obtain ⟨w₁, sd, dm⟩ := y
  obtain ⟨b, l, ha, _, rfl⟩ := withdrawAccounts_ok hy
  exact withdrawHandler_no_panic (rt := rt) (x := c.streamData) (log := w.log) (hr.streamOK ha.stream)

theorem withdrawMax_no_panic {rt : Runtime} {w : World} (hr : Reachable rt w) (c : WithdrawAccts) :
    NoPanic (withdrawMax rt w c) := by
  unfold withdrawMax
  refine NoPanic.bind withdrawAccounts_no_panic fun y hy => ?_
  obtain ⟨w₁, sd, dm⟩ := y
  obtain ⟨b, l, ha, _, rfl⟩ := withdrawAccounts_ok hy
  have hok := hr.streamOK ha.stream
  refine NoPanic.bind ?_ fun y hy => ?_
  · show NoPanic (getWithdrawableAmount w.now _ _ _ _)
    rw [hok.getWithdrawable]; exact NoPanic.ok _
  · exact withdrawHandler_no_panic (rt := rt) (x := c.streamData) (log := w.log) hok

theorem cancel_no_panic {rt : Runtime} {w : World} (hr : Reachable rt w) (c : CancelAccts) :
    NoPanic (cancel rt w c) := by
  unfold cancel
  refine NoPanic.bind cancelAccounts_no_panic fun y hy => ?_
  obtain ⟨w₁, sd, dm⟩ := y
  obtain ⟨b, l, ha, _, rfl⟩ := cancelAccounts_ok hy
  have hok := hr.streamOK ha.stream
  unfold cancelHandler
  have hg : getStreamedAmount w.now _ _ _ _ = _ := hok.getStreamed
  show NoPanic (getStreamedAmount w.now _ _ _ _ >>= _)
  rw [hg]
  refine NoPanic.bind (NoPanic.ok _) fun y hy => ?_
  cases hy
  refine NoPanic.bind checkCancel_no_panic fun u hu => ?_
  obtain ⟨h1, h2⟩ := hok.streamed
  rw [subU64_ok.2 ⟨h2, rfl⟩]
  refine NoPanic.bind (NoPanic.ok _) fun y hy => ?_
  rw [subU64_ok.2 ⟨h1, rfl⟩]
  refine NoPanic.bind (NoPanic.ok _) fun y hy => ?_
  refine NoPanic.bind transferTokens_no_panic fun y hy => ?_
  no_panic

theorem renounce_no_panic {rt : Runtime} {w : World} (hr : Reachable rt w) (c : RenounceAccts) :
    NoPanic (renounce rt w c) := by
  unfold renounce
  refine NoPanic.bind (NoPanic.require (by simp)) fun y hy => ?_
  refine NoPanic.bind loadStream_no_panic fun sd hy => ?_
  have hok := hr.streamOK (loadStream_ok.1 hy).1
  refine NoPanic.bind (NoPanic.require (by simp)) fun y hy => ?_
  rw [hok.getStreamed]
  refine NoPanic.bind (NoPanic.ok _) fun y hy => ?_
  refine NoPanic.bind checkRenounce_no_panic fun u hu => ?_
  no_panic

end Lockup

namespace Merkle

theorem loadTreasury_no_panic {rt : Runtime} {w : World} {a : Addr} : NoPanic (loadTreasury rt w a) := by
  unfold loadTreasury; no_panic

theorem campaignTransfer_no_panic {rt : Runtime} {w : World} {cd : Campaign} {a b c m : Addr} {tp : TokenProgram}
    {x y : Nat} : NoPanic (campaignTransfer rt w cd a b c m tp x y) := by
  unfold campaignTransfer
  no_panic
  exact transferTokens_no_panic

theorem claim_no_panic {rt : Runtime} {w : World} (c : ClaimAccts) (index amount : Nat)
    (proof : List Bytes32) : NoPanic (claim rt w c index amount proof) := by
  unfold claim
  refine NoPanic.bind ?_ fun y hy => ?_
  · unfold claimAccounts
    no_panic
    all_goals first | exact loadTreasury_no_panic | exact checkAta_no_panic | exact ensureAta_no_panic
                    | exact payRent_no_panic
  · obtain ⟨w₁, cd, dm⟩ := y
    show NoPanic (claimHandler rt w₁ c cd dm index amount proof)
    unfold claimHandler
    refine NoPanic.bind ?_ fun y hy => ?_
    · unfold checkClaim; repeat' split
      all_goals no_panic
    have : CLAIM_FEE_USD = 0 := rfl
    rw [this, chargeFee_zero]
    refine NoPanic.bind (NoPanic.ok _) fun y hy => ?_
    cases hy
    refine NoPanic.bind campaignTransfer_no_panic fun y hy => ?_
    no_panic

/-- The grace-period sum cannot overflow: claims happen at clock values. -/
theorem hasGrace_ok {now f : Nat} (hf : f ≤ now) (hn : now < 2 ^ 63) :
    hasGracePeriodPassed now f = .ok (decide (0 < f ∧ f + GRACE_PERIOD < now)) := by
  unfold hasGracePeriodPassed
  have hg : GRACE_PERIOD = 604800 := rfl
  split
  · rename_i h
    rw [addU64_ok.2 ⟨by omega, rfl⟩]
    show Except.ok _ = _
    simp [h]
  · rename_i h
    have : f = 0 := by omega
    simp [this]

end Merkle

theorem now_lt63 {w : World} (h : ClockOk w) : w.now < 2 ^ 63 := by
  have := h.now; have := h.2; omega

namespace Merkle

theorem clawback_no_panic {rt : Runtime} {w : World} (hr : Reachable rt w) (c : ClawbackAccts) (amount : Nat) :
    NoPanic (clawback rt w c amount) := by
  unfold clawback
  refine NoPanic.bind ?_ fun y hy => ?_
  · unfold clawbackAccounts
    no_panic
    all_goals first | exact checkAta_no_panic | exact ensureAta_no_panic
  · obtain ⟨w₁, cd, dm⟩ := y
    have hw : w₁.now = w.now ∧ w.mi.campaigns c.campaign = some cd := by
      simp only [clawbackAccounts, bind_ok, require_ok, fetch_ok, pure_ok, Prod.mk.injEq] at hy
      obtain ⟨_, _, cd', h1, _, _, _, _, dm', h2, _, _, w₂, h3, rfl, rfl, rfl⟩ := hy
      obtain ⟨b, l, _, _, rfl⟩ := ensureAta_ok h3
      exact ⟨rfl, h1⟩
    have hok := hr.campaignOK hw.2
    show NoPanic (clawbackHandler rt w₁ c cd dm amount)
    unfold clawbackHandler
    refine NoPanic.bind ?_ fun y hy => ?_
    · unfold checkClawback
      rw [hw.1, hasGrace_ok hok.first_le (now_lt63 hr.clockOk)]
      refine NoPanic.bind (NoPanic.ok _) fun y hy => ?_
      split <;> no_panic
    refine NoPanic.bind campaignTransfer_no_panic fun y hy => ?_
    no_panic

end Merkle
end Solsab
