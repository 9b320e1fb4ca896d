import Verif.Proofs.Ready
/-!
# Computations that never report one of the programs' own errors
-/

namespace Solsab

/-- Not one of the two programs' own error codes. -/
def Err.external : Err → Prop
  | .lockup _ => False
  | .merkle _ => False
  | _ => True

/-- Fails, if at all, with an error that is not one of the two programs' own codes. -/
def External {α : Type} (x : Res α) : Prop := ∀ e, x = .error e → e.external

theorem External.bind {α β : Type} {x : Res α} {f : α → Res β} (h : External x)
    (hf : ∀ a, x = .ok a → External (f a)) : External (x >>= f) := by
  intro e he
  rcases bind_err.1 he with h' | ⟨a, h1, h2⟩
  · exact h _ h'
  · exact hf a h1 _ h2

theorem External.pure {α : Type} (a : α) : External (Pure.pure a : Res α) := fun e h => by cases h
theorem External.ok {α : Type} (a : α) : External (.ok a : Res α) := fun e h => by cases h
theorem External.require {c : Prop} [Decidable c] {e : Err} (h : e.external) : External (require c e) := by
  intro e' he
  obtain ⟨_, rfl⟩ := require_err.1 he
  exact h
theorem External.fetch {α : Type} {o : Option α} {e : Err} (h : e.external) : External (fetch o e) := by
  intro e' he
  obtain ⟨_, rfl⟩ := fetch_err.1 he
  exact h

macro "external" : tactic => `(tactic| repeat' (first
  | exact External.pure _
  | exact External.ok _
  | exact External.require trivial
  | exact External.fetch trivial
  | (with_reducible refine External.bind ?_ (fun _ _ => ?_))
  | assumption))

theorem transferTokens_external {w : World} {s d x m : Addr} {tp : TokenProgram} {a k : Nat} :
    External (w.transferTokens s d x m tp a k) := by
  unfold World.transferTokens Bank.transferChecked Bank.transferCore
  external
  split <;> external

theorem campaignTransfer_external {rt : Runtime} {w : World} {cd : Merkle.Campaign} {a b c m : Addr}
    {tp : TokenProgram} {x y : Nat} : External (Merkle.campaignTransfer rt w cd a b c m tp x y) := by
  unfold Merkle.campaignTransfer
  external
  exact transferTokens_external

namespace Lockup

/-- After its own checks, a withdraw fails only through external programs. -/
theorem withdrawHandler_split {rt : Runtime} {w : World} {c : WithdrawAccts} {sd : StreamData}
    {md : MintData} {amount : Nat} {log x} (hok : StreamOK rt w.now log x sd) :
    ∃ r : Res World, External r ∧ withdrawHandler w c sd md amount =
      (checkWithdraw sd.isDepleted amount (streamedNow w.now sd - sd.amounts.withdrawn) >>= fun _ => r) := by
  unfold withdrawHandler
  rw [hok.getWithdrawable]
  refine ⟨_, ?_, rfl⟩
  refine External.bind ?_ fun sd' _ => ?_
  · unfold StreamData.withdraw addU64 subU64
    refine External.bind ?_ fun _ _ => ?_
    · intro e; split
      · intro h; cases h
      · intro h; cases h; trivial
    · refine External.bind ?_ fun _ _ => ?_
      · intro e; split
        · intro h; cases h
        · intro h; cases h; trivial
      · split <;> external
  · have : WITHDRAWAL_FEE_USD = 0 := rfl
    rw [this, chargeFee_zero]
    refine External.bind (External.ok _) fun y hy => ?_
    cases hy
    exact External.bind transferTokens_external fun _ _ => External.pure _

/-- After its own checks, a cancel fails only through external programs. -/
theorem cancelHandler_split {rt : Runtime} {w : World} {c : CancelAccts} {sd : StreamData}
    {md : MintData} {log x} (hok : StreamOK rt w.now log x sd) :
    ∃ r : Res World, External r ∧ cancelHandler w c sd md =
      (checkCancel sd.isCancelable sd.isDepleted sd.wasCanceled (streamedNow w.now sd) sd.amounts.deposited
        >>= fun _ => r) := by
  unfold cancelHandler
  rw [hok.getStreamed]
  obtain ⟨h1, h2⟩ := hok.streamed
  refine ⟨_, ?_, rfl⟩
  rw [subU64_ok.2 ⟨h2, rfl⟩]
  refine External.bind (External.ok _) fun y hy => ?_
  rw [subU64_ok.2 ⟨h1, rfl⟩]
  refine External.bind (External.ok _) fun y hy => ?_
  exact External.bind transferTokens_external fun _ _ => External.pure _

end Lockup
end Solsab
