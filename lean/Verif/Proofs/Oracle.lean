import Verif.Proofs.CreateReady
/-!
# No instruction result depends on the oracle (with the shipped fee constants)
-/

namespace Solsab

/-- The world with other oracle data. -/
def World.withOracle (o : Addr → Addr → OracleData) (w : World) : World := { w with oracle := o }

theorem map_bind_res {α β γ : Type} (x : Res α) (f : α → β) (g : β → Res γ) :
    (x.map f >>= g) = x >>= fun a => g (f a) := by cases x <;> rfl

theorem bind_map_res {α β γ : Type} (x : Res α) (g : α → Res β) (f : β → γ) :
    Except.map f (x >>= g) = x >>= fun a => (g a).map f := by cases x <;> rfl

theorem bind_congr_res {α β : Type} (x : Res α) {g g' : α → Res β} (h : ∀ a, g a = g' a) : (x >>= g) = x >>= g' := by
  cases x with
  | error e => rfl
  | ok a => exact h a

variable (o : Addr → Addr → OracleData)

theorem payRent_oracle (rt : Runtime) (w : World) (p a : Addr) (k : Nat) :
    (w.withOracle o).payRent rt p a k = (w.payRent rt p a k).map (World.withOracle o) := by
  unfold World.payRent
  rw [bind_map_res]
  exact bind_congr_res _ fun _ => rfl

theorem createAta_oracle (rt : Runtime) (w : World) (p a ow : Addr) (tp : TokenProgram) (m : Addr) :
    (w.withOracle o).createAta rt p a ow tp m = (w.createAta rt p a ow tp m).map (World.withOracle o) := by
  unfold World.createAta
  rw [bind_map_res]
  refine bind_congr_res _ fun _ => ?_
  rw [bind_map_res]
  refine bind_congr_res _ fun b => ?_
  exact payRent_oracle o rt { w with bank := b } p a (World.tokenSpace rt m tp)

theorem ensureAta_oracle (rt : Runtime) (w : World) (p a ow : Addr) (tp : TokenProgram) (m : Addr) :
    (w.withOracle o).ensureAta rt p a ow tp m = (w.ensureAta rt p a ow tp m).map (World.withOracle o) := by
  unfold World.ensureAta
  rw [show (w.withOracle o).bank = w.bank from rfl]
  cases w.bank.tokens a with
  | none => exact createAta_oracle o rt w p a ow tp m
  | some t =>
    simp only
    rw [bind_map_res]; refine bind_congr_res _ fun _ => ?_
    rw [bind_map_res]; refine bind_congr_res _ fun _ => ?_
    rw [bind_map_res]; refine bind_congr_res _ fun _ => ?_
    rfl

theorem transferTokens_oracle (w : World) (s d x m : Addr) (tp : TokenProgram) (a k : Nat) :
    (w.withOracle o).transferTokens s d x m tp a k = (w.transferTokens s d x m tp a k).map (World.withOracle o) := by
  unfold World.transferTokens
  rw [bind_map_res]; refine bind_congr_res _ fun _ => ?_
  rw [bind_map_res]; refine bind_congr_res _ fun _ => ?_
  rw [bind_map_res]
  exact bind_congr_res _ fun _ => rfl

namespace Lockup

theorem withdrawAccounts_oracle (rt : Runtime) (w : World) (c : WithdrawAccts) :
    withdrawAccounts rt (w.withOracle o) c =
      (withdrawAccounts rt w c).map (fun r => (r.1.withOracle o, r.2)) := by
  unfold withdrawAccounts
  rw [bind_map_res]; refine bind_congr_res _ fun _ => ?_
  rw [bind_map_res]; refine bind_congr_res _ fun _ => ?_
  rw [bind_map_res]; refine bind_congr_res _ fun _ => ?_
  rw [bind_map_res]; refine bind_congr_res _ fun _ => ?_
  rw [bind_map_res]; refine bind_congr_res _ fun _ => ?_
  rw [bind_map_res]; refine bind_congr_res _ fun _ => ?_
  rw [bind_map_res]; refine bind_congr_res _ fun _ => ?_
  rw [bind_map_res]; refine bind_congr_res _ fun _ => ?_
  rw [bind_map_res]; refine bind_congr_res _ fun _ => ?_
  rw [bind_map_res]; refine bind_congr_res _ fun _ => ?_
  rw [bind_map_res]; refine bind_congr_res _ fun _ => ?_
  rw [bind_map_res, ensureAta_oracle, map_bind_res]
  exact bind_congr_res _ fun _ => rfl

theorem withdrawHandler_oracle (w : World) (c : WithdrawAccts) (sd : StreamData) (dm : MintData) (a : Nat) :
    withdrawHandler (w.withOracle o) c sd dm a = (withdrawHandler w c sd dm a).map (World.withOracle o) := by
  unfold withdrawHandler
  have hz : WITHDRAWAL_FEE_USD = 0 := rfl
  simp only [hz, chargeFee_zero]
  rw [bind_map_res]; refine bind_congr_res _ fun _ => ?_
  rw [bind_map_res]; refine bind_congr_res _ fun _ => ?_
  rw [bind_map_res]; refine bind_congr_res _ fun _ => ?_
  simp only [ok_bind]
  rw [bind_map_res, transferTokens_oracle, map_bind_res]
  exact bind_congr_res _ fun _ => rfl

theorem withdraw_oracle (rt : Runtime) (w : World) (c : WithdrawAccts) (a : Nat) :
    withdraw rt (w.withOracle o) c a = (withdraw rt w c a).map (World.withOracle o) := by
  unfold withdraw
  rw [bind_map_res, withdrawAccounts_oracle, map_bind_res]
  exact bind_congr_res _ fun r => withdrawHandler_oracle o r.1 c r.2.1 r.2.2 a

theorem withdrawMax_oracle (rt : Runtime) (w : World) (c : WithdrawAccts) :
    withdrawMax rt (w.withOracle o) c = (withdrawMax rt w c).map (World.withOracle o) := by
  unfold withdrawMax
  rw [bind_map_res, withdrawAccounts_oracle, map_bind_res]
  refine bind_congr_res _ fun r => ?_
  rw [bind_map_res]
  refine bind_congr_res _ fun a => ?_
  exact withdrawHandler_oracle o r.1 c r.2.1 r.2.2 a

theorem cancelAccounts_oracle (rt : Runtime) (w : World) (c : CancelAccts) :
    cancelAccounts rt (w.withOracle o) c = (cancelAccounts rt w c).map (fun r => (r.1.withOracle o, r.2)) := by
  unfold cancelAccounts
  rw [bind_map_res]; refine bind_congr_res _ fun _ => ?_
  rw [bind_map_res]; refine bind_congr_res _ fun _ => ?_
  rw [bind_map_res]; refine bind_congr_res _ fun _ => ?_
  rw [bind_map_res]; refine bind_congr_res _ fun _ => ?_
  rw [bind_map_res]; refine bind_congr_res _ fun _ => ?_
  rw [bind_map_res]; refine bind_congr_res _ fun _ => ?_
  rw [bind_map_res, ensureAta_oracle, map_bind_res]
  exact bind_congr_res _ fun _ => rfl

theorem cancel_oracle (rt : Runtime) (w : World) (c : CancelAccts) :
    cancel rt (w.withOracle o) c = (cancel rt w c).map (World.withOracle o) := by
  unfold cancel
  rw [bind_map_res, cancelAccounts_oracle, map_bind_res]
  refine bind_congr_res _ fun r => ?_
  obtain ⟨w, sd, dm⟩ := r
  unfold cancelHandler
  rw [bind_map_res]; refine bind_congr_res _ fun _ => ?_
  rw [bind_map_res]; refine bind_congr_res _ fun _ => ?_
  rw [bind_map_res]; refine bind_congr_res _ fun _ => ?_
  rw [bind_map_res]; refine bind_congr_res _ fun _ => ?_
  simp only
  rw [bind_map_res, transferTokens_oracle, map_bind_res]
  exact bind_congr_res _ fun _ => rfl

theorem renounce_oracle (rt : Runtime) (w : World) (c : RenounceAccts) :
    renounce rt (w.withOracle o) c = (renounce rt w c).map (World.withOracle o) := by
  unfold renounce
  rw [bind_map_res]; refine bind_congr_res _ fun _ => ?_
  rw [bind_map_res]; refine bind_congr_res _ fun _ => ?_
  rw [bind_map_res]; refine bind_congr_res _ fun _ => ?_
  rw [bind_map_res]; refine bind_congr_res _ fun _ => ?_
  rw [bind_map_res]; refine bind_congr_res _ fun _ => ?_
  rfl

theorem payMetaplex_oracle (rt : Runtime) (w : World) (p m : Addr) :
    payMetaplex rt (w.withOracle o) p m = (payMetaplex rt w p m).map (World.withOracle o) := by
  have hs : ∀ s d x, (w.withOracle o).systemTransfer s d x = (w.systemTransfer s d x).map (World.withOracle o) := by
    intro s d x
    unfold World.systemTransfer
    rw [bind_map_res]
    exact bind_congr_res _ fun _ => rfl
  unfold payMetaplex
  rw [bind_map_res, hs, map_bind_res]; refine bind_congr_res _ fun _ => ?_
  rw [bind_map_res, payRent_oracle, map_bind_res]; refine bind_congr_res _ fun _ => ?_
  exact payRent_oracle o rt _ _ _ _

theorem metaplexCreate_oracle (rt : Runtime) (w : World) (p m a : Addr) (n : List Char) (i : NftInfo) (k : Option Nat) :
    metaplexCreate rt (w.withOracle o) p m a n i k = (metaplexCreate rt w p m a n i k).map (World.withOracle o) := by
  unfold metaplexCreate
  rw [bind_map_res]; refine bind_congr_res _ fun _ => ?_
  rw [bind_map_res]; refine bind_congr_res _ fun _ => ?_
  rw [bind_map_res]; refine bind_congr_res _ fun _ => ?_
  rw [bind_map_res]; refine bind_congr_res _ fun _ => ?_
  rw [bind_map_res]; refine bind_congr_res _ fun _ => ?_
  rw [bind_map_res]; refine bind_congr_res _ fun _ => ?_
  rw [bind_map_res, payMetaplex_oracle, map_bind_res]; refine bind_congr_res _ fun _ => ?_
  rfl

theorem metaplexVerifyItem_oracle (w : World) (i c a : Addr) :
    metaplexVerifyItem (w.withOracle o) i c a = (metaplexVerifyItem w i c a).map (World.withOracle o) := by
  unfold metaplexVerifyItem
  rw [bind_map_res]; refine bind_congr_res _ fun _ => ?_
  rw [bind_map_res]; refine bind_congr_res _ fun _ => ?_
  rw [bind_map_res]; refine bind_congr_res _ fun _ => ?_
  rw [bind_map_res]; refine bind_congr_res _ fun _ => ?_
  rw [bind_map_res]; refine bind_congr_res _ fun _ => ?_
  rfl

theorem metaplexSign_oracle (w : World) (m c : Addr) :
    metaplexSign (w.withOracle o) m c = (metaplexSign w m c).map (World.withOracle o) := by
  unfold metaplexSign
  rw [bind_map_res]; refine bind_congr_res _ fun _ => ?_
  rw [bind_map_res]; refine bind_congr_res _ fun _ => ?_
  rfl

theorem nftCreateStream_oracle (rt : Runtime) (w : World) (p m c a : Addr) (tp : TokenProgram) :
    nftCreateStream rt (w.withOracle o) p m c a tp = (nftCreateStream rt w p m c a tp).map (World.withOracle o) := by
  unfold nftCreateStream
  rw [bind_map_res]; refine bind_congr_res _ fun name => ?_
  rw [bind_map_res]; refine bind_congr_res _ fun b => ?_
  rw [bind_map_res]
  refine (congrArg (· >>= _) (metaplexCreate_oracle o rt { w with bank := b } p m c name (streamNftInfo c) none)).trans ?_
  rw [map_bind_res]
  exact bind_congr_res _ fun _ => metaplexVerifyItem_oracle o _ _ _ _

theorem nftInitializeCollection_oracle (rt : Runtime) (w : World) (p c a : Addr) (tp : TokenProgram) :
    nftInitializeCollection rt (w.withOracle o) p c a tp = (nftInitializeCollection rt w p c a tp).map (World.withOracle o) := by
  unfold nftInitializeCollection
  rw [bind_map_res]; refine bind_congr_res _ fun b => ?_
  rw [bind_map_res]
  refine (congrArg (· >>= _) (metaplexCreate_oracle o rt { w with bank := b } _ _ _ _ _ _)).trans ?_
  rw [map_bind_res]
  exact bind_congr_res _ fun _ => metaplexSign_oracle o _ _ _

theorem initializeProgram_oracle (rt : Runtime) (w : World) (c : InitializeAccts) (f p s : Addr) :
    initializeProgram rt (w.withOracle o) c f p s = (initializeProgram rt w c f p s).map (World.withOracle o) := by
  unfold initializeProgram
  rw [bind_map_res]; refine bind_congr_res _ fun _ => ?_
  rw [bind_map_res]; refine bind_congr_res _ fun _ => ?_
  rw [bind_map_res]; refine bind_congr_res _ fun _ => ?_
  rw [bind_map_res, payRent_oracle, map_bind_res]; refine bind_congr_res _ fun _ => ?_
  rw [bind_map_res]; refine bind_congr_res _ fun _ => ?_
  rw [bind_map_res]; refine bind_congr_res _ fun _ => ?_
  rw [bind_map_res, payRent_oracle, map_bind_res]; refine bind_congr_res _ fun _ => ?_
  rw [bind_map_res]; refine bind_congr_res _ fun _ => ?_
  rw [bind_map_res]; refine bind_congr_res _ fun b => ?_
  rw [bind_map_res]
  refine (congrArg (· >>= _) (payRent_oracle o rt { (_ : World) with bank := b } _ _ _)).trans ?_
  rw [map_bind_res]; refine bind_congr_res _ fun _ => ?_
  rw [bind_map_res, createAta_oracle, map_bind_res]; refine bind_congr_res _ fun _ => ?_
  exact nftInitializeCollection_oracle o rt { (_ : World) with lk := _ } _ _ _ _

theorem createWithTimestamps_oracle (rt : Runtime) (w : World) (c : CreateAccts) (p : CreateParams) :
    createWithTimestamps rt (w.withOracle o) c p = (createWithTimestamps rt w c p).map (World.withOracle o) := by
  unfold createWithTimestamps
  rw [bind_map_res]; refine bind_congr_res _ fun _ => ?_
  rw [bind_map_res]; refine bind_congr_res _ fun _ => ?_
  rw [bind_map_res]; refine bind_congr_res _ fun _ => ?_
  rw [bind_map_res]; refine bind_congr_res _ fun _ => ?_
  rw [bind_map_res]; refine bind_congr_res _ fun _ => ?_
  rw [bind_map_res]; refine bind_congr_res _ fun _ => ?_
  rw [bind_map_res]; refine bind_congr_res _ fun _ => ?_
  rw [bind_map_res]; refine bind_congr_res _ fun _ => ?_
  rw [bind_map_res]; refine bind_congr_res _ fun _ => ?_
  rw [bind_map_res]; refine bind_congr_res _ fun _ => ?_
  rw [bind_map_res]; refine bind_congr_res _ fun b => ?_
  rw [bind_map_res]
  refine (congrArg (· >>= _) (payRent_oracle o rt { w with bank := b } _ _ _)).trans ?_
  rw [map_bind_res]; refine bind_congr_res _ fun _ => ?_
  rw [bind_map_res, createAta_oracle, map_bind_res]; refine bind_congr_res _ fun _ => ?_
  rw [bind_map_res]; refine bind_congr_res _ fun _ => ?_
  rw [bind_map_res]; refine bind_congr_res _ fun _ => ?_
  rw [bind_map_res, payRent_oracle, map_bind_res]; refine bind_congr_res _ fun _ => ?_
  rw [bind_map_res, createAta_oracle, map_bind_res]; refine bind_congr_res _ fun _ => ?_
  rw [bind_map_res]; refine bind_congr_res _ fun _ => ?_
  rw [bind_map_res, nftCreateStream_oracle, map_bind_res]; refine bind_congr_res _ fun _ => ?_
  rw [bind_map_res]; refine bind_congr_res _ fun _ => ?_
  rw [bind_map_res, transferTokens_oracle, map_bind_res]; refine bind_congr_res _ fun _ => ?_
  rfl

theorem createWithDurations_oracle (rt : Runtime) (w : World) (c : CreateAccts) (p : CreateDurationParams) :
    createWithDurations rt (w.withOracle o) c p = (createWithDurations rt w c p).map (World.withOracle o) := by
  unfold createWithDurations
  rw [bind_map_res]; refine bind_congr_res _ fun _ => ?_
  rw [bind_map_res]; refine bind_congr_res _ fun _ => ?_
  exact createWithTimestamps_oracle o rt w c _

theorem collectFees_oracle (rt : Runtime) (w : World) (c : CollectFeesAccts) :
    collectFees rt (w.withOracle o) c = (collectFees rt w c).map (World.withOracle o) := by
  unfold collectFees
  rw [bind_map_res]; refine bind_congr_res _ fun _ => ?_
  rw [bind_map_res]; refine bind_congr_res _ fun _ => ?_
  rw [bind_map_res]; refine bind_congr_res _ fun _ => ?_
  rw [bind_map_res]; refine bind_congr_res _ fun _ => ?_
  rw [bind_map_res]; refine bind_congr_res _ fun _ => ?_
  rw [bind_map_res]; refine bind_congr_res _ fun _ => ?_
  rw [bind_map_res]; refine bind_congr_res _ fun _ => ?_
  rfl

end Lockup

namespace Merkle

theorem claimAccounts_oracle (rt : Runtime) (w : World) (c : ClaimAccts) (i : Nat) :
    claimAccounts rt (w.withOracle o) c i = (claimAccounts rt w c i).map (fun r => (r.1.withOracle o, r.2)) := by
  unfold claimAccounts
  rw [bind_map_res]; refine bind_congr_res _ fun _ => ?_
  rw [bind_map_res]; refine bind_congr_res _ fun _ => ?_
  rw [bind_map_res]; refine bind_congr_res _ fun _ => ?_
  rw [bind_map_res]; refine bind_congr_res _ fun _ => ?_
  rw [bind_map_res]; refine bind_congr_res _ fun _ => ?_
  rw [bind_map_res]; refine bind_congr_res _ fun _ => ?_
  rw [bind_map_res]; refine bind_congr_res _ fun _ => ?_
  rw [bind_map_res]; refine bind_congr_res _ fun _ => ?_
  rw [bind_map_res, ensureAta_oracle, map_bind_res]; refine bind_congr_res _ fun _ => ?_
  rw [bind_map_res]; refine bind_congr_res _ fun _ => ?_
  rw [bind_map_res]; refine bind_congr_res _ fun _ => ?_
  rw [bind_map_res, payRent_oracle, map_bind_res]
  exact bind_congr_res _ fun _ => rfl

theorem campaignTransfer_oracle (rt : Runtime) (w : World) (cd : Campaign) (a b d m : Addr) (tp : TokenProgram)
    (x y : Nat) : campaignTransfer rt (w.withOracle o) cd a b d m tp x y =
      (campaignTransfer rt w cd a b d m tp x y).map (World.withOracle o) := by
  unfold campaignTransfer
  rw [bind_map_res]; refine bind_congr_res _ fun _ => ?_
  exact transferTokens_oracle o w b d a m tp x y

theorem claim_oracle (rt : Runtime) (w : World) (c : ClaimAccts) (i a : Nat) (proof : List Bytes32) :
    claim rt (w.withOracle o) c i a proof = (claim rt w c i a proof).map (World.withOracle o) := by
  unfold claim
  rw [bind_map_res, claimAccounts_oracle, map_bind_res]
  refine bind_congr_res _ fun r => ?_
  obtain ⟨w, cd, dm⟩ := r
  unfold claimHandler
  have hz : CLAIM_FEE_USD = 0 := rfl
  simp only [hz, chargeFee_zero]
  rw [bind_map_res]; refine bind_congr_res _ fun _ => ?_
  simp only [ok_bind]
  rw [bind_map_res, campaignTransfer_oracle, map_bind_res]
  exact bind_congr_res _ fun _ => rfl

theorem clawback_oracle (rt : Runtime) (w : World) (c : ClawbackAccts) (a : Nat) :
    clawback rt (w.withOracle o) c a = (clawback rt w c a).map (World.withOracle o) := by
  unfold clawback
  rw [bind_map_res]
  have : clawbackAccounts rt (w.withOracle o) c = (clawbackAccounts rt w c).map (fun r => (r.1.withOracle o, r.2)) := by
    unfold clawbackAccounts
    rw [bind_map_res]; refine bind_congr_res _ fun _ => ?_
    rw [bind_map_res]; refine bind_congr_res _ fun _ => ?_
    rw [bind_map_res]; refine bind_congr_res _ fun _ => ?_
    rw [bind_map_res]; refine bind_congr_res _ fun _ => ?_
    rw [bind_map_res]; refine bind_congr_res _ fun _ => ?_
    rw [bind_map_res]; refine bind_congr_res _ fun _ => ?_
    rw [bind_map_res, ensureAta_oracle, map_bind_res]
    exact bind_congr_res _ fun _ => rfl
  rw [this, map_bind_res]
  refine bind_congr_res _ fun r => ?_
  obtain ⟨w, cd, dm⟩ := r
  unfold clawbackHandler
  rw [bind_map_res]; refine bind_congr_res _ fun _ => ?_
  simp only
  rw [bind_map_res, campaignTransfer_oracle, map_bind_res]
  exact bind_congr_res _ fun _ => rfl

theorem initializeProgram_oracle (rt : Runtime) (w : World) (c : InitializeAccts) (f p s : Addr) :
    initializeProgram rt (w.withOracle o) c f p s = (initializeProgram rt w c f p s).map (World.withOracle o) := by
  unfold initializeProgram
  rw [bind_map_res]; refine bind_congr_res _ fun _ => ?_
  rw [bind_map_res]; refine bind_congr_res _ fun _ => ?_
  rw [bind_map_res]; refine bind_congr_res _ fun _ => ?_
  rw [bind_map_res, payRent_oracle, map_bind_res]; refine bind_congr_res _ fun _ => ?_
  rfl

theorem createCampaign_oracle (rt : Runtime) (w : World) (c : CreateCampaignAccts) (p : CampaignParams) :
    createCampaign rt (w.withOracle o) c p = (createCampaign rt w c p).map (World.withOracle o) := by
  unfold createCampaign
  rw [bind_map_res]; refine bind_congr_res _ fun _ => ?_
  rw [bind_map_res]; refine bind_congr_res _ fun _ => ?_
  rw [bind_map_res]; refine bind_congr_res _ fun _ => ?_
  rw [bind_map_res]; refine bind_congr_res _ fun _ => ?_
  rw [bind_map_res]; refine bind_congr_res _ fun _ => ?_
  rw [bind_map_res]; refine bind_congr_res _ fun _ => ?_
  rw [bind_map_res, payRent_oracle, map_bind_res]; refine bind_congr_res _ fun _ => ?_
  rw [bind_map_res, createAta_oracle, map_bind_res]; refine bind_congr_res _ fun _ => ?_
  rw [bind_map_res]; refine bind_congr_res _ fun _ => ?_
  rfl

theorem collectFees_oracle (rt : Runtime) (w : World) (c : CollectFeesAccts) :
    collectFees rt (w.withOracle o) c = (collectFees rt w c).map (World.withOracle o) := by
  unfold collectFees
  rw [bind_map_res]; refine bind_congr_res _ fun _ => ?_
  rw [bind_map_res]; refine bind_congr_res _ fun _ => ?_
  rw [bind_map_res]; refine bind_congr_res _ fun _ => ?_
  rw [bind_map_res]; refine bind_congr_res _ fun _ => ?_
  rw [bind_map_res]; refine bind_congr_res _ fun _ => ?_
  rw [bind_map_res]; refine bind_congr_res _ fun _ => ?_
  rw [bind_map_res]; refine bind_congr_res _ fun _ => ?_
  rfl

end Merkle

/-- No instruction of either program depends on the oracle. -/
theorem program_oracle (rt : Runtime) (w : World) (ix : Ix) (h : ∀ i, ix ≠ .env i) :
    step rt (w.withOracle o) ix = (step rt w ix).map (World.withOracle o) := by
  cases ix with
  | lockup i =>
    cases i with
    | «initialize» c f p s => exact Lockup.initializeProgram_oracle o rt w c f p s
    | createWithTimestamps => exact Lockup.createWithTimestamps_oracle o rt w _ _
    | createWithDurations => exact Lockup.createWithDurations_oracle o rt w _ _
    | withdraw => exact Lockup.withdraw_oracle o rt w _ _
    | withdrawMax => exact Lockup.withdrawMax_oracle o rt w _
    | cancel => exact Lockup.cancel_oracle o rt w _
    | renounce => exact Lockup.renounce_oracle o rt w _
    | collectFees => exact Lockup.collectFees_oracle o rt w _
  | merkle i =>
    cases i with
    | «initialize» c f p s => exact Merkle.initializeProgram_oracle o rt w c f p s
    | createCampaign => exact Merkle.createCampaign_oracle o rt w _ _
    | claim => exact Merkle.claim_oracle o rt w _ _ _ _
    | clawback => exact Merkle.clawback_oracle o rt w _ _
    | collectFees => exact Merkle.collectFees_oracle o rt w _
  | env i => exact absurd rfl (h i)
end Solsab
