import Verif.Proofs.Panic
import Verif.Spec.Errors
/-!
# Error reports: which program errors can come out of which computation
-/

namespace Solsab

open Spec

/-- Every error of the computation satisfies `P`. -/
def Fails {α : Type} (P : Err → Prop) (r : Res α) : Prop := ∀ e, r = .error e → P e

/-- No program error comes out of the computation. -/
abbrev Quiet {α : Type} (r : Res α) : Prop := Fails (fun e => e.custom = false) r

namespace Fails

variable {α β : Type} {P : Err → Prop}

theorem bind {r : Res α} {f : α → Res β} (h : Fails P r) (hf : ∀ a, r = .ok a → Fails P (f a)) :
    Fails P (r >>= f) := by
  intro e he
  rcases bind_err.1 he with h' | ⟨a, h1, h2⟩
  · exact h e h'
  · exact hf a h1 e h2

theorem pure (a : α) : Fails P (Pure.pure a : Res α) := fun e h => by cases h
theorem ok (a : α) : Fails P (.ok a : Res α) := fun e h => by cases h
theorem error {e : Err} (h : P e) : Fails P (.error e : Res α) := fun e' h' => by cases h'; exact h
theorem require {c : Prop} [Decidable c] {e : Err} (h : P e) : Fails P (Solsab.require c e) := by
  intro e' he; obtain ⟨_, rfl⟩ := require_err.1 he; exact h
theorem fetch {o : Option α} {e : Err} (h : P e) : Fails P (Solsab.fetch o e) := by
  intro e' he; obtain ⟨_, rfl⟩ := fetch_err.1 he; exact h
theorem mono {Q : Err → Prop} {r : Res α} (h : Fails P r) (hq : ∀ e, P e → Q e) : Fails Q r :=
  fun e he => hq e (h e he)

end Fails

/-- Walk through a sequence of checks. -/
macro "quiet" : tactic => `(tactic| repeat' (first
  | exact Fails.pure _
  | exact Fails.ok _
  | exact Fails.require rfl
  | exact Fails.fetch rfl
  | exact Fails.error rfl
  | (with_reducible refine Fails.bind ?_ (fun _ _ => ?_))
  | assumption))

theorem addU64_quiet {a b : Nat} : Quiet (addU64 a b) := by unfold addU64; split <;> quiet
theorem subU64_quiet {a b : Nat} : Quiet (subU64 a b) := by unfold subU64; split <;> quiet
theorem mulU64_quiet {a b : Nat} : Quiet (mulU64 a b) := by unfold mulU64; split <;> quiet

theorem payRent_quiet {rt : Runtime} {w : World} {p a : Addr} {k : Nat} : Quiet (w.payRent rt p a k) := by
  unfold World.payRent; quiet
theorem openAccount_quiet {b : Bank} {a o m : Addr} {tp : TokenProgram} : Quiet (b.openAccount a o m tp) := by
  unfold Bank.openAccount; quiet
theorem openMint_quiet {b : Bank} {a : Addr} {md : MintData} : Quiet (b.openMint a md) := by
  unfold Bank.openMint; quiet
theorem mintTo_quiet {b : Bank} {m d x : Addr} {tp : TokenProgram} {a : Nat} : Quiet (b.mintTo m d x tp a) := by
  unfold Bank.mintTo; quiet
theorem createAta_quiet {rt : Runtime} {w : World} {p a o m : Addr} {tp : TokenProgram} :
    Quiet (w.createAta rt p a o tp m) := by
  unfold World.createAta
  have := @openAccount_quiet w.bank a o m tp
  quiet
  all_goals exact payRent_quiet
theorem ensureAta_quiet {rt : Runtime} {w : World} {p a o m : Addr} {tp : TokenProgram} :
    Quiet (w.ensureAta rt p a o tp m) := by
  unfold World.ensureAta
  split
  · exact createAta_quiet
  · quiet
theorem checkAta_quiet {b : Bank} {a o m : Addr} {tp : TokenProgram} : Quiet (b.checkAta a o tp m) := by
  unfold Bank.checkAta; quiet
theorem transferCore_quiet {b : Bank} {s d m : Addr} {tp : TokenProgram} {a : Nat} :
    Quiet (b.transferCore s d m tp a) := by
  unfold Bank.transferCore
  quiet
  all_goals (split <;> quiet)
theorem transferChecked_quiet {b : Bank} {s d x m : Addr} {tp : TokenProgram} {a k : Nat} :
    Quiet (b.transferChecked s d x m tp a k) := by
  unfold Bank.transferChecked
  quiet
  all_goals exact transferCore_quiet
theorem transferTokens_quiet {w : World} {s d x m : Addr} {tp : TokenProgram} {a k : Nat} :
    Quiet (w.transferTokens s d x m tp a k) := by
  unfold World.transferTokens
  have := @transferChecked_quiet w.bank s d x m tp a k
  quiet
theorem burn_quiet {b : Bank} {s : Addr} {a : Nat} : Quiet (b.burn s a) := by
  unfold Bank.burn; quiet
theorem systemTransfer_quiet {w : World} {s d : Addr} {a : Nat} : Quiet (w.systemTransfer s d a) := by
  unfold World.systemTransfer; quiet

theorem metaplexSign_quiet {w : World} {a b : Addr} : Quiet (Lockup.metaplexSign w a b) := by
  unfold Lockup.metaplexSign; quiet

theorem env_quiet {rt : Runtime} {w : World} (i : EnvIx) : Quiet (i.run rt w) := by
  cases i <;> unfold EnvIx.run <;> dsimp only
  all_goals quiet
  all_goals first | exact openMint_quiet | exact mintTo_quiet | exact createAta_quiet
                  | exact openAccount_quiet | exact systemTransfer_quiet
                  | exact transferChecked_quiet | exact transferCore_quiet | exact burn_quiet
                  | exact metaplexSign_quiet

theorem safeCollectible_quiet {rt : Runtime} {b k : Nat} : Quiet (safeCollectibleAmount rt b k) := by
  unfold safeCollectibleAmount
  exact Fails.bind addU64_quiet fun _ _ => Fails.pure _

namespace Lockup

theorem loadStream_quiet {rt : Runtime} {w : World} {a m : Addr} : Quiet (loadStream rt w a m) := by
  unfold loadStream; quiet
theorem loadTreasury_quiet {rt : Runtime} {w : World} {a : Addr} : Quiet (loadTreasury rt w a) := by
  unfold loadTreasury; quiet
theorem withdrawAccounts_quiet {rt : Runtime} {w : World} {c : WithdrawAccts} :
    Quiet (withdrawAccounts rt w c) := by
  unfold withdrawAccounts
  quiet
  all_goals first | exact loadTreasury_quiet | exact loadStream_quiet | exact checkAta_quiet
                  | exact ensureAta_quiet
theorem cancelAccounts_quiet {rt : Runtime} {w : World} {c : CancelAccts} : Quiet (cancelAccounts rt w c) := by
  unfold cancelAccounts
  quiet
  all_goals first | exact loadStream_quiet | exact checkAta_quiet | exact ensureAta_quiet
theorem payMetaplex_quiet {rt : Runtime} {w : World} {p m : Addr} : Quiet (payMetaplex rt w p m) := by
  unfold payMetaplex
  quiet
  all_goals first | exact systemTransfer_quiet | exact payRent_quiet
theorem metaplexCreate_quiet {rt : Runtime} {w : World} {p m a : Addr} {n : List Char} {i : NftInfo} {k : Option Nat} :
    Quiet (metaplexCreate rt w p m a n i k) := by
  unfold metaplexCreate
  quiet
  all_goals exact payMetaplex_quiet
theorem metaplexVerify_quiet {w : World} {a b c : Addr} : Quiet (metaplexVerifyItem w a b c) := by
  unfold metaplexVerifyItem; quiet
theorem initialize_quiet {rt : Runtime} {w : World} {c : InitializeAccts} {f p s : Addr} :
    Quiet (initializeProgram rt w c f p s) := by
  unfold initializeProgram nftInitializeCollection
  quiet
  all_goals first | exact payRent_quiet | exact openMint_quiet | exact createAta_quiet
                  | exact mintTo_quiet | exact metaplexCreate_quiet | exact metaplexSign_quiet

/-- `createWithTimestamps` reports only what `checkCreate` reports. -/
theorem create_fails {P : Err → Prop} (hP : ∀ e, e.custom = false → P e) {rt : Runtime} {w : World} {c : CreateAccts}
    {p : CreateParams} (h : Fails P (checkCreate p.depositAmount p.startTime p.cliffTime p.endTime
      p.startUnlockAmount p.cliffUnlockAmount)) : Fails P (createWithTimestamps rt w c p) := by
  unfold createWithTimestamps nftCreateStream
  obtain ⟨name, hname, _⟩ := nftName_ok (rt.keyBytes c.streamNftMint)
  rw [hname]
  repeat' (first
    | exact Fails.pure _
    | exact Fails.ok _
    | exact Fails.require (hP _ rfl)
    | exact Fails.fetch (hP _ rfl)
    | exact h
    | exact checkAta_quiet.mono hP | exact payRent_quiet.mono hP | exact openMint_quiet.mono hP
    | exact createAta_quiet.mono hP | exact mintTo_quiet.mono hP | exact metaplexCreate_quiet.mono hP
    | exact metaplexVerify_quiet.mono hP | exact transferTokens_quiet.mono hP
    | (with_reducible refine Fails.bind ?_ (fun _ _ => ?_)))
  unfold NftCollectionData.create
  refine Fails.bind (addU64_quiet.mono hP) fun _ _ => Fails.pure _

end Lockup

namespace Merkle

theorem loadTreasury_quiet {rt : Runtime} {w : World} {a : Addr} : Quiet (loadTreasury rt w a) := by
  unfold loadTreasury; quiet
theorem campaignTransfer_quiet {rt : Runtime} {w : World} {cd : Campaign} {a b c m : Addr} {tp : TokenProgram}
    {x y : Nat} : Quiet (campaignTransfer rt w cd a b c m tp x y) := by
  unfold campaignTransfer
  quiet
  exact transferTokens_quiet
theorem initialize_quiet {rt : Runtime} {w : World} {c : InitializeAccts} {f p s : Addr} :
    Quiet (initializeProgram rt w c f p s) := by
  unfold initializeProgram
  quiet
  all_goals exact payRent_quiet
theorem createCampaign_quiet {rt : Runtime} {w : World} {c : CreateCampaignAccts}
    {p : CampaignParams} : Quiet (createCampaign rt w c p) := by
  unfold createCampaign
  quiet
  all_goals first | exact payRent_quiet | exact createAta_quiet
theorem claimAccounts_quiet {rt : Runtime} {w : World} {c : ClaimAccts} {i : Nat} : Quiet (claimAccounts rt w c i) := by
  unfold claimAccounts
  quiet
  all_goals first | exact loadTreasury_quiet | exact checkAta_quiet | exact ensureAta_quiet
                  | exact payRent_quiet
theorem clawbackAccounts_quiet {rt : Runtime} {w : World} {c : ClawbackAccts} : Quiet (clawbackAccounts rt w c) := by
  unfold clawbackAccounts
  quiet
  all_goals first | exact checkAta_quiet | exact ensureAta_quiet

end Merkle
end Solsab
