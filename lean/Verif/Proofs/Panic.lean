import Verif.Proofs.Errors
import Verif.Proofs.ConfigInv
import Verif.Proofs.CreateReady
import Verif.Spec.Panic
/-!
# No panics, for the remaining instructions
-/

namespace Solsab

open Spec

theorem payMetaplex_no_panic {rt : Runtime} {w : World} {p m : Addr} : NoPanic (Lockup.payMetaplex rt w p m) := by
  unfold Lockup.payMetaplex World.systemTransfer
  no_panic
  all_goals exact payRent_no_panic

theorem metaplexCreate_no_panic {rt : Runtime} {w : World} {p m a : Addr} {n : List Char} {i : NftInfo}
    {k : Option Nat} : NoPanic (Lockup.metaplexCreate rt w p m a n i k) := by
  unfold Lockup.metaplexCreate
  no_panic
  all_goals exact payMetaplex_no_panic

theorem metaplexVerify_no_panic {w : World} {a b c : Addr} : NoPanic (Lockup.metaplexVerifyItem w a b c) := by
  unfold Lockup.metaplexVerifyItem; no_panic

theorem metaplexSign_no_panic {w : World} {a b : Addr} : NoPanic (Lockup.metaplexSign w a b) := by
  unfold Lockup.metaplexSign; no_panic

theorem initialize_no_panic {rt : Runtime} {w : World} {c : Lockup.InitializeAccts} {f p s : Addr} :
    NoPanic (Lockup.initializeProgram rt w c f p s) := by
  unfold Lockup.initializeProgram Lockup.nftInitializeCollection
  no_panic
  all_goals first | exact payRent_no_panic | exact openMint_no_panic | exact createAta_no_panic
                  | exact mintTo_no_panic | exact metaplexCreate_no_panic | exact metaplexSign_no_panic

theorem miInitialize_no_panic {rt : Runtime} {w : World} {c : Merkle.InitializeAccts} {f p s : Addr} :
    NoPanic (Merkle.initializeProgram rt w c f p s) := by
  unfold Merkle.initializeProgram
  no_panic
  all_goals exact payRent_no_panic

theorem createCampaign_no_panic {rt : Runtime} {w : World} {c : Merkle.CreateCampaignAccts}
    {p : Merkle.CampaignParams} : NoPanic (Merkle.createCampaign rt w c p) := by
  unfold Merkle.createCampaign
  no_panic
  all_goals first | exact payRent_no_panic | exact createAta_no_panic

theorem checkCreate_no_panic {a b c d e f : Nat} : NoPanic (Lockup.checkCreate a b c d e f) := by
  unfold Lockup.checkCreate
  repeat' split
  all_goals no_panic
  all_goals (dsimp only; split <;> no_panic)

theorem create_no_panic {rt : Runtime} {w : World} (hr : Reachable rt w) {c : Lockup.CreateAccts}
    {p : Lockup.CreateParams} (hn : total creation w.log + 1 < 2 ^ 64) :
    NoPanic (Lockup.createWithTimestamps rt w c p) := by
  unfold Lockup.createWithTimestamps Lockup.nftCreateStream
  refine NoPanic.bind (NoPanic.require (by simp)) fun _ _ => ?_
  refine NoPanic.bind checkAta_no_panic fun _ _ => ?_
  refine NoPanic.bind (NoPanic.require (by simp)) fun _ _ => ?_
  refine NoPanic.bind (NoPanic.fetch (by simp)) fun nd hnd => ?_
  have hc : NoPanic nd.create := by
    unfold Lockup.NftCollectionData.create
    rw [addU64_ok.2 ⟨by rw [(hr.collOK.present nd (fetch_ok.1 hnd)).2.1]; exact hn, rfl⟩]
    no_panic
  obtain ⟨name, hname, _⟩ := nftName_ok (rt.keyBytes c.streamNftMint)
  rw [hname]
  no_panic
  all_goals first | exact payRent_no_panic | exact openMint_no_panic | exact createAta_no_panic
                  | exact checkCreate_no_panic | exact mintTo_no_panic | exact metaplexCreate_no_panic
                  | exact metaplexVerify_no_panic | exact transferTokens_no_panic

theorem safeCollectible_no_panic {rt : Runtime} {b k : Nat} (h : rt.rent k + 1000000 < 2 ^ 64) :
    NoPanic (safeCollectibleAmount rt b k) := by
  unfold safeCollectibleAmount
  rw [show addU64 (rt.rent k) REDUNDANCY_BUFFER = .ok _ from addU64_ok.2 ⟨h, rfl⟩]
  no_panic

theorem collect_no_panic {rt : Runtime} {w : World} {c : Lockup.CollectFeesAccts}
    (h : rt.rent 105 + 1000000 < 2 ^ 64) : NoPanic (Lockup.collectFees rt w c) := by
  unfold Lockup.collectFees
  refine NoPanic.bind (NoPanic.require (by simp)) fun _ _ => ?_
  refine NoPanic.bind Lockup.loadTreasury_no_panic fun _ _ => ?_
  refine NoPanic.bind (NoPanic.require (by simp)) fun _ _ => ?_
  refine NoPanic.bind (safeCollectible_no_panic h) fun _ _ => ?_
  refine NoPanic.bind (by unfold Lockup.checkCollectFees; split <;> no_panic) fun _ _ => ?_
  refine NoPanic.bind (NoPanic.require (by simp)) fun _ _ => ?_
  exact NoPanic.bind (NoPanic.require (by simp)) fun _ _ => NoPanic.pure _

theorem miCollect_no_panic {rt : Runtime} {w : World} {c : Merkle.CollectFeesAccts}
    (h : rt.rent 105 + 1000000 < 2 ^ 64) : NoPanic (Merkle.collectFees rt w c) := by
  unfold Merkle.collectFees
  refine NoPanic.bind (NoPanic.require (by simp)) fun _ _ => ?_
  refine NoPanic.bind Merkle.loadTreasury_no_panic fun _ _ => ?_
  refine NoPanic.bind (NoPanic.require (by simp)) fun _ _ => ?_
  refine NoPanic.bind (safeCollectible_no_panic h) fun _ _ => ?_
  refine NoPanic.bind (by unfold Merkle.checkCollectFees; split <;> no_panic) fun _ _ => ?_
  refine NoPanic.bind (NoPanic.require (by simp)) fun _ _ => ?_
  exact NoPanic.bind (NoPanic.require (by simp)) fun _ _ => NoPanic.pure _

theorem transferCore_no_panic {b : Bank} {s d m : Addr} {tp : TokenProgram} {a : Nat} :
    NoPanic (b.transferCore s d m tp a) := by
  unfold Bank.transferCore
  no_panic
  all_goals (split <;> no_panic)

theorem transferChecked_no_panic {b : Bank} {s d x m : Addr} {tp : TokenProgram} {a k : Nat} :
    NoPanic (b.transferChecked s d x m tp a k) := by
  unfold Bank.transferChecked
  no_panic
  all_goals exact transferCore_no_panic

theorem burn_no_panic {b : Bank} {s : Addr} {a : Nat} : NoPanic (b.burn s a) := by
  unfold Bank.burn; no_panic

theorem systemTransfer_no_panic {w : World} {s d : Addr} {a : Nat} : NoPanic (w.systemTransfer s d a) := by
  unfold World.systemTransfer; no_panic

theorem env_no_panic {rt : Runtime} {w : World} (i : EnvIx) : NoPanic (i.run rt w) := by
  cases i <;> unfold EnvIx.run <;> dsimp only
  all_goals no_panic
  all_goals first | exact openMint_no_panic | exact mintTo_no_panic | exact createAta_no_panic
                  | exact openAccount_no_panic | exact systemTransfer_no_panic
                  | exact transferChecked_no_panic | exact transferCore_no_panic | exact burn_no_panic
                  | exact metaplexSign_no_panic

end Solsab
