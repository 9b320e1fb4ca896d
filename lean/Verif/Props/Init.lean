import Verif.Props.Campaign
import Verif.Props.Treasury
import Verif.Proofs.CreateReady
import Verif.Proofs.ConfigInv
import Verif.Spec.Rents
/-!
# C80 — before and at initialisation
-/

namespace Solsab.Props

open Solsab Spec Lockup Merkle Demo

/-- Before `initialize` the lockup program has nothing: no stream, no collection data, no collection mint. -/
def LockupBlank (w : World) : Prop :=
  (∀ x, w.lk.streams x = none) ∧ w.lk.nftCollectionData = none ∧ w.bank.mints .nftCollectionMint = none

theorem _root_.Solsab.Reachable.lockupBlank {rt : Runtime} {w : World} (h : Reachable rt w) :
    w.lk.treasury = none → LockupBlank w := by
  refine h.induct (P := fun w => w.lk.treasury = none → LockupBlank w) ?_ ?_
  · intro w hg _
    exact ⟨fun x => hg.no_streams x, hg.no_collection, hg.no_mints _⟩
  · intro w ix w' _ ih hd hn
    cases hd with
    | init _ h => rw [h.result] at hn; cases hn
    | create _ _ h =>
      rw [h.result] at hn
      have := (ih hn).2.1
      rw [h.collectionData] at this; cases this
    | withdraw _ h =>
      rw [h.result] at hn
      have := (ih hn).1
      have k := h.accts.stream; rw [this] at k; cases k
    | cancel _ h =>
      rw [h.result] at hn
      have := (ih hn).1
      have k := h.accts.stream; rw [this] at k; cases k
    | renounce _ h =>
      rw [h.result] at hn
      have := (ih hn).1
      have k := h.stream; rw [this] at k; cases k
    | collect _ _ h => rw [h.result] at hn ⊢; exact ih hn
    | miInit _ _ _ _ h => rw [h] at hn ⊢; exact ih hn
    | campaign _ _ h =>
      have e := openAccount_mints h.openVault
      rw [h.result] at hn ⊢
      obtain ⟨h1, h2, h3⟩ := ih hn
      exact ⟨h1, h2, by rw [← e] at h3; exact h3⟩
    | claim _ h =>
      have e := h.payout.mints_eq
      rw [h.result] at hn
      obtain ⟨h1, h2, h3⟩ := ih hn
      exact ⟨by rw [h.result]; exact h1, by rw [h.result]; exact h2, by rw [e]; exact h3⟩
    | clawback _ h =>
      have e := h.payout.mints_eq
      rw [h.result] at hn
      obtain ⟨h1, h2, h3⟩ := ih hn
      exact ⟨by rw [h.result]; exact h1, by rw [h.result]; exact h2, by rw [e]; exact h3⟩
    | miCollect _ _ h => rw [h.result] at hn ⊢; exact ih hn
    | env i _ h =>
      have e := (env_ok h).lk
      rw [e] at hn
      obtain ⟨h1, h2, h3⟩ := ih hn
      exact ⟨by rw [e]; exact h1, by rw [e]; exact h2, env_mints h rfl h3⟩

theorem lk_uninit {rt : Runtime} {w : World} (hr : Reachable rt w) (hn : ∀ tr, configView rt w .lockup ≠ .ok tr) :
    w.lk.treasury = none := by
  cases h : w.lk.treasury with
  | none => rfl
  | some tr =>
    refine absurd ?_ (hn tr)
    show Lockup.loadTreasury rt w (.treasury .lockup) = .ok tr
    exact bind_ok.2 ⟨(), require_ok.2 rfl, bind_ok.2 ⟨tr, fetch_ok.2 h,
      bind_ok.2 ⟨(), require_ok.2 (hr.lkTreasury_bump tr h), rfl⟩⟩⟩

theorem mi_uninit {rt : Runtime} {w : World} (hr : Reachable rt w) (hn : ∀ tr, configView rt w .merkle ≠ .ok tr) :
    w.mi.treasury = none := by
  cases h : w.mi.treasury with
  | none => rfl
  | some tr =>
    refine absurd ?_ (hn tr)
    show Merkle.loadTreasury rt w (.treasury .merkle) = .ok tr
    exact bind_ok.2 ⟨(), require_ok.2 rfl, bind_ok.2 ⟨tr, fetch_ok.2 h,
      bind_ok.2 ⟨(), require_ok.2 (hr.miTreasury_bump tr h), rfl⟩⟩⟩

/-- **C80**: as long as the lockup program is not initialised there are no streams, and every one of its instructions
other than `initialize` fails, whatever the accounts. -/
theorem C80_lockup_before {rt : Runtime} {w : World} (hr : Reachable rt w)
    (hn : ∀ tr, configView rt w .lockup ≠ .ok tr) :
    (∀ s n, streamExists w s n = false) ∧
    ∀ i : LockupIx, (Ix.lockup i).initializes = none → ∃ e, step rt w (.lockup i) = .error e := by
  have htr := lk_uninit hr hn
  obtain ⟨h1, h2, _⟩ := hr.lockupBlank htr
  refine ⟨fun s n => ?_, fun i hi => ?_⟩
  · cases h : streamExists w s n with
    | false => rfl
    | true => obtain ⟨sd, k⟩ := hr.exists_iff.mp h; rw [h1] at k; cases k
  · cases h : step rt w (.lockup i) with
    | error e => exact ⟨e, rfl⟩
    | ok w' =>
      exfalso
      cases step_did h with
      | init hix _ => rw [hix] at hi; cases hi
      | create _ _ h => have := h.collectionData; rw [h2] at this; cases this
      | withdraw _ h => have k := h.accts.stream; rw [h1] at k; cases k
      | cancel _ h => have k := h.accts.stream; rw [h1] at k; cases k
      | renounce _ h => have k := h.stream; rw [h1] at k; cases k
      | collect _ ht _ => rw [htr] at ht; cases ht
      | miInit hix _ _ _ _ => cases hix
      | campaign _ hix _ => obtain ⟨_, _, _, _, _, _, _, hix⟩ := hix; cases hix
      | claim hix _ => obtain ⟨_, _, hix, _⟩ := hix; cases hix
      | clawback hix _ => obtain ⟨_, hix, _⟩ := hix; cases hix
      | miCollect hix _ _ => cases hix
      | env i hix _ => cases hix

theorem req_succeeds {α : Type} {p : Prop} [Decidable p] {e : Err} {k : Unit → Res α} (h : p)
    (hk : ∃ b, k () = .ok b) : ∃ b, (require p e >>= k) = .ok b := bind_succeeds (a := ()) (require_ok.2 h) hk

/-- The collection NFT can be minted into a fresh collection account. -/
theorem nftInitializeCollection_new {rt : Runtime} {w : World} {p a : Addr} {tp : TokenProgram} {o : Addr}
    (hm : w.bank.mints .nftCollectionMint = some (freshNftMint tp))
    (ht : w.bank.tokens a = some ⟨tp, .nftCollectionMint, o, 0, false⟩)
    (hmetas : w.metas .nftCollectionMint = none) (hp : p.canSign = true) (hl : metaplexRent rt ≤ w.lamports p) :
    ∃ w', nftInitializeCollection rt w p .nftCollectionMint a tp = .ok w' := by
  unfold nftInitializeCollection
  refine bind_succeeds (a := (w.bank.setMint .nftCollectionMint
    (some { freshNftMint tp with supply := (freshNftMint tp).supply + 1 })).setToken a
      (some ⟨tp, .nftCollectionMint, o, 0 + 1, false⟩)) ?_ ?_
  · unfold Bank.mintTo
    exact bind_ok.2 ⟨_, fetch_ok.2 hm, bind_ok.2 ⟨_, fetch_ok.2 ht, bind_ok.2 ⟨(), require_ok.2 ⟨rfl, rfl⟩,
      bind_ok.2 ⟨(), require_ok.2 rfl, bind_ok.2 ⟨(), require_ok.2 rfl, bind_ok.2 ⟨(), require_ok.2 rfl,
      bind_ok.2 ⟨(), require_ok.2 (by simp [freshNftMint]), bind_ok.2 ⟨(), require_ok.2 (by simp), rfl⟩⟩⟩⟩⟩⟩⟩⟩
  · obtain ⟨l, e⟩ := payMetaplex_new (rt := rt) (p := p) (m := .nftCollectionMint) (w := { w with
      bank := (w.bank.setMint .nftCollectionMint
        (some { freshNftMint tp with supply := (freshNftMint tp).supply + 1 })).setToken a
          (some ⟨tp, .nftCollectionMint, o, 0 + 1, false⟩) }) hp hl
    refine bind_succeeds (bind_ok.2 ⟨(), require_ok.2 hmetas, bind_ok.2 ⟨(), require_ok.2 ⟨by decide +kernel,
        by decide +kernel, by decide +kernel⟩, bind_ok.2 ⟨(), require_ok.2 ⟨by decide, .inr (by decide)⟩,
        bind_ok.2 ⟨{ freshNftMint tp with supply := (freshNftMint tp).supply + 1 }, fetch_ok.2 (by simp),
        bind_ok.2 ⟨(), require_ok.2 rfl, bind_ok.2 ⟨(), require_ok.2 ⟨rfl, rfl⟩, bind_ok.2 ⟨_, e, rfl⟩⟩⟩⟩⟩⟩⟩) ?_
    unfold metaplexSign
    exact bind_succeeds (fetch_ok.2 (by simp; rfl)) (req_succeeds (by simp [collectionInfo]) ⟨_, rfl⟩)

/-- **C80**: nobody can prevent initialisation: in every reachable state in which the lockup program is not
initialised, whatever others have done (including sending lamports to its future accounts), any signer with the
lamports for the rent can initialise it, with any configuration. -/
theorem C80_lockup_initialize {rt : Runtime} {w : World} (hr : Reachable rt w)
    (hn : ∀ tr, configView rt w .lockup ≠ .ok tr) {p : Addr} (hp : p.canSign = true) (tp : TokenProgram)
    (hl : initRent rt tp ≤ w.lamports p) (collector oracle feed : Addr) :
    ∃ w', step rt w (.lockup (.initialize ⟨p, .treasury .lockup, .nftCollectionData, .nftCollectionMint,
        .ata (.treasury .lockup) tp .nftCollectionMint, tp⟩ collector oracle feed)) = .ok w' ∧
      configView rt w' .lockup = .ok ⟨rt.bump (.treasury .lockup), collector, oracle, feed⟩ := by
  have htr := lk_uninit hr hn
  obtain ⟨_, hnd, hnm⟩ := hr.lockupBlank htr
  have hb := hr.bankInv
  have hmetas : w.metas .nftCollectionMint = none := by
    cases h : w.metas .nftCollectionMint with
    | none => rfl
    | some cm => obtain ⟨nd, k⟩ := hr.collOK.collPresent cm h; rw [hnd] at k; cases k
  have hntok : ∀ {x : Addr}, x = .nftCollectionMint → w.bank.tokens x = none := by
    rintro x rfl
    cases h : w.bank.tokens .nftCollectionMint with
    | none => rfl
    | some t => rcases hb.tok_addr _ t h with ⟨_, k⟩ | ⟨_, k, _⟩ <;> cases k
  have hnata : w.bank.tokens (.ata (.treasury .lockup) tp .nftCollectionMint) = none := by
    cases h : w.bank.tokens (.ata (.treasury .lockup) tp .nftCollectionMint) with
    | none => rfl
    | some t =>
      obtain ⟨md, k1, _⟩ := hb.tok_mint _ t h
      rcases hb.tok_addr _ t h with ⟨_, k⟩ | ⟨_, k, _⟩
      · cases k
      · injection k with _ _ k; rw [← k, hnm] at k1; cases k1
  have hmata : w.bank.mints (.ata (.treasury .lockup) tp .nftCollectionMint) = none := by
    cases h : w.bank.mints (.ata (.treasury .lockup) tp .nftCollectionMint) with
    | none => rfl
    | some md => rcases hb.mint_addr _ md h with ⟨_, k⟩ | k <;> cases k
  have hpne : ∀ a : Addr, a.canSign = false → p ≠ a := by
    intro a ha he; rw [he, ha] at hp; cases hp
  unfold initRent at hl
  obtain ⟨l₁, h1, g1⟩ := payRent_new (rt := rt) (w := w) (k := Lockup.treasurySpace) (hpne (.treasury .lockup) rfl) (by omega)
  obtain ⟨l₂, h2, g2⟩ := payRent_new (rt := rt) (w := { w with lamports := l₁ }) (k := nftCollectionDataSpace)
    (hpne .nftCollectionData rfl) (by show _ ≤ l₁ p; omega)
  replace g2 : l₁ p - max (rt.rent nftCollectionDataSpace) 1 ≤ l₂ p := g2
  let b₁ := w.bank.setMint .nftCollectionMint (some (freshNftMint tp))
  obtain ⟨l₃, h3, g3⟩ := payRent_new (rt := rt) (w := { w with lamports := l₂, bank := b₁ }) (k := World.mintSpace)
    (hpne .nftCollectionMint rfl) (by show _ ≤ l₂ p; omega)
  replace g3 : l₂ p - max (rt.rent World.mintSpace) 1 ≤ l₃ p := g3
  obtain ⟨l₄, h4, g4⟩ := createAta_new (rt := rt) (w := { w with lamports := l₃, bank := b₁ }) (p := p)
    (o := .treasury .lockup) (m := .nftCollectionMint) (tp := tp) (md := freshNftMint tp)
    (by simp [b₁]) rfl hnata
    (by simp [b₁, upd_ne, hmata]) hp (by show _ ≤ l₃ p; omega)
  replace g4 : l₃ p - max (rt.rent (World.tokenSpace rt .nftCollectionMint tp)) 1 ≤ l₄ p := g4
  simp only [show (freshNftMint tp).startsFrozen = false from rfl] at h4
  have hgo : ∃ w', step rt w (.lockup (.initialize ⟨p, .treasury .lockup, .nftCollectionData, .nftCollectionMint,
        .ata (.treasury .lockup) tp .nftCollectionMint, tp⟩ collector oracle feed)) = .ok w' := by
    show ∃ w', Lockup.initializeProgram rt w _ _ _ _ = .ok w'
    unfold Lockup.initializeProgram
    refine req_succeeds hp (req_succeeds rfl (req_succeeds htr
      (bind_succeeds h1 (req_succeeds rfl (req_succeeds hnd (bind_succeeds h2
      (req_succeeds rfl (bind_succeeds (a := b₁) ?_ (bind_succeeds h3 (bind_succeeds h4 ?_))))))))))
    · exact bind_ok.2 ⟨(), require_ok.2 ⟨hnm, hntok rfl⟩, rfl⟩
    · exact nftInitializeCollection_new (tp := tp) (o := .treasury .lockup) (by simp [b₁]) (by simp) hmetas hp
        (by show _ ≤ l₄ p; omega)
  obtain ⟨w', hw'⟩ := hgo
  exact ⟨w', hw', (C33_stores hr (p := .lockup) rfl hw').2⟩

/-- Before `initialize` nobody has claimed anything. -/
def MerkleBlank (w : World) : Prop :=
  (∀ a, w.mi.receipts a = false) ∧ (∀ x cd, w.mi.campaigns x = some cd → cd.firstClaimTime = 0)

theorem _root_.Solsab.Reachable.merkleBlank {rt : Runtime} {w : World} (h : Reachable rt w) :
    w.mi.treasury = none → MerkleBlank w := by
  refine h.induct (P := fun w => w.mi.treasury = none → MerkleBlank w) ?_ ?_
  · intro w hg _
    exact ⟨fun a => hg.no_receipts a, fun x cd k => by rw [hg.no_campaigns] at k; cases k⟩
  · intro w ix w' _ ih hd hn
    cases hd with
    | init _ h => rw [h.result] at hn ⊢; exact ih hn
    | create _ _ h => rw [h.result] at hn ⊢; exact ih hn
    | withdraw _ h => rw [h.result] at hn ⊢; exact ih hn
    | cancel _ h => rw [h.result] at hn ⊢; exact ih hn
    | renounce _ h => rw [h.result] at hn ⊢; exact ih hn
    | collect _ _ h => rw [h.result] at hn ⊢; exact ih hn
    | miInit _ _ _ _ h => rw [h] at hn; cases hn
    | campaign _ _ h =>
      rw [h.result] at hn ⊢
      obtain ⟨h1, h2⟩ := ih hn
      refine ⟨h1, fun x cd k => ?_⟩
      simp only [upd_apply] at k
      split at k
      · cases k; rfl
      · exact h2 x cd k
    | claim _ h =>
      rw [h.result] at hn
      obtain ⟨tr, k, _⟩ := h.accts.treasury
      rw [show w.mi.treasury = none from hn] at k; cases k
    | clawback _ h => rw [h.result] at hn ⊢; exact ih hn
    | miCollect _ _ h => rw [h.result] at hn ⊢; exact ih hn
    | env i _ h =>
      have e := (env_ok h).mi
      rw [e] at hn
      unfold MerkleBlank
      rw [e]; exact ih hn

/-- **C80**: as long as the airdrop program is not initialised, every `claim` and `collect_fees` of it fails,
whatever the accounts, and nothing has been claimed of any campaign. -/
theorem C80_merkle_before {rt : Runtime} {w : World} (hr : Reachable rt w)
    (hn : ∀ tr, configView rt w .merkle ≠ .ok tr) :
    (∀ c i a p, ∃ e, step rt w (.merkle (.claim c i a p)) = .error e) ∧
    (∀ c, ∃ e, step rt w (.merkle (.collectFees c)) = .error e) ∧
    (∀ x i, hasClaimedView w x i ≠ .ok true) := by
  have htr := mi_uninit hr hn
  refine ⟨fun c i a p => ?_, fun c => ?_, fun x i h => ?_⟩
  · cases h : step rt w (.merkle (.claim c i a p)) with
    | error e => exact ⟨e, rfl⟩
    | ok w' =>
      exfalso
      obtain ⟨_, _, _, _, _, h⟩ := Merkle.claim_ok h
      obtain ⟨tr, k, _⟩ := h.accts.treasury
      rw [htr] at k; cases k
  · cases h : step rt w (.merkle (.collectFees c)) with
    | error e => exact ⟨e, rfl⟩
    | ok w' =>
      exfalso
      cases step_did h with
      | init hix _ => cases hix
      | create hix _ _ => cases hix
      | withdraw hix _ => cases hix
      | cancel hix _ => cases hix
      | renounce hix _ => cases hix
      | collect hix _ _ => cases hix
      | miInit hix _ _ _ _ => cases hix
      | campaign _ hix _ => obtain ⟨_, _, _, _, _, _, _, hix⟩ := hix; cases hix
      | claim hix _ => obtain ⟨_, _, hix, _⟩ := hix; cases hix
      | clawback hix _ => obtain ⟨_, hix, _⟩ := hix; cases hix
      | miCollect _ ht _ => rw [htr] at ht; cases ht
      | env i hix _ => cases hix
  · unfold hasClaimedView at h
    rw [(hr.merkleBlank htr).1] at h
    cases hc : w.mi.campaigns x with
    | none => rw [hc] at h; cases h
    | some cd => rw [fetch_bind hc] at h; cases h

/-- **C80**: nobody can prevent initialisation of the airdrop program either, and initialising it touches no campaign,
no token and no record of what has happened. -/
theorem C80_merkle_initialize {rt : Runtime} {w : World} (hr : Reachable rt w)
    (hn : ∀ tr, configView rt w .merkle ≠ .ok tr) {p : Addr} (hp : p.canSign = true)
    (hl : max (rt.rent Merkle.treasurySpace) 1 ≤ w.lamports p) (collector oracle feed : Addr) :
    ∃ w', step rt w (.merkle (.initialize ⟨p, .treasury .merkle⟩ collector oracle feed)) = .ok w' ∧
      configView rt w' .merkle = .ok ⟨rt.bump (.treasury .merkle), collector, oracle, feed⟩ ∧
      w'.mi.campaigns = w.mi.campaigns ∧ w'.bank = w.bank ∧ w'.log = w.log ∧ w'.lk = w.lk ∧
      ∀ x, x ≠ p → w.lamports x ≤ w'.lamports x := by
  have htr := mi_uninit hr hn
  have hpne : p ≠ .treasury .merkle := by intro he; rw [he] at hp; cases hp
  obtain ⟨l₁, h1, g1⟩ := payRent_new (rt := rt) (w := w) (k := Merkle.treasurySpace) hpne hl
  obtain ⟨l₂, k1, k2⟩ := payRent_ok h1
  have hgo : step rt w (.merkle (.initialize ⟨p, .treasury .merkle⟩ collector oracle feed)) = .ok _ :=
    bind_ok.2 ⟨(), require_ok.2 hp, bind_ok.2 ⟨(), require_ok.2 rfl, bind_ok.2 ⟨(), require_ok.2 htr,
      bind_ok.2 ⟨_, h1, rfl⟩⟩⟩⟩
  refine ⟨_, hgo, (C33_stores hr (p := .merkle) rfl hgo).2, rfl, rfl, rfl, rfl, fun x hx => ?_⟩
  have := k2 x hx
  injection k1 with _ k1
  rw [← k1] at this
  exact this

/-- **C80**: a campaign created before the initialisation is fully functional right after it: in the state right
after a successful `initialize`, a claim for any index of a campaign that already existed, with a valid proof, inside
the window, naming the oracle accounts just configured, succeeds — provided that the vault holds the amount, the
token's transfers work, the recipient's account is its own and the claimer can pay the rent. -/
theorem C80_merkle_functional {rt : Runtime} {w w' : World} (hr : Reachable rt w) {ix : Ix} {f op fd : Addr}
    (hi : ix.initializes = some (.merkle, f, op, fd)) (hs : step rt w ix = .ok w')
    {x : Addr} {cd : Campaign} {md : MintData} (hx : w.mi.campaigns x = some cd)
    (hmint : w.bank.mints cd.airdropTokenMint = some md) (hfee : md.feeConfig = none)
    (claimer recipient : Addr) (i : UInt32) (a : UInt64) (p : List Bytes32)
    (hsign : claimer.canSign = true) (hfund : claimRent rt cd.airdropTokenMint md.program ≤ w'.lamports claimer)
    (hwin : InWindow w.now cd.campaignStartTime cd.expirationTime)
    (hproof : computeRoot rt (leafHash rt i.toNat recipient a.toNat) p = cd.merkleRoot)
    (ht : Transferable w md (.ata x md.program cd.airdropTokenMint) (.ata recipient md.program cd.airdropTokenMint))
    (hown : ∀ t, w.bank.tokens (.ata recipient md.program cd.airdropTokenMint) = some t → t.owner = recipient)
    (hbal : a.toNat ≤ w.bank.balance (.ata x md.program cd.airdropTokenMint)) :
    ∃ w'', step rt w' (.merkle (.claim
      { claimer, recipient, recipientAta := .ata recipient md.program cd.airdropTokenMint, treasury := .treasury .merkle,
        airdropTokenMint := cd.airdropTokenMint, campaign := x, campaignAta := .ata x md.program cd.airdropTokenMint,
        claimReceipt := .claimReceipt x i.toNat, airdropTokenProgram := md.program, chainlinkProgram := op,
        chainlinkSolUsdFeed := fd } i a p)) = .ok w'' := by
  have hr' := hr.step hs
  cases ix with
  | env e => cases hi
  | lockup l => cases l <;> cases hi
  | merkle mx =>
    cases mx with
    | «initialize» c f' p' s' =>
      cases hi
      cases step_did hs with
      | init hix _ => cases hix
      | create hix _ _ => cases hix
      | withdraw hix _ => cases hix
      | cancel hix _ => cases hix
      | renounce hix _ => cases hix
      | collect hix _ _ => cases hix
      | campaign _ hix _ => obtain ⟨_, _, _, _, _, _, _, hix⟩ := hix; cases hix
      | claim hix _ => obtain ⟨_, _, hix, _⟩ := hix; cases hix
      | clawback hix _ => obtain ⟨_, hix, _⟩ := hix; cases hix
      | miCollect hix _ _ => cases hix
      | env i hix _ => cases hix
      | miInit hix hs' hn hl h =>
        cases hix
        have hblank := (hr.merkleBlank hn).1
        subst h
        refine C45_claim_succeeds hr' (x := x) (cd := cd) (md := md)
          ⟨hx, hmint, hsign, ⟨_, rfl, rfl, rfl⟩, rfl, rfl, rfl, rfl, rfl, rfl, rfl, ?_⟩ ?_ hfund hwin hproof hfee
          ⟨ht.unblocked, ht.srcThawed, ht.dstThawed, ht.opensThawed, ht.noMemo⟩ hbal
        · cases hta : w.bank.tokens (.ata recipient md.program cd.airdropTokenMint) with
          | some t => exact .inl ⟨t, hta, hown t hta⟩
          | none =>
            refine .inr ⟨hta, ?_⟩
            unfold claimRent at hfund
            unfold CanFund
            simp only at hfund ⊢
            omega
        · show hasClaimedView _ _ _ = _
          unfold hasClaimedView
          rw [fetch_bind (by exact hx)]
          show Except.ok (w.mi.receipts _) = _
          rw [hblank]
    | _ => cases hi

/-! ## Non-vacuity: a campaign created and funded before either program is initialised -/

/-- Nobody has initialised anything; alice mints a token, creates the campaign and funds it; a stranger sends lamports
to the future treasuries. -/
def worldI : World := after world0 [.env (.createMint 3 plainMint),
  .env (.createAta alice (ataOf alice) alice tok mint), .env (.mintTo mint (ataOf alice) alice tok 1000000),
  .merkle (.createCampaign ⟨alice, mint, camp, campVault, tok⟩ root 1500 800000 campaignName [81, 109] 800 2),
  .env (.transfer (ataOf alice) campVault alice mint tok 800 6), .env (.sendLamports bob (.treasury .merkle) 777),
  .env (.sendLamports bob .nftCollectionMint 999), .env (.tick 4000)]

theorem reachI : Reachable Demo.rt worldI := ⟨world0, genesis0, steps_after (by decide +kernel)⟩

def campI : Campaign := ⟨Demo.mint, 255, 1500, alice, 800000, 0, [81, 109], root, campaignName⟩
theorem campI_stored : worldI.mi.campaigns camp = some campI := by decide +kernel

theorem uninit_of {rt : Runtime} {w : World} (hr : Reachable rt w) {p : Prog} (h : storedTreasury w p = none) :
    ∀ tr, configView rt w p ≠ .ok tr := by
  intro tr k
  rw [configView_ok hr, h] at k; cases k

theorem uninitI (p : Prog) : ∀ tr, configView Demo.rt worldI p ≠ .ok tr :=
  uninit_of reachI (by cases p <;> decide +kernel)

def mdI : MintData := { plainMint with supply := 1000000 }

theorem transferable_of {w : World} {md : MintData} {a b : Addr} {t : TokenData} (h : md.transferBlocked = false)
    (h1 : w.bank.tokens a = some t) (h2 : t.frozen = false) (h3 : w.bank.tokens b = none)
    (h4 : (w.settings b).memoRequired = false) (h5 : md.startsFrozen = false) : Transferable w md a b :=
  ⟨h, fun t' k => by rw [h1] at k; cases k; exact h2, fun t' k => (by rw [h3] at k; cases k), fun _ => h5, h4⟩

theorem owner_of_none {w : World} {a b : Addr} (h : w.bank.tokens a = none) (t : TokenData)
    (k : w.bank.tokens a = some t) : t.owner = b := by rw [h] at k; cases k

theorem vaultI : worldI.bank.tokens (.ata camp mdI.program campI.airdropTokenMint) =
    some ⟨tok, Demo.mint, camp, 800, false⟩ := by decide +kernel
theorem bobI : worldI.bank.tokens (.ata bob mdI.program campI.airdropTokenMint) = none := by decide +kernel

example := C80_lockup_before reachI (uninitI .lockup)
example := C80_merkle_before reachI (uninitI .merkle)
example := C80_lockup_initialize reachI (uninitI .lockup) (p := carol) rfl tok (by decide +kernel) collector oracleProgram
  feed
example := C80_merkle_initialize reachI (uninitI .merkle) (p := carol) rfl (by decide +kernel) collector oracleProgram feed
/-- carol claims for bob right after the airdrop program is initialised. -/
example : ∃ w'', step Demo.rt (after worldI [.merkle (.initialize ⟨alice, .treasury .merkle⟩ collector oracleProgram feed)])
    (.merkle (.claim (claimAccts bob 0) 0 500 [leaf1])) = .ok w'' :=
  C80_merkle_functional reachI (ix := .merkle (.initialize ⟨alice, .treasury .merkle⟩ collector oracleProgram feed))
    (f := collector) (op := oracleProgram) (fd := feed) (x := camp) (cd := campI) (md := mdI)
    rfl (step_after (by decide +kernel)) campI_stored (by decide +kernel) rfl carol bob 0 500 [leaf1] rfl
    (by decide +kernel) ⟨by decide +kernel, .inr (by decide +kernel)⟩ (by decide +kernel)
    (transferable_of rfl vaultI rfl bobI (by decide +kernel) rfl) (owner_of_none bobI) (by decide +kernel)

end Solsab.Props
