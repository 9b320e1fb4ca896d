import Verif.Proofs.Locality
/-!
# Locality of every instruction
-/

namespace Solsab

/-- Proves that an account is in a list of accounts of an instruction. -/
macro "mem" : tactic => `(tactic| (simp [Ix.accounts, Ix.writes, Ix.reads]; done))

/-- The initial pair of a two-run argument. -/
theorem Twin.init {S W : List Addr} {w v : World} (hc : w.clock = v.clock) (hs : ∀ a ∈ S, w.account a = v.account a) :
    Twin S W w v w v :=
  ⟨hc, rfl, hs, fun _ _ => rfl, fun _ _ => rfl, rfl, rfl, [], rfl, rfl⟩

/-- Twin worlds with the same further data. -/
def TwinP {α : Type} (S W : List Addr) (w₀ v₀ : World) (x y : World × α) : Prop := Twin S W w₀ v₀ x.1 y.1 ∧ x.2 = y.2

/-- The instruction behaves the same on twins. -/
def Local (rt : Runtime) (ix : Ix) : Prop := ∀ w v, w.clock = v.clock →
  (∀ a ∈ ix.accounts, w.account a = v.account a) →
  ResRel (Twin ix.accounts ix.writes w v) (step rt w ix) (step rt v ix)

theorem renounce_local {rt : Runtime} (c : Lockup.RenounceAccts) : Local rt (.lockup (.renounce c)) := by
  intro w v hc hs
  have h := Twin.init (W := (Ix.lockup (.renounce c)).writes) hc hs
  show ResRel _ (Lockup.renounce rt w c) (Lockup.renounce rt v c)
  unfold Lockup.renounce
  rw [h.loadStream rt (by mem) (by mem), h.now]
  iterate 5 refine ResRel.both rfl fun _ _ => ?_
  exact (h.setStream (by mem) _).emit _

theorem cancel_local {rt : Runtime} (c : Lockup.CancelAccts) : Local rt (.lockup (.cancel c)) := by
  intro w v hc hs
  have h := Twin.init (W := (Ix.lockup (.cancel c)).writes) hc hs
  show ResRel _ (Lockup.cancel rt w c) (Lockup.cancel rt v c)
  unfold Lockup.cancel Lockup.cancelAccounts
  rw [h.loadStream rt (by mem) (by mem), h.mint (a := c.depositedTokenMint) (by mem), h.checkAta (a := c.streamDataAta) (by mem)]
  refine ResRel.bind (R := TwinP (Ix.lockup (.cancel c)).accounts (Ix.lockup (.cancel c)).writes w v) ?_ ?_
  · iterate 6 refine ResRel.both rfl fun _ _ => ?_
    exact ResRel.bind (h.ensureAta rt (by mem) (by mem) (by mem) (by mem) (by mem) _ _) fun a b h => ⟨h, rfl⟩
  · rintro ⟨w₁, sd, dm⟩ ⟨v₁, _, _⟩ ⟨h, h'⟩
    cases h'
    show ResRel _ (Lockup.cancelHandler w₁ c sd dm) (Lockup.cancelHandler v₁ c sd dm)
    unfold Lockup.cancelHandler
    dsimp only at h
    rw [h.now]
    iterate 4 refine ResRel.both rfl fun _ _ => ?_
    exact ResRel.bind (h.transferTokens (by mem) (by mem) (by mem) (by mem) (by mem) _ _ _ _) fun a b h =>
      (h.setStream (by mem) _).emit _

theorem withdrawAccounts_twin {S W : List Addr} {rt : Runtime} {w v : World} (c : Lockup.WithdrawAccts)
    (h : Twin S W w v w v) (h1 : c.treasury ∈ S) (h2 : c.streamData ∈ S) (h3 : c.streamNftMint ∈ S)
    (h4 : c.depositedTokenMint ∈ S) (h5 : c.recipientStreamNftAta ∈ S) (h6 : c.streamDataAta ∈ S) (h7 : c.signer ∈ S)
    (h8 : c.withdrawalRecipientAta ∈ S) (h9 : c.signer ∈ W) (h10 : c.withdrawalRecipientAta ∈ W) :
    ResRel (TwinP S W w v) (Lockup.withdrawAccounts rt w c) (Lockup.withdrawAccounts rt v c) := by
  unfold Lockup.withdrawAccounts
  rw [h.loadLk rt h1, h.loadStream rt h2 h3, h.mint h4, h.checkAta h5, h.checkAta h6]
  iterate 11 refine ResRel.both rfl fun _ _ => ?_
  exact ResRel.bind (h.ensureAta rt h7 h8 h9 h10 h4 _ _) fun a b h => ⟨h, rfl⟩

theorem withdrawHandler_twin {S W : List Addr} {w₀ v₀ w v : World} (c : Lockup.WithdrawAccts) (sd : Lockup.StreamData)
    (dm : MintData) (amount : Nat) (h : Twin S W w₀ v₀ w v) (h2 : c.streamData ∈ W) (h4 : c.depositedTokenMint ∈ S)
    (h6 : c.streamDataAta ∈ S) (h6' : c.streamDataAta ∈ W) (h8 : c.withdrawalRecipientAta ∈ S)
    (h10 : c.withdrawalRecipientAta ∈ W) :
    ResRel (Twin S W w₀ v₀) (Lockup.withdrawHandler w c sd dm amount) (Lockup.withdrawHandler v c sd dm amount) := by
  unfold Lockup.withdrawHandler
  have : Lockup.WITHDRAWAL_FEE_USD = 0 := rfl
  rw [h.now, this, chargeFee_zero, chargeFee_zero]
  iterate 3 refine ResRel.both rfl fun _ _ => ?_
  refine ResRel.bind (R := TwinP S W w₀ v₀) ⟨h, rfl⟩ ?_
  rintro ⟨w₁, fee⟩ ⟨v₁, _⟩ ⟨h, h'⟩
  cases h'
  exact ResRel.bind (h.transferTokens h6 h8 h6' h10 h4 _ _ _ _) fun a b h => (h.setStream h2 _).emit _

theorem withdraw_local {rt : Runtime} (c : Lockup.WithdrawAccts) (a : UInt64) : Local rt (.lockup (.withdraw c a)) := by
  intro w v hc hs
  have h := Twin.init (W := (Ix.lockup (.withdraw c a)).writes) hc hs
  show ResRel _ (Lockup.withdraw rt w c a.toNat) (Lockup.withdraw rt v c a.toNat)
  unfold Lockup.withdraw
  refine ResRel.bind (withdrawAccounts_twin c h (by mem) (by mem) (by mem) (by mem) (by mem) (by mem) (by mem) (by mem)
    (by mem) (by mem)) ?_
  rintro ⟨w₁, sd, dm⟩ ⟨v₁, _, _⟩ ⟨h, h'⟩
  cases h'
  exact withdrawHandler_twin c sd dm _ h (by mem) (by mem) (by mem) (by mem) (by mem) (by mem)

theorem withdrawMax_local {rt : Runtime} (c : Lockup.WithdrawAccts) : Local rt (.lockup (.withdrawMax c)) := by
  intro w v hc hs
  have h := Twin.init (W := (Ix.lockup (.withdrawMax c)).writes) hc hs
  show ResRel _ (Lockup.withdrawMax rt w c) (Lockup.withdrawMax rt v c)
  unfold Lockup.withdrawMax
  refine ResRel.bind (withdrawAccounts_twin c h (by mem) (by mem) (by mem) (by mem) (by mem) (by mem) (by mem) (by mem)
    (by mem) (by mem)) ?_
  rintro ⟨w₁, sd, dm⟩ ⟨v₁, _, _⟩ ⟨h, h'⟩
  cases h'
  dsimp only at h
  refine ResRel.both (by rw [h.now]) fun _ _ => ?_
  exact withdrawHandler_twin c sd dm _ h (by mem) (by mem) (by mem) (by mem) (by mem) (by mem)

theorem create_twin {S W : List Addr} {rt : Runtime} {w v : World} (c : Lockup.CreateAccts) (p : Lockup.CreateParams)
    (h : Twin S W w v w v) (r1 : c.creator ∈ S) (r2 : c.creatorAta ∈ S) (r3 : c.nftCollectionData ∈ S)
    (r4 : c.nftCollectionMint ∈ S) (r5 : c.depositTokenMint ∈ S) (r6 : c.streamNftMint ∈ S)
    (r7 : c.recipientStreamNftAta ∈ S) (r8 : c.streamData ∈ S) (r9 : c.streamDataAta ∈ S)
    (re : .edition c.streamNftMint ∈ S) (me : .edition c.streamNftMint ∈ W) (r10 : .metadata c.streamNftMint ∈ S) (r11 : .metadata c.nftCollectionMint ∈ S)
    (m1 : c.creator ∈ W) (m2 : c.creatorAta ∈ W) (m3 : c.nftCollectionData ∈ W)
    (m6 : c.streamNftMint ∈ W) (m7 : c.recipientStreamNftAta ∈ W) (m8 : c.streamData ∈ W) (m9 : c.streamDataAta ∈ W)
    (m10 : .metadata c.streamNftMint ∈ W) (m11 : .metadata c.nftCollectionMint ∈ W) :
    ResRel (Twin S W w v) (Lockup.createWithTimestamps rt w c p) (Lockup.createWithTimestamps rt v c p) := by
  unfold Lockup.createWithTimestamps
  rw [h.checkAta r2, h.mint r4, h.mint r5]
  iterate 3 refine ResRel.both rfl fun _ _ => ?_
  rename_i hnc
  have hnc := (require_ok.1 hnc)
  rw [hnc] at r3 m3
  rw [h.coll r3]
  iterate 7 refine ResRel.both rfl fun _ _ => ?_
  refine ResRel.bind (h.openMint r6 m6 _) fun b b' h => ?_
  refine ResRel.bind (h.payRent rt r1 r6 m1 m6 _) fun w₁ v₁ h => ?_
  refine ResRel.bind (h.createAta rt r1 r7 m1 m7 r6 _ _) fun w₂ v₂ h => ?_
  refine ResRel.both rfl fun _ _ => ?_
  refine ResRel.both (by rw [h.stream r8]) fun _ _ => ?_
  refine ResRel.bind (h.payRent rt r1 r8 m1 m8 _) fun w₃ v₃ h => ?_
  refine ResRel.bind (h.createAta rt r1 r9 m1 m9 r5 _ _) fun w₄ v₄ h => ?_
  refine ResRel.both rfl fun _ _ => ?_
  refine ResRel.bind (R := Twin S W w v) ?_ fun w₅ v₅ h => ?_
  · unfold Lockup.nftCreateStream
    refine ResRel.both rfl fun _ _ => ?_
    refine ResRel.bind (h.mintTo r7 m7 r6 m6 _ _ _) fun b b' h => ?_
    refine ResRel.bind (h.metaplexCreate rt r1 m1 r6 m6 r10 m10 re me _ _ _ _) fun w₅ v₅ h => ?_
    exact h.metaplexVerify r10 r11 m10 m11 _
  · refine ResRel.both rfl fun _ _ => ?_
    refine ResRel.bind (h.transferTokens r2 r9 m2 m9 r5 _ _ _ _) fun w₆ v₆ h => ?_
    exact ((h.setStream m8 _).setColl m3 _).emit _

theorem createTs_local {rt : Runtime} (c : Lockup.CreateAccts) (salt : Fin (2 ^ 128)) (a b d e f g : UInt64) (k : Bool) :
    Local rt (.lockup (.createWithTimestamps c salt a b d e f g k)) := by
  intro w v hc hs
  have h := Twin.init (W := (Ix.lockup (.createWithTimestamps c salt a b d e f g k)).writes) hc hs
  refine create_twin (rt := rt) c _ h ?_ ?_ ?_ ?_ ?_ ?_ ?_ ?_ ?_ ?_ ?_ ?_ ?_ ?_ ?_ ?_ ?_ ?_ ?_ ?_ ?_ ?_ <;> mem

theorem createDur_local {rt : Runtime} (c : Lockup.CreateAccts) (salt : Fin (2 ^ 128)) (a b d e f : UInt64) (k : Bool) :
    Local rt (.lockup (.createWithDurations c salt a b d e f k)) := by
  intro w v hc hs
  have h := Twin.init (W := (Ix.lockup (.createWithDurations c salt a b d e f k)).writes) hc hs
  show ResRel _ (Lockup.createWithDurations rt w c _) (Lockup.createWithDurations rt v c _)
  unfold Lockup.createWithDurations
  rw [h.now]
  iterate 2 refine ResRel.both rfl fun _ _ => ?_
  refine create_twin (rt := rt) c _ h ?_ ?_ ?_ ?_ ?_ ?_ ?_ ?_ ?_ ?_ ?_ ?_ ?_ ?_ ?_ ?_ ?_ ?_ ?_ ?_ ?_ ?_ <;> mem

theorem initialize_local {rt : Runtime} (c : Lockup.InitializeAccts) (f p s : Addr) :
    Local rt (.lockup (.initialize c f p s)) := by
  intro w v hc hs
  have h := Twin.init (W := (Ix.lockup (.initialize c f p s)).writes) hc hs
  show ResRel _ (Lockup.initializeProgram rt w c f p s) (Lockup.initializeProgram rt v c f p s)
  unfold Lockup.initializeProgram
  refine ResRel.both rfl fun _ _ => ?_
  refine ResRel.both rfl fun _ ht => ?_
  have ht := require_ok.1 ht
  refine ResRel.both (by rw [h.lkTreasury (by rw [← ht]; mem)]) fun _ _ => ?_
  refine ResRel.bind (h.payRent rt (by mem) (by mem) (by mem) (by mem) _) fun w₁ v₁ h => ?_
  refine ResRel.both rfl fun _ hn => ?_
  have hn := require_ok.1 hn
  refine ResRel.both (by rw [h.coll (by rw [← hn]; mem)]) fun _ _ => ?_
  refine ResRel.bind (h.payRent rt (by mem) (by mem) (by mem) (by mem) _) fun w₂ v₂ h => ?_
  refine ResRel.both rfl fun _ _ => ?_
  refine ResRel.bind (h.openMint (by mem) (by mem) _) fun b b' h => ?_
  refine ResRel.bind (h.payRent rt (by mem) (by mem) (by mem) (by mem) _) fun w₃ v₃ h => ?_
  refine ResRel.bind (h.createAta rt (by mem) (by mem) (by mem) (by mem) (by mem) _ _) fun w₄ v₄ h => ?_
  unfold Lockup.nftInitializeCollection
  have h := (h.setLkTreasury (by rw [← ht]; mem) (some (Treasury.initialize (rt.bump c.treasury) f p s))).setColl
    (by rw [← hn]; mem) (some (Lockup.NftCollectionData.initialize (rt.bump c.nftCollectionData)))
  refine ResRel.bind (h.mintTo (by mem) (by mem) (by mem) (by mem) _ _ _) fun b b' h => ?_
  refine ResRel.bind (h.metaplexCreate rt (by mem) (by mem) (by mem) (by mem) (by mem) (by mem) (by mem) (by mem) _ _ _ _) fun w₅ v₅ h => ?_
  exact h.metaplexSign (by mem) (by mem) _

theorem Twin.moveLam {S W : List Addr} {w₀ v₀ w v : World} (h : Twin S W w₀ v₀ w v) {a b : Addr} (ha : a ∈ S) (hb : b ∈ S)
    (ha' : a ∈ W) (hb' : b ∈ W) (x : Nat) (e : Event) :
    ResRel (Twin S W w₀ v₀)
      (require (upd w.lamports a (w.lamports a - x) b + x < 2 ^ 64) .arithmeticOverflow >>= fun _ =>
        pure ({ w with lamports := upd (upd w.lamports a (w.lamports a - x)) b (upd w.lamports a (w.lamports a - x) b + x) }.emit e))
      (require (upd v.lamports a (v.lamports a - x) b + x < 2 ^ 64) .arithmeticOverflow >>= fun _ =>
        pure ({ v with lamports := upd (upd v.lamports a (v.lamports a - x)) b (upd v.lamports a (v.lamports a - x) b + x) }.emit e)) := by
  rw [h.lam ha]
  have h1 := h.setLam ha' (v.lamports a - x)
  have h3 : upd w.lamports a (v.lamports a - x) b = upd v.lamports a (v.lamports a - x) b := h1.lam hb
  rw [h3]
  refine ResRel.both rfl fun _ _ => ?_
  exact (h1.setLam hb' _).emit _

theorem collect_local {rt : Runtime} (c : Lockup.CollectFeesAccts) : Local rt (.lockup (.collectFees c)) := by
  intro w v hc hs
  have h := Twin.init (W := (Ix.lockup (.collectFees c)).writes) hc hs
  show ResRel _ (Lockup.collectFees rt w c) (Lockup.collectFees rt v c)
  unfold Lockup.collectFees
  refine ResRel.both rfl fun _ _ => ?_
  refine ResRel.both (h.loadLk rt (by mem)) fun _ _ => ?_
  refine ResRel.both rfl fun _ _ => ?_
  have e : w.lamports c.treasury = v.lamports c.treasury := h.lam (by mem)
  have h' := @Twin.moveLam _ _ _ _ _ _ h c.treasury c.feeRecipient (by mem) (by mem) (by mem) (by mem)
  rw [e] at h' ⊢
  generalize safeCollectibleAmount rt (v.lamports c.treasury) _ = r
  refine ResRel.both rfl fun _ _ => ?_
  refine ResRel.both rfl fun _ _ => ?_
  refine ResRel.both rfl fun _ _ => ?_
  exact h' _ _

theorem miCollect_local {rt : Runtime} (c : Merkle.CollectFeesAccts) : Local rt (.merkle (.collectFees c)) := by
  intro w v hc hs
  have h := Twin.init (W := (Ix.merkle (.collectFees c)).writes) hc hs
  show ResRel _ (Merkle.collectFees rt w c) (Merkle.collectFees rt v c)
  unfold Merkle.collectFees
  refine ResRel.both rfl fun _ _ => ?_
  refine ResRel.both (h.loadMi rt (by mem)) fun _ _ => ?_
  refine ResRel.both rfl fun _ _ => ?_
  have e : w.lamports c.treasury = v.lamports c.treasury := h.lam (by mem)
  have h' := @Twin.moveLam _ _ _ _ _ _ h c.treasury c.feeRecipient (by mem) (by mem) (by mem) (by mem)
  rw [e] at h' ⊢
  generalize safeCollectibleAmount rt (v.lamports c.treasury) _ = r
  refine ResRel.both rfl fun _ _ => ?_
  refine ResRel.both rfl fun _ _ => ?_
  refine ResRel.both rfl fun _ _ => ?_
  exact h' _ _

theorem miInitialize_local {rt : Runtime} (c : Merkle.InitializeAccts) (f p s : Addr) :
    Local rt (.merkle (.initialize c f p s)) := by
  intro w v hc hs
  have h := Twin.init (W := (Ix.merkle (.initialize c f p s)).writes) hc hs
  show ResRel _ (Merkle.initializeProgram rt w c f p s) (Merkle.initializeProgram rt v c f p s)
  unfold Merkle.initializeProgram
  refine ResRel.both rfl fun _ _ => ?_
  refine ResRel.both rfl fun _ ht => ?_
  have ht := require_ok.1 ht
  refine ResRel.both (by rw [h.miTreasury (by rw [← ht]; mem)]) fun _ _ => ?_
  refine ResRel.bind (h.payRent rt (by mem) (by mem) (by mem) (by mem) _) fun w₁ v₁ h => ?_
  exact h.setMiTreasury (by rw [← ht]; mem) _

theorem campaign_local {rt : Runtime} (c : Merkle.CreateCampaignAccts) (root : Bytes32) (st ex : UInt64)
    (name cid : List UInt8) (agg : UInt64) (cnt : UInt32) :
    Local rt (.merkle (.createCampaign c root st ex name cid agg cnt)) := by
  intro w v hc hs
  have h := Twin.init (W := (Ix.merkle (.createCampaign c root st ex name cid agg cnt)).writes) hc hs
  show ResRel _ (Merkle.createCampaign rt w c _) (Merkle.createCampaign rt v c _)
  unfold Merkle.createCampaign
  rw [h.mint (a := c.airdropTokenMint) (by mem), h.campaign (a := c.campaign) (by mem)]
  iterate 6 refine ResRel.both rfl fun _ _ => ?_
  refine ResRel.bind (h.payRent rt (by mem) (by mem) (by mem) (by mem) _) fun w₁ v₁ h => ?_
  refine ResRel.bind (h.createAta rt (by mem) (by mem) (by mem) (by mem) (by mem) _ _) fun w₄ v₄ h => ?_
  refine ResRel.both rfl fun _ _ => ?_
  exact (h.emit _).setCampaign (by mem) _

theorem campaignTransfer_twin {S W : List Addr} {w₀ v₀ w v : World} {rt : Runtime} (h : Twin S W w₀ v₀ w v)
    (cd : Merkle.Campaign) {x s d m : Addr} (hs : s ∈ S) (hd : d ∈ S) (hs' : s ∈ W) (hd' : d ∈ W) (hm : m ∈ S)
    (tp : TokenProgram) (a k : Nat) :
    ResRel (Twin S W w₀ v₀) (Merkle.campaignTransfer rt w cd x s d m tp a k)
      (Merkle.campaignTransfer rt v cd x s d m tp a k) := by
  unfold Merkle.campaignTransfer
  refine ResRel.both rfl fun _ _ => ?_
  exact h.transferTokens hs hd hs' hd' hm _ _ _ _

theorem clawback_local {rt : Runtime} (c : Merkle.ClawbackAccts) (a : UInt64) : Local rt (.merkle (.clawback c a)) := by
  intro w v hc hs
  have h := Twin.init (W := (Ix.merkle (.clawback c a)).writes) hc hs
  show ResRel _ (Merkle.clawback rt w c a.toNat) (Merkle.clawback rt v c a.toNat)
  unfold Merkle.clawback Merkle.clawbackAccounts
  rw [h.campaign (a := c.campaign) (by mem), h.mint (a := c.airdropTokenMint) (by mem), h.checkAta (a := c.campaignAta) (by mem)]
  refine ResRel.bind (R := TwinP (Ix.merkle (.clawback c a)).accounts (Ix.merkle (.clawback c a)).writes w v) ?_ ?_
  · iterate 6 refine ResRel.both rfl fun _ _ => ?_
    exact ResRel.bind (h.ensureAta rt (by mem) (by mem) (by mem) (by mem) (by mem) _ _) fun a b h => ⟨h, rfl⟩
  · rintro ⟨w₁, cd, dm⟩ ⟨v₁, _, _⟩ ⟨h, h'⟩
    cases h'
    show ResRel _ (Merkle.clawbackHandler rt w₁ c cd dm _) (Merkle.clawbackHandler rt v₁ c cd dm _)
    unfold Merkle.clawbackHandler
    dsimp only at h
    rw [h.now]
    refine ResRel.both rfl fun _ _ => ?_
    exact ResRel.bind (campaignTransfer_twin h cd (by mem) (by mem) (by mem) (by mem) (by mem) _ _ _) fun a b h => h.emit _

theorem claim_local {rt : Runtime} (c : Merkle.ClaimAccts) (i : UInt32) (a : UInt64) (p : List Bytes32) :
    Local rt (.merkle (.claim c i a p)) := by
  intro w v hc hs
  have h := Twin.init (W := (Ix.merkle (.claim c i a p)).writes) hc hs
  show ResRel _ (Merkle.claim rt w c i.toNat a.toNat p) (Merkle.claim rt v c i.toNat a.toNat p)
  unfold Merkle.claim Merkle.claimAccounts
  rw [h.loadMi rt (by mem), h.campaign (a := c.campaign) (by mem), h.mint (a := c.airdropTokenMint) (by mem),
    h.checkAta (a := c.campaignAta) (by mem)]
  refine ResRel.bind (R := TwinP (Ix.merkle (.claim c i a p)).accounts (Ix.merkle (.claim c i a p)).writes w v) ?_ ?_
  · iterate 8 refine ResRel.both rfl fun _ _ => ?_
    refine ResRel.bind (h.ensureAta rt (by mem) (by mem) (by mem) (by mem) (by mem) _ _) fun w₁ v₁ h => ?_
    refine ResRel.both rfl fun _ _ => ?_
    refine ResRel.both (by rw [h.receipt (by mem)]) fun _ _ => ?_
    refine ResRel.bind (h.payRent rt (by mem) (by mem) (by mem) (by mem) _) fun w₁ v₁ h => ?_
    exact ⟨h.setReceipt (by mem) _, rfl⟩
  · rintro ⟨w₁, cd, dm⟩ ⟨v₁, _, _⟩ ⟨h, h'⟩
    cases h'
    show ResRel _ (Merkle.claimHandler rt w₁ c cd dm _ _ _) (Merkle.claimHandler rt v₁ c cd dm _ _ _)
    unfold Merkle.claimHandler
    dsimp only at h
    have : Merkle.CLAIM_FEE_USD = 0 := rfl
    rw [h.now, this, chargeFee_zero, chargeFee_zero]
    refine ResRel.both rfl fun _ _ => ?_
    refine ResRel.bind (R := TwinP (Ix.merkle (.claim c i a p)).accounts (Ix.merkle (.claim c i a p)).writes w v) ⟨h, rfl⟩ ?_
    rintro ⟨w₁, fee⟩ ⟨v₁, _⟩ ⟨h, h'⟩
    cases h'
    exact ResRel.bind (campaignTransfer_twin h cd (by mem) (by mem) (by mem) (by mem) (by mem) _ _ _) fun a b h =>
      (h.setCampaign (by mem) _).emit _

theorem step_local {rt : Runtime} {ix : Ix} (h : ix.ofPrograms) : Local rt ix := by
  match ix with
  | .lockup (.initialize c f p s) => exact initialize_local c f p s
  | .lockup (.createWithTimestamps c salt a b d e f g k) => exact createTs_local c salt a b d e f g k
  | .lockup (.createWithDurations c salt a b d e f k) => exact createDur_local c salt a b d e f k
  | .lockup (.withdraw c a) => exact withdraw_local c a
  | .lockup (.withdrawMax c) => exact withdrawMax_local c
  | .lockup (.cancel c) => exact cancel_local c
  | .lockup (.renounce c) => exact renounce_local c
  | .lockup (.collectFees c) => exact collect_local c
  | .merkle (.initialize c f p s) => exact miInitialize_local c f p s
  | .merkle (.createCampaign c root st ex name cid agg cnt) => exact campaign_local c root st ex name cid agg cnt
  | .merkle (.claim c i a p) => exact claim_local c i a p
  | .merkle (.clawback c a) => exact clawback_local c a
  | .merkle (.collectFees c) => exact miCollect_local c
  | .env i => exact h.elim

end Solsab
