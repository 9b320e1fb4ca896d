import Verif.Proofs.CampaignReady
import Verif.Props.Treasury
/-!
# C39–C41, C45–C52, C58: airdrop campaigns
-/

namespace Solsab.Props

open Spec Demo Merkle

/-! ## C39, C40: one claim per index -/

/-- **C39**: every history has at most one claim per campaign and index. -/
theorem C39_at_most_one {rt : Runtime} {w : World} (hr : Reachable rt w) (x : Addr) (i : Nat) :
    total (claimOf x i) w.log ≤ 1 := by
  rw [(hr.campaignsOK x).2 i]
  split <;> omega

example := C39_at_most_one reach3 camp 0
example : total (claimOf camp 0) world3.log = 1 ∧ total (claimOf camp 1) world3.log = 0 := by decide +kernel

theorem claimOf_mono {rt : Runtime} {w w' : World} (hs : Steps rt w w') (x : Addr) (i : Nat) :
    total (claimOf x i) w.log ≤ total (claimOf x i) w'.log := by
  induction hs with
  | refl => exact Nat.le_refl _
  | tail ix _ h ih =>
    refine Nat.le_trans ih ?_
    rcases (step_did h).log_cases with h | ⟨e, h, _, _⟩
    · rw [h]
    · rw [h, total_cons]; omega

theorem claim_step {rt : Runtime} {w w' : World} {c : ClaimAccts} {i : UInt32} {a : UInt64} {proof : List Bytes32}
    (h : step rt w (.merkle (.claim c i a proof)) = .ok w') :
    ∃ cd dm b₁ b₂ l, ClaimOk rt w c i.toNat a.toNat proof w' cd dm b₁ b₂ l := claim_ok h

/-- **C39**: after a successful claim, every later claim of the same index from the same campaign fails,
whoever signs, whatever the recipient, the amount and the proof. -/
theorem C39_second_claim_fails {rt : Runtime} {w w' w'' : World} (hr : Reachable rt w) {c c' : ClaimAccts}
    {i : UInt32} {a a' : UInt64} {p p' : List Bytes32} (h : step rt w (.merkle (.claim c i a p)) = .ok w')
    (hs : Steps rt w' w'') (hc : c'.campaign = c.campaign) :
    ∃ e, step rt w'' (.merkle (.claim c' i a' p')) = .error e := by
  cases hx : step rt w'' (.merkle (.claim c' i a' p')) with
  | error e => exact ⟨e, rfl⟩
  | ok w₃ =>
    exfalso
    obtain ⟨cd, dm, b₁, b₂, l, h1⟩ := claim_step h
    obtain ⟨cd', dm', b₁', b₂', l', h2⟩ := claim_step hx
    have hr'' := (hr.step h).steps hs
    have k1 : 1 ≤ total (claimOf c.campaign i.toNat) w'.log := by
      rw [h1.result]; simp [total_cons, claimOf]
    have k2 := claimOf_mono hs c.campaign i.toNat
    have k3 : total (claimOf c.campaign i.toNat) w₃.log = 1 + total (claimOf c.campaign i.toNat) w''.log := by
      rw [h2.result]; simp [total_cons, claimOf, hc]
    have := C39_at_most_one (hr''.step hx) c.campaign i.toNat
    omega

example := C39_second_claim_fails reach2 (c := claimAccts bob 0) (i := 0) (a := 500) (p := [leaf1]) (a' := 7) (p' := [])
  (c' := claimAccts carol 0) (step_after (by decide +kernel)) (.refl _) rfl

open Classical in
/-- **C40**: `has_claimed` says exactly whether the history has a claim of that index. -/
theorem C40_has_claimed {rt : Runtime} {w : World} (hr : Reachable rt w) {x : Addr} {cd : Campaign}
    (hx : campaignView w x = .ok cd) (i : Nat) :
    hasClaimedView w x i = .ok (decide (ClaimedIn w.log x i)) := by
  have hc := fetch_ok.1 hx
  unfold hasClaimedView
  rw [fetch_bind hc]
  congr 1
  have h := (hr.campaignsOK x).2 i
  rw [Bool.eq_iff_iff, decide_eq_true_iff, ClaimedIn_iff, h]
  split <;> simp_all

example := C40_has_claimed reach3 (x := camp) (cd := ⟨mint, 255, 1500, alice, 800000, 4000, [81, 109], root, campaignName⟩)
  (by decide +kernel) 0
example : hasClaimedView world3 camp 0 = .ok true ∧ hasClaimedView world3 camp 1 = .ok false := by decide +kernel

/-! ## C41: the claim window -/

/-- **C41**: a claim succeeds only inside the window. -/
theorem C41_window {rt : Runtime} {w w' : World} {c : ClaimAccts} {i : UInt32} {a : UInt64} {p : List Bytes32}
    (h : step rt w (.merkle (.claim c i a p)) = .ok w') :
    ∃ cd, campaignView w c.campaign = .ok cd ∧ InWindow w.now cd.campaignStartTime cd.expirationTime := by
  obtain ⟨cd, dm, b₁, b₂, l, h1⟩ := claim_step h
  exact ⟨cd, fetch_ok.2 h1.accts.campaign, h1.started, h1.notExpired⟩

example := C41_window (w := world2) (c := claimAccts bob 0) (i := 0) (a := 500) (p := [leaf1]) (step_after (by decide +kernel))

/-- **C41**: so does every claim in any history. -/
theorem C41_history {rt : Runtime} {w : World} (hr : Reachable rt w) {x : Addr} {cd : Campaign}
    (hx : campaignView w x = .ok cd) {e : LogEntry} (he : e ∈ w.log) {a cl rc f i r}
    (hev : e.event = .claim a x cl rc f i r) : InWindow e.time cd.campaignStartTime cd.expirationTime := by
  obtain ⟨h1, h2, _⟩ := (hr.campaignOK (fetch_ok.1 hx)).claims e he a cl rc f i r hev
  exact ⟨h1, h2⟩

example := C41_history reach3 (x := camp) (cd := ⟨mint, 255, 1500, alice, 800000, 4000, [81, 109], root, campaignName⟩)
  (by decide +kernel) (e := ⟨4000, .claim 500 camp carol (.claimReceipt camp 0) 0 0 bob⟩) (by decide +kernel) rfl

/-- **C41**: with the right accounts and an unclaimed index, the program's own errors are exactly: not
started, else expired, else a proof that does not lead to the root. -/
theorem C41_errors {rt : Runtime} {w : World} (hr : Reachable rt w) {c : ClaimAccts} {x : Addr} {cd : Campaign}
    {md : MintData} {i : UInt32} (a : UInt64) (p : List Bytes32) (hc : ClaimReady rt w c x cd md i.toNat)
    (hfresh : hasClaimedView w x i.toNat = .ok false) (hfund : claimRent rt cd.airdropTokenMint md.program ≤ w.lamports c.claimer) :
    (step rt w (.merkle (.claim c i a p)) = .error (.merkle .campaignNotStarted) ↔ w.now < cd.campaignStartTime) ∧
    (step rt w (.merkle (.claim c i a p)) = .error (.merkle .campaignExpired) ↔
      cd.campaignStartTime ≤ w.now ∧ Expired w.now cd.expirationTime) ∧
    (step rt w (.merkle (.claim c i a p)) = .error (.merkle .invalidMerkleProof) ↔
      InWindow w.now cd.campaignStartTime cd.expirationTime ∧
      computeRoot rt (leafHash rt i.toNat c.recipient a.toNat) p ≠ cd.merkleRoot) ∧
    (∀ e, step rt w (.merkle (.claim c i a p)) = .error (.merkle e) →
      e = .campaignNotStarted ∨ e = .campaignExpired ∨ e = .invalidMerkleProof) := by
  have hf : w.mi.receipts (.claimReceipt x i.toNat) = false := by
    unfold hasClaimedView at hfresh
    rw [fetch_bind hc.campaign] at hfresh
    injection hfresh
  obtain ⟨w₁, hw₁⟩ := hc.accounts hr hf hfund
  have hnow : w₁.now = w.now := by
    obtain ⟨b, l, _, _, rfl⟩ := claimAccounts_ok hw₁; rfl
  have hstep : step rt w (.merkle (.claim c i a p)) = claimHandler rt w₁ c cd md i.toNat a.toNat p := by
    show claim rt w c i.toNat a.toNat p = _
    unfold claim; rw [hw₁, ok_bind]
  have hz : CLAIM_FEE_USD = 0 := rfl
  rw [hstep]
  unfold claimHandler
  rw [hnow]
  -- everything after the check is external
  have hext : ∀ u, External (do
      let (w, fee) ← chargeFee w₁ CLAIM_FEE_USD c.chainlinkProgram c.chainlinkSolUsdFeed c.claimer c.treasury
      let w ← campaignTransfer rt w cd c.campaign c.campaignAta c.recipientAta c.airdropTokenMint
        c.airdropTokenProgram a.toNat md.decimals
      let w := { w with mi := { w.mi with campaigns := upd w.mi.campaigns c.campaign (some (cd.claim u)) } }
      pure (w.emit (.claim a.toNat c.campaign c.claimer c.claimReceipt fee i.toNat c.recipient))) := by
    intro u
    rw [hz, chargeFee_zero, ok_bind]
    simp only
    refine External.bind campaignTransfer_external fun _ _ => External.pure _
  unfold checkClaim hasCampaignStarted hasExpired InWindow Expired
  by_cases h1 : cd.campaignStartTime ≤ w.now
  · have hx1 : (!decide (cd.campaignStartTime ≤ w.now)) = true ↔ False := by simp [h1]
    rw [if_neg (fun h => hx1.1 h)]
    by_cases h2 : cd.expirationTime ≠ 0 ∧ cd.expirationTime ≤ w.now
    · have hx2 : (decide (cd.expirationTime > 0) && decide (cd.expirationTime ≤ w.now)) = true := by
        simp only [Bool.and_eq_true, decide_eq_true_eq]; omega
      rw [if_pos hx2]
      refine ⟨⟨fun h => (by cases h), fun h => absurd h1 (by omega)⟩, ⟨fun _ => ⟨h1, h2⟩, fun _ => rfl⟩,
        ⟨fun h => (by cases h), fun h => absurd h2 (by omega)⟩, fun e h => by cases h; simp⟩
    · have hx2 : ¬ (decide (cd.expirationTime > 0) && decide (cd.expirationTime ≤ w.now)) = true := by
        simp only [Bool.and_eq_true, decide_eq_true_eq]; omega
      rw [if_neg hx2]
      by_cases h3 : computeRoot rt (leafHash rt i.toNat c.recipient a.toNat) p ≠ cd.merkleRoot
      · rw [if_pos h3]
        refine ⟨⟨fun h => (by cases h), fun h => absurd h1 (by omega)⟩,
          ⟨fun h => (by cases h), fun h => absurd h.2 h2⟩, ⟨fun _ => ⟨⟨h1, by omega⟩, h3⟩, fun _ => rfl⟩,
          fun e h => by cases h; simp⟩
      · rw [if_neg h3, ok_bind]
        have := hext w.now
        refine ⟨⟨fun h => (this _ h).elim, fun h => absurd h1 (by omega)⟩,
          ⟨fun h => (this _ h).elim, fun h => absurd h.2 h2⟩, ⟨fun h => (this _ h).elim, fun h => absurd h.2 h3⟩,
          fun e h => (this _ h).elim⟩
  · have hx1 : (!decide (cd.campaignStartTime ≤ w.now)) = true := by simp [h1]
    rw [if_pos hx1]
    refine ⟨⟨fun _ => by omega, fun _ => rfl⟩, ⟨fun h => (by cases h), fun h => absurd h.1 h1⟩,
      ⟨fun h => (by cases h), fun h => absurd h.1.1 h1⟩, fun e h => by cases h; simp⟩

theorem demo_claimReady : ClaimReady rt world2 (claimAccts bob 0) camp
    ⟨mint, 255, 1500, alice, 800000, 0, [81, 109], root, campaignName⟩ { plainMint with supply := 1000000 } 0 :=
  ⟨by decide +kernel, by decide +kernel, rfl, ⟨⟨255, collector, oracleProgram, feed⟩, by decide +kernel, rfl, rfl⟩, rfl, rfl, rfl,
    rfl, rfl, rfl, rfl, .inr ⟨by decide +kernel, by unfold CanFund; decide +kernel⟩⟩

example := C41_errors reach2 (i := 0) 500 [leaf1] demo_claimReady (by decide +kernel) (by decide +kernel)

/-- **C41**: `has_campaign_started` and `has_expired` report exactly these conditions. -/
theorem C41_views {w : World} {x : Addr} {cd : Campaign} (hx : campaignView w x = .ok cd) :
    hasCampaignStartedView w x = .ok (decide (cd.campaignStartTime ≤ w.now)) ∧
    hasExpiredView w x = .ok (decide (Expired w.now cd.expirationTime)) := by
  have hc := fetch_ok.1 hx
  unfold hasCampaignStartedView hasExpiredView
  rw [fetch_bind hc, fetch_bind hc]
  refine ⟨rfl, ?_⟩
  congr 1
  rw [Bool.eq_iff_iff, decide_eq_true_iff]
  unfold hasExpired Expired
  simp only [Bool.and_eq_true, decide_eq_true_eq]
  omega

example := C41_views (w := world8) (x := camp) (cd := ⟨mint, 255, 1500, alice, 800000, 4000, [81, 109], root, campaignName⟩)
  (by decide +kernel)

/-! ## C45: what a claim does -/

theorem campaign_program {rt : Runtime} {w : World} (hr : Reachable rt w) {x vault m : Addr} {cd : Campaign} {dm : MintData}
    {tp : TokenProgram} (hm : w.bank.mints cd.airdropTokenMint = some dm) (hma : m = cd.airdropTokenMint)
    (hv : ∃ t, w.bank.tokens vault = some t ∧ t.owner = x ∧ t.program = tp) (hva : vault = .ata x tp m) :
    tp = dm.program := by
  have hb := hr.bankInv
  obtain ⟨tv, hv1, hv2, hv3⟩ := hv
  obtain ⟨md', hm1, hm2⟩ := hb.tok_mint _ _ hv1
  have hvm := (ata_token hb (by rw [← hva]; exact hv1)).2
  rw [hvm, hma, hm] at hm1
  cases hm1
  rw [hm2, hv3]

/-- **C45**: the exact effect of a successful claim: `amount` leaves the campaign's vault and reaches the
associated account of the named recipient (less the token's own fee), whoever the claimer is; the receipt
appears; the event says so; nothing else changes. -/
theorem C45_claim_effect {rt : Runtime} {w w' : World} (hr : Reachable rt w) {c : ClaimAccts} {i : UInt32}
    {a : UInt64} {p : List Bytes32} (h : step rt w (.merkle (.claim c i a p)) = .ok w') :
    ∃ cd md, campaignView w c.campaign = .ok cd ∧ w.bank.mints cd.airdropTokenMint = some md ∧
      -- the proof fits the stored root
      computeRoot rt (leafHash rt i.toNat c.recipient a.toNat) p = cd.merkleRoot ∧
      -- from the campaign's vault to the recipient's associated account
      c.campaignAta = .ata c.campaign md.program cd.airdropTokenMint ∧
      c.recipientAta = .ata c.recipient md.program cd.airdropTokenMint ∧
      (∃ t, w'.bank.tokens c.recipientAta = some t ∧ t.owner = c.recipient) ∧
      (c.recipient ≠ c.campaign →
        a.toNat ≤ w.bank.balance c.campaignAta ∧
        w'.bank.balance c.campaignAta = w.bank.balance c.campaignAta - a.toNat ∧
        w'.bank.balance c.recipientAta = w.bank.balance c.recipientAta + (a.toNat - md.fee a.toNat)) ∧
      (∀ y, y ≠ c.campaignAta → y ≠ c.recipientAta → w'.bank.tokens y = w.bank.tokens y) ∧
      -- recorded and announced
      w.mi.receipts (.claimReceipt c.campaign i.toNat) = false ∧
      w'.mi.receipts = upd w.mi.receipts (.claimReceipt c.campaign i.toNat) true ∧
      w'.log = ⟨w.now, .claim a.toNat c.campaign c.claimer (.claimReceipt c.campaign i.toNat) 0 i.toNat c.recipient⟩ :: w.log ∧
      -- and nothing else
      (∃ t, w'.mi.campaigns c.campaign = some { cd with firstClaimTime := t }) ∧
      (∀ y, y ≠ c.campaign → w'.mi.campaigns y = w.mi.campaigns y) ∧
      w'.bank.mints = w.bank.mints ∧ w'.lk = w.lk ∧ w'.mi.treasury = w.mi.treasury ∧ w'.clock = w.clock ∧
      w'.metas = w.metas := by
  obtain ⟨cd, dm, b₁, b₂, l, hw⟩ := claim_step h
  have ha := hw.accts
  have hm : w.bank.mints cd.airdropTokenMint = some dm := by rw [← ha.mintAddr]; exact ha.mint
  have hpr := campaign_program hr hm ha.mintAddr ha.vault ha.vaultAddr
  have hpay := hw.payout
  have hva : c.campaignAta = .ata c.campaign dm.program cd.airdropTokenMint := by rw [ha.vaultAddr, hpr, ha.mintAddr]
  have hra : c.recipientAta = .ata c.recipient dm.program cd.airdropTokenMint := by rw [ha.ensure.1, hpr, ha.mintAddr]
  refine ⟨cd, dm, fetch_ok.2 ha.campaign, hm, hw.proof_ok, hva, hra, ?_, ?_, fun y h1 h2 => hpay.frame h1 h2,
    by rw [← ha.receiptAddr]; exact ha.receiptFresh, by rw [hw.result, ha.receiptAddr], by rw [hw.result, ha.receiptAddr],
    ?_, ?_, hpay.mints_eq, by rw [hw.result], by rw [hw.result], by rw [hw.result], by rw [hw.result]⟩
  · obtain ⟨t0, h01, _, h03, _⟩ := ha.ensure.dst
    obtain ⟨tf, tt, md', hf, _⟩ := transferChecked_ok hw.transfer
    obtain ⟨t', h', hk⟩ := transferFacts_kept hf h01
    exact ⟨t', by rw [hw.result]; exact h', by rw [← h03]; exact hk.2.2⟩
  · intro hne
    have hne' : c.recipientAta ≠ c.campaignAta := by
      rw [hra, hva]; intro h; injection h with h _ _; exact hne h
    obtain ⟨t, t', hs1, _, _, _, hs5, hs6, _, hs8⟩ := hpay.src
    rw [if_neg hne'] at hs8
    obtain ⟨md', t2, hd1, hd2, _, _, hd5⟩ := hpay.dst hne'
    rw [ha.mint] at hd1; cases hd1
    refine ⟨?_, ?_, ?_⟩
    · unfold Bank.balance; rw [hs1]; exact hs5
    · unfold Bank.balance; rw [hs1, hs6]; exact hs8
    · conv_lhs => unfold Bank.balance
      rw [hd2]; exact hd5
  · exact ⟨_, by rw [hw.result]; simp only [upd_same]; rw [Campaign.claim_eq]⟩
  · intro y hy; rw [hw.result]; exact upd_ne _ _ hy

example := C45_claim_effect reach2 (c := claimAccts bob 0) (i := 0) (a := 500) (p := [leaf1]) (step_after (by decide +kernel))
example : world2.bank.balance campVault = 800 ∧ world3.bank.balance campVault = 300 ∧
    world3.bank.balance (ataOf bob) = 700 := by decide +kernel

/-- **C45**, liveness: anybody can make an unclaimed, provable claim inside the window succeed, as long as
the vault holds the amount and the token's transfers work. -/
theorem C45_claim_succeeds {rt : Runtime} {w : World} (hr : Reachable rt w) {c : ClaimAccts} {x : Addr} {cd : Campaign}
    {md : MintData} {i : UInt32} {a : UInt64} {p : List Bytes32} (hc : ClaimReady rt w c x cd md i.toNat)
    (hfresh : hasClaimedView w x i.toNat = .ok false) (hfund : claimRent rt cd.airdropTokenMint md.program ≤ w.lamports c.claimer)
    (hwin : InWindow w.now cd.campaignStartTime cd.expirationTime)
    (hproof : computeRoot rt (leafHash rt i.toNat c.recipient a.toNat) p = cd.merkleRoot)
    (hfee : md.feeConfig = none) (ht : Transferable w md c.campaignAta c.recipientAta)
    (hbal : a.toNat ≤ w.bank.balance c.campaignAta) :
    ∃ w', step rt w (.merkle (.claim c i a p)) = .ok w' := by
  have hf : w.mi.receipts (.claimReceipt x i.toNat) = false := by
    unfold hasClaimedView at hfresh
    rw [fetch_bind hc.campaign] at hfresh
    injection hfresh
  obtain ⟨w₁, hw₁⟩ := hc.accounts hr hf hfund
  obtain ⟨b, l, hacc, _, rfl⟩ := claimAccounts_ok hw₁
  obtain ⟨md', t, hv⟩ := hr.cvaultOK _ _ hc.campaign
  have hmd : md' = md := by have := hv.mint; rw [hc.mint] at this; cases this; rfl
  subst hmd
  have hok := hr.campaignOK hc.campaign
  have hvt : w.bank.tokens c.campaignAta = some t := by rw [hc.a5]; exact hv.vault
  have hens := hacc.ensure
  rw [hc.a3, hc.a4] at hens
  have hamt : a.toNat ≤ t.amount := by unfold Bank.balance at hbal; rw [hvt] at hbal; exact hbal
  obtain ⟨b₂, hb₂⟩ := transfer_of hr.bankInv hens hc.mint rfl hfee hc.a5 hvt hv.owner ht.unblocked
    (ht.srcThawed t hvt) ht.dstThawed ht.opensThawed hamt
  have hunl : w.Unlocked c.campaignAta c.recipientAta :=
    ⟨by rw [hc.a5]; exact congrArg Settings.cpiGuard (hr.vaultSettings (by rw [hok.addr]; rfl) _ _), ht.noMemo⟩
  have hz : CLAIM_FEE_USD = 0 := rfl
  refine bind_succeeds hw₁ (bind_succeeds (a := ()) (checkClaim_ok.2 ⟨hwin.1, hwin.2, hproof⟩)
    (bind_succeeds (chargeFee_zero ..) (bind_succeeds
      (bind_ok.2 ⟨(), require_ok.2 ⟨by rw [hc.a2]; exact hok.addr, by rw [hc.a2]; exact hok.bump⟩,
        transferTokens_iff.2 ⟨hunl.of_eq rfl, b₂, ?_, rfl⟩⟩) ⟨_, rfl⟩)))
  rw [hc.a2, hc.a3, hc.a4]
  exact hb₂

theorem demo_claimTransferable : Transferable world2 { plainMint with supply := 1000000 }
    (claimAccts bob 0).campaignAta (claimAccts bob 0).recipientAta := by
  refine ⟨rfl, ?_, ?_, fun _ => rfl, by decide +kernel⟩
  · intro t ht
    have : world2.bank.tokens (claimAccts bob 0).campaignAta = some ⟨tok, Demo.mint, camp, 800, false⟩ := by
      decide +kernel
    rw [this] at ht; cases ht; rfl
  · intro t ht
    have : world2.bank.tokens (claimAccts bob 0).recipientAta = none := by decide +kernel
    rw [this] at ht; cases ht

example := C45_claim_succeeds reach2 (i := 0) (a := 500) (p := [leaf1]) demo_claimReady (by decide +kernel) (by decide +kernel)
  ⟨by decide +kernel, by decide +kernel⟩ (by decide +kernel) rfl demo_claimTransferable (by decide +kernel)

/-! ## C46, C47: clawbacks -/

theorem clawback_step {rt : Runtime} {w w' : World} {c : ClawbackAccts} {a : UInt64}
    (h : step rt w (.merkle (.clawback c a)) = .ok w') :
    ∃ cd dm b₁ b₂ l, ClawbackOk rt w c a.toNat w' cd dm b₁ b₂ l := clawback_ok h

/-- **C46**: a successful clawback was signed by the creator of the campaign, was not blocked, and moves
exactly `amount` from the vault to the associated account of the chosen recipient (less the token's own fee);
nothing else changes. -/
theorem C46_clawback_effect {rt : Runtime} {w w' : World} (hr : ReachablePos rt w) {c : ClawbackAccts} {a : UInt64}
    (h : step rt w (.merkle (.clawback c a)) = .ok w') :
    ∃ cd md, campaignView w c.campaign = .ok cd ∧ w.bank.mints cd.airdropTokenMint = some md ∧
      c.campaignCreator = cd.creator ∧ cd.creator.canSign = true ∧
      ¬ ClawbackBlocked w.log c.campaign w.now cd.expirationTime ∧
      c.campaignAta = .ata c.campaign md.program cd.airdropTokenMint ∧
      c.clawbackRecipientAta = .ata c.clawbackRecipient md.program cd.airdropTokenMint ∧
      (∃ t, w'.bank.tokens c.clawbackRecipientAta = some t ∧ t.owner = c.clawbackRecipient) ∧
      (c.clawbackRecipient ≠ c.campaign →
        a.toNat ≤ w.bank.balance c.campaignAta ∧
        w'.bank.balance c.campaignAta = w.bank.balance c.campaignAta - a.toNat ∧
        w'.bank.balance c.clawbackRecipientAta =
          w.bank.balance c.clawbackRecipientAta + (a.toNat - md.fee a.toNat)) ∧
      (∀ y, y ≠ c.campaignAta → y ≠ c.clawbackRecipientAta → w'.bank.tokens y = w.bank.tokens y) ∧
      w'.log = ⟨w.now, .clawback a.toNat c.campaign c.campaignCreator c.clawbackRecipient⟩ :: w.log ∧
      w'.bank.mints = w.bank.mints ∧ w'.mi = w.mi ∧ w'.lk = w.lk ∧ w'.clock = w.clock ∧
      w'.metas = w.metas := by
  have hr' := hr.reachable
  obtain ⟨cd, dm, b₁, b₂, l, hw⟩ := clawback_step h
  have ha := hw.accts
  have hm : w.bank.mints cd.airdropTokenMint = some dm := by rw [← ha.mintAddr]; exact ha.mint
  have hpr := campaign_program hr' hm ha.mintAddr ha.vault ha.vaultAddr
  have hpay := hw.payout
  have hva : c.campaignAta = .ata c.campaign dm.program cd.airdropTokenMint := by rw [ha.vaultAddr, hpr, ha.mintAddr]
  have hra : c.clawbackRecipientAta = .ata c.clawbackRecipient dm.program cd.airdropTokenMint := by
    rw [ha.ensure.1, hpr, ha.mintAddr]
  refine ⟨cd, dm, fetch_ok.2 ha.campaign, hm, ha.creator, by rw [← ha.creator]; exact ha.signs, ?_, hva, hra, ?_, ?_,
    fun y h1 h2 => hpay.frame h1 h2, by rw [hw.result], hpay.mints_eq, by rw [hw.result], by rw [hw.result],
    by rw [hw.result], by rw [hw.result]⟩
  · intro hb
    have hal := hw.allowed
    rw [checkClawback_eq hr' ha.campaign, if_pos ((blocked_iff hr ha.campaign).2 hb)] at hal
    cases hal
  · obtain ⟨t0, h01, _, h03, _⟩ := ha.ensure.dst
    obtain ⟨tf, tt, md', hf, _⟩ := transferChecked_ok hw.transfer
    obtain ⟨t', h', hk⟩ := transferFacts_kept hf h01
    exact ⟨t', by rw [hw.result]; exact h', by rw [← h03]; exact hk.2.2⟩
  · intro hne
    have hne' : c.clawbackRecipientAta ≠ c.campaignAta := by
      rw [hra, hva]; intro h; injection h with h _ _; exact hne h
    obtain ⟨t, t', hs1, _, _, _, hs5, hs6, _, hs8⟩ := hpay.src
    rw [if_neg hne'] at hs8
    obtain ⟨md', t2, hd1, hd2, _, _, hd5⟩ := hpay.dst hne'
    rw [ha.mint] at hd1; cases hd1
    refine ⟨?_, ?_, ?_⟩
    · unfold Bank.balance; rw [hs1]; exact hs5
    · unfold Bank.balance; rw [hs1, hs6]; exact hs8
    · conv_lhs => unfold Bank.balance
      rw [hd2]; exact hd5

theorem pos0 : ReachablePos rt world0 := ⟨world0, genesis0, by decide, .refl _⟩
theorem pos2 : ReachablePos rt world2 := pos0.steps (steps01.trans steps12)
theorem pos3 : ReachablePos rt world3 := pos2.steps steps23
theorem pos7 : ReachablePos rt world7 := pos3.steps (steps34.trans (steps45.trans (steps56.trans steps67)))
theorem pos8 : ReachablePos rt world8 := pos7.steps steps78

example := C46_clawback_effect pos2 (c := ⟨alice, carol, ataOf carol, mint, camp, campVault, tok⟩) (a := 100)
  (step_after (by decide +kernel))

/-- **C46**: with the right accounts (in particular signed by the creator), the program itself rejects a
clawback exactly when it is blocked, and then with `ClawbackNotAllowed`. -/
theorem C46_errors {rt : Runtime} {w : World} (hr : ReachablePos rt w) {c : ClawbackAccts} {x : Addr} {cd : Campaign}
    {md : MintData} (a : UInt64) (hc : ClawbackReady rt w c x cd md) :
    (step rt w (.merkle (.clawback c a)) = .error (.merkle .clawbackNotAllowed) ↔
      ClawbackBlocked w.log x w.now cd.expirationTime) ∧
    (∀ e, step rt w (.merkle (.clawback c a)) = .error (.merkle e) → e = .clawbackNotAllowed) := by
  have hr' := hr.reachable
  obtain ⟨w₁, hw₁, b, l, _, rfl⟩ := hc.accounts hr'
  have hstep : step rt w (.merkle (.clawback c a)) =
      clawbackHandler rt { w with bank := b, lamports := l } c cd md a.toNat := by
    show clawback rt w c a.toNat = _
    unfold clawback; rw [hw₁, ok_bind]
  rw [hstep]
  have hck : checkClawback (World.now { w with bank := b, lamports := l }) cd.expirationTime cd.firstClaimTime = _ :=
    checkClawback_eq hr' hc.campaign
  unfold clawbackHandler
  rw [hck, ← blocked_iff hr hc.campaign]
  split
  · rename_i h
    exact ⟨⟨fun _ => h, fun _ => rfl⟩, fun e h => by cases h; rfl⟩
  · rename_i h
    rw [ok_bind]
    have hext : External (do
      let w ← campaignTransfer rt { w with bank := b, lamports := l } cd c.campaign c.campaignAta c.clawbackRecipientAta
        c.airdropTokenMint c.airdropTokenProgram a.toNat md.decimals
      pure (w.emit (.clawback a.toNat c.campaign c.campaignCreator c.clawbackRecipient))) :=
      External.bind campaignTransfer_external fun _ _ => External.pure _
    exact ⟨⟨fun h => (hext _ h).elim, fun h' => absurd h' h⟩, fun e h => (hext _ h).elim⟩

def demoClawback : ClawbackAccts := ⟨alice, carol, ataOf carol, mint, camp, campVault, tok⟩

theorem demo_clawbackReady : ClawbackReady rt world7 demoClawback camp
    ⟨mint, 255, 1500, alice, 800000, 4000, [81, 109], root, campaignName⟩ { plainMint with supply := 1000000 } :=
  ⟨by decide +kernel, by decide +kernel, rfl, rfl, rfl, rfl, rfl, rfl,
    .inr ⟨by decide +kernel, by unfold CanFund; decide +kernel⟩⟩

example := C46_errors pos7 100 demo_clawbackReady
-- at this point the clawback is blocked
example : ClawbackBlocked world7.log camp world7.now 800000 :=
  ⟨4000, by decide +kernel, by decide +kernel, by decide +kernel⟩

/-- **C46**, liveness: a clawback that is not blocked succeeds when the vault holds the amount and the
token's transfers work. -/
theorem C46_clawback_succeeds {rt : Runtime} {w : World} (hr : ReachablePos rt w) {c : ClawbackAccts} {x : Addr}
    {cd : Campaign} {md : MintData} {a : UInt64} (hc : ClawbackReady rt w c x cd md)
    (hfree : ¬ ClawbackBlocked w.log x w.now cd.expirationTime) (hfee : md.feeConfig = none)
    (ht : Transferable w md c.campaignAta c.clawbackRecipientAta) (hbal : a.toNat ≤ w.bank.balance c.campaignAta) :
    ∃ w', step rt w (.merkle (.clawback c a)) = .ok w' := by
  have hr' := hr.reachable
  obtain ⟨w₁, hw₁, b, l, hens, rfl⟩ := hc.accounts hr'
  obtain ⟨md', t, hv⟩ := hr'.cvaultOK _ _ hc.campaign
  have hmd : md' = md := by have := hv.mint; rw [hc.mint] at this; cases this; rfl
  subst hmd
  have hok := hr'.campaignOK hc.campaign
  have hvt : w.bank.tokens c.campaignAta = some t := by rw [hc.a5]; exact hv.vault
  have hamt : a.toNat ≤ t.amount := by unfold Bank.balance at hbal; rw [hvt] at hbal; exact hbal
  obtain ⟨b₂, hb₂⟩ := transfer_of hr'.bankInv hens hc.mint rfl hfee hc.a5 hvt hv.owner ht.unblocked
    (ht.srcThawed t hvt) ht.dstThawed ht.opensThawed hamt
  have hck : checkClawback (World.now { w with bank := b, lamports := l }) cd.expirationTime cd.firstClaimTime = _ :=
    checkClawback_eq hr' hc.campaign
  rw [if_neg (fun h => hfree ((blocked_iff hr hc.campaign).1 h))] at hck
  have hunl : World.Unlocked { w with bank := b, lamports := l } c.campaignAta c.clawbackRecipientAta :=
    ⟨by rw [hc.a5]
        exact congrArg Settings.cpiGuard (hr'.vaultSettings (by rw [hok.addr]; rfl) _ _), ht.noMemo⟩
  refine bind_succeeds hw₁ (bind_succeeds (a := ()) hck (bind_succeeds
      (bind_ok.2 ⟨(), require_ok.2 ⟨by rw [hc.a2]; exact hok.addr, by rw [hc.a2]; exact hok.bump⟩,
        transferTokens_iff.2 ⟨hunl, b₂, ?_, rfl⟩⟩) ⟨_, rfl⟩))
  rw [hc.a2, hc.a3, hc.a4]
  exact hb₂

theorem demo_clawbackReady3 : ClawbackReady rt world3 demoClawback camp
    ⟨mint, 255, 1500, alice, 800000, 4000, [81, 109], root, campaignName⟩ { plainMint with supply := 1000000 } :=
  ⟨by decide +kernel, by decide +kernel, rfl, rfl, rfl, rfl, rfl, rfl,
    .inr ⟨by decide +kernel, by unfold CanFund; decide +kernel⟩⟩

-- within the grace period, after a claim
example := C46_clawback_succeeds pos3 (a := 100) demo_clawbackReady3
  (by rintro ⟨t, h1, h2, _⟩
      have : firstClaim camp world3.log = some 4000 := by decide +kernel
      rw [this] at h1; cases h1
      have : ¬ (4000 + sevenDays < world3.now) := by decide +kernel
      exact this h2)
  rfl
  (by refine ⟨rfl, ?_, ?_, fun _ => rfl, by decide +kernel⟩
      · intro t ht
        have : world3.bank.tokens demoClawback.campaignAta = some ⟨tok, Demo.mint, camp, 300, false⟩ := by
          decide +kernel
        rw [this] at ht; cases ht; rfl
      · intro t ht
        have : world3.bank.tokens demoClawback.clawbackRecipientAta = none := by decide +kernel
        rw [this] at ht; cases ht)
  (by decide +kernel)

/-- The first claim stays the first claim. -/
theorem firstClaim_steps {rt : Runtime} {w w' : World} (hs : Steps rt w w') {x : Addr} {t : Nat}
    (h : firstClaim x w.log = some t) : firstClaim x w'.log = some t := by
  induction hs with
  | refl => exact h
  | tail ix _ hs ih =>
    rcases (step_did hs).log_cases with h' | ⟨e, h', _, _⟩
    · rw [h']; exact ih
    · rw [h']; simp only [firstClaim, ih]

/-- **C47**: once seven days have passed since the first claim, no clawback of the campaign succeeds at any
later time before its expiration (forever, if it has none), whoever signs; and if the token has no permanent
delegate the only instructions that lower the vault's balance are claims from the campaign. -/
theorem C47_no_clawback {rt : Runtime} {w w' w'' : World} (hr : ReachablePos rt w) {x : Addr} {cd : Campaign} {t : Nat}
    (hx : campaignView w x = .ok cd) (hf : firstClaim x w.log = some t) (ht : t + sevenDays < w.now)
    (hs : Steps rt w w') (he : ¬ Expired w'.now cd.expirationTime) :
    (∀ c a, c.campaign = x → ∃ e, step rt w' (.merkle (.clawback c a)) = .error e) ∧
    (∀ ix md, step rt w' ix = .ok w'' → ix.claimsFrom ≠ some x → w'.bank.mints cd.airdropTokenMint = some md →
      md.permanentDelegate = none →
      w'.bank.balance (.ata x md.program cd.airdropTokenMint) ≤
        w''.bank.balance (.ata x md.program cd.airdropTokenMint)) := by
  have hr' := hr.steps hs
  obtain ⟨t', hcd', _⟩ := hs.campaign (fetch_ok.1 hx)
  have hblk : ClawbackBlocked w'.log x w'.now cd.expirationTime :=
    ⟨t, firstClaim_steps hs hf, Nat.lt_of_lt_of_le ht (hs.now_le hr.reachable), he⟩
  have hno : ∀ c a, c.campaign = x → ∃ e, step rt w' (.merkle (.clawback c a)) = .error e := by
    rintro c a rfl
    cases hst : step rt w' (.merkle (.clawback c a)) with
    | error e => exact ⟨e, rfl⟩
    | ok w₂ =>
      obtain ⟨cd₂, _, h1, _, _, _, h2, _⟩ := C46_clawback_effect hr' hst
      rw [campaignView, hcd'] at h1
      cases h1
      exact absurd hblk h2
  refine ⟨hno, ?_⟩
  intro ix md hst hnc hm hpd
  have hrr := hr'.reachable
  obtain ⟨md', tk, hv⟩ := hrr.cvaultOK _ _ hcd'
  have hmd : md' = md := by have := hv.mint; rw [show w'.bank.mints _ = _ from hm] at this; cases this; rfl
  subst hmd
  obtain ⟨md₂, tk₂, hk, hv₂, hflow⟩ := hv.step hrr (step_did hst) hcd'
  have hflow := hflow hpd
  have hv₂ := hv₂ _ rfl
  have hquiet : QuietCampaign w' w'' x := by
    rcases (step_did hst).campaign_cases x with ⟨hq, _⟩ | ⟨c, p, dm, b, l, rfl, _, _, _, hok⟩ |
      ⟨c, index, amount, proof, cd', dm, b₁, b₂, l, rfl, ⟨i, a, rfl, _⟩, hok⟩ |
      ⟨c, amount, cd', dm, b₁, b₂, l, rfl, ⟨a, rfl, _⟩, hok⟩
    · exact hq
    · have := hok.fresh; rw [hcd'] at this; cases this
    · exact absurd rfl hnc
    · obtain ⟨e, h⟩ := hno c a rfl
      rw [hst] at h; cases h
  rw [hquiet.total claimedFrom_quiet, hquiet.total clawedFrom_quiet] at hflow
  have e1 : w'.bank.balance (.ata x md'.program cd.airdropTokenMint) = tk.amount := by
    unfold Bank.balance; rw [show w'.bank.tokens _ = _ from hv.vault]
  have e2 : w''.bank.balance (.ata x md'.program cd.airdropTokenMint) = tk₂.amount := by
    have := hv₂.vault
    rw [hk.1] at this
    unfold Bank.balance; rw [show w''.bank.tokens _ = _ from this]
  omega

example := C47_no_clawback (w'' := after world7 [ixCollect]) pos7 (x := camp)
  (cd := ⟨mint, 255, 1500, alice, 800000, 4000, [81, 109], root, campaignName⟩) (t := 4000)
  (by decide +kernel) (by decide +kernel) (by decide +kernel) (.refl _) (by decide +kernel)

/-! ## C48–C50: first claim, terms, views -/

/-- **C48**: `first_claim_time` is the time of the earliest claim in the history, and 0 if there is none. -/
theorem C48_first_claim {rt : Runtime} {w : World} (hr : ReachablePos rt w) {x : Addr} {cd : Campaign}
    (hx : campaignView w x = .ok cd) :
    (firstClaim x w.log = none → cd.firstClaimTime = 0) ∧
    (∀ t, firstClaim x w.log = some t → cd.firstClaimTime = t ∧ 0 < t) := by
  have h := hr.first (fetch_ok.1 hx)
  refine ⟨fun h1 => by rw [h, h1]; rfl, fun t h1 => ⟨by rw [h, h1]; rfl, hr.first_pos h1⟩⟩

example := C48_first_claim pos8 (x := camp)
  (cd := ⟨mint, 255, 1500, alice, 800000, 4000, [81, 109], root, campaignName⟩) (by decide +kernel)

/-- **C48**: once set, it never changes. -/
theorem C48_stable {rt : Runtime} {w w' : World} (hs : Steps rt w w') {x : Addr} {cd : Campaign}
    (hx : campaignView w x = .ok cd) (h0 : cd.firstClaimTime ≠ 0) :
    ∃ cd', campaignView w' x = .ok cd' ∧ cd'.firstClaimTime = cd.firstClaimTime := by
  obtain ⟨t, h1, h2⟩ := hs.campaign (fetch_ok.1 hx)
  exact ⟨_, fetch_ok.2 h1, h2 h0⟩

example := C48_stable (steps34.trans (steps45.trans (steps56.trans (steps67.trans steps78)))) (x := camp)
  (cd := ⟨mint, 255, 1500, alice, 800000, 4000, [81, 109], root, campaignName⟩) (by decide +kernel) (by decide)

/-- **C49**: apart from `first_claim_time` a campaign never changes and never disappears. -/
theorem C49_immutable {rt : Runtime} {w w' : World} (hs : Steps rt w w') {x : Addr} {cd : Campaign}
    (hx : campaignView w x = .ok cd) :
    ∃ t, campaignView w' x = .ok { cd with firstClaimTime := t } := by
  obtain ⟨t, h1, _⟩ := hs.campaign (fetch_ok.1 hx)
  exact ⟨t, fetch_ok.2 h1⟩

example := C49_immutable (steps23.trans steps34) (x := camp)
  (cd := ⟨mint, 255, 1500, alice, 800000, 0, [81, 109], root, campaignName⟩) (by decide +kernel)

theorem createCampaign_step {rt : Runtime} {w w' : World} {c : CreateCampaignAccts} {root : Bytes32} {st ex : UInt64}
    {name cid : List UInt8} {agg : UInt64} {cnt : UInt32}
    (h : step rt w (.merkle (.createCampaign c root st ex name cid agg cnt)) = .ok w') :
    ∃ dm b l, CreateCampaignOk rt w c ⟨root, st.toNat, ex.toNat, name, cid, agg.toNat, cnt.toNat⟩ w' dm b l :=
  createCampaign_ok h

/-- **C49**: a campaign's address is determined by its terms, it is created at most once in any history, and
every later `create_campaign` with the same creator, root, times, name and mint fails. -/
theorem C49_unique {rt : Runtime} {w w' : World} (hr : Reachable rt w) (hs : Steps rt w w') {x : Addr} {cd : Campaign}
    (hx : campaignView w x = .ok cd) :
    x = .campaign cd.creator cd.merkleRoot cd.campaignStartTime cd.expirationTime cd.name cd.airdropTokenMint ∧
    total (campaignCreation x) w'.log = 1 ∧
    ∀ (c : CreateCampaignAccts) (st ex : UInt64) (cid : List UInt8) (agg : UInt64) (cnt : UInt32),
      c.creator = cd.creator → c.airdropTokenMint = cd.airdropTokenMint → st.toNat = cd.campaignStartTime →
      ex.toNat = cd.expirationTime →
      ∃ e, step rt w' (.merkle (.createCampaign c cd.merkleRoot st ex cd.name cid agg cnt)) = .error e := by
  obtain ⟨t, h1, _⟩ := hs.campaign (fetch_ok.1 hx)
  have hok := hr.campaignOK (fetch_ok.1 hx)
  have hok' := (hr.steps hs).campaignOK h1
  refine ⟨hok.addr, hok'.created, ?_⟩
  intro c st ex cid agg cnt hc hm hst hex
  cases hstep : step rt w' (.merkle (.createCampaign c cd.merkleRoot st ex cd.name cid agg cnt)) with
  | error e => exact ⟨e, rfl⟩
  | ok w₂ =>
    obtain ⟨dm, b, l, h⟩ := createCampaign_step hstep
    have ha := h.addr
    have hf := h.fresh
    simp only [hc, hm, hst, hex] at ha
    have : x = c.campaign := by rw [ha]; exact hok.addr
    rw [← this, h1] at hf; cases hf

example := C49_unique reach2 steps23 (x := camp)
  (cd := ⟨mint, 255, 1500, alice, 800000, 0, [81, 109], root, campaignName⟩) (by decide +kernel)

/-- **C50**: what `has_grace_period_passed` really reports: whether the clock is more than seven days past the
*expiration*; it fails by overflow for expirations near the maximum. -/
theorem C50_what_it_reports {w : World} {x : Addr} {cd : Campaign} (hx : campaignView w x = .ok cd) :
    (cd.expirationTime + sevenDays < 2 ^ 64 ∨ cd.expirationTime = 0 →
      hasGracePeriodPassedView w x = .ok (decide (cd.expirationTime ≠ 0 ∧ cd.expirationTime + sevenDays < w.now))) ∧
    (2 ^ 64 ≤ cd.expirationTime + sevenDays → cd.expirationTime < 2 ^ 64 →
      hasGracePeriodPassedView w x = .error .panic) := by
  have hc := fetch_ok.1 hx
  unfold hasGracePeriodPassedView hasGracePeriodPassed
  rw [fetch_bind hc]
  have hg : GRACE_PERIOD = sevenDays := rfl
  rw [hg]
  constructor
  · intro h
    split
    · rename_i h0
      rw [addU64_ok.2 ⟨by omega, rfl⟩, ok_bind]
      congr 1
      rw [Bool.eq_iff_iff]
      simp only [decide_eq_true_eq]
      omega
    · rename_i h0
      have : cd.expirationTime = 0 := by omega
      simp [this]
  · intro h1 h2
    have : 2 ^ 64 - sevenDays > 0 := by decide
    rw [if_pos (by omega)]
    unfold addU64
    rw [if_neg (by omega)]
    rfl

/-- **C50**: the view therefore contradicts the clawback rule: in a reachable state it answers `false` although
the grace period since the first claim is over and the clawback is blocked, and in another it answers `true`
although nobody has ever claimed and the clawback is allowed. -/
theorem C50_contradicts_clawback :
    (∃ rt w x, ReachablePos rt w ∧ hasGracePeriodPassedView w x = .ok false ∧
      ∃ cd, campaignView w x = .ok cd ∧ ClawbackBlocked w.log x w.now cd.expirationTime) ∧
    (∃ rt w x, ReachablePos rt w ∧ hasGracePeriodPassedView w x = .ok true ∧
      ∃ cd, campaignView w x = .ok cd ∧ firstClaim x w.log = none) := by
  refine ⟨⟨rt, world7, camp, pos7, by decide +kernel, _, demo_clawbackReady.campaign |> fetch_ok.2, 4000,
      by decide +kernel, by decide +kernel, by decide +kernel⟩,
    ⟨rt, after world2 [.env (.tick 2000000)], camp, pos2.steps (steps_after (by decide +kernel)), by decide +kernel,
      ⟨mint, 255, 1500, alice, 800000, 0, [81, 109], root, campaignName⟩, by decide +kernel, by decide +kernel⟩⟩

/-! ## C51: the vault of a campaign -/

/-- **C51**: in any history from the creation on, for a token without permanent delegate, the vault's balance
plus everything claimed plus everything clawed back never decreases: what leaves the vault is exactly accounted
for by claims and clawbacks, and what arrives stays. -/
theorem C51_accounting {rt : Runtime} {w w' : World} (hr : Reachable rt w) (hs : Steps rt w w') {x : Addr}
    {cd : Campaign} (hx : campaignView w x = .ok cd) {md : MintData}
    (hm : w.bank.mints cd.airdropTokenMint = some md) (hpd : md.permanentDelegate = none) :
    w.bank.balance (.ata x md.program cd.airdropTokenMint) + total (claimedFrom x) w.log + total (clawedFrom x) w.log ≤
    w'.bank.balance (.ata x md.program cd.airdropTokenMint) + total (claimedFrom x) w'.log +
      total (clawedFrom x) w'.log := by
  have hx := fetch_ok.1 hx
  obtain ⟨md0, t, hv⟩ := hr.cvaultOK _ _ hx
  have hmd : md0 = md := by have := hv.mint; rw [hm] at this; cases this; rfl
  subst hmd
  have key : ∃ md' t' cd', w'.mi.campaigns x = some cd' ∧ cd'.airdropTokenMint = cd.airdropTokenMint ∧
      MintKept md0 md' ∧ CVaultOK w'.bank x cd' md' t' ∧
      t.amount + total (claimedFrom x) w.log + total (clawedFrom x) w.log ≤
        t'.amount + total (claimedFrom x) w'.log + total (clawedFrom x) w'.log := by
    induction hs with
    | refl => exact ⟨md0, t, cd, hx, rfl, MintKept.refl _, hv, Nat.le_refl _⟩
    | @tail w₁ w₂ ix h1 h2 ih =>
      obtain ⟨md', t', cd', k1, k2, k3, k4, k5⟩ := ih
      have hr1 := hr.steps h1
      obtain ⟨md'', t'', j1, j2, j3⟩ := k4.step hr1 (step_did h2) k1
      have hev : ∃ cd'' : Campaign, w₂.mi.campaigns x = some cd'' ∧ cd''.airdropTokenMint = cd'.airdropTokenMint := by
        rcases (step_did h2).campaign_evolves k1 with ⟨_, h⟩ | ⟨_, h⟩
        · exact ⟨_, h, rfl⟩
        · exact ⟨_, h, by rw [Campaign.claim_eq]⟩
      obtain ⟨cd'', h3, h4⟩ := hev
      exact ⟨md'', t'', cd'', h3, h4.trans k2, k3.trans j1, j2 _ h4,
        Nat.le_trans k5 (j3 (by rw [k3.2.2.1]; exact hpd))⟩
  obtain ⟨md', t', cd', k1, k2, k3, k4, k5⟩ := key
  have e1 : w.bank.balance (.ata x md0.program cd.airdropTokenMint) = t.amount := by
    unfold Bank.balance; rw [hv.vault]
  have e2 : w'.bank.balance (.ata x md0.program cd.airdropTokenMint) = t'.amount := by
    have := k4.vault
    rw [k3.1, k2] at this
    unfold Bank.balance; rw [this]
  omega

example := C51_accounting reach2 (steps23.trans (steps34.trans (steps45.trans (steps56.trans (steps67.trans steps78)))))
  (x := camp) (cd := ⟨mint, 255, 1500, alice, 800000, 0, [81, 109], root, campaignName⟩) (by decide +kernel)
  (md := { plainMint with supply := 1000000 }) (by decide +kernel) rfl
example : world8.bank.balance campVault = 200 ∧ total (claimedFrom camp) world8.log = 500 ∧
    total (clawedFrom camp) world8.log = 100 := by decide +kernel

/-- **C51**: a step that lowers the vault's balance is a claim from or a clawback of that campaign. -/
theorem C51_only_claims_and_clawbacks {rt : Runtime} {w w' : World} (hr : Reachable rt w) {ix : Ix}
    (hs : step rt w ix = .ok w') {x : Addr} {cd : Campaign} (hx : campaignView w x = .ok cd) {md : MintData}
    (hm : w.bank.mints cd.airdropTokenMint = some md) (hpd : md.permanentDelegate = none)
    (hlt : w'.bank.balance (.ata x md.program cd.airdropTokenMint) < w.bank.balance (.ata x md.program cd.airdropTokenMint)) :
    ix.claimsFrom = some x ∨ ix.clawsBack = some x := by
  have hac := C51_accounting hr (.tail ix (.refl _) hs) hx hm hpd
  rcases (step_did hs).campaign_cases x with ⟨hq, _⟩ | ⟨c, p, dm, b, l, rfl, _, _, _, hok⟩ |
      ⟨c, index, amount, proof, cd', dm, b₁, b₂, l, rfl, ⟨i, a, rfl, _⟩, hok⟩ |
      ⟨c, amount, cd', dm, b₁, b₂, l, rfl, ⟨a, rfl, _⟩, hok⟩
  · rw [hq.total claimedFrom_quiet, hq.total clawedFrom_quiet] at hac
    omega
  · have := hok.fresh; rw [fetch_ok.1 hx] at this; cases this
  · exact .inl rfl
  · exact .inr rfl

example := C51_only_claims_and_clawbacks reach2 (ix := ixClaim) (step_after (by decide +kernel)) (x := camp)
  (cd := ⟨mint, 255, 1500, alice, 800000, 0, [81, 109], root, campaignName⟩) (by decide +kernel)
  (md := { plainMint with supply := 1000000 }) (by decide +kernel) rfl (by decide +kernel)

/-! ## C52: empty windows -/

/-- **C52**: a campaign whose expiration is not after its start is never claimed from. -/
theorem C52_never_claimed {rt : Runtime} {w : World} (hr : Reachable rt w) {x : Addr} {cd : Campaign}
    (hx : campaignView w x = .ok cd) (h0 : cd.expirationTime ≠ 0) (h1 : cd.expirationTime ≤ cd.campaignStartTime) :
    total (claimAt x) w.log = 0 ∧ ¬ ClawbackBlocked w.log x w.now cd.expirationTime := by
  have hz : total (claimAt x) w.log = 0 := by
    refine total_zero fun e he => ?_
    cases hev : e.event with
    | claim a y cl rc f i r =>
      simp only [claimAt]
      split
      · rename_i hy
        subst hy
        obtain ⟨k1, k2⟩ := C41_history hr hx he hev
        omega
      · rfl
    | _ => rfl
  refine ⟨hz, ?_⟩
  rintro ⟨t, ht, _⟩
  rw [firstClaim_none.2 hz] at ht; cases ht

/-- A campaign that expires when it starts. -/
def deadCamp : Addr := .campaign alice root 5000 5000 campaignName mint
def deadWorld : World := after world1
  [ .merkle (.createCampaign ⟨alice, mint, deadCamp, .ata deadCamp tok mint, tok⟩ root 5000 5000 campaignName [81] 800 2),
    .env (.tick 900000) ]
theorem deadReach : Reachable rt deadWorld := reach1.steps (steps_after (by decide +kernel))

example := C52_never_claimed deadReach (x := deadCamp)
  (cd := ⟨mint, 255, 5000, alice, 5000, 0, [81], root, campaignName⟩) (by decide +kernel) (by decide) (by decide)

/-- **C52**, the other half: the creator of such a campaign can claw back any part of the vault at any time (as
far as the token itself can be transferred). -/
theorem C52_clawback_always {rt : Runtime} {w : World} (hr : ReachablePos rt w) {c : ClawbackAccts} {x : Addr}
    {cd : Campaign} {md : MintData} {a : UInt64} (hc : ClawbackReady rt w c x cd md) (h0 : cd.expirationTime ≠ 0)
    (h1 : cd.expirationTime ≤ cd.campaignStartTime) (hfee : md.feeConfig = none)
    (ht : Transferable w md c.campaignAta c.clawbackRecipientAta) (hbal : a.toNat ≤ w.bank.balance c.campaignAta) :
    ∃ w', step rt w (.merkle (.clawback c a)) = .ok w' :=
  C46_clawback_succeeds hr hc
    (C52_never_claimed hr.reachable (show campaignView w x = .ok cd by rw [campaignView, hc.campaign]; rfl) h0 h1).2 hfee ht hbal

/-- The campaign of `deadWorld`, funded with 800. -/
def deadFunded : World := after deadWorld
  [ .env (.transfer (ataOf alice) (.ata deadCamp tok mint) alice mint tok 800 6) ]
theorem deadPos : ReachablePos rt deadFunded :=
  (pos0.steps steps01).steps ((steps_after (by decide +kernel) : Steps rt world1 deadWorld).trans
    (steps_after (by decide +kernel)))

def deadClawback : ClawbackAccts := ⟨alice, carol, ataOf carol, mint, deadCamp, .ata deadCamp tok mint, tok⟩

example := C52_clawback_always deadPos (c := deadClawback)
  (x := deadCamp) (cd := ⟨mint, 255, 5000, alice, 5000, 0, [81], root, campaignName⟩)
  (md := { plainMint with supply := 1000000 }) (a := 800)
  ⟨by decide +kernel, by decide +kernel, rfl, rfl, rfl, rfl, rfl, rfl,
    .inr ⟨by decide +kernel, by unfold CanFund; decide +kernel⟩⟩ (by decide) (by decide) rfl
  (by refine ⟨rfl, ?_, ?_, fun _ => rfl, by decide +kernel⟩
      · intro t ht
        have : deadFunded.bank.tokens deadClawback.campaignAta = some ⟨tok, Demo.mint, deadCamp, 800, false⟩ := by
          decide +kernel
        rw [this] at ht; cases ht; rfl
      · intro t ht
        have : deadFunded.bank.tokens deadClawback.clawbackRecipientAta = none := by decide +kernel
        rw [this] at ht; cases ht)
  (by decide +kernel)

/-! ## C58: creating a campaign -/

/-- **C58**: the exact effect of a successful `create_campaign`. -/
theorem C58_create_effect {rt : Runtime} {w w' : World} {c : CreateCampaignAccts} {root : Bytes32} {st ex : UInt64}
    {name cid : List UInt8} {agg : UInt64} {cnt : UInt32}
    (h : step rt w (.merkle (.createCampaign c root st ex name cid agg cnt)) = .ok w') :
    ∃ md, CampaignEffect rt w w' c root st.toNat ex.toNat name cid agg.toNat cnt.toNat md ∧
      name.length ≤ 32 ∧ name.length + cid.length ≤ 91 := by
  obtain ⟨dm, b, l, h⟩ := createCampaign_step h
  have hv := h.vaultAddr
  rw [← h.program] at hv
  obtain ⟨_, hn, _, hb⟩ := openAccount_ok h.openVault
  have hbank : w'.bank = w.bank.setToken c.campaignAta (some ⟨c.airdropTokenProgram, c.airdropTokenMint, c.campaign, 0, w.bank.opensFrozen c.airdropTokenMint⟩) := by
    rw [h.result]; exact hb
  have hfit := h.fits
  unfold Campaign.encodedSize campaignSpace CAMPAIGN_IPFS_CID_SIZE CAMPAIGN_NAME_SIZE Campaign.create at hfit
  simp only at hfit
  refine ⟨dm, ⟨h.mint, h.signs, h.addr, h.fresh, by rw [h.result]; rfl, by rw [← hv]; exact hn, ?_, ?_, ?_, by rw [h.result],
    by rw [h.result], by rw [h.result], by rw [h.result], by rw [h.result], fun a ha => by rw [h.result]; exact h.lam a ha,
    by rw [h.result]⟩, h.nameLen, by omega⟩
  · rw [hbank, ← hv, h.program, Bank.opensFrozen_some h.mint]; simp
  · intro a ha
    rw [hbank, setToken_tokens, upd_ne _ _ (by rw [hv]; exact ha)]
  · rw [hbank]; rfl

example := C58_create_effect (w := world1) (c := ⟨alice, mint, camp, campVault, tok⟩) (root := root) (st := 1500)
  (ex := 800000) (name := campaignName) (cid := [81, 109]) (agg := 800) (cnt := 2) (step_after (by decide +kernel))

/-- **C58**: exactly when `create_campaign` succeeds, for the right addresses, a signing creator with enough
lamports, and an existing mint: iff name and CID fit and the address and its vault are unused. -/
theorem C58_create_iff {rt : Runtime} {w : World} (hr : Reachable rt w) {c : CreateCampaignAccts} {root : Bytes32}
    {st ex : UInt64} {name cid : List UInt8} {agg : UInt64} {cnt : UInt32} {md : MintData}
    (hm : w.bank.mints c.airdropTokenMint = some md) (hsig : c.creator.canSign = true)
    (hp : c.airdropTokenProgram = md.program)
    (ha : c.campaign = .campaign c.creator root st.toNat ex.toNat name c.airdropTokenMint)
    (hv : c.campaignAta = .ata c.campaign md.program c.airdropTokenMint)
    (hfund : max (rt.rent campaignSpace) 1 + max (rt.rent (World.tokenSpace rt c.airdropTokenMint md.program)) 1 ≤ w.lamports c.creator) :
    (∃ w', step rt w (.merkle (.createCampaign c root st ex name cid agg cnt)) = .ok w') ↔
      name.length ≤ 32 ∧ name.length + cid.length ≤ 91 ∧ (∀ cd, campaignView w c.campaign ≠ .ok cd) ∧
      w.bank.tokens c.campaignAta = none := by
  constructor
  · rintro ⟨w', h⟩
    obtain ⟨md', he, h1, h2⟩ := C58_create_effect h
    have : md' = md := by have := he.mint; rw [hm] at this; cases this; rfl
    subst this
    refine ⟨h1, h2, fun cd h => ?_, by rw [hv]; exact he.vaultFresh⟩
    rw [campaignView, he.fresh] at h; cases h
  · rintro ⟨h1, h2, h3, h4⟩
    have hfresh : w.mi.campaigns c.campaign = none := by
      cases hc : w.mi.campaigns c.campaign with
      | none => rfl
      | some cd => exact absurd (fetch_ok.2 hc) (h3 cd)
    have f1 : CanFund rt w c.creator c.campaign campaignSpace := by unfold CanFund; omega
    obtain ⟨l₁, hl₁⟩ := payRent_of f1
    have hn := payRent_need hl₁
    have hopen : w.bank.openAccount c.campaignAta c.campaign c.airdropTokenMint md.program =
        .ok (w.bank.setToken c.campaignAta (some ⟨md.program, c.airdropTokenMint, c.campaign, 0, md.startsFrozen⟩)) := by
      unfold Bank.openAccount
      rw [fetch_bind hm, req_bind rfl, req_bind ⟨h4, by rw [hv]; exact ata_not_mint hr.bankInv _ _ _⟩]
      rfl
    have f2 : CanFund rt { w with lamports := l₁, bank := (w.bank.setToken c.campaignAta (some (TokenData.mk md.program c.airdropTokenMint c.campaign 0 md.startsFrozen))) } c.creator c.campaignAta
        (World.tokenSpace rt c.airdropTokenMint md.program) := by
      unfold CanFund; simp only at *; omega
    obtain ⟨l₂, hl₂⟩ := payRent_of f2
    show ∃ w', createCampaign rt w c _ = .ok w'
    unfold createCampaign
    rw [req_bind hsig, fetch_bind hm, req_bind hp.symm]
    simp only
    rw [req_bind h1, req_bind ha, req_bind hfresh, hl₁, ok_bind]
    unfold World.createAta
    rw [hp, req_bind hv]
    simp only
    rw [hopen, ok_bind]
    rw [hl₂]
    simp only [ok_bind, pure]
    have hsz : (Campaign.create c.airdropTokenMint (rt.bump c.campaign) st.toNat c.creator ex.toNat cid root
        name).encodedSize ≤ campaignSpace := by
      unfold Campaign.encodedSize campaignSpace CAMPAIGN_IPFS_CID_SIZE CAMPAIGN_NAME_SIZE Campaign.create
      simp only; omega
    have e : ∀ {β : Type} (a : β), (Except.pure a : Res β) = .ok a := fun _ => rfl
    simp only [e, ok_bind]
    rw [req_bind hsz]
    exact ⟨_, rfl⟩

example := C58_create_iff reach1 (c := ⟨alice, mint, camp, campVault, tok⟩) (root := root) (st := 1500)
  (ex := 800000) (name := campaignName) (cid := [81, 109]) (agg := 800) (cnt := 2)
  (md := { plainMint with supply := 1000000 }) (by decide +kernel) rfl rfl rfl rfl (by decide +kernel)

end Solsab.Props
