import Verif.Spec.Deliver
import Verif.Props.Campaign
import Verif.Props.Tree
import Verif.Props.RentRule
/-!
# C98: delivering an airdrop
-/

namespace Solsab.Props

open Spec Merkle Demo

theorem proves_iff {rt : Runtime} {root : Bytes32} {i : Nat} {r : Addr} {a : Nat} {p : List Bytes32} :
    Airdrop.Proves rt root i r a p ↔ computeRoot rt (leafHash rt i r a) p = root := Iff.rfl

theorem opens_claim (rt : Runtime) (w : World) (tr : Treasury) (p x m : Addr) (tp : TokenProgram) (g : Grant) :
    ((opens rt w (g.claim tr p x m tp)).map fun y => charge rt y.1 + max (rt.rent y.2) 1).sum ≤ grantRent rt m tp := by
  have e2 : tokenSize rt m tp = World.tokenSpace rt m tp := (tokenSize_eq rt m tp).symm
  unfold Grant.claim opens grantRent absent
  simp only
  split <;> simp [charge, e2]

/-- What a claim leaves thawed. -/
theorem claim_thawed {rt : Runtime} {w w' : World} {c : ClaimAccts} {i : UInt32} {a : UInt64} {p : List Bytes32}
    (h : step rt w (.merkle (.claim c i a p)) = .ok w') :
    (∀ t, w'.bank.tokens c.recipientAta = some t → t.frozen = false) ∧
    (∀ t, w'.bank.tokens c.campaignAta = some t → t.frozen = false) := by
  obtain ⟨cd, dm, b₁, b₂, l, hw⟩ := claim_step h
  obtain ⟨tf, tt, md', hf, _⟩ := transferChecked_ok hw.transfer
  rw [hw.result]
  simp only
  rcases hf.result with ⟨he, rfl⟩ | ⟨hsd, _, rfl⟩
  · refine ⟨fun t ht => ?_, fun t ht => ?_⟩
    · rw [hf.dst] at ht; cases ht; exact hf.thawed.2
    · rw [hf.src] at ht; cases ht; exact hf.thawed.1
  · simp only [Bank.move, setToken_tokens, upd_apply, if_neg hsd, if_true]
    refine ⟨fun t ht => ?_, fun t ht => ?_⟩
    · cases ht; exact hf.thawed.2
    · cases ht; exact hf.thawed.1

theorem deliverable_ready {rt : Runtime} {w : World} {p x : Addr} {tr : Treasury} {cd : Campaign} {md : MintData}
    {g : Grant} {gs : List Grant} (hd : Deliverable rt w p x tr cd md (g :: gs))
    (hv : g.Receivable w x cd.airdropTokenMint md.program) :
    ∃ c, g.claim tr p x cd.airdropTokenMint md.program = .merkle (.claim c g.index g.amount g.proof) ∧
      ClaimReady rt w c x cd md g.index.toNat ∧ c.claimer = p ∧ c.recipient = g.recipient ∧ c.campaign = x ∧
      c.campaignAta = .ata x md.program cd.airdropTokenMint ∧
      c.recipientAta = .ata g.recipient md.program cd.airdropTokenMint := by
  refine ⟨_, rfl, ⟨fetch_ok.1 hd.campaign, hd.mint, hd.signer, ⟨tr, hd.treasury, rfl, rfl⟩, rfl, rfl, rfl, rfl, rfl, rfl, rfl, ?_⟩,
    rfl, rfl, rfl, rfl, rfl⟩
  cases ht : w.bank.tokens (.ata g.recipient md.program cd.airdropTokenMint) with
  | some t => exact .inl ⟨t, ht, (hv.account t ht).1⟩
  | none =>
    refine .inr ⟨ht, ?_⟩
    have := hd.lamports
    simp only [List.length_cons, Nat.succ_mul] at this
    unfold CanFund
    unfold grantRent at this
    show _ ≤ w.lamports p
    omega

theorem deliver {rt : Runtime} {p x : Addr} {tr : Treasury} {md : MintData} (grants : List Grant) :
    ∀ {w : World} {cd : Campaign}, Reachable rt w → Deliverable rt w p x tr cd md grants → (∀ g ∈ grants, g.Open rt w x cd) →
      (∀ g ∈ grants, g.Receivable w x cd.airdropTokenMint md.program) → (grants.map Grant.index).Nodup →
      ∃ w', runAll rt w (grants.map (Grant.claim tr p x cd.airdropTokenMint md.program)) = .ok w' ∧
        Delivered rt w w' p x cd md grants := by
  induction grants with
  | nil =>
    intro w cd hr hd _ _ _
    exact ⟨w, rfl, ⟨fun g hg => (by cases hg), by simp, by simp, fun g hg => (by cases hg), by simp, fun _ _ => rfl,
      ⟨_, hd.campaign⟩, fun _ _ => rfl, fun _ _ _ => rfl, rfl, rfl, rfl, rfl⟩⟩
  | cons g gs ih =>
    intro w cd hr hd hopen hrec hnd
    have hg := hopen g (by simp)
    have hgr := hrec g (by simp)
    obtain ⟨c, hix, hc, hcp, hcr, hcx, hcv, hca⟩ := deliverable_ready hd hgr
    have hlam := hd.lamports
    have henough := hd.enough
    simp only [List.length_cons, Nat.succ_mul, List.map_cons, List.sum_cons] at hlam henough
    obtain ⟨w₁, hs⟩ := C45_claim_succeeds hr hc hg.unclaimed
      (by rw [hcp]; show grantRent .. ≤ _; omega) hd.window (by rw [hcr]; exact proves_iff.1 hg.listed)
      hd.noFee ⟨hd.unblocked, by rw [hcv]; exact hd.thawed, by rw [hca]; exact fun t ht => (hgr.account t ht).2, fun _ => hd.opensThawed,
        by rw [hca]; exact hgr.noMemo⟩ (a := g.amount) (by rw [hcv]; unfold Grant.value at henough; omega)
    have hs' : step rt w (g.claim tr p x cd.airdropTokenMint md.program) = .ok w₁ := by rw [hix]; exact hs
    have hth := claim_thawed hs
    obtain ⟨cd', md', e1, e2, -, -, -, ⟨t1, e3, e4⟩, e5, e6, e7, e8, e9, ⟨ft, e10⟩, e11, e12, e13, e14, e15, e16⟩ :=
      C45_claim_effect hr hs
    rw [hcx] at e1 e5 e7 e8 e10 e11
    rw [hd.campaign] at e1; cases e1
    rw [hd.mint] at e2; cases e2
    rw [hcr, hcv, hca] at e5
    obtain ⟨e5a, e5b, e5c⟩ := e5 hgr.notCampaign
    rw [hcv, hca] at e6
    rw [hca] at e3 hth
    rw [hcv] at hth
    rw [hcr] at e4
    have hfee : md.fee g.amount.toNat = 0 := by unfold MintData.fee; rw [hd.noFee]
    rw [hfee, Nat.sub_zero] at e5c
    have hset := (step_did hs).settings rfl
    rw [List.map_cons, List.nodup_cons] at hnd
    have hdiff : ∀ g' ∈ gs, g'.index ≠ g.index := fun g' h' e => hnd.1 (List.mem_map.2 ⟨g', h', e⟩)
    have hdiffr : ∀ g' ∈ gs, Addr.claimReceipt x g'.index.toNat ≠ .claimReceipt x g.index.toNat := by
      intro g' h' e; injection e with _ e; exact hdiff g' h' (UInt32.toNat.inj e)
    have hrent := (C60_rent_only (ix := g.claim tr p x cd.airdropTokenMint md.program) (p := p) rfl rfl hs').2.left
    have hopens := opens_claim rt w tr p x cd.airdropTokenMint md.program g
    have hcamp : campaignView w₁ x = .ok { cd with firstClaimTime := ft } := fetch_ok.2 e10
    have hnow : w₁.now = w.now := by unfold World.now; rw [e15]
    have hd₁ : Deliverable rt w₁ p x tr { cd with firstClaimTime := ft } md gs :=
      ⟨hcamp, by rw [e14]; exact hd.treasury, by rw [e12]; exact hd.mint, hd.signer, by rw [hnow]; exact hd.window,
        hd.noFee, hd.unblocked, hd.opensThawed, hth.2, by
          show _ ≤ w₁.bank.balance (.ata x md.program cd.airdropTokenMint)
          rw [e5b]; unfold Grant.value at henough ⊢; omega, by
          show _ * grantRent rt cd.airdropTokenMint md.program ≤ _
          omega⟩
    have hopen₁ : ∀ g' ∈ gs, g'.Open rt w₁ x { cd with firstClaimTime := ft } := by
      intro g' h'
      have ho := hopen g' (by simp [h'])
      refine ⟨?_, ho.listed⟩
      have hu := ho.unclaimed
      unfold hasClaimedView at hu ⊢
      rw [fetch_bind (fetch_ok.1 hd.campaign)] at hu
      rw [fetch_bind (fetch_ok.1 hcamp), e8, upd_ne _ _ (hdiffr g' h')]
      exact hu
    have hrec₁ : ∀ g' ∈ gs, g'.Receivable w₁ x cd.airdropTokenMint md.program := by
      intro g' h'
      have ho := hrec g' (by simp [h'])
      refine ⟨ho.notCampaign, fun t ht => ?_, by rw [hset]; exact ho.noMemo⟩
      by_cases hsame : g'.recipient = g.recipient
      · rw [hsame] at ht ⊢
        refine ⟨?_, hth.1 t ht⟩
        rw [e3] at ht; cases ht; exact e4
      · rw [e6] at ht
        · exact ho.account t ht
        · intro e; injection e with e; exact ho.notCampaign e
        · intro e; injection e with e; exact hsame e
    obtain ⟨w', hrun, hb⟩ := ih (hr.step hs') hd₁ hopen₁ hrec₁ hnd.2
    refine ⟨w', bind_ok.2 ⟨w₁, hs', hrun⟩, ?_⟩
    obtain ⟨ft', hft⟩ := hb.campaign
    have hvr : ∀ r, r ≠ x → Addr.ata r md.program cd.airdropTokenMint ≠ .ata x md.program cd.airdropTokenMint := by
      intro r hr e; injection e with e; exact hr e
    have hmem : ∀ g' ∈ gs, g' ∈ g :: gs := fun g' h' => by simp [h']
    refine ⟨?_, ?_, ?_, ?_, ?_, ?_, ⟨ft', hft⟩, ?_, ?_, ?_, ?_, ?_, ?_⟩
    · intro g' h'
      rcases List.mem_cons.1 h' with rfl | h'
      · unfold hasClaimedView
        rw [fetch_bind (fetch_ok.1 hft), hb.receipts _ fun g'' h'' => (hdiffr g'' h'').symm, e8, upd_same]
      · exact hb.claimed g' h'
    · have := hb.paid
      replace this : w₁.bank.balance (.ata x md.program cd.airdropTokenMint) =
        w'.bank.balance (.ata x md.program cd.airdropTokenMint) + (gs.map Grant.value).sum := this
      simp only [List.map_cons, List.sum_cons]
      unfold Grant.value at this ⊢
      omega
    · intro r hrx
      have := hb.received r hrx
      replace this : w'.bank.balance (.ata r md.program cd.airdropTokenMint) =
        w₁.bank.balance (.ata r md.program cd.airdropTokenMint) + ((gs.filter (·.recipient = r)).map Grant.value).sum := this
      rw [this]
      by_cases hrr : g.recipient = r
      · subst hrr
        rw [e5c]
        simp only [decide_true, List.filter_cons_of_pos, List.map_cons, List.sum_cons]
        unfold Grant.value
        omega
      · have : w₁.bank.balance (.ata r md.program cd.airdropTokenMint) = w.bank.balance (.ata r md.program cd.airdropTokenMint) := by
          unfold Bank.balance
          rw [e6 _ (hvr r hrx) (by intro e; injection e with e; exact hrr e.symm)]
        rw [this, List.filter_cons_of_neg (by simpa using hrr)]
    · intro g' h'
      rcases List.mem_cons.1 h' with rfl | h'
      · by_cases hin : ∃ g'' ∈ gs, g''.recipient = g'.recipient
        · obtain ⟨g'', h1, h2⟩ := hin
          have := hb.theirs g'' h1
          rw [h2] at this
          exact this
        · refine ⟨t1, ?_, e4⟩
          rw [← e3]
          refine hb.tokens _ (hvr _ hgr.notCampaign) fun g'' h'' e => hin ⟨g'', h'', ?_⟩
          injection e with e; exact e.symm
      · exact hb.theirs g' h'
    · have := hb.rent
      replace this : w₁.lamports p ≤ w'.lamports p + gs.length * grantRent rt cd.airdropTokenMint md.program := this
      simp only [List.length_cons, Nat.succ_mul]
      omega
    · intro a ha
      rw [hb.receipts a fun g' h' => ha g' (hmem g' h'), e8, upd_ne _ _ (ha g (by simp))]
    · intro y hy
      rw [hb.campaigns y hy, e11 y hy]
    · intro a h1 h2
      rw [hb.tokens a h1 fun g' h' => h2 g' (hmem g' h'), e6 a h1 (h2 g (by simp))]
    · rw [hb.mints, e12]
    · rw [hb.lockup, e13]
    · rw [hb.treasury, e14]
    · rw [hb.clock, e15]

/-- **C98**: whoever has the rent can deliver any list of open grants of a funded campaign, in any order, in any state
that can be reached: every claim succeeds, everybody receives what was granted to them, and nothing else changes. -/
theorem C98_deliver {rt : Runtime} {w : World} (hr : Reachable rt w) {p x : Addr} {tr : Treasury} {cd : Campaign}
    {md : MintData} {grants : List Grant} (hd : Deliverable rt w p x tr cd md grants)
    (hopen : ∀ g ∈ grants, g.Open rt w x cd) (hrec : ∀ g ∈ grants, g.Receivable w x cd.airdropTokenMint md.program)
    (hdiff : (grants.map Grant.index).Nodup) :
    ∃ w', runAll rt w (grants.map (Grant.claim tr p x cd.airdropTokenMint md.program)) = .ok w' ∧
      Delivered rt w w' p x cd md grants :=
  deliver grants hr hd hopen hrec hdiff

/-- **C98**: in particular a whole airdrop, with the root and the proofs of the project's tree builder, in any order of
the recipients. -/
theorem C98_airdrop {rt : Runtime} {w : World} (hr : Reachable rt w) {p x : Addr} {tr : Treasury} {cd : Campaign}
    {md : MintData} {l order : List Allocation} {owner : Bytes32 → Addr} (horder : order.Perm l)
    (hroot : getRoot rt l = some cd.merkleRoot)
    (howner : ∀ a ∈ l, rt.keyBytes (owner a.recipient) = a.recipient) (hdiff : (l.map Allocation.index).Nodup)
    (hd : Deliverable rt w p x tr cd md (order.map (grantOf rt l owner)))
    (hnew : ∀ a ∈ l, hasClaimedView w x a.index.toNat = .ok false)
    (hrec : ∀ a ∈ l, (grantOf rt l owner a).Receivable w x cd.airdropTokenMint md.program) :
    ∃ w', runAll rt w ((order.map (grantOf rt l owner)).map (Grant.claim tr p x cd.airdropTokenMint md.program)) = .ok w' ∧
      Delivered rt w w' p x cd md (order.map (grantOf rt l owner)) := by
  refine C98_deliver hr hd ?_ ?_ ?_
  · intro g hg
    obtain ⟨a, ha, rfl⟩ := List.mem_map.1 hg
    have ha := horder.mem_iff.1 ha
    obtain ⟨root, h1, h2⟩ := C42_builder (rt := rt) ha
    rw [hroot] at h1; cases h1
    have := h2 (owner a.recipient) w.now cd.campaignStartTime cd.expirationTime (howner a ha) hd.window
    exact ⟨hnew a ha, proves_iff.2 (checkClaim_ok.1 this).2.2⟩
  · intro g hg
    obtain ⟨a, ha, rfl⟩ := List.mem_map.1 hg
    exact hrec a (horder.mem_iff.1 ha)
  · rw [List.map_map, show Grant.index ∘ grantOf rt l owner = Allocation.index from rfl]
    exact ((horder.map _).nodup_iff).2 hdiff

/-! ## A case -/

theorem of_all {α : Type} {f : α → Bool} {o : Option α} (h : o.all f = true) {t : α} (ht : o = some t) : f t = true := by
  rw [ht] at h; exact h

def demoConfig : Treasury := ⟨255, collector, oracleProgram, feed⟩
def demoCampaign : Campaign := ⟨mint, 255, 1500, alice, 800000, 0, [81, 109], root, campaignName⟩
def demoList : List Allocation := [alloc0, alloc1]
/-- Who has which key. -/
def demoOwner (k : Bytes32) : Addr := if k = rt.keyBytes bob then bob else carol

/-- Alice delivers the demo airdrop, the second recipient first. -/
theorem demoDeliverable : Deliverable rt world2 alice camp demoConfig demoCampaign { plainMint with supply := 1000000 }
    ([alloc1, alloc0].map (grantOf rt demoList demoOwner)) := by
  constructor
  case campaign => decide +kernel
  case treasury => decide +kernel
  case mint => decide +kernel
  case signer => decide
  case window => unfold InWindow; decide +kernel
  case noFee => rfl
  case unblocked => rfl
  case opensThawed => rfl
  case thawed => exact fun t ht => by simpa using of_all (f := fun t => !t.frozen) (by decide +kernel) ht
  case enough => decide +kernel
  case lamports => decide +kernel

example := C98_airdrop reach2 (order := [alloc1, alloc0]) (l := demoList) (owner := demoOwner) (.swap _ _ _)
  (show getRoot rt demoList = some demoCampaign.merkleRoot by decide +kernel)
  (by decide +kernel) (by decide +kernel) demoDeliverable (by decide +kernel)
  (by
    intro a ha
    simp only [demoList, List.mem_cons, List.not_mem_nil, or_false] at ha
    rcases ha with rfl | rfl
    · exact ⟨by decide +kernel, fun t ht => by
        simpa using of_all (f := fun t => decide (t.owner = (grantOf rt demoList demoOwner alloc0).recipient) && !t.frozen) (by decide +kernel) ht,
        by decide +kernel⟩
    · exact ⟨by decide +kernel, fun t ht => by
        simpa using of_all (f := fun t => decide (t.owner = (grantOf rt demoList demoOwner alloc1).recipient) && !t.frozen) (by decide +kernel) ht,
        by decide +kernel⟩)

end Solsab.Props
