import Verif.Spec.Airdrop
import Verif.Props.Campaign
/-!
# C77: the merkle_instant program implements a small airdrop machine
-/

namespace Solsab.Props

open Merkle Spec Demo

/-- The abstract campaign of an account and a set of receipts. -/
private def absC (cd : Campaign) (claimed : Nat → Bool) : Airdrop.Campaign :=
  { creator := cd.creator, token := cd.airdropTokenMint, root := cd.merkleRoot, start := cd.campaignStartTime,
    expiration := cd.expirationTime, name := cd.name, cid := cd.ipfsCid, claimed := claimed,
    first := if cd.firstClaimTime = 0 then none else some cd.firstClaimTime }

private theorem read_eq {w : World} {x : Addr} {cd : Campaign} (h : w.mi.campaigns x = some cd) :
    Airdrop.read w x = some (absC cd fun i => w.mi.receipts (.claimReceipt x i)) := by
  unfold Airdrop.read; rw [h]; rfl

private theorem read_none {w : World} {x : Addr} (h : w.mi.campaigns x = none) : Airdrop.read w x = none := by
  unfold Airdrop.read; rw [h]; rfl

private theorem read_some' {w : World} {x : Addr} {p : Airdrop.Campaign} (h : Airdrop.read w x = some p) :
    ∃ cd, w.mi.campaigns x = some cd ∧ p = absC cd fun i => w.mi.receipts (.claimReceipt x i) := by
  cases hx : w.mi.campaigns x with
  | none => rw [read_none hx] at h; cases h
  | some cd => rw [read_eq hx] at h; cases h; exact ⟨cd, rfl, rfl⟩

/-- **C77**: the views are functions of the abstract campaign, and what the machine remembers is what happened: the
indices claimed in the history and the time of the first claim. -/
theorem C77_views {rt : Runtime} {w : World} (hr : ReachablePos rt w) (x : Addr) :
    ((∃ cd, campaignView w x = .ok cd) ↔ (Airdrop.read w x).isSome) ∧
    ∀ p, Airdrop.read w x = some p →
      (∃ cd, campaignView w x = .ok cd ∧ cd.creator = p.creator ∧ cd.airdropTokenMint = p.token ∧
        cd.merkleRoot = p.root ∧ cd.campaignStartTime = p.start ∧ cd.expirationTime = p.expiration ∧
        cd.name = p.name ∧ cd.ipfsCid = p.cid ∧ cd.firstClaimTime = p.first.getD 0) ∧
      hasCampaignStartedView w x = .ok (decide (p.start ≤ w.now)) ∧
      hasExpiredView w x = .ok (decide (p.expired w.now)) ∧
      (∀ i, hasClaimedView w x i = .ok (p.claimed i)) ∧
      (∀ i, p.claimed i = true ↔ ClaimedIn w.log x i) ∧ p.first = firstClaim x w.log := by
  constructor
  · unfold campaignView Airdrop.read
    cases w.mi.campaigns x <;> simp [fetch]
  · intro p hp
    obtain ⟨cd, hx, rfl⟩ := read_some' hp
    have hv : campaignView w x = .ok cd := fetch_ok.2 hx
    have hfirst := C48_first_claim hr hv
    have hcl : ∀ i, hasClaimedView w x i = .ok (w.mi.receipts (.claimReceipt x i)) := by
      intro i; unfold hasClaimedView; rw [fetch_bind hx]
    refine ⟨⟨cd, hv, rfl, rfl, rfl, rfl, rfl, rfl, rfl, ?_⟩, (C41_views hv).1, (C41_views hv).2, hcl, ?_, ?_⟩
    · show _ = (if cd.firstClaimTime = 0 then none else some cd.firstClaimTime).getD 0
      split
      · assumption
      · rfl
    · intro i
      have h1 := C40_has_claimed hr.reachable hv i
      rw [hcl i] at h1
      show w.mi.receipts (.claimReceipt x i) = true ↔ _
      injection h1 with h1
      rw [h1]
      exact @decide_eq_true_iff _ (Classical.propDecidable _)
    · show (if cd.firstClaimTime = 0 then none else some cd.firstClaimTime) = _
      cases hf : firstClaim x w.log with
      | none => rw [if_pos (hfirst.1 hf)]
      | some t =>
        obtain ⟨h1, h2⟩ := hfirst.2 t hf
        rw [h1, if_neg (by omega)]

private theorem mayClawback_iff {cd : Campaign} {f : Nat → Bool} {now : Nat} :
    (absC cd f).mayClawback now ↔
      ¬ (0 < cd.firstClaimTime ∧ cd.firstClaimTime + sevenDays < now ∧ ¬ Expired now cd.expirationTime) := by
  have he : (absC cd f).expired now ↔ Expired now cd.expirationTime := Iff.rfl
  unfold Airdrop.Campaign.mayClawback
  rw [he]
  by_cases h0 : cd.firstClaimTime = 0
  · have e : (absC cd f).first = none := by simp [absC, h0]
    rw [e]
    simp [h0]
  · have e : (absC cd f).first = some cd.firstClaimTime := by simp [absC, h0]
    rw [e]
    unfold sevenDays
    by_cases hx : Expired now cd.expirationTime
    · simp [hx]
    · simp only [hx, false_or, not_false_eq_true, and_true]
      omega

/-- **C77**: whatever instruction of whichever program succeeds, the campaign at every address is afterwards exactly
what the airdrop machine says. -/
theorem C77_step {rt : Runtime} {w w' : World} (hr : Reachable rt w) (hpos : 0 < w.now) {ix : Ix}
    (h : step rt w ix = .ok w') (x : Addr) :
    Airdrop.next rt ix x w.now (Airdrop.read w x) = some (Airdrop.read w' x) := by
  rcases (step_did h).campaign_cases x with ⟨hq, hsp⟩ |
      ⟨c, p, dm, b, l, rfl, _, _, ⟨r, s, e, n, i, a, k, rfl⟩, _⟩ |
      ⟨c, index, amount, proof, cd, dm, b₁, b₂, l, rfl, ⟨i, a, rfl, rfl, rfl⟩, hok⟩ |
      ⟨c, amount, cd, dm, b₁, b₂, l, rfl, ⟨a, rfl, rfl⟩, hok⟩
  · -- nothing happens at `x`
    have hread : Airdrop.read w' x = Airdrop.read w x := by
      unfold Airdrop.read
      simp only [hq.data, hq.receipts]
    rw [hread]
    have hasks : Airdrop.asks ix x = none := by
      unfold Airdrop.asks
      split
      · rename_i c _ _ _; exact if_neg fun he => hsp.c (by simp [Ix.claimsFrom, he])
      · rename_i c _; exact if_neg fun he => hsp.b (by simp [Ix.clawsBack, he])
      · rfl
    have hopens : ∀ y p, Airdrop.opens ix = some (y, p) → y ≠ x := by
      rintro y p ho rfl
      unfold Airdrop.opens at ho
      split at ho
      · cases ho
        obtain ⟨dm, b, l, hc⟩ := createCampaign_step h
        have ha := hc.addr
        have h1 := hq.data
        have h2 := hc.fresh
        rw [ha] at h2
        rw [h2, hc.result, ha] at h1
        simp at h1
      · cases ho
    cases ho : Airdrop.opens ix with
    | some q =>
      obtain ⟨y, p⟩ := q
      have := hopens y p ho
      cases Airdrop.read w x <;> simp [Airdrop.next, ho, this]
    | none => cases Airdrop.read w x <;> simp [Airdrop.next, ho, hasks]
  · -- created
    obtain ⟨dm, b, l, hc⟩ := createCampaign_step h
    have ha := hc.addr
    have hrec : ∀ j, w.mi.receipts (.claimReceipt c.campaign j) = false := by
      intro j
      obtain ⟨h0, h1⟩ := hr.campaignsOK c.campaign
      rw [hc.fresh] at h0
      have h2 := h1 j
      rw [total_zero fun e he => claimOf_quiet _ (h0 e he)] at h2
      cases hb : w.mi.receipts (.claimReceipt c.campaign j) with
      | false => rfl
      | true => rw [hb, if_pos rfl] at h2; cases h2
    rw [read_none hc.fresh]
    simp only [Airdrop.next, Airdrop.opens]
    rw [if_pos ha.symm]
    congr 1
    rw [hc.result]
    unfold Airdrop.read
    simp only [upd_same, Option.map_some, hrec]
    rfl
  · -- claim
    rw [read_eq hok.accts.campaign]
    simp only [Airdrop.next, Airdrop.opens, Airdrop.asks, if_true]
    have hfresh := hok.accts.receiptFresh
    rw [hok.accts.receiptAddr] at hfresh
    have hact : Airdrop.act rt w.now (absC cd fun j => w.mi.receipts (.claimReceipt c.campaign j))
        (.claim i.toNat c.recipient a.toNat proof) =
        some { absC cd (fun j => if j = i.toNat then true else w.mi.receipts (.claimReceipt c.campaign j)) with
          first := some ((absC cd fun _ => false).first.getD w.now) } := by
      unfold Airdrop.act
      dsimp only
      rw [if_pos ⟨⟨hok.started, hok.notExpired⟩, hfresh, hok.proof_ok⟩]
      rfl
    rw [hact, Option.map_some]
    congr 1
    rw [hok.result, hok.accts.receiptAddr]
    unfold Airdrop.read
    simp only [upd_same, Option.map_some]
    congr 1
    unfold absC Campaign.claim
    by_cases h0 : cd.firstClaimTime = 0
    · simp only [h0, if_true, upd_apply, Option.getD_none, Addr.claimReceipt.injEq, true_and, if_neg (Nat.ne_of_gt hpos)]
    · simp only [h0, if_false, upd_apply, Option.getD_some, Addr.claimReceipt.injEq, true_and]
  · -- clawback
    rw [read_eq hok.accts.campaign]
    simp only [Airdrop.next, Airdrop.opens, Airdrop.asks, if_true]
    have hall := hok.allowed
    rw [checkClawback_eq hr hok.accts.campaign] at hall
    have hmay : (absC cd fun i => w.mi.receipts (.claimReceipt c.campaign i)).mayClawback w.now := by
      split at hall
      · cases hall
      · rename_i hnot
        exact mayClawback_iff.2 hnot
    unfold Airdrop.act
    dsimp only
    rw [if_pos ⟨hok.accts.creator, hmay⟩, Option.map_some]
    congr 1
    rw [hok.result]
    exact (read_eq hok.accts.campaign).symm

example := C77_step reach2 (by decide +kernel) (step_after (ix := ixClaim) (by decide +kernel)) camp

private theorem Airdrop.snoc {rt : Runtime} {t u : Nat} {p q r : Airdrop.Campaign} {l : List (Nat × Airdrop.Action)}
    {a : Airdrop.Action} (h : Airdrop.Run rt t p l u q) (ha : Airdrop.act rt u q a = some r) :
    Airdrop.Run rt t p (l ++ [(u, a)]) u r := by
  induction h with
  | nil h => exact .cons h ha (.nil (Nat.le_refl _))
  | cons h ha' _ ih => exact .cons h ha' (ih ha)

private theorem Airdrop.wait {rt : Runtime} {t u v : Nat} {p q : Airdrop.Campaign} {l : List (Nat × Airdrop.Action)}
    (h : Airdrop.Run rt t p l u q) (hle : u ≤ v) : Airdrop.Run rt t p l v q := by
  induction h with
  | nil h => exact .nil (Nat.le_trans h hle)
  | cons h ha' _ ih => exact .cons h ha' (ih hle)

/-- **C77**: every history of a campaign is a run of the machine. -/
theorem C77_trace {rt : Runtime} {w w' : World} (hr : Reachable rt w) (hpos : 0 < w.now) (hs : Steps rt w w') {x : Addr}
    {p : Airdrop.Campaign} (hp : Airdrop.read w x = some p) :
    ∃ l p', Airdrop.read w' x = some p' ∧ Airdrop.Run rt w.now p l w'.now p' := by
  induction hs with
  | refl => exact ⟨[], p, hp, .nil (Nat.le_refl _)⟩
  | @tail w₁ w₂ ix hst h ih =>
    obtain ⟨l, q, hq, hrun⟩ := ih
    have hr₁ := hr.steps hst
    have hle : w₁.now ≤ w₂.now := (step_did h).now_le hr₁.clockOk
    have hn := C77_step hr₁ (Nat.lt_of_lt_of_le hpos (hst.now_le hr)) h x
    rw [hq] at hn
    simp only [Airdrop.next] at hn
    split at hn
    · split at hn
      · cases hn
      · simp only [Option.some.injEq] at hn
        exact ⟨l, q, hn.symm, Airdrop.wait hrun hle⟩
    · split at hn
      · rename_i a _
        cases ha : Airdrop.act rt w₁.now q a with
        | none => rw [ha] at hn; cases hn
        | some r =>
          rw [ha] at hn
          simp only [Option.map_some, Option.some.injEq] at hn
          exact ⟨_, r, hn.symm, Airdrop.wait (Airdrop.snoc hrun ha) hle⟩
      · simp only [Option.some.injEq] at hn
        exact ⟨l, q, hn.symm, Airdrop.wait hrun hle⟩

/-- The demo campaign in some state. -/
def campAt (w : World) (first : Option Nat) : Airdrop.Campaign :=
  ⟨alice, mint, root, 1500, 800000, campaignName, [81, 109], fun i => w.mi.receipts (.claimReceipt camp i), first⟩

theorem read_campAt {w : World} {k : Nat} {first : Option Nat}
    (h : w.mi.campaigns camp = some ⟨mint, 255, 1500, alice, 800000, k, [81, 109], root, campaignName⟩)
    (hf : first = if k = 0 then none else some k) : Airdrop.read w camp = some (campAt w first) := by
  rw [hf, read_eq h, absC, campAt]

theorem read_camp2 : Airdrop.read world2 camp = some (campAt world2 none) :=
  read_campAt (k := 0) (by decide +kernel) rfl

theorem now2_pos : 0 < world2.now := by decide +kernel

theorem steps28 : Steps rt world2 world8 :=
  steps23.trans (steps34.trans (steps45.trans (steps56.trans (steps67.trans steps78))))

example := C77_trace reach2 now2_pos steps28 read_camp2

/-! ## Every move of the machine can be made -/

/-- **C77**: a claim that the machine allows succeeds, with the right accounts, a claimer who can pay the rent, and an
ordinary token of which the vault holds enough; and the campaign is then what the machine says. -/
theorem C77_can_claim {rt : Runtime} {w : World} (hr : Reachable rt w) (hpos : 0 < w.now) {c : ClaimAccts} {x : Addr}
    {cd : Campaign} {md : MintData} {i : UInt32} {a : UInt64} {proof : List Bytes32} (hc : ClaimReady rt w c x cd md i.toNat)
    (hfund : claimRent rt cd.airdropTokenMint md.program ≤ w.lamports c.claimer) (hfee : md.feeConfig = none)
    (ht : Transferable w md c.campaignAta c.recipientAta) (hbal : a.toNat ≤ w.bank.balance c.campaignAta)
    {p p' : Airdrop.Campaign} (hread : Airdrop.read w x = some p)
    (ha : Airdrop.act rt w.now p (.claim i.toNat c.recipient a.toNat proof) = some p') :
    ∃ w', step rt w (.merkle (.claim c i a proof)) = .ok w' ∧ Airdrop.read w' x = some p' := by
  rw [read_eq hc.campaign] at hread
  cases hread
  have hcond := ha
  unfold Airdrop.act at hcond
  dsimp only at hcond
  split at hcond
  · rename_i hh
    obtain ⟨⟨h1, h2⟩, h3, h4⟩ := hh
    obtain ⟨w', h⟩ := C45_claim_succeeds hr (a := a) (p := proof) hc
      (by unfold hasClaimedView; rw [fetch_bind hc.campaign]; exact congrArg _ h3) hfund ⟨h1, h2⟩ h4 hfee ht hbal
    refine ⟨w', h, ?_⟩
    have hn := C77_step hr hpos h x
    rw [read_eq hc.campaign] at hn
    simp only [Airdrop.next, Airdrop.opens, Airdrop.asks, hc.a2, if_true, ha, Option.map_some, Option.some.injEq] at hn
    exact hn.symm
  · cases hcond

theorem act_campAt {w : World} {t : Nat} {i : Nat} {r : Addr} {a : Nat} {proof : List Bytes32}
    (h1 : 1500 ≤ t) (h2 : t < 800000) (h3 : w.mi.receipts (.claimReceipt camp i) = false) (h4 : Airdrop.Proves rt root i r a proof) :
    Airdrop.act rt t (campAt w none) (.claim i r a proof) =
      some { campAt w none with claimed := fun j => if j = i then true else (campAt w none).claimed j, first := some t } := by
  unfold Airdrop.act campAt
  dsimp only
  have ho : Airdrop.Campaign.isOpen (campAt w none) t := ⟨h1, .inr h2⟩
  unfold campAt at ho
  rw [if_pos ⟨ho, h3, h4⟩, Option.getD_none]

theorem act_camp2 : Airdrop.act rt world2.now (campAt world2 none) (.claim 0 bob 500 [leaf1]) =
    some { campAt world2 none with claimed := fun j => if j = 0 then true else (campAt world2 none).claimed j, first := some world2.now } :=
  act_campAt (by decide +kernel) (by decide +kernel) (by decide +kernel) (by decide +kernel)

example := C77_can_claim reach2 now2_pos (i := 0) (a := 500) (proof := [leaf1]) demo_claimReady (by decide +kernel) rfl
  demo_claimTransferable (by decide +kernel) (p := campAt world2 none) read_camp2
  act_camp2

/-- **C77**: a clawback that the machine allows succeeds under the same conditions. -/
theorem C77_can_clawback {rt : Runtime} {w : World} (hr : ReachablePos rt w) (hpos : 0 < w.now) {c : ClawbackAccts} {x : Addr}
    {cd : Campaign} {md : MintData} {a : UInt64} (hc : ClawbackReady rt w c x cd md) (hfee : md.feeConfig = none)
    (ht : Transferable w md c.campaignAta c.clawbackRecipientAta) (hbal : a.toNat ≤ w.bank.balance c.campaignAta)
    {p p' : Airdrop.Campaign} (hread : Airdrop.read w x = some p)
    (ha : Airdrop.act rt w.now p (.clawback c.campaignCreator) = some p') :
    ∃ w', step rt w (.merkle (.clawback c a)) = .ok w' ∧ Airdrop.read w' x = some p' := by
  have hfirst := ((C77_views hr x).2 p hread).2.2.2.2.2
  have hread' := hread
  rw [read_eq hc.campaign] at hread'
  cases hread'
  have hcond := ha
  unfold Airdrop.act at hcond
  dsimp only at hcond
  split at hcond
  · rename_i hh
    have hmay := mayClawback_iff.1 hh.2
    obtain ⟨w', h⟩ := C46_clawback_succeeds hr (a := a) hc (fun ⟨t, h1, h2, h3⟩ => by
      obtain ⟨e1, e2⟩ := (C48_first_claim hr (fetch_ok.2 hc.campaign)).2 t h1
      exact hmay ⟨by omega, by omega, h3⟩) hfee ht hbal
    refine ⟨w', h, ?_⟩
    have hn := C77_step hr.reachable hpos h x
    rw [hread] at hn
    simp only [Airdrop.next, Airdrop.opens, Airdrop.asks, hc.a2, if_true, ha, Option.map_some, Option.some.injEq] at hn
    exact hn.symm
  · cases hcond

theorem act_camp3 {w : World} {t : Nat} (h : t ≤ 4000 + 7 * 86400) :
    Airdrop.act rt t (campAt w (some 4000)) (.clawback alice) = some (campAt w (some 4000)) := by
  unfold Airdrop.act
  dsimp only
  rw [if_pos ⟨rfl, .inr h⟩]

-- within the grace period, after a claim
example := C77_can_clawback pos3 (by decide +kernel) (a := 100) demo_clawbackReady3 rfl
  (by refine ⟨rfl, ?_, ?_, fun _ => rfl, by decide +kernel⟩
      · intro t ht
        have : world3.bank.tokens demoClawback.campaignAta = some ⟨tok, Demo.mint, camp, 300, false⟩ := by
          decide +kernel
        rw [this] at ht; cases ht; rfl
      · intro t ht
        have : world3.bank.tokens demoClawback.clawbackRecipientAta = none := by decide +kernel
        rw [this] at ht; cases ht)
  (by decide +kernel) (read_campAt (w := world3) (k := 4000) (first := some 4000) (by decide +kernel) (by decide))
  (act_camp3 (w := world3) (t := world3.now) (by decide +kernel))

end Solsab.Props
