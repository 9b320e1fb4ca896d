import Verif.Proofs.ConfigInv
/-!
# The campaign invariant
-/

namespace Solsab

open Spec Merkle

/-- Nothing about the campaign at `x` changed. -/
structure QuietCampaign (w w' : World) (x : Addr) : Prop where
  data : w'.mi.campaigns x = w.mi.campaigns x
  log : w'.log = w.log ∨ ∃ e, w'.log = e :: w.log ∧ concerns x e.event = false
  receipts : ∀ i, w'.mi.receipts (.claimReceipt x i) = w.mi.receipts (.claimReceipt x i)

theorem QuietCampaign.total {w w' : World} {x : Addr} (h : QuietCampaign w w' x) {f : Event → Nat}
    (hf : ∀ e, concerns x e = false → f e = 0) : total f w'.log = total f w.log := by
  rcases h.log with h | ⟨e, h, he⟩
  · rw [h]
  · rw [h, total_cons, hf _ he, Nat.zero_add]

theorem claimAt_quiet {x : Addr} (e : Event) (h : concerns x e = false) : claimAt x e = 0 := by
  cases e <;> simp_all [concerns, claimAt]
theorem claimOf_quiet {x : Addr} {i : Nat} (e : Event) (h : concerns x e = false) : claimOf x i e = 0 := by
  cases e <;> simp_all [concerns, claimOf]
theorem claimedFrom_quiet {x : Addr} (e : Event) (h : concerns x e = false) : claimedFrom x e = 0 := by
  cases e <;> simp_all [concerns, claimedFrom]
theorem clawedFrom_quiet {x : Addr} (e : Event) (h : concerns x e = false) : clawedFrom x e = 0 := by
  cases e <;> simp_all [concerns, clawedFrom]
theorem campaignCreation_quiet {x : Addr} (e : Event) (h : concerns x e = false) : campaignCreation x e = 0 := by
  cases e <;> simp_all [concerns, campaignCreation]

theorem QuietCampaign.firstClaim {w w' : World} {x : Addr} (h : QuietCampaign w w' x) :
    firstClaim x w'.log = firstClaim x w.log := by
  rcases h.log with h | ⟨e, h, he⟩
  · rw [h]
  · rw [h]; simp only [Spec.firstClaim, claimAt_quiet _ he]
    cases Spec.firstClaim x w.log <;> rfl

theorem Did.campaign_cases {rt : Runtime} {w w' : World} {ix : Ix} (h : Did rt w ix w') (x : Addr) :
    (QuietCampaign w w' x ∧ ix.SparesC x) ∨
    (∃ c p dm b l, c.campaign = x ∧ p.campaignStartTime < 2 ^ 64 ∧ p.expirationTime < 2 ^ 64 ∧
      (∃ r s e n i a k, ix = .merkle (.createCampaign c r s e n i a k)) ∧
      CreateCampaignOk rt w c p w' dm b l) ∨
    (∃ c index amount proof cd dm b₁ b₂ l, c.campaign = x ∧
      (∃ (i : UInt32) (a : UInt64), ix = .merkle (.claim c i a proof) ∧ index = i.toNat ∧ amount = a.toNat) ∧
      ClaimOk rt w c index amount proof w' cd dm b₁ b₂ l) ∨
    (∃ c amount cd dm b₁ b₂ l, c.campaign = x ∧ (∃ a : UInt64, ix = .merkle (.clawback c a) ∧ amount = a.toNat) ∧
      ClawbackOk rt w c amount w' cd dm b₁ b₂ l) := by
  cases h with
  | init hix h =>
    left; refine ⟨?_, by rw [hix]; exact ⟨nofun, nofun⟩⟩; rw [h.result]; exact ⟨rfl, .inl rfl, fun _ => rfl⟩
  | create hix hp h =>
    left; refine ⟨?_, ?_⟩
    · rw [h.result]; exact ⟨rfl, .inr ⟨_, rfl, rfl⟩, fun _ => rfl⟩
    · cases ix with
      | lockup i => exact ⟨nofun, nofun⟩
      | merkle i => cases hix
      | env i => cases hix
  | withdraw hix h =>
    left; refine ⟨?_, ?_⟩
    · rw [h.result]; exact ⟨rfl, .inr ⟨_, rfl, rfl⟩, fun _ => rfl⟩
    · cases ix with
      | lockup i => exact ⟨nofun, nofun⟩
      | merkle i => cases hix
      | env i => cases hix
  | cancel hix h =>
    left; refine ⟨?_, by rw [hix]; exact ⟨nofun, nofun⟩⟩; rw [h.result]; exact ⟨rfl, .inr ⟨_, rfl, rfl⟩, fun _ => rfl⟩
  | renounce hix h =>
    left; refine ⟨?_, by rw [hix]; exact ⟨nofun, nofun⟩⟩; rw [h.result]; exact ⟨rfl, .inr ⟨_, rfl, rfl⟩, fun _ => rfl⟩
  | collect hix _ h =>
    left; refine ⟨?_, by rw [hix]; exact ⟨nofun, nofun⟩⟩; rw [h.result]; exact ⟨rfl, .inr ⟨_, rfl, rfl⟩, fun _ => rfl⟩
  | miInit hix _ _ _ h =>
    left; refine ⟨?_, by rw [hix]; exact ⟨nofun, nofun⟩⟩; rw [h]; exact ⟨rfl, .inl rfl, fun _ => rfl⟩
  | @campaign c p dm b l hp hix h =>
    by_cases hx : c.campaign = x
    · right; left; exact ⟨c, p, dm, b, l, hx, hp.1, hp.2, hix, h⟩
    · left
      refine ⟨?_, by obtain ⟨_, _, _, _, _, _, _, rfl⟩ := hix; exact ⟨nofun, nofun⟩⟩
      rw [h.result]
      exact ⟨by simp [upd_ne _ _ (Ne.symm hx)], .inr ⟨_, rfl, by simp [concerns, hx]⟩, fun _ => rfl⟩
  | @claim c index amount proof cd dm b₁ b₂ l hix h =>
    by_cases hx : c.campaign = x
    · right; right; left; exact ⟨c, index, amount, proof, cd, dm, b₁, b₂, l, hx, hix, h⟩
    · left
      refine ⟨?_, by obtain ⟨_, _, rfl, _⟩ := hix; exact ⟨by simpa [Ix.claimsFrom] using hx, nofun⟩⟩
      rw [h.result]
      refine ⟨by simp [upd_ne _ _ (Ne.symm hx)], .inr ⟨_, rfl, by simp [concerns, hx]⟩, fun i => ?_⟩
      simp only
      rw [upd_ne]
      rw [h.accts.receiptAddr]
      intro he; injection he with he _; exact hx he.symm
  | @clawback c amount cd dm b₁ b₂ l hix h =>
    by_cases hx : c.campaign = x
    · right; right; right; exact ⟨c, amount, cd, dm, b₁, b₂, l, hx, hix, h⟩
    · left
      refine ⟨?_, by obtain ⟨_, rfl, _⟩ := hix; exact ⟨nofun, by simpa [Ix.clawsBack] using hx⟩⟩
      rw [h.result]
      exact ⟨rfl, .inr ⟨_, rfl, by simp [concerns, hx]⟩, fun i => rfl⟩
  | miCollect hix _ h =>
    left; refine ⟨?_, by rw [hix]; exact ⟨nofun, nofun⟩⟩; rw [h.result]; exact ⟨rfl, .inr ⟨_, rfl, rfl⟩, fun _ => rfl⟩
  | env i hix h =>
    left
    refine ⟨?_, by rw [hix]; exact ⟨nofun, nofun⟩⟩
    have he := env_ok h
    exact ⟨by rw [he.mi], .inl he.log, fun i => by rw [he.mi]⟩

/-! ## Times in the history -/

theorem Did.log_cases {rt : Runtime} {w w' : World} {ix : Ix} (h : Did rt w ix w') :
    w'.log = w.log ∨ ∃ e, w'.log = e :: w.log ∧ e.time = w.now ∧ w'.now = w.now := by
  cases h with
  | init hix h => left; rw [h.result]
  | create hix hp h => right; rw [h.result]; exact ⟨_, rfl, rfl, rfl⟩
  | withdraw hix h => right; rw [h.result]; exact ⟨_, rfl, rfl, rfl⟩
  | cancel hix h => right; rw [h.result]; exact ⟨_, rfl, rfl, rfl⟩
  | renounce hix h => right; rw [h.result]; exact ⟨_, rfl, rfl, rfl⟩
  | collect hix _ h => right; rw [h.result]; exact ⟨_, rfl, rfl, rfl⟩
  | miInit hix _ _ _ h => left; rw [h]
  | campaign _ hix h => right; rw [h.result]; exact ⟨_, rfl, rfl, rfl⟩
  | claim hix h => right; rw [h.result]; exact ⟨_, rfl, rfl, rfl⟩
  | clawback hix h => right; rw [h.result]; exact ⟨_, rfl, rfl, rfl⟩
  | miCollect hix _ h => right; rw [h.result]; exact ⟨_, rfl, rfl, rfl⟩
  | env i hix h => left; rw [(env_ok h).log]

/-- Every event is in the past. -/
theorem Reachable.log_times {rt : Runtime} {w : World} (h : Reachable rt w) : ∀ e ∈ w.log, e.time ≤ w.now := by
  refine h.induct (P := fun w => ∀ e ∈ w.log, e.time ≤ w.now) ?_ ?_
  · intro w hg e he; rw [hg.no_log] at he; cases he
  · intro w ix w' hr ih hd e he
    have hn := hd.now_le hr.clockOk
    rcases hd.log_cases with h | ⟨e', h, ht, _⟩
    · rw [h] at he; exact Nat.le_trans (ih e he) hn
    · rw [h] at he
      rcases List.mem_cons.1 he with rfl | he
      · omega
      · exact Nat.le_trans (ih e he) hn

/-- A chain whose clock was positive at the start has only positive event times. -/
theorem Steps.log_pos {rt : Runtime} {w₀ w : World} (hg : Genesis w₀) (hp : 0 < w₀.clock) (h : Steps rt w₀ w) :
    ∀ e ∈ w.log, 0 < e.time := by
  have hr0 : Reachable rt w₀ := ⟨w₀, hg, .refl _⟩
  have hn0 : 0 < w₀.now := by have := hr0.clockOk.now; omega
  induction h with
  | refl => intro e he; rw [hg.no_log] at he; cases he
  | tail ix hst hs ih =>
    intro e he
    rcases (step_did hs).log_cases with h | ⟨e', h, ht, _⟩
    · rw [h] at he; exact ih e he
    · rw [h] at he
      rcases List.mem_cons.1 he with rfl | he
      · have := Steps.now_le hr0 hst; omega
      · exact ih e he

/-! ## The invariant -/

/-- What the data of the campaign at `x` satisfies in every reachable state. -/
structure CampaignOK (rt : Runtime) (now : Nat) (log : List LogEntry) (x : Addr) (cd : Campaign) : Prop where
  addr : x = cd.signerAddr
  bump : cd.bump = rt.bump x
  creator : cd.creator.canSign = true
  start64 : cd.campaignStartTime < 2 ^ 64
  exp64 : cd.expirationTime < 2 ^ 64
  name : cd.name.length ≤ 32
  fits : cd.encodedSize ≤ campaignSpace
  created : total (campaignCreation x) log = 1
  noClaim : total (claimAt x) log = 0 → cd.firstClaimTime = 0
  first : (∀ e ∈ log, claimAt x e.event = 1 → 0 < e.time) → cd.firstClaimTime = (firstClaim x log).getD 0
  first_le : cd.firstClaimTime ≤ now
  claims : ∀ e ∈ log, ∀ a cl rc f i r, e.event = .claim a x cl rc f i r →
    cd.campaignStartTime ≤ e.time ∧ (cd.expirationTime = 0 ∨ e.time < cd.expirationTime) ∧ i < 2 ^ 32 ∧ a < 2 ^ 64 ∧
    rc = .claimReceipt x i ∧ ∃ proof, computeRoot rt (leafHash rt i r a) proof = cd.merkleRoot

theorem firstClaim_none {x : Addr} {log : List LogEntry} : firstClaim x log = none ↔ total (claimAt x) log = 0 := by
  induction log with
  | nil => simp [firstClaim, total_nil]
  | cons e log ih =>
    rw [total_cons]
    simp only [firstClaim]
    have h01 : claimAt x e.event = 0 ∨ claimAt x e.event = 1 := by
      cases e.event <;> simp only [claimAt] <;> first | exact .inl trivial | (split <;> simp)
    cases hf : firstClaim x log with
    | some t =>
      have : total (claimAt x) log ≠ 0 := fun h => by rw [ih.2 h] at hf; cases hf
      simp; omega
    | none =>
      have := ih.1 hf
      rcases h01 with h | h <;> simp [h, this]

theorem CampaignOK.mono {rt : Runtime} {w w' : World} {x : Addr} {cd : Campaign}
    (h : CampaignOK rt w.now w.log x cd) (hn : w.now ≤ w'.now) (hq : QuietCampaign w w' x) :
    CampaignOK rt w'.now w'.log x cd := by
  refine { h with
    created := by rw [hq.total campaignCreation_quiet]; exact h.created
    noClaim := by rw [hq.total claimAt_quiet]; exact h.noClaim
    first := ?_
    first_le := Nat.le_trans h.first_le hn
    claims := ?_ }
  · intro hp
    rw [hq.firstClaim]
    refine h.first (fun e he => hp e ?_)
    rcases hq.log with hl | ⟨e', hl, _⟩
    · rw [hl]; exact he
    · rw [hl]; exact List.mem_cons_of_mem _ he
  · intro e he a cl rc f i r hev
    rcases hq.log with hl | ⟨e', hl, hc⟩
    · rw [hl] at he; exact h.claims e he a cl rc f i r hev
    · rw [hl] at he
      rcases List.mem_cons.1 he with rfl | he
      · rw [hev] at hc; simp [concerns] at hc
      · exact h.claims e he a cl rc f i r hev

theorem Campaign.claim_first (cd : Campaign) (now : Nat) :
    (cd.claim now).firstClaimTime = if cd.firstClaimTime = 0 then now else cd.firstClaimTime := by
  unfold Campaign.claim; split <;> rfl

/-- A claim changes nothing but the first claim time. -/
theorem Campaign.claim_eq (cd : Campaign) (now : Nat) :
    cd.claim now = { cd with firstClaimTime := (cd.claim now).firstClaimTime } := by
  unfold Campaign.claim; split <;> rfl

theorem CampaignOK.ofClaim {rt w c index amount proof w' cd dm b₁ b₂ l} (hi : index < 2 ^ 32) (ha : amount < 2 ^ 64)
    (h : ClaimOk rt w c index amount proof w' cd dm b₁ b₂ l) (hs : CampaignOK rt w.now w.log c.campaign cd) :
    CampaignOK rt w'.now w'.log c.campaign (cd.claim w.now) := by
  have hnow : w'.now = w.now := by rw [h.result]; rfl
  have hlog : w'.log = ⟨w.now, .claim amount c.campaign c.claimer c.claimReceipt 0 index c.recipient⟩ :: w.log := by
    rw [h.result]
  rw [hnow, hlog, Campaign.claim_eq]
  refine ⟨hs.addr, hs.bump, hs.creator, hs.start64, hs.exp64, hs.name, hs.fits, ?_, ?_, ?_, ?_, ?_⟩
  · rw [total_cons, hs.created]; simp [campaignCreation]
  · intro hz; rw [total_cons] at hz; simp [claimAt] at hz
  · intro hp
    simp only
    rw [Campaign.claim_first]
    have hp' : ∀ e ∈ w.log, claimAt c.campaign e.event = 1 → 0 < e.time :=
      fun e he => hp e (List.mem_cons_of_mem _ he)
    have hf := hs.first hp'
    simp only [firstClaim, claimAt, if_true]
    cases hfc : firstClaim c.campaign w.log with
    | none => rw [hfc] at hf; simp only [Option.getD_none] at hf; rw [hf]; simp
    | some t =>
      rw [hfc] at hf
      simp only [Option.getD_some] at hf ⊢
      have htpos : ∀ log : List LogEntry, (∀ e ∈ log, claimAt c.campaign e.event = 1 → 0 < e.time) →
          firstClaim c.campaign log = some t → 0 < t := by
        intro log
        induction log with
        | nil => intro _ h; cases h
        | cons e log ihl =>
          intro hp h
          simp only [firstClaim] at h
          cases hfl : firstClaim c.campaign log with
          | some t' =>
            rw [hfl] at h; cases h
            exact ihl (fun e he => hp e (List.mem_cons_of_mem _ he)) hfl
          | none =>
            rw [hfl] at h
            simp only at h
            split at h
            · rename_i h1; cases h; exact hp e List.mem_cons_self h1
            · cases h
      have := htpos _ hp' hfc
      rw [if_neg (by omega), hf]
  · show (cd.claim w.now).firstClaimTime ≤ w.now
    rw [Campaign.claim_first]
    have := hs.first_le
    split <;> omega
  · intro e he a cl rc f i r hev
    rcases List.mem_cons.1 he with rfl | he
    · simp only [Event.claim.injEq] at hev
      obtain ⟨rfl, _, rfl, rfl, rfl, rfl, rfl⟩ := hev
      exact ⟨h.started, h.notExpired, hi, ha, h.accts.receiptAddr, proof, h.proof_ok⟩
    · exact hs.claims e he a cl rc f i r hev

theorem CampaignOK.ofClawback {rt w c amount w' cd dm b₁ b₂ l}
    (h : ClawbackOk rt w c amount w' cd dm b₁ b₂ l) (hs : CampaignOK rt w.now w.log c.campaign cd) :
    CampaignOK rt w'.now w'.log c.campaign cd := by
  have hnow : w'.now = w.now := by rw [h.result]; rfl
  have hlog : w'.log = ⟨w.now, .clawback amount c.campaign c.campaignCreator c.clawbackRecipient⟩ :: w.log := by
    rw [h.result]
  rw [hnow, hlog]
  refine ⟨hs.addr, hs.bump, hs.creator, hs.start64, hs.exp64, hs.name, hs.fits, ?_, ?_, ?_, hs.first_le, ?_⟩
  · rw [total_cons, hs.created]; simp [campaignCreation]
  · intro hz; rw [total_cons] at hz; exact hs.noClaim (by omega)
  · intro hp
    have : firstClaim c.campaign (⟨w.now, .clawback amount c.campaign c.campaignCreator c.clawbackRecipient⟩ :: w.log)
        = firstClaim c.campaign w.log := by
      simp only [firstClaim, claimAt]
      cases firstClaim c.campaign w.log <;> rfl
    rw [this]
    exact hs.first (fun e he => hp e (List.mem_cons_of_mem _ he))
  · intro e he a cl rc f i r hev
    rcases List.mem_cons.1 he with rfl | he
    · cases hev
    · exact hs.claims e he a cl rc f i r hev

/-- The invariant over all campaign addresses. -/
def CampaignsOK (rt : Runtime) (w : World) : Prop := ∀ x,
  (match w.mi.campaigns x with
  | some cd => CampaignOK rt w.now w.log x cd
  | none => ∀ e ∈ w.log, concerns x e.event = false) ∧
  ∀ i, total (claimOf x i) w.log = if w.mi.receipts (.claimReceipt x i) then 1 else 0

theorem total_zero {f : Event → Nat} {log : List LogEntry} (h : ∀ e ∈ log, f e.event = 0) : total f log = 0 := by
  induction log with
  | nil => rfl
  | cons e log ih =>
    rw [total_cons, h e List.mem_cons_self, ih (fun e he => h e (List.mem_cons_of_mem _ he))]

theorem CampaignsOK.some {rt w} (h : CampaignsOK rt w) {x cd} (hx : w.mi.campaigns x = some cd) :
    CampaignOK rt w.now w.log x cd := by
  have := (h x).1; rw [hx] at this; exact this

theorem Reachable.campaignsOK {rt : Runtime} {w : World} (h : Reachable rt w) : CampaignsOK rt w := by
  refine h.induct ?_ ?_
  · intro w hg x
    rw [hg.no_campaigns, hg.no_log]
    exact ⟨nofun, fun i => by rw [hg.no_receipts]; rfl⟩
  · intro w ix w' hr ih hd x
    have hn := hd.now_le hr.clockOk
    obtain ⟨hx, hrc⟩ := ih x
    rcases hd.campaign_cases x with ⟨hq, _⟩ | ⟨c, p, dm, b, l, rfl, hs64, he64, _, hok⟩ |
      ⟨c, index, amount, proof, cd, dm, b₁, b₂, l, rfl, ⟨i, a, _, rfl, rfl⟩, hok⟩ |
      ⟨c, amount, cd, dm, b₁, b₂, l, rfl, _, hok⟩
    · refine ⟨?_, fun i => by rw [hq.total claimOf_quiet, hq.receipts]; exact hrc i⟩
      rw [hq.data]
      cases hc : w.mi.campaigns x with
      | none =>
        rw [hc] at hx
        intro e he
        rcases hq.log with hl | ⟨e', hl, hf⟩
        · rw [hl] at he; exact hx e he
        · rw [hl] at he
          rcases List.mem_cons.1 he with rfl | he
          · exact hf
          · exact hx e he
      | some cd => rw [hc] at hx; exact hx.mono hn hq
    · rw [hok.fresh] at hx
      simp only at hx
      have hcamp : w'.mi.campaigns c.campaign = some (Campaign.create c.airdropTokenMint
        (rt.bump c.campaign) p.campaignStartTime c.creator p.expirationTime p.ipfsCid p.merkleRoot p.name) := by
        rw [hok.result]; simp
      have hlog : w'.log = ⟨w.now, .createCampaign p.aggregateAmount c.campaign p.name p.campaignStartTime c.creator
        p.expirationTime p.ipfsCid p.merkleRoot p.recipientCount dm.decimals c.airdropTokenMint⟩ :: w.log := by
        rw [hok.result]
      have hca : total (claimAt c.campaign) w.log = 0 := total_zero fun e he => claimAt_quiet _ (hx e he)
      have hcc : total (campaignCreation c.campaign) w.log = 0 := total_zero fun e he => campaignCreation_quiet _ (hx e he)
      refine ⟨?_, fun i => ?_⟩
      · rw [hcamp, hlog]
        simp only
        refine ⟨hok.addr, rfl, hok.signs, hs64, he64, hok.nameLen, hok.fits, ?_, fun _ => rfl, fun _ => ?_,
          Nat.zero_le _, ?_⟩
        · rw [total_cons, hcc]; simp [campaignCreation]
        · simp only [firstClaim, claimAt]
          rw [firstClaim_none.2 hca]; rfl
        · intro e he a cl rc f i r hev
          rcases List.mem_cons.1 he with rfl | he
          · cases hev
          · have := hx e he; rw [hev] at this; simp [concerns] at this
      · rw [hlog, total_cons, hok.result]
        simp only [claimOf, Nat.zero_add]
        exact hrc i
    · have hcd := ih.some hok.accts.campaign
      have hcamp : w'.mi.campaigns c.campaign = some (cd.claim w.now) := by rw [hok.result]; simp
      refine ⟨?_, fun j => ?_⟩
      · rw [hcamp]
        exact CampaignOK.ofClaim i.toNat_lt a.toNat_lt hok hcd
      · have hlog : w'.log = ⟨w.now, .claim a.toNat c.campaign c.claimer c.claimReceipt 0 i.toNat c.recipient⟩ :: w.log := by
          rw [hok.result]
        have hre : w'.mi.receipts = upd w.mi.receipts c.claimReceipt true := by rw [hok.result]
        rw [hlog, total_cons, hre, hok.accts.receiptAddr]
        have hfr := hok.accts.receiptFresh
        rw [hok.accts.receiptAddr] at hfr
        by_cases hj : j = i.toNat
        · subst hj
          rw [upd_same, hrc, hfr]; simp [claimOf]
        · rw [upd_ne _ _ (by intro he; injection he with _ he; exact hj he), hrc]
          have : i.toNat ≠ j := fun h => hj h.symm
          simp [claimOf, this]
    · have hcd := ih.some hok.accts.campaign
      have hcamp : w'.mi.campaigns c.campaign = some cd := by rw [hok.result]; exact hok.accts.campaign
      refine ⟨?_, fun i => ?_⟩
      · rw [hcamp]; exact .ofClawback hok hcd
      · rw [hok.result]; simp only [total_cons, claimOf, Nat.zero_add]; exact hrc i

theorem Reachable.campaignOK {rt : Runtime} {w : World} (h : Reachable rt w) {x : Addr} {cd : Campaign}
    (hx : w.mi.campaigns x = some cd) : CampaignOK rt w.now w.log x cd := h.campaignsOK.some hx

/-! ## Evolution of a campaign -/

theorem Did.campaign_evolves {rt : Runtime} {w w' : World} {ix : Ix} (h : Did rt w ix w') {x : Addr}
    {cd : Campaign} (hx : w.mi.campaigns x = some cd) :
    (ix.claimsFrom ≠ some x ∧ w'.mi.campaigns x = some cd) ∨
    (ix.claimsFrom = some x ∧ w'.mi.campaigns x = some (cd.claim w.now)) := by
  rcases h.campaign_cases x with ⟨hq, hs⟩ | ⟨c, p, dm, b, l, rfl, hs64, he64, _, hok⟩ |
      ⟨c, index, amount, proof, cd', dm, b₁, b₂, l, rfl, ⟨i, a, rfl, _, _⟩, hok⟩ |
      ⟨c, amount, cd', dm, b₁, b₂, l, rfl, ⟨a, rfl, _⟩, hok⟩
  · left; exact ⟨hs.c, by rw [hq.data]; exact hx⟩
  · rw [hok.fresh] at hx; cases hx
  · right
    have := hok.accts.campaign; rw [hx] at this; cases this
    exact ⟨rfl, by rw [hok.result]; simp⟩
  · left; exact ⟨nofun, by rw [hok.result]; exact hx⟩

theorem Steps.campaign {rt : Runtime} {w w' : World} (h : Steps rt w w') {x : Addr}
    {cd : Campaign} (hx : w.mi.campaigns x = some cd) :
    ∃ t, w'.mi.campaigns x = some { cd with firstClaimTime := t } ∧ (cd.firstClaimTime ≠ 0 → t = cd.firstClaimTime) := by
  induction h with
  | refl => exact ⟨_, hx, fun _ => rfl⟩
  | tail ix _ hs ih =>
    obtain ⟨t, h1, h2⟩ := ih
    rcases (step_did hs).campaign_evolves h1 with ⟨_, h3⟩ | ⟨_, h3⟩
    · exact ⟨t, h3, h2⟩
    · rw [Campaign.claim_eq] at h3
      refine ⟨_, h3, fun hne => ?_⟩
      rw [Campaign.claim_first]
      simp only
      rw [h2 hne, if_neg hne]

/-! ## The campaign vault -/

structure CVaultOK (b : Bank) (x : Addr) (cd : Campaign) (md : MintData) (t : TokenData) : Prop where
  mint : b.mints cd.airdropTokenMint = some md
  vault : b.tokens (.ata x md.program cd.airdropTokenMint) = some t
  owner : t.owner = x
  tmint : t.mint = cd.airdropTokenMint
  prog : t.program = md.program

/-- One step on an existing campaign vault: it stays, and what it lost is accounted for by claims and clawbacks. -/
theorem CVaultOK.step {rt : Runtime} {w w' : World} {ix : Ix} (hr : Reachable rt w) (hd : Did rt w ix w') {x : Addr}
    {cd : Campaign} {md : MintData} {t : TokenData} (hx : w.mi.campaigns x = some cd) (h : CVaultOK w.bank x cd md t) :
    ∃ md' t', MintKept md md' ∧ (∀ cd', cd'.airdropTokenMint = cd.airdropTokenMint → CVaultOK w'.bank x cd' md' t') ∧
      (md.permanentDelegate = none →
        t.amount + total (claimedFrom x) w.log + total (clawedFrom x) w.log ≤
          t'.amount + total (claimedFrom x) w'.log + total (clawedFrom x) w'.log) := by
  have hok := hr.campaignOK hx
  have hxs : x.canSign = false := by rw [hok.addr]; rfl
  obtain ⟨md', hm', hk⟩ := hd.mint h.mint
  have mk : ∀ t', w'.bank.tokens (.ata x md.program cd.airdropTokenMint) = some t' → TokKept t t' →
      ∀ cd' : Campaign, cd'.airdropTokenMint = cd.airdropTokenMint → CVaultOK w'.bank x cd' md' t' := by
    intro t' h1 h2 cd' hc
    exact ⟨by rw [hc]; exact hm', by rw [hc, hk.1]; exact h1, by rw [h2.2.2, h.owner], by rw [h2.2.1, h.tmint, hc],
      by rw [h2.1, h.prog, hk.1]⟩
  -- a payout of `amt` recorded in the history
  have pay : ∀ {s d y m tp amt}, Payout w.bank w'.bank s d y m tp amt →
      (y = x → total (claimedFrom x) w.log + total (clawedFrom x) w.log + amt ≤
        total (claimedFrom x) w'.log + total (clawedFrom x) w'.log) →
      total (claimedFrom x) w.log + total (clawedFrom x) w.log ≤
        total (claimedFrom x) w'.log + total (clawedFrom x) w'.log →
      ∃ md' t', MintKept md md' ∧ (∀ cd', cd'.airdropTokenMint = cd.airdropTokenMint → CVaultOK w'.bank x cd' md' t') ∧
      (md.permanentDelegate = none →
        t.amount + total (claimedFrom x) w.log + total (clawedFrom x) w.log ≤
          t'.amount + total (claimedFrom x) w'.log + total (clawedFrom x) w'.log) := by
    intro s d y m tp amt hp hrec hmono
    by_cases hsrc : Addr.ata x md.program cd.airdropTokenMint = s
    · have hxy : x = y := by have := hp.srcAddr; rw [← hsrc] at this; injection this
      obtain ⟨t₀, t', h1, _, _, _, _, h6, h7, h8⟩ := hp.src
      rw [← hsrc, h.vault] at h1
      injection h1 with h1; subst h1
      refine ⟨md', t', hk, mk t' (by rw [hsrc]; exact h6) h7, fun _ => ?_⟩
      have := hrec hxy.symm
      split at h8 <;> omega
    · obtain ⟨t', h1, h2⟩ := hp.other h.vault hsrc
      refine ⟨md', t', hk, mk t' h1 h2.kept, fun _ => ?_⟩
      have := h2.2.2.2
      omega
  rcases hd.campaign_cases x with ⟨hq, hs⟩ | ⟨c, p, dm, b, l, rfl, hs64, he64, _, hok⟩ |
      ⟨c, index, amount, proof, cd', dm, b₁, b₂, l, rfl, _, hok⟩ |
      ⟨c, amount, cd', dm, b₁, b₂, l, rfl, _, hok⟩
  · have e1 := hq.total claimedFrom_quiet
    have e2 := hq.total clawedFrom_quiet
    rcases hd.bank with hb | ⟨s, d, y, m, tp, amt, hp, hwho⟩
    · obtain ⟨t', h1, h2, h3⟩ := hb.account h.vault (by rw [h.owner]; exact hxs)
      refine ⟨md', t', hk, mk t' h1 h2, fun hpd => ?_⟩
      have := h3 ⟨md, by rw [h.tmint]; exact h.mint, hpd⟩
      omega
    · refine pay hp ?_ (by omega)
      rintro rfl
      rcases hwho with ⟨_, m', hm'⟩ | ⟨h | h, _⟩
      · have := hok.addr; rw [hm'] at this; cases this
      · exact absurd h hs.c
      · exact absurd h hs.b
  · rw [hok.fresh] at hx; cases hx
  · have hlog : w'.log = ⟨w.now, .claim amount c.campaign c.claimer c.claimReceipt 0 index c.recipient⟩ :: w.log := by
      rw [hok.result]
    refine pay hok.payout (fun _ => ?_) ?_ <;> rw [hlog, total_cons, total_cons] <;> simp [claimedFrom, clawedFrom] <;> omega
  · have hlog : w'.log = ⟨w.now, .clawback amount c.campaign c.campaignCreator c.clawbackRecipient⟩ :: w.log := by
      rw [hok.result]
    refine pay hok.payout (fun _ => ?_) ?_ <;> rw [hlog, total_cons, total_cons] <;> simp [claimedFrom, clawedFrom] <;> omega

theorem Reachable.cvaultOK {rt : Runtime} {w : World} (h : Reachable rt w) :
    ∀ x cd, w.mi.campaigns x = some cd → ∃ md t, CVaultOK w.bank x cd md t := by
  refine h.induct (P := fun w => ∀ x cd, w.mi.campaigns x = some cd → ∃ md t, CVaultOK w.bank x cd md t) ?_ ?_
  · intro w hg x cd hx; rw [hg.no_campaigns] at hx; cases hx
  · intro w ix w' hr ih hd x cd' hx'
    cases hc : w.mi.campaigns x with
    | some cd =>
      obtain ⟨md, t, hv⟩ := ih x cd hc
      obtain ⟨md', t', _, h1, _⟩ := hv.step hr hd hc
      refine ⟨md', t', h1 cd' ?_⟩
      rcases hd.campaign_evolves hc with ⟨_, h3⟩ | ⟨_, h3⟩
      · rw [h3] at hx'; cases hx'; rfl
      · rw [h3] at hx'; cases hx'; rw [Campaign.claim_eq]
    | none =>
      rcases hd.campaign_cases x with ⟨hq, hs⟩ | ⟨c, p, dm, b, l, rfl, hs64, he64, _, hok⟩ |
        ⟨c, index, amount, proof, cd', dm, b₁, b₂, l, rfl, _, hok⟩ |
        ⟨c, amount, cd', dm, b₁, b₂, l, rfl, _, hok⟩
      · rw [hq.data, hc] at hx'; cases hx'
      · have hb : w'.bank = b := by rw [hok.result]
        rw [hok.result] at hx'
        simp only [upd_same, Option.some.injEq] at hx'
        subst hx'
        obtain ⟨_, _, _, rfl⟩ := openAccount_ok hok.openVault
        refine ⟨dm, ⟨c.airdropTokenProgram, c.airdropTokenMint, c.campaign, 0, w.bank.opensFrozen c.airdropTokenMint⟩, ?_, ?_, rfl, rfl, hok.program.symm⟩
        · rw [hb]; exact hok.mint
        · rw [hb, hok.program]
          simp only [Campaign.create]
          rw [← hok.vaultAddr]; simp
      · have := hok.accts.campaign; rw [hc] at this; cases this
      · have := hok.accts.campaign; rw [hc] at this; cases this

end Solsab
