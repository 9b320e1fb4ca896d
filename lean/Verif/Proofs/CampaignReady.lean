import Verif.Proofs.CampaignInv
import Verif.Proofs.CreateReady
import Verif.Proofs.ConfigInv
import Verif.Proofs.Ext
import Verif.Spec.Campaign
import Verif.Spec.Treasury
import Verif.Spec.Terms
/-!
# Claims and clawbacks with the right accounts
-/

namespace Solsab

open Spec Merkle

theorem ClaimedIn_iff {x : Addr} {i : Nat} {log : List LogEntry} :
    ClaimedIn log x i ↔ 0 < total (claimOf x i) log := by
  induction log with
  | nil => simp [ClaimedIn, total_nil]
  | cons e log ih =>
    rw [total_cons]
    constructor
    · rintro ⟨e', he, a, cl, rc, f, r, h⟩
      rcases List.mem_cons.1 he with rfl | he
      · rw [h]; simp [claimOf]
      · have := ih.1 ⟨e', he, a, cl, rc, f, r, h⟩; omega
    · intro h
      by_cases h0 : 0 < total (claimOf x i) log
      · obtain ⟨e', he, h'⟩ := ih.2 h0
        exact ⟨e', List.mem_cons_of_mem _ he, h'⟩
      · refine ⟨e, List.mem_cons_self, ?_⟩
        have : 0 < claimOf x i e.event := by omega
        revert this
        cases e.event with
        | claim a c cl rc f j r =>
          simp only [claimOf]
          split
          · rename_i hc; obtain ⟨rfl, rfl⟩ := hc; intro _; exact ⟨_, _, _, _, _, rfl⟩
          · intro h; cases h
        | _ => intro h; cases h

theorem Spec.ReachablePos.first {rt : Runtime} {w : World} (h : ReachablePos rt w) {x : Addr} {cd : Campaign}
    (hx : w.mi.campaigns x = some cd) : cd.firstClaimTime = (firstClaim x w.log).getD 0 := by
  obtain ⟨w₀, h1, h2, h3⟩ := h
  have hr : Reachable rt w := ⟨w₀, h1, h3⟩
  exact (hr.campaignOK hx).first fun e he _ => h3.log_pos h1 h2 e he

theorem firstClaim_mem {x : Addr} {log : List LogEntry} {t : Nat} (h : firstClaim x log = some t) :
    ∃ e ∈ log, claimAt x e.event = 1 ∧ e.time = t := by
  induction log with
  | nil => cases h
  | cons e log ih =>
    unfold firstClaim at h
    cases hf : firstClaim x log with
    | some t' =>
      rw [hf] at h; cases h
      obtain ⟨e', h1, h2⟩ := ih hf
      exact ⟨e', List.mem_cons_of_mem _ h1, h2⟩
    | none =>
      rw [hf] at h
      simp only at h
      split at h
      · rename_i h1; cases h; exact ⟨e, List.mem_cons_self, h1, rfl⟩
      · cases h

theorem Spec.ReachablePos.first_pos {rt : Runtime} {w : World} (h : ReachablePos rt w) {x : Addr} {t : Nat}
    (hx : firstClaim x w.log = some t) : 0 < t := by
  obtain ⟨w₀, h1, h2, h3⟩ := h
  obtain ⟨e, he, _, rfl⟩ := firstClaim_mem hx
  exact h3.log_pos h1 h2 e he

theorem Spec.ReachablePos.steps {rt : Runtime} {w w' : World} (h : ReachablePos rt w) (hs : Steps rt w w') :
    ReachablePos rt w' := by
  obtain ⟨w₀, h1, h2, h3⟩ := h
  exact ⟨w₀, h1, h2, h3.trans hs⟩

/-- The time check of a clawback, in reachable states. -/
theorem checkClawback_eq {rt : Runtime} {w : World} (hr : Reachable rt w) {x : Addr} {cd : Campaign}
    (hx : w.mi.campaigns x = some cd) :
    checkClawback w.now cd.expirationTime cd.firstClaimTime =
      if 0 < cd.firstClaimTime ∧ cd.firstClaimTime + sevenDays < w.now ∧ ¬ Expired w.now cd.expirationTime
      then .error (.merkle .clawbackNotAllowed) else .ok () := by
  have hok := hr.campaignOK hx
  unfold checkClawback
  rw [hasGrace_ok hok.first_le (now_lt63 hr.clockOk), ok_bind]
  have hg : GRACE_PERIOD = sevenDays := rfl
  rw [hg]
  have h2 : hasExpired w.now cd.expirationTime = true ↔ Expired w.now cd.expirationTime := by
    unfold hasExpired Expired
    simp only [Bool.and_eq_true, decide_eq_true_eq]
    omega
  by_cases h1 : 0 < cd.firstClaimTime ∧ cd.firstClaimTime + sevenDays < w.now
  · by_cases h3 : Expired w.now cd.expirationTime
    · rw [h2.2 h3, if_neg (by simp), if_neg (by simp [h3])]
    · have : hasExpired w.now cd.expirationTime = false := by
        rw [← Bool.not_eq_true, h2]; exact h3
      rw [this, if_pos (by simp [h1]), if_pos ⟨h1.1, h1.2, h3⟩]
  · rw [if_neg (by simp [h1]), if_neg (fun h => h1 ⟨h.1, h.2.1⟩)]

theorem blocked_iff {rt : Runtime} {w : World} (hr : ReachablePos rt w) {x : Addr} {cd : Campaign}
    (hx : w.mi.campaigns x = some cd) :
    (0 < cd.firstClaimTime ∧ cd.firstClaimTime + sevenDays < w.now ∧ ¬ Expired w.now cd.expirationTime) ↔
      ClawbackBlocked w.log x w.now cd.expirationTime := by
  have hf := hr.first hx
  unfold ClawbackBlocked
  cases hc : firstClaim x w.log with
  | none => rw [hc] at hf; simp at hf; simp [hf]
  | some t =>
    rw [hc] at hf
    simp only [Option.getD_some] at hf
    have := hr.first_pos hc
    rw [hf]
    constructor
    · rintro ⟨_, h2, h3⟩; exact ⟨t, rfl, h2, h3⟩
    · rintro ⟨t', ht, h2, h3⟩; cases ht; exact ⟨this, h2, h3⟩

theorem payRent_need {rt : Runtime} {w w' : World} {p a : Addr} {k : Nat} (h : w.payRent rt p a k = .ok w') :
    w.lamports p ≤ w'.lamports p + max (rt.rent k) 1 := by
  simp only [World.payRent, bind_ok, require_ok, pure_ok] at h
  obtain ⟨_, h1, rfl⟩ := h
  by_cases hp : p = a
  · subst hp; simp only [upd_same]; omega
  · simp only [upd_ne _ _ hp, upd_same]; omega

theorem ensureAta_need {rt : Runtime} {w w' : World} {p a o m : Addr} {tp : TokenProgram}
    (h : w.ensureAta rt p a o tp m = .ok w') :
    w.lamports p ≤ w'.lamports p + max (rt.rent (World.tokenSpace rt m tp)) 1 := by
  unfold World.ensureAta at h
  cases hx : w.bank.tokens a with
  | none =>
    rw [hx] at h
    simp only [World.createAta, bind_ok, require_ok, pure_ok] at h
    obtain ⟨_, _, b, _, h4⟩ := h
    exact payRent_need (w := { w with bank := b }) h4
  | some t =>
    rw [hx] at h
    simp only [bind_ok, require_ok, pure_ok] at h
    obtain ⟨_, _, _, _, _, _, rfl⟩ := h
    omega

theorem Spec.ClaimReady.accounts {rt : Runtime} {w : World} (hr : Reachable rt w) {c : ClaimAccts} {x : Addr}
    {cd : Campaign} {md : MintData} {i : Nat} (h : ClaimReady rt w c x cd md i)
    (hfresh : w.mi.receipts (.claimReceipt x i) = false) (hfund : claimRent rt cd.airdropTokenMint md.program ≤ w.lamports c.claimer) :
    ∃ w₁, claimAccounts rt w c i = .ok (w₁, cd, md) := by
  have hb := hr.bankInv
  obtain ⟨md', t, hv⟩ := hr.cvaultOK _ _ h.campaign
  have hmd : md' = md := by have := hv.mint; rw [h.mint] at this; cases this; rfl
  subst hmd
  obtain ⟨tr, ht1, ht2, ht3⟩ := h.treasury
  obtain ⟨w₁, hw₁⟩ := ensureAta_of hb (p := c.claimer) (a := c.recipientAta) (o := c.recipient) h.mint rfl h.a6 h.usable
  have hneed := ensureAta_need hw₁
  obtain ⟨b₁, l₁, _, _, rfl⟩ := ensureAta_ok hw₁
  have hf : CanFund rt { w with bank := b₁, lamports := l₁ } c.claimer c.claimReceipt claimReceiptSpace := by
    unfold CanFund claimRent claimReceiptSpace at *
    simp only at *
    omega
  obtain ⟨l₂, hl₂⟩ := payRent_of hf
  unfold claimAccounts
  rw [req_bind h.signer, loadTreasury_ok.2 ⟨ht1, h.a1, by rw [h.a1]; exact hr.miTreasury_bump _ ht1⟩, ok_bind, h.a2,
    fetch_bind h.campaign, req_bind h.a3, h.a3, fetch_bind h.mint, h.a4,
    checkAta_of hb (a := c.campaignAta) (o := x) (m := cd.airdropTokenMint) h.a5 (by rw [h.a5]; exact hv.vault) hv.owner,
    ok_bind, req_bind ht2, req_bind ht3, hw₁, ok_bind, req_bind h.a7]
  simp only
  rw [req_bind (by rw [h.a7]; exact hfresh), hl₂, ok_bind]
  exact ⟨_, rfl⟩

theorem Spec.ClawbackReady.accounts {rt : Runtime} {w : World} (hr : Reachable rt w) {c : ClawbackAccts} {x : Addr}
    {cd : Campaign} {md : MintData} (h : ClawbackReady rt w c x cd md) :
    ∃ w₁, clawbackAccounts rt w c = .ok (w₁, cd, md) ∧ ∃ b l,
      w.bank.Ensure c.clawbackRecipientAta c.clawbackRecipient md.program cd.airdropTokenMint b ∧
      w₁ = { w with bank := b, lamports := l } := by
  have hb := hr.bankInv
  obtain ⟨md', t, hv⟩ := hr.cvaultOK _ _ h.campaign
  have hmd : md' = md := by have := hv.mint; rw [h.mint] at this; cases this; rfl
  subst hmd
  obtain ⟨w₁, hw₁⟩ := ensureAta_of hb (p := c.campaignCreator) (a := c.clawbackRecipientAta) (o := c.clawbackRecipient)
    h.mint rfl h.a6 h.usable
  refine ⟨w₁, ?_, ?_⟩
  · unfold clawbackAccounts
    rw [req_bind (by rw [h.creator]; exact (hr.campaignOK h.campaign).creator), h.a2,
      fetch_bind h.campaign, req_bind h.creator, req_bind h.a3, h.a3, fetch_bind h.mint, h.a4,
      checkAta_of hb (a := c.campaignAta) (o := x) (m := cd.airdropTokenMint) h.a5 (by rw [h.a5]; exact hv.vault) hv.owner,
      ok_bind, hw₁, ok_bind]
    rfl
  · obtain ⟨b₁, l₁, h1, _, rfl⟩ := ensureAta_ok hw₁
    exact ⟨b₁, l₁, h1, rfl⟩

end Solsab
