import Mathlib.Tactic.Ring
import Verif.Spec.Lamports
import Verif.Props.Treasury
/-!
# Lamport flows
-/

namespace Solsab

open Spec Props

theorem Spec.RentFlow.append {rt : Runtime} {p : Addr} {xs ys : List (Addr × Nat)} {l₁ l₂ l₃ : Addr → Nat}
    (h : RentFlow rt p xs l₁ l₂) (h' : RentFlow rt p ys l₂ l₃) : RentFlow rt p (xs ++ ys) l₁ l₃ := by
  induction h with
  | nil l => exact h'
  | cons ac af _ ih => exact .cons ac af (ih h')

theorem moved_zero (l : Addr → Nat) (a b : Addr) : moved l a b 0 = l := by
  unfold moved
  split
  · rfl
  · funext y
    simp only [Nat.sub_zero, Nat.add_zero]
    split
    · rename_i h; rw [h]
    · split
      · rename_i h; rw [h]
      · rfl

theorem payRent_flow {rt : Runtime} {w w' : World} {p a : Addr} {k : Nat} (h : w.payRent rt p a k = .ok w')
    (hc : charge rt a = 0) :
    RentFlow rt p [(a, k)] w.lamports w'.lamports ∧ w' = { w with lamports := rentPaid rt w.lamports p a k } := by
  have e := payRent_lam h
  simp only [World.payRent, bind_ok, require_ok, pure_ok] at h
  obtain ⟨_, h1, _⟩ := h
  refine ⟨.cons ?_ ?_ ?_, e⟩
  · rw [hc]; exact Nat.zero_le _
  · rw [hc, moved_zero]; exact h1
  · rw [hc, moved_zero, e]; exact .nil _

theorem payMetaplex_flow {rt : Runtime} {w w' : World} {p m : Addr} (h : Lockup.payMetaplex rt w p m = .ok w') :
    RentFlow rt p (nftAccounts rt m) w.lamports w'.lamports := by
  simp only [Lockup.payMetaplex, bind_ok] at h
  obtain ⟨w₁, h1, w₂, h2, h3⟩ := h
  simp only [World.systemTransfer, bind_ok, require_ok, pure_ok] at h1
  obtain ⟨_, h1, rfl⟩ := h1
  rw [moved_eq h1] at h2
  have e := payRent_lam h2
  have h2' := h2
  simp only [World.payRent, bind_ok, require_ok, pure_ok] at h2'
  obtain ⟨_, h4, _⟩ := h2'
  refine .cons h1 h4 ?_
  have := (payRent_flow h3 rfl).1
  rw [e] at this
  exact this

theorem tokenSize_eq (rt : Runtime) (m : Addr) (tp : TokenProgram) : World.tokenSpace rt m tp = tokenSize rt m tp := by
  cases tp
  · rfl
  · cases m <;> rfl

theorem createAta_flow {rt : Runtime} {w w' : World} {p a o m : Addr} {tp : TokenProgram}
    (h : w.createAta rt p a o tp m = .ok w') : RentFlow rt p [(a, tokenSize rt m tp)] w.lamports w'.lamports ∧
      a = .ata o tp m := by
  simp only [World.createAta, bind_ok, require_ok, pure_ok] at h
  obtain ⟨_, ha, b, _, h4⟩ := h
  rw [← tokenSize_eq]
  exact ⟨(payRent_flow h4 (by rw [ha]; rfl)).1, ha⟩

theorem ensureAta_flow {rt : Runtime} {w w' : World} {p a o m : Addr} {tp : TokenProgram}
    (h : w.ensureAta rt p a o tp m = .ok w') : RentFlow rt p (absent rt w a tp m) w.lamports w'.lamports := by
  unfold World.ensureAta at h
  unfold absent
  cases hx : w.bank.tokens a with
  | none =>
    rw [hx] at h
    rw [if_pos rfl]
    exact (createAta_flow h).1
  | some t =>
    rw [hx] at h
    simp only [bind_ok, require_ok, pure_ok] at h
    obtain ⟨_, _, _, _, _, _, rfl⟩ := h
    rw [if_neg (by simp)]
    exact .nil _

theorem Spec.SameTotal.refl (l : Addr → Nat) : SameTotal l l := ⟨∅, fun _ _ => rfl, rfl⟩

theorem Spec.SameTotal.trans {l₁ l₂ l₃ : Addr → Nat} (h : SameTotal l₁ l₂) (h' : SameTotal l₂ l₃) :
    SameTotal l₁ l₃ := by
  obtain ⟨S, hS, eS⟩ := h
  obtain ⟨T, hT, eT⟩ := h'
  have key : ∀ {l l' : Addr → Nat} {S : Finset Addr} (T : Finset Addr), (∀ a, a ∉ S → l' a = l a) →
      S.sum l' = S.sum l → (S ∪ T).sum l' = (S ∪ T).sum l := by
    intro l l' S T h1 h2
    rw [← Finset.union_sdiff_self_eq_union, Finset.sum_union Finset.disjoint_sdiff,
      Finset.sum_union Finset.disjoint_sdiff, h2]
    congr 1
    exact Finset.sum_congr rfl fun a ha => h1 a (Finset.mem_sdiff.1 ha).2
  refine ⟨S ∪ T, fun a ha => ?_, ?_⟩
  · rw [Finset.mem_union, not_or] at ha
    rw [hT a ha.2, hS a ha.1]
  · rw [← key T hS eS, Finset.union_comm, key S hT eT]

theorem moved_total {l : Addr → Nat} {a b : Addr} {x : Nat} (h : x ≤ l a) : SameTotal l (moved l a b x) := by
  by_cases hab : a = b
  · refine ⟨∅, fun y _ => ?_, rfl⟩
    rw [moved, if_pos hab]
  · refine ⟨{a, b}, fun y hy => ?_, ?_⟩
    · simp only [Finset.mem_insert, Finset.mem_singleton, not_or] at hy
      rw [moved, if_neg hab, if_neg hy.1, if_neg hy.2]
    · rw [Finset.sum_pair hab, Finset.sum_pair hab]
      simp only [moved, if_neg hab, if_pos, if_neg (Ne.symm hab)]
      omega

theorem Spec.RentFlow.total {rt : Runtime} {p : Addr} {xs : List (Addr × Nat)} {l l' : Addr → Nat}
    (h : RentFlow rt p xs l l') : SameTotal l l' := by
  induction h with
  | nil l => exact .refl l
  | cons ac af _ ih => exact ((moved_total ac).trans (moved_total af)).trans ih

theorem Spec.RentFlow.le {rt : Runtime} {p : Addr} {xs : List (Addr × Nat)} {l l' : Addr → Nat}
    (h : RentFlow rt p xs l l') {a : Addr} (ha : a ≠ p) : l a ≤ l' a := by
  induction h with
  | nil l => exact Nat.le_refl _
  | cons ac af _ ih =>
    refine Nat.le_trans ?_ ih
    have key : ∀ (l : Addr → Nat) (b : Addr) (x : Nat), l a ≤ moved l p b x a := by
      intro l b x
      unfold moved
      simp only [if_neg ha]
      split
      · exact Nat.le_refl _
      · split <;> omega
    exact Nat.le_trans (key _ _ _) (key _ _ _)

/-- Accounts not in the list keep their lamports. -/
theorem Spec.RentFlow.other {rt : Runtime} {p : Addr} {xs : List (Addr × Nat)} {l l' : Addr → Nat}
    (h : RentFlow rt p xs l l') {a : Addr} (ha : a ≠ p) (hx : ∀ k, (a, k) ∉ xs) : l' a = l a := by
  induction h with
  | nil l => rfl
  | @cons b k xs l l' ac af _ ih =>
    rw [ih fun k' h' => hx k' (List.mem_cons_of_mem _ h')]
    have hb : a ≠ b := by
      rintro rfl
      exact hx k (List.mem_cons_self ..)
    have key : ∀ (l : Addr → Nat) (x : Nat), moved l p b x a = l a := by
      intro l x
      unfold moved
      simp only [if_neg ha, if_neg hb, ite_self]
    exact (key _ _).trans (key _ _)

/-- Accounts in the list end rent exempt. -/
theorem Spec.RentFlow.paid {rt : Runtime} {p : Addr} {xs : List (Addr × Nat)} {l l' : Addr → Nat}
    (h : RentFlow rt p xs l l') {a : Addr} {k : Nat} (ha : a ≠ p) (hx : (a, k) ∈ xs) : rt.rent k ≤ l' a := by
  induction h with
  | nil l => cases hx
  | @cons b k' xs l l' ac af rest ih =>
    rcases List.mem_cons.1 hx with h | h
    · cases h
      refine Nat.le_trans ?_ (rest.le ha)
      exact rentPaid_self (Ne.symm ha)
    · exact ih h

theorem step_flow {rt : Runtime} {w w' : World} {ix : Ix} {p : Addr} (hp : ix.payer = some p)
    (hc : ix.collects = none) (hs : step rt w ix = .ok w') :
    p.canSign = true ∧ RentFlow rt p (opens rt w ix) w.lamports w'.lamports := by
  have hz : Lockup.WITHDRAWAL_FEE_USD = 0 := rfl
  have hz' : Merkle.CLAIM_FEE_USD = 0 := rfl
  have wd : ∀ {c : Lockup.WithdrawAccts} {w₁ sd dm a}, Lockup.withdrawAccounts rt w c = .ok (w₁, sd, dm) →
      Lockup.withdrawHandler w₁ c sd dm a = .ok w' →
      c.signer.canSign = true ∧
      RentFlow rt c.signer (absent rt w c.withdrawalRecipientAta c.depositedTokenProgram c.depositedTokenMint) w.lamports w'.lamports := by
    intro c w₁ sd dm a h1 h2
    simp only [Lockup.withdrawAccounts, bind_ok, pure_ok, Prod.mk.injEq, require_ok] at h1
    obtain ⟨_, hsg, _, _, _, _, _, _, _, _, _, _, _, _, _, _, _, _, _, _, _, _, w₂, he, rfl, _, _⟩ := h1
    simp only [Lockup.withdrawHandler, hz, chargeFee_zero, ok_bind, bind_ok, pure_ok] at h2
    obtain ⟨_, _, _, _, _, _, w₃, h3, rfl⟩ := h2
    refine ⟨hsg, ?_⟩
    show RentFlow _ _ _ _ w₃.lamports
    rw [transferTokens_lam h3]
    exact ensureAta_flow he
  have cr : ∀ {c : Lockup.CreateAccts} {q : Lockup.CreateParams}, Lockup.createWithTimestamps rt w c q = .ok w' →
      c.creator.canSign = true ∧ RentFlow rt c.creator
      [(.streamNftMint c.sender q.salt, 82),
       (.ata c.recipient c.nftTokenProgram (.streamNftMint c.sender q.salt),
         tokenSize rt (.streamNftMint c.sender q.salt) c.nftTokenProgram),
       (streamAddr c.sender q.salt, 156),
       (.ata (streamAddr c.sender q.salt) c.depositTokenProgram c.depositTokenMint,
         tokenSize rt c.depositTokenMint c.depositTokenProgram),
       (.metadata (.streamNftMint c.sender q.salt), rt.metadataSpace),
       (.edition (.streamNftMint c.sender q.salt), rt.editionSpace)] w.lamports w'.lamports := by
    intro c q h
    simp only [Lockup.createWithTimestamps, Lockup.nftCreateStream, bind_ok, require_ok, fetch_ok,
      pure_ok, checkAta_ok, addU64_ok] at h
    obtain ⟨_, hsg, ta, ⟨t1, t2, t3, t4⟩, _, h1, nd, h2, _, h3, _, h4, _, _, dm, h5, _, h6, _, h7, b₁, hb₁, w₁,
      hw₁, w₂, hw₂, _, h8, _, h9, w₃, hw₃, w₄, hw₄, _, hck, w₅, ⟨name, hname, b₄, hb₄, w₆, hw₆, hw₇⟩, nd',
      _, w₈, hw₈, rfl⟩ := h
    obtain ⟨f1, e1⟩ := payRent_flow hw₁ (by rw [h7]; rfl)
    obtain ⟨f2, e2⟩ := createAta_flow hw₂
    obtain ⟨f3, e3⟩ := payRent_flow hw₃ (by rw [h8]; rfl)
    obtain ⟨f4, e4⟩ := createAta_flow hw₄
    obtain ⟨hm, _, md, hmd, _, _, _, l₅, hp₅, _, rfl⟩ := Lockup.metaplexCreate_ok hw₆
    have f5 := payMetaplex_flow hp₅
    obtain ⟨im, cm, k, him, hcm, hk, rfl⟩ := Lockup.metaplexVerifyItem_ok hw₇
    refine ⟨hsg, ?_⟩
    show RentFlow _ _ _ _ w₈.lamports
    rw [transferTokens_lam hw₈]
    rw [h8, h7] at f3 e4
    rw [e4] at f4
    rw [h7] at e2 f1 f2 f5
    rw [e2] at f2
    exact (((f1.append f2).append f3).append f4).append f5
  cases ix with
  | env i => cases hp
  | lockup i =>
    cases i with
    | «initialize» c f o s =>
      cases hp
      have h : Lockup.initializeProgram rt w c f o s = .ok w' := hs
      simp only [Lockup.initializeProgram, Lockup.nftInitializeCollection, bind_ok, require_ok] at h
      obtain ⟨_, hsg, _, h1, _, h2, w₁, hw₁, _, h3, _, h4, w₂, hw₂, _, h5, b₁, hb₁, w₃, hw₃, w₄, hw₄, b₃, hb₃,
        w₅, hw₅, hw₆⟩ := h
      obtain ⟨f1, _⟩ := payRent_flow hw₁ (by rw [h1]; rfl)
      obtain ⟨f2, _⟩ := payRent_flow hw₂ (by rw [h3]; rfl)
      obtain ⟨f3, _⟩ := payRent_flow hw₃ (by rw [h5]; rfl)
      obtain ⟨f4, e4⟩ := createAta_flow hw₄
      obtain ⟨hm, md, hmd, l₅, hp₅, _, rfl⟩ := Lockup.metaplexCollection_ok hw₅ hw₆
      have f5 := payMetaplex_flow hp₅
      rw [h5] at f5
      rw [e4, h1, h5] at f4
      rw [h5] at f3
      rw [h3] at f2
      rw [h1] at f1
      exact ⟨hsg, (((f1.append f2).append f3).append f4).append f5⟩
    | createWithTimestamps c salt dep st cl en su cu ca => cases hp; exact cr hs
    | createWithDurations c salt dep cd td su cu ca =>
      cases hp
      obtain ⟨h1, h2, h⟩ := Lockup.createWithDurations_eq hs
      exact cr h
    | withdraw c a =>
      cases hp
      obtain ⟨⟨w₁, sd, dm⟩, h1, h2⟩ := bind_ok.1 hs
      exact wd h1 h2
    | withdrawMax c =>
      cases hp
      obtain ⟨⟨w₁, sd, dm⟩, h1, h2⟩ := bind_ok.1 hs
      obtain ⟨a, _, h3⟩ := bind_ok.1 h2
      exact wd h1 h3
    | cancel c =>
      cases hp
      obtain ⟨⟨w₁, sd, dm⟩, h1, h2⟩ := bind_ok.1 hs
      simp only [Lockup.cancelAccounts, bind_ok, pure_ok, Prod.mk.injEq, require_ok] at h1
      obtain ⟨_, hsg, _, _, _, _, _, _, _, _, _, _, w₂, he, rfl, _, _⟩ := h1
      simp only [Lockup.cancelHandler, bind_ok, pure_ok] at h2
      obtain ⟨_, _, _, _, _, _, _, _, w₃, h3, rfl⟩ := h2
      refine ⟨hsg, ?_⟩
      show RentFlow _ _ _ _ w₃.lamports
      rw [transferTokens_lam h3]
      exact ensureAta_flow he
    | renounce c =>
      cases hp
      obtain ⟨_, _, h⟩ := Lockup.renounce_ok hs
      refine ⟨h.signs, ?_⟩
      rw [h.result]; exact .nil _
    | collectFees c => cases hc
  | merkle i =>
    cases i with
    | «initialize» c f o s =>
      cases hp
      have h : Merkle.initializeProgram rt w c f o s = .ok w' := hs
      simp only [Merkle.initializeProgram, bind_ok, require_ok, pure_ok] at h
      obtain ⟨_, hsg, _, ht, _, hn, w₁, hw, rfl⟩ := h
      rw [ht] at hw
      exact ⟨hsg, (payRent_flow hw rfl).1⟩
    | createCampaign c root st ex name cid agg cnt =>
      cases hp
      have h : Merkle.createCampaign rt w c _ = .ok w' := hs
      simp only [Merkle.createCampaign, bind_ok, require_ok, fetch_ok, pure_ok] at h
      obtain ⟨_, hsg, dm, hdm, _, hpr, _, hn, _, ha, _, hf, w₁, hw₁, w₂, hw₂, _, hfit, rfl⟩ := h
      obtain ⟨f1, _⟩ := payRent_flow hw₁ (by rw [ha]; rfl)
      obtain ⟨f2, e2⟩ := createAta_flow hw₂
      rw [e2, ha] at f2
      rw [ha] at f1
      exact ⟨hsg, f1.append f2⟩
    | claim c i a proof =>
      cases hp
      obtain ⟨⟨w₁, cd, dm⟩, h1, h2⟩ := bind_ok.1 hs
      simp only [Merkle.claimAccounts, bind_ok, pure_ok, Prod.mk.injEq, require_ok] at h1
      obtain ⟨_, hsg, _, _, _, _, _, _, _, _, _, _, _, _, _, _, w₂, he, _, hra, _, _, w₃, h3, rfl, _, _⟩ := h1
      simp only [Merkle.claimHandler, hz', chargeFee_zero, ok_bind, bind_ok, pure_ok, Merkle.campaignTransfer] at h2
      obtain ⟨_, _, w₄, ⟨_, _, h4⟩, rfl⟩ := h2
      refine ⟨hsg, ?_⟩
      show RentFlow _ _ _ _ w₄.lamports
      rw [transferTokens_lam h4]
      rw [hra] at h3
      exact (ensureAta_flow he).append (payRent_flow h3 rfl).1
    | clawback c a =>
      cases hp
      have h : Merkle.clawback rt w c a.toNat = .ok w' := hs
      simp only [Merkle.clawback, Merkle.clawbackAccounts, Merkle.clawbackHandler, bind_ok, require_ok, fetch_ok,
        pure_ok, checkAta_ok, Merkle.campaignTransfer] at h
      obtain ⟨⟨w₁, cd, dm⟩, ⟨_, hsg, cd', hcd, _, hcr, _, hm, dm', hdm, v, _, w₂, he, heq⟩, _, hck,
        w₃, ⟨_, _, hw₃⟩, rfl⟩ := h
      cases heq
      refine ⟨hsg, ?_⟩
      show RentFlow _ _ _ _ w₃.lamports
      rw [transferTokens_lam hw₃]
      exact ensureAta_flow he
    | collectFees c => cases hc

end Solsab
