import Verif.Props.Campaign
import Verif.Proofs.Tree
import Verif.Spec.TreeHistory
/-!
# C42–C44, C55, C59: who can claim what
-/

namespace Solsab.Props

open Spec Demo Merkle

/-! ## The demo airdrop -/

def alloc0 : Allocation := ⟨0, rt.keyBytes bob, 500⟩
def alloc1 : Allocation := ⟨1, rt.keyBytes carol, 300⟩
def demoTree : MTree := .node (.leaf alloc0) (.leaf alloc1)
theorem demoTree_root : demoTree.root rt.keccak = root := by decide +kernel
example : getRoot rt [alloc0, alloc1] = some root ∧ getProof rt [alloc0, alloc1] alloc0 = [leaf1] := by
  constructor
  · unfold getRoot; simp only [List.map, jsRoot, jsLayer]; decide +kernel
  · have : jsPosition (jsLeaf rt alloc0) ([alloc0, alloc1].map (jsLeaf rt)) = some 0 := by decide +kernel
    unfold getProof; rw [this]; simp only [List.map, jsProof, jsLayer]; decide +kernel

instance (k : List UInt8 → Bytes32) (xs ys : List (List UInt8)) : Decidable (CollisionIn k xs ys) :=
  inferInstanceAs (Decidable (∃ x ∈ xs, ∃ y ∈ ys, x ≠ y ∧ k x = k y))

/-! ## C55 -/

/-- **C55**: different allocations have different leaf encodings; all of them have 44 bytes.  (44 is neither 32
nor 64: no leaf encoding is hashed as an inner node or as a first leaf hash.) -/
theorem C55_leaf_encoding (a b : Allocation) : a.encoding.length = 44 ∧ (a.encoding = b.encoding → a = b) :=
  ⟨encoding_length a, encoding_inj⟩

/-- **C55**: the program hashes exactly this encoding. -/
theorem C55_program_leaf (rt : Runtime) (i : UInt32) (r : Addr) (a : UInt64) :
    leafBytes rt i.toNat r a.toNat = (Allocation.mk i (rt.keyBytes r) a).encoding := by
  unfold leafBytes Allocation.encoding
  rw [leBytes_eq, leBytes_eq]

example : alloc0.encoding ≠ alloc1.encoding := fun h => by have := (C55_leaf_encoding _ _).2 h; revert this; decide +kernel

/-! ## C42: completeness -/

/-- **C42**: for a tree of any shape, the sibling hashes of any listed allocation are accepted by the claim
check, for the recipient with that key, at any time inside the window; and every listed allocation has such a
proof. -/
theorem C42_tree {rt : Runtime} {t : MTree} {a : Allocation} (ha : a ∈ t.leaves) :
    ∃ p, t.Proof rt.keccak a p ∧ ∀ p, t.Proof rt.keccak a p →
      ∀ (r : Addr) (now start expiration : Nat), rt.keyBytes r = a.recipient → InWindow now start expiration →
        checkClaim rt now a.amount.toNat start expiration a.index.toNat p (t.root rt.keccak) r = .ok () := by
  obtain ⟨p, hp⟩ := proof_exists rt.keccak ha
  refine ⟨p, hp, fun p hp r now st ex hr hw => ?_⟩
  rw [checkClaim_ok]
  refine ⟨hw.1, hw.2, ?_⟩
  rw [leafHash_eq, hr]
  exact proof_computes hp

example := C42_tree (rt := rt) (t := demoTree) (a := alloc0) (by decide +kernel)

/-- **C42**: for the project's tree builder over any non-empty list of allocations: the root exists, and the
proof it generates for any listed allocation is accepted. -/
theorem C42_builder {rt : Runtime} {l : List Allocation} {a : Allocation} (ha : a ∈ l) :
    ∃ root, getRoot rt l = some root ∧
      ∀ (r : Addr) (now start expiration : Nat), rt.keyBytes r = a.recipient → InWindow now start expiration →
        checkClaim rt now a.amount.toNat start expiration a.index.toNat (getProof rt l a) root r = .ok () := by
  obtain ⟨k, h1, h2⟩ := jsPosition_some (List.mem_map.2 ⟨a, ha, rfl⟩ : jsLeaf rt a ∈ l.map (jsLeaf rt))
  have h3 := jsProof_computes rt _ _ rfl k _ h2
  refine ⟨_, h3, fun r now st ex hr hw => ?_⟩
  rw [checkClaim_ok]
  refine ⟨hw.1, hw.2, ?_⟩
  unfold getProof
  rw [h1, leafHash_eq, hr, jsLeaf_eq]

/-- The builder's root is the root of a tree whose leaves are exactly the given list: everything proved for
trees holds for it. -/
theorem C42_builder_tree {rt : Runtime} {l : List Allocation} (hl : l ≠ []) :
    ∃ t : MTree, t.leaves = l ∧ getRoot rt l = some (t.root rt.keccak) := by
  have hlen : (l.map MTree.leaf).length = (l.length - 1) + 1 := by
    have := List.length_pos_of_ne_nil hl; simp; omega
  obtain ⟨t, h1, h2⟩ := jsRoot_tree rt _ _ hlen
  refine ⟨t, ?_, ?_⟩
  · rw [h2, List.flatMap_map]
    induction l with
    | nil => rfl
    | cons a l ih => 
      simp only [List.flatMap_cons, MTree.leaves]
      rw [show (l.flatMap fun a => [a]) = l from by simp]
      rfl
  · unfold getRoot
    rw [← h1, List.map_map]
    congr 1
    refine List.map_congr_left fun a _ => ?_
    exact jsLeaf_eq rt a

example := C42_builder (rt := rt) (l := [alloc0, alloc1, ⟨7, rt.keyBytes alice, 9⟩]) (a := alloc1) (by decide +kernel)
example := C42_builder_tree (rt := rt) (l := [alloc0, alloc1, ⟨7, rt.keyBytes alice, 9⟩]) (by simp)

/-! ## C43: soundness -/

/-- **C43**: a claim that succeeds against a campaign whose root is the root of `t` is for a listed allocation:
that index, the recipient with exactly that key, that amount.  Otherwise the claim has exhibited a Keccak
collision with one of the strings hashed for the tree. -/
theorem C43_only_listed {rt : Runtime} {w w' : World} {c : ClaimAccts} {i : UInt32} {a : UInt64} {p : List Bytes32}
    (h : step rt w (.merkle (.claim c i a p)) = .ok w') {t : MTree} {cd : Campaign}
    (hc : campaignView w c.campaign = .ok cd) (ht : cd.merkleRoot = t.root rt.keccak) :
    ⟨i, rt.keyBytes c.recipient, a⟩ ∈ t.leaves ∨
    CollisionIn rt.keccak (t.inputs rt.keccak) (checkInputs rt.keccak ⟨i, rt.keyBytes c.recipient, a⟩ p) := by
  obtain ⟨cd', dm, b₁, b₂, l, h1⟩ := claim_step h
  have : cd' = cd := by have := h1.accts.campaign; rw [fetch_ok.1 hc] at this; cases this; rfl
  subst this
  have hp := h1.proof_ok
  rw [leafHash_eq, ht] at hp
  exact computeRoot_sound hp

example := C43_only_listed (w := world2) (c := claimAccts bob 0) (i := 0) (a := 500) (p := [leaf1])
  (step_after (by decide +kernel)) (t := demoTree)
  (cd := ⟨mint, 255, 1500, alice, 800000, 0, [81, 109], root, campaignName⟩) (by decide +kernel)
  (by rw [demoTree_root])
example : ¬ CollisionIn rt.keccak (demoTree.inputs rt.keccak) (checkInputs rt.keccak ⟨0, rt.keyBytes bob, 500⟩ [leaf1]) := by
  decide +kernel

/-- **C43**, as a rejection: with the right accounts, inside the window, an unlisted triple is refused with
`InvalidMerkleProof`, whatever the proof, unless the proof exhibits a collision. -/
theorem C43_unlisted_rejected {rt : Runtime} {w : World} (hr : Reachable rt w) {c : ClaimAccts} {x : Addr} {cd : Campaign}
    {md : MintData} {i : UInt32} {a : UInt64} {p : List Bytes32} (hc : ClaimReady rt w c x cd md i.toNat)
    (hfresh : hasClaimedView w x i.toNat = .ok false) (hfund : claimRent rt cd.airdropTokenMint md.program ≤ w.lamports c.claimer)
    (hwin : InWindow w.now cd.campaignStartTime cd.expirationTime)
    {t : MTree} (ht : cd.merkleRoot = t.root rt.keccak) (hun : (⟨i, rt.keyBytes c.recipient, a⟩ : Allocation) ∉ t.leaves)
    (hcol : ¬ CollisionIn rt.keccak (t.inputs rt.keccak) (checkInputs rt.keccak ⟨i, rt.keyBytes c.recipient, a⟩ p)) :
    step rt w (.merkle (.claim c i a p)) = .error (.merkle .invalidMerkleProof) := by
  refine (C41_errors hr a p hc hfresh hfund).2.2.1.2 ⟨hwin, fun hp => ?_⟩
  rw [leafHash_eq, ht] at hp
  exact (computeRoot_sound hp).elim hun hcol

example := C43_unlisted_rejected reach2 (i := 0) (a := 501) (p := [leaf1]) demo_claimReady (by decide +kernel)
  (by decide +kernel) ⟨by decide +kernel, by decide +kernel⟩ (t := demoTree) (by rw [demoTree_root]) (by decide +kernel)
  (by decide +kernel)

/-! ## C44: the total -/

/-- Every claim event was added by a `claim` instruction of the history, whose proof led to the root. -/
theorem claim_events {rt : Runtime} {x : Addr} : ∀ (ixs : List Ix) {w w' : World}, runAll rt w ixs = .ok w' →
    ∀ e ∈ w'.log, claimAt x e.event = 1 → e ∈ w.log ∨
      ∃ c i a p cd, Ix.merkle (.claim c i a p) ∈ ixs ∧ c.campaign = x ∧
        e.event = .claim a.toNat x c.claimer c.claimReceipt 0 i.toNat c.recipient ∧
        w'.mi.campaigns x = some cd ∧
        computeRoot rt (leafHash rt i.toNat c.recipient a.toNat) p = cd.merkleRoot
  | [], w, w', h, e, he, _ => by
    have : w = w' := by injection h
    subst this
    exact .inl he
  | ix :: ixs, w, w', h, e, he, h1 => by
    obtain ⟨w₁, hs, h⟩ := bind_ok.1 (show (step rt w ix >>= fun w => runAll rt w ixs) = .ok w' from h)
    rcases claim_events ixs h e he h1 with h2 | ⟨c, i, a, p, cd, h2, h3⟩
    · rcases (step_did hs).campaign_cases x with ⟨hq, _⟩ | ⟨c, p, dm, b, l, rfl, _, _, _, hok⟩ |
        ⟨c, index, amount, proof, cd', dm, b₁, b₂, l, rfl, ⟨i, a, hix, rfl, rfl⟩, hok⟩ |
        ⟨c, amount, cd', dm, b₁, b₂, l, rfl, ⟨a, rfl, _⟩, hok⟩
      · rcases hq.log with h3 | ⟨e', h3, h4⟩
        · rw [h3] at h2; exact .inl h2
        · rw [h3, List.mem_cons] at h2
          rcases h2 with rfl | h2
          · rw [claimAt_quiet _ h4] at h1; cases h1
          · exact .inl h2
      · rw [hok.result] at h2
        rcases List.mem_cons.1 h2 with rfl | h2
        · cases h1
        · exact .inl h2
      · have hcd : w₁.mi.campaigns c.campaign = some (cd'.claim w.now) := by rw [hok.result]; simp
        rw [hok.result] at h2
        rcases List.mem_cons.1 h2 with rfl | h2
        · obtain ⟨t, h4, _⟩ := (Demo.steps_runAll ixs h).campaign hcd
          refine .inr ⟨c, i, a, proof, _, by rw [hix]; exact List.mem_cons_self, rfl, rfl, h4, ?_⟩
          rw [hok.proof_ok, Campaign.claim_eq]
        · exact .inl h2
      · rw [hok.result] at h2
        rcases List.mem_cons.1 h2 with rfl | h2
        · cases h1
        · exact .inl h2
    · exact .inr ⟨c, i, a, p, cd, List.mem_cons_of_mem _ h2, h3⟩

/-- Sum over the leaves, each as often as its index was claimed. -/
def weighted (x : Addr) (log : List LogEntry) : List Allocation → Nat
  | [] => 0
  | a :: l => a.amount.toNat * total (claimOf x a.index.toNat) log + weighted x log l

theorem weighted_cons (x : Addr) (e : LogEntry) (log : List LogEntry) (l : List Allocation) :
    weighted x (e :: log) l = weighted x [e] l + weighted x log l := by
  induction l with
  | nil => rfl
  | cons a l ih =>
    simp only [weighted, ih, total_cons, total_nil, Nat.mul_add]
    omega

theorem weighted_mem {x : Addr} {log : List LogEntry} {l : List Allocation} {a : Allocation} (h : a ∈ l) :
    a.amount.toNat * total (claimOf x a.index.toNat) log ≤ weighted x log l := by
  induction l with
  | nil => simp at h
  | cons b l ih =>
    simp only [weighted]
    rcases List.mem_cons.1 h with rfl | h
    · omega
    · have := ih h; omega

theorem weighted_bound {x : Addr} {l : List Allocation} {log : List LogEntry}
    (h : ∀ e ∈ log, ∀ a cl rc f i r, e.event = .claim a x cl rc f i r →
      ∃ b ∈ l, b.index.toNat = i ∧ b.amount.toNat = a) :
    total (claimedFrom x) log ≤ weighted x log l := by
  induction log with
  | nil => simp [total_nil]
  | cons e log ih =>
    rw [total_cons, weighted_cons]
    have := ih fun e he => h e (List.mem_cons_of_mem _ he)
    have : claimedFrom x e.event ≤ weighted x [e] l := by
      cases hev : e.event with
      | claim a y cl rc f i r =>
        simp only [claimedFrom]
        split
        · rename_i hy
          subst hy
          obtain ⟨b, hb, rfl, rfl⟩ := h e List.mem_cons_self a cl rc f i r hev
          have := weighted_mem (x := y) (log := [e]) hb
          simp only [total_cons, total_nil, hev, claimOf] at this
          simpa using this
        · omega
      | _ => simp [claimedFrom]
    omega

theorem weighted_le {x : Addr} {l : List Allocation} {log : List LogEntry} (h : ∀ i, total (claimOf x i) log ≤ 1) :
    weighted x log l ≤ (l.map fun a => a.amount.toNat).sum := by
  induction l with
  | nil => simp [weighted]
  | cons a l ih =>
    simp only [weighted, List.map_cons, List.sum_cons]
    have := Nat.mul_le_mul_left a.amount.toNat (h a.index.toNat)
    omega

/-- Leaves whose index was not claimed do not count. -/
theorem weighted_le_sub {x : Addr} {l : List Allocation} {log : List LogEntry} (h : ∀ i, total (claimOf x i) log ≤ 1)
    {a : Allocation} (ha : a ∈ l) (h0 : total (claimOf x a.index.toNat) log = 0) :
    weighted x log l + a.amount.toNat ≤ (l.map fun a => a.amount.toNat).sum := by
  induction l with
  | nil => simp at ha
  | cons b l ih =>
    simp only [weighted, List.map_cons, List.sum_cons]
    rcases List.mem_cons.1 ha with rfl | ha
    · rw [h0]
      have := weighted_le (l := l) h
      omega
    · have := ih ha
      have := Nat.mul_le_mul_left b.amount.toNat (h b.index.toNat)
      omega

/-- Every claim in the history is for a listed allocation, or the history exhibits a collision. -/
theorem claims_listed {rt : Runtime} {w₀ w : World} (hg : Genesis w₀) {ixs : List Ix} (hrun : runAll rt w₀ ixs = .ok w)
    {x : Addr} {cd : Campaign} (hx : campaignView w x = .ok cd) {t : MTree} (ht : cd.merkleRoot = t.root rt.keccak)
    (hcol : ¬ CollisionInHistory rt t x ixs) :
    ∀ e ∈ w.log, ∀ a cl rc f i r, e.event = .claim a x cl rc f i r →
      ∃ b ∈ t.leaves, b.index.toNat = i ∧ b.amount.toNat = a ∧ b.recipient = rt.keyBytes r := by
  intro e he a cl rc f i r hev
  rcases claim_events (x := x) ixs hrun e he (by rw [hev]; simp [claimAt]) with h | ⟨c, i', a', p, cd', h1, h2, h3, h4, h5⟩
  · rw [hg.no_log] at h; cases h
  · rw [hev] at h3
    injection h3 with e1 _ _ _ _ e2 e3
    have : cd' = cd := by rw [fetch_ok.1 hx] at h4; cases h4; rfl
    subst this
    rw [leafHash_eq, ht] at h5
    rcases computeRoot_sound h5 with h6 | h6
    · exact ⟨_, h6, e2.symm, e1.symm, by rw [e3]⟩
    · exact absurd ⟨c, i', a', p, h1, h2, h6⟩ hcol

/-- **C44**: in any history, the claims of a campaign whose root is the root of `t` add up to at most the sum
of the tree's allocations, and each claim paid out a listed allocation, unless the history exhibits a Keccak
collision.  (Indices need not even be distinct.) -/
theorem C44_total {rt : Runtime} {w₀ w : World} (hg : Genesis w₀) {ixs : List Ix} (hrun : runAll rt w₀ ixs = .ok w)
    {x : Addr} {cd : Campaign} (hx : campaignView w x = .ok cd) {t : MTree} (ht : cd.merkleRoot = t.root rt.keccak)
    (hcol : ¬ CollisionInHistory rt t x ixs) :
    total (claimedFrom x) w.log ≤ t.totalAmount ∧
    ∀ e ∈ w.log, ∀ a cl rc f i r, e.event = .claim a x cl rc f i r →
      ∃ b ∈ t.leaves, b.index.toNat = i ∧ b.amount.toNat = a ∧ b.recipient = rt.keyBytes r := by
  have hr : Reachable rt w := ⟨w₀, hg, Demo.steps_runAll ixs hrun⟩
  have hl := claims_listed hg hrun hx ht hcol
  refine ⟨Nat.le_trans (weighted_bound (l := t.leaves) fun e he a cl rc f i r hev => ?_)
    (weighted_le (C39_at_most_one hr x)), hl⟩
  obtain ⟨b, h1, h2, h3, _⟩ := hl e he a cl rc f i r hev
  exact ⟨b, h1, h2, h3⟩

/-- The whole history of the demo up to the first claim. -/
def history3 : List Ix := setup ++ createStreams ++ openCampaign ++ [ixWithdraw, ixClaim]

theorem runAll_append {rt : Runtime} {l' : List Ix} : ∀ {l : List Ix} {w w₁ w₂ : World}, runAll rt w l = .ok w₁ →
    runAll rt w₁ l' = .ok w₂ → runAll rt w (l ++ l') = .ok w₂
  | [], _, _, _, h1, h2 => by injection h1 with h1; subst h1; exact h2
  | i :: is, w, w₁, w₂, h1, h2 => by
    obtain ⟨w', h3, h4⟩ := bind_ok.1 (show (step rt w i >>= fun w => runAll rt w is) = .ok w₁ from h1)
    exact bind_ok.2 ⟨w', h3, runAll_append h4 h2⟩

theorem runAll_after {w : World} {l : List Ix} (h : (runAll Demo.rt w l).isOk = true) :
    runAll Demo.rt w l = .ok (after w l) := by
  unfold after execTx
  cases hr : runAll Demo.rt w l with
  | error e => rw [hr] at h; cases h
  | ok w' => rfl

theorem run2 : runAll rt world0 (setup ++ createStreams ++ openCampaign) = .ok world2 :=
  runAll_append (runAll_after (by decide +kernel)) (runAll_after (by decide +kernel))
theorem run3 : runAll rt world0 history3 = .ok world3 := runAll_append run2 (runAll_after (by decide +kernel))

/-- Decides `CollisionInHistory`. -/
def exhibits (rt : Runtime) (t : MTree) (x : Addr) : Ix → Bool
  | .merkle (.claim c i a p) => decide (c.campaign = x ∧
      CollisionIn rt.keccak (t.inputs rt.keccak) (checkInputs rt.keccak ⟨i, rt.keyBytes c.recipient, a⟩ p))
  | _ => false

theorem not_exhibits {rt : Runtime} {t : MTree} {x : Addr} {l : List Ix} (h : l.any (exhibits rt t x) = false) :
    ¬ CollisionInHistory rt t x l := by
  rintro ⟨c, i, a, p, h1, h2, h3⟩
  rw [List.any_eq_false] at h
  exact h _ h1 (by simp only [exhibits, decide_eq_true_iff]; exact ⟨h2, h3⟩)

theorem demo_noCollision : ¬ CollisionInHistory rt demoTree camp history3 := not_exhibits (by decide +kernel)

example := C44_total genesis0 run3 (x := camp)
  (cd := ⟨mint, 255, 1500, alice, 800000, 4000, [81, 109], root, campaignName⟩) (by decide +kernel) (t := demoTree)
  (by rw [demoTree_root]) demo_noCollision
example : total (claimedFrom camp) world3.log = 500 ∧ demoTree.totalAmount = 800 := by decide +kernel

/-! ## C59: a funded airdrop pays everybody -/

/-- **C59**: if the vault holds at least what is not claimed yet, then every listed allocation whose index is
not claimed can be claimed inside the window, by anybody, with the proof from the tree (plain token, usable
recipient account); unless the history exhibits a collision. -/
theorem C59_listed_can_claim {rt : Runtime} {w₀ w : World} (hg : Genesis w₀) {ixs : List Ix}
    (hrun : runAll rt w₀ ixs = .ok w) {c : ClaimAccts} {x : Addr} {cd : Campaign} {md : MintData} {a : Allocation}
    {p : List Bytes32} {t : MTree} (hc : ClaimReady rt w c x cd md a.index.toNat)
    (hunclaimed : ¬ ClaimedIn w.log x a.index.toNat) (hrent : claimRent rt cd.airdropTokenMint md.program ≤ w.lamports c.claimer)
    (hwin : InWindow w.now cd.campaignStartTime cd.expirationTime)
    (ht : cd.merkleRoot = t.root rt.keccak) (hp : t.Proof rt.keccak a p) (hkey : rt.keyBytes c.recipient = a.recipient)
    (hfee : md.feeConfig = none) (hok : Transferable w md c.campaignAta c.recipientAta)
    (hfunded : Funded w c.campaignAta (total (claimedFrom x) w.log) t)
    (hcol : ¬ CollisionInHistory rt t x ixs) :
    ∃ w', step rt w (.merkle (.claim c a.index a.amount p)) = .ok w' := by
  have hr : Reachable rt w := ⟨w₀, hg, Demo.steps_runAll ixs hrun⟩
  have hx : campaignView w x = .ok cd := fetch_ok.2 hc.campaign
  have h0 : total (claimOf x a.index.toNat) w.log = 0 := by
    have := C39_at_most_one hr x a.index.toNat
    rw [ClaimedIn_iff] at hunclaimed
    omega
  have hfresh : hasClaimedView w x a.index.toNat = .ok false := by
    classical
    rw [C40_has_claimed hr hx]
    simp [hunclaimed]
  have hl := claims_listed hg hrun hx ht hcol
  have hb : total (claimedFrom x) w.log ≤ weighted x w.log t.leaves :=
    weighted_bound fun e he a cl rc f i r hev => by
      obtain ⟨b, h1, h2, h3, _⟩ := hl e he a cl rc f i r hev
      exact ⟨b, h1, h2, h3⟩
  have hs := weighted_le_sub (C39_at_most_one hr x) (proof_leaf hp) h0
  refine C45_claim_succeeds hr hc hfresh hrent hwin ?_ hfee hok ?_
  · rw [leafHash_eq, hkey, ht]; exact proof_computes hp
  · unfold Funded MTree.totalAmount at hfunded
    omega

theorem demo_claimReady3 : ClaimReady rt world3 (claimAccts carol 1) camp
    ⟨mint, 255, 1500, alice, 800000, 4000, [81, 109], root, campaignName⟩ { plainMint with supply := 1000000 }
    alloc1.index.toNat :=
  ⟨by decide +kernel, by decide +kernel, rfl, ⟨⟨255, collector, oracleProgram, feed⟩, by decide +kernel, rfl, rfl⟩, rfl, rfl, rfl,
    rfl, rfl, rfl, rfl, .inr ⟨by decide +kernel, by unfold CanFund; decide +kernel⟩⟩

example := C59_listed_can_claim genesis0 run3 (a := alloc1) (p := [leaf0]) (t := demoTree) demo_claimReady3
  (by rw [ClaimedIn_iff]; decide +kernel) (by decide +kernel) ⟨by decide +kernel, by decide +kernel⟩
  (by rw [demoTree_root]) (MTree.Proof.right (.leaf _)) rfl rfl
  ⟨rfl, fun t ht => by
      have : world3.bank.tokens (claimAccts carol 1).campaignAta = some ⟨tok, mint, camp, 300, false⟩ := by decide +kernel
      rw [this] at ht; cases ht; rfl,
    fun t ht => (by
      have : world3.bank.tokens (claimAccts carol 1).recipientAta = none := by decide +kernel
      rw [this] at ht; cases ht), fun _ => rfl, by decide +kernel⟩
  (by unfold Funded; decide +kernel) demo_noCollision

/-- **C59**: being funded is stable: for a token without permanent delegate it survives everything except
clawbacks of that campaign. -/
theorem C59_funded_stays {rt : Runtime} {w w' : World} (hr : Reachable rt w) (hs : Steps rt w w') {x : Addr}
    {cd : Campaign} (hx : campaignView w x = .ok cd) {md : MintData}
    (hm : w.bank.mints cd.airdropTokenMint = some md) (hpd : md.permanentDelegate = none) {t : MTree}
    (hf : Funded w (.ata x md.program cd.airdropTokenMint) (total (claimedFrom x) w.log) t)
    (hc : total (clawedFrom x) w'.log = total (clawedFrom x) w.log) :
    Funded w' (.ata x md.program cd.airdropTokenMint) (total (claimedFrom x) w'.log) t := by
  have := C51_accounting hr hs hx hm hpd
  unfold Funded at *
  omega

example := C59_funded_stays reach2 (steps23.trans (steps34.trans (steps45.trans (steps56.trans steps67)))) (x := camp)
  (cd := ⟨mint, 255, 1500, alice, 800000, 0, [81, 109], root, campaignName⟩) (by decide +kernel)
  (md := { plainMint with supply := 1000000 }) (by decide +kernel) rfl (t := demoTree)
  (by unfold Funded; decide +kernel) (by decide +kernel)

end Solsab.Props
