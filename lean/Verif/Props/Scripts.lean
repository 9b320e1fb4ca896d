import Verif.Proofs.Classic
import Verif.Scripts
import Verif.Props.Batch
import Verif.Props.Init
import Verif.Props.Campaign
/-!
# C95: the post-deployment scripts
-/

namespace Solsab.Props

open Spec Lockup Demo

theorem paced_step {rt : Runtime} {w w' : World} {t : Nat → Int} {k : Nat} {i : Ix} {is : List Ix}
    (h1 : w.clock ≤ t k) (h2 : t k < 2 ^ 63) (h3 : step rt { w with clock := t k } i = .ok w')
    {w'' : World} (h4 : runAll rt w' (Script.paced t (k + 1) is) = .ok w'') :
    runAll rt w (Script.paced t k (i :: is)) = .ok w'' := by
  refine bind_ok.2 ⟨{ w with clock := t k }, ?_, bind_ok.2 ⟨w', h3, h4⟩⟩
  exact bind_ok.2 ⟨(), require_ok.2 ⟨h1, h2⟩, rfl⟩

theorem tick_reach {rt : Runtime} {w : World} (hr : Reachable rt w) {t : Int} (h1 : w.clock ≤ t) (h2 : t < 2 ^ 63) :
    Reachable rt { w with clock := t } :=
  hr.step (ix := .env (.tick t)) (bind_ok.2 ⟨(), require_ok.2 ⟨h1, h2⟩, rfl⟩)

/-- The clock of the paced script. -/
theorem now_of {w : World} {t : Int} (h : w.clock = t) (h1 : 0 < t) (h2 : t < 2 ^ 63) : w.now = t.toNat := by
  unfold World.now intAsU64
  rw [h]
  omega

theorem initialize_left {rt : Runtime} {w w' : World} {p : Addr} {k : Script.Config}
    (h : step rt w (Script.initSablierLockup p k) = .ok w') : w.lamports p ≤ w'.lamports p + initRent rt .token := by
  have hrent := (C60_rent_only (ix := Script.initSablierLockup p k) (p := p) rfl rfl h).2.left
  have e : ((opens rt w (Script.initSablierLockup p k)).map fun x => charge rt x.1 + max (rt.rent x.2) 1).sum =
      initRent rt .token := by
    unfold Script.initSablierLockup opens nftAccounts initRent metaplexRent
    simp only [List.cons_append, List.nil_append, List.map_cons, List.map_nil, List.sum_cons, List.sum_nil, ← tokenSize_eq]
    simp only [charge, World.mintSpace, show Lockup.treasurySpace = 105 from rfl, show nftCollectionDataSpace = 17 from rfl]
    omega
  rw [e] at hrent
  exact hrent

/-- What `initialize` leaves of the rest of the world. -/
structure AfterInit (rt : Runtime) (w w' : World) (p : Addr) (k : Script.Config) : Prop where
  config : configView rt w' .lockup = .ok ⟨rt.bump (.treasury .lockup), k.admin, k.chainlinkProgram, k.feed⟩
  collection : ∃ nd, w'.lk.nftCollectionData = some nd ∧ nd.totalSupply = 0
  streams : w'.lk.streams = w.lk.streams
  mints : ∀ n, w'.bank.mints (.key n) = w.bank.mints (.key n)
  tokens : ∀ a, a ≠ .ata (.treasury .lockup) .token .nftCollectionMint → w'.bank.tokens a = w.bank.tokens a
  clock : w'.clock = w.clock
  left : w.lamports p ≤ w'.lamports p + initRent rt .token

theorem after_init {rt : Runtime} {w : World} (hr : Reachable rt w) (hn : ∀ tr, configView rt w .lockup ≠ .ok tr)
    {p : Addr} (hp : p.canSign = true) (hl : initRent rt .token ≤ w.lamports p) (k : Script.Config) :
    ∃ w', step rt w (Script.initSablierLockup p k) = .ok w' ∧ AfterInit rt w w' p k := by
  obtain ⟨w', h, hc⟩ := C80_lockup_initialize hr hn hp .token hl k.admin k.chainlinkProgram k.feed
  refine ⟨w', h, hc, ?_, ?_, ?_, ?_, ?_, initialize_left h⟩
  all_goals
    obtain ⟨md, b₁, b₂, b₃, l, hi⟩ := Lockup.initializeProgram_ok h
    rw [hi.result]
  · exact ⟨_, rfl, rfl⟩
  · obtain ⟨_, _, rfl⟩ := openMint_ok hi.openMint
    obtain ⟨_, _, _, rfl⟩ := openAccount_ok hi.openAta
    obtain ⟨_, _, _, _, _, _, _, _, _, _, rfl⟩ := mintTo_ok hi.mintTo
    intro n
    simp [lockAuthority, upd_ne]
  · obtain ⟨_, _, rfl⟩ := openMint_ok hi.openMint
    obtain ⟨_, _, _, rfl⟩ := openAccount_ok hi.openAta
    obtain ⟨_, _, _, _, _, _, _, _, _, _, rfl⟩ := mintTo_ok hi.mintTo
    intro a ha
    simp [lockAuthority, upd_ne, ha]

theorem mint_million {b : Bank} {signer m a : Addr}
    (h1 : b.mints m = some ⟨.token, 9, some signer, none, 0, none, none, false, false⟩)
    (h2 : b.tokens a = some ⟨.token, m, signer, 0, false⟩) :
    b.mintTo m a signer .token (Script.sol 1000000) = .ok ((b.setMint m (some (scriptToken signer))).setToken a
      (some ⟨.token, m, signer, 1000000000000000, false⟩)) := by
  have e : Script.sol 1000000 = 1000000000000000 := by decide
  rw [e]
  refine bind_ok.2 ⟨_, fetch_ok.2 h1, bind_ok.2 ⟨_, fetch_ok.2 h2, bind_ok.2 ⟨(), require_ok.2 ⟨rfl, rfl⟩,
    bind_ok.2 ⟨(), require_ok.2 rfl, bind_ok.2 ⟨(), require_ok.2 rfl, bind_ok.2 ⟨(), require_ok.2 rfl,
    bind_ok.2 ⟨(), require_ok.2 ?_, bind_ok.2 ⟨(), require_ok.2 ?_, ?_⟩⟩⟩⟩⟩⟩⟩⟩
  · simp only [Nat.zero_add]; decide
  · simp only [Nat.zero_add]; decide
  · simp only [Nat.zero_add]; rfl

theorem createStream_eq {rt : Runtime} {w : World} {t : Int} (hc : w.clock = t) (h1 : 0 < t) (h2 : t < 2 ^ 63)
    (signer : Addr) (key cd dep : Nat) (ca : Bool) (salt : Fin (2 ^ 128)) (td cu su : Nat) (hcd : cd < 2 ^ 32)
    (htd : td < 2 ^ 32) :
    step rt w (Script.createStream signer key cd dep ca salt td cu su) =
      step rt w (Order.create signer (.key key) .token .token ⟨signer, signer, salt, .ofNat dep, .ofNat t.toNat,
        if UInt64.ofNat cd = 0 then 0 else .ofNat (t.toNat + cd), .ofNat (t.toNat + td), .ofNat su, .ofNat cu, ca⟩) := by
  have hnow := now_of hc h1 h2
  have e1 : (UInt64.ofNat cd).toNat = cd := by rw [UInt64.toNat_ofNat']; omega
  have e2 : (UInt64.ofNat td).toNat = td := by rw [UInt64.toNat_ofNat']; omega
  unfold Script.createStream Order.create
  rw [C28_durations, hnow, e1, e2, if_pos ⟨by omega, fun _ => by omega⟩]
  rfl

theorem valid_of {a : Nat} (h1 : 0 < a) (h2 : a < 2 ^ 63) (s r : Addr) (salt : Fin (2 ^ 128)) {dep cd td su cu : Nat}
    (ca : Bool) (hd : 0 < dep) (hd' : dep < 2 ^ 63) (hu : su + cu ≤ dep) (hc : (cd = 0 ∧ cu = 0) ∨ (0 < cd ∧ cd < td))
    (ht : 0 < td ∧ td < 2 ^ 32) :
    Order.Valid ⟨s, r, salt, .ofNat dep, .ofNat a, if UInt64.ofNat cd = 0 then 0 else .ofNat (a + cd),
      .ofNat (a + td), .ofNat su, .ofNat cu, ca⟩ := by
  have e : ∀ x : Nat, x < 2 ^ 64 → (UInt64.ofNat x).toNat = x := fun x hx => by rw [UInt64.toNat_ofNat']; omega
  unfold Order.Valid ValidTerms
  simp only
  rw [e dep (by omega), e a (by omega), e (a + td) (by omega), e su (by omega), e cu (by omega)]
  refine ⟨hd, h1, by omega, ?_, hu⟩
  rcases hc with ⟨rfl, rfl⟩ | ⟨h3, h4⟩
  · exact .inl ⟨rfl, rfl⟩
  · have hne : UInt64.ofNat cd ≠ 0 := by
      intro h
      have := congrArg UInt64.toNat h
      rw [e cd (by omega)] at this
      simp at this
      omega
    rw [if_neg hne, e (a + cd) (by omega)]
    exact .inr ⟨by omega, by omega⟩

/-- **C95**: the lockup script works on every chain: in every reachable state in which the program is not initialised,
a funded signer with a new key for the token can run it to the end, whatever the (growing) times of its transactions.
The program is then configured as in the script, the three streams exist with exactly the terms of the script (starting
when their transaction ran), their vaults are full, the signer holds the three NFTs and the rest of the million tokens,
and the collection counts three streams. -/
theorem C95_lockup_script {rt : Runtime} {w : World} (hr : Reachable rt w)
    (hn : ∀ tr, configView rt w .lockup ≠ .ok tr) {signer : Addr} (hs : signer.canSign = true) {key : Nat}
    (hkey : w.bank.mints (.key key) = none ∧ w.bank.tokens (.key key) = none)
    (hl : scriptRent rt (.key key) ≤ w.lamports signer) (k : Script.Config) {t : Nat → Int} (ht : ∀ i, t i ≤ t (i + 1))
    (hmax : ∀ i, t i < 2 ^ 63) (h0 : w.clock ≤ t 0) (hpos : 0 < t 0) :
    ∃ w', runAll rt w (Script.paced t 0 (Script.lockup signer key k)) = .ok w' ∧
      configView rt w' .lockup = .ok ⟨rt.bump (.treasury .lockup), k.admin, k.chainlinkProgram, k.feed⟩ ∧
      (∀ o ∈ scriptOrders signer (t 4).toNat (t 5).toNat (t 6).toNat,
        o.Done rt w' (.key key) (scriptToken signer) .token) ∧
      w'.bank.tokens (.ata signer .token (.key key)) =
        some ⟨.token, .key key, signer, 959000000000000, false⟩ ∧
      ∃ nd, w'.lk.nftCollectionData = some nd ∧ nd.totalSupply = 3 := by
  have hge : ∀ i, 0 < t i := by
    intro i
    induction i with
    | zero => exact hpos
    | succ i ih => have := ht i; omega
  unfold scriptRent at hl
  have hpne : ∀ x : Addr, x.canSign = false → signer ≠ x := by
    intro x hx e; rw [e, hx] at hs; cases hs
  -- initialize
  obtain ⟨w₁, s1, a1⟩ := after_init (w := { w with clock := t 0 }) (tick_reach hr h0 (hmax 0)) hn hs
    (by show _ ≤ w.lamports signer; omega) k
  have r1 := (tick_reach hr h0 (hmax 0)).step s1
  have c1 : w₁.clock = t 0 := a1.clock
  have m1 : w₁.bank.mints (.key key) = none := by rw [a1.mints]; exact hkey.1
  have k1 : w₁.bank.tokens (.key key) = none := by rw [a1.tokens _ (by intro e; cases e)]; exact hkey.2
  have l1 : w.lamports signer ≤ w₁.lamports signer + initRent rt .token := a1.left
  have none1 : ∀ o tp, w₁.bank.tokens (.ata o tp (.key key)) = none := by
    intro o tp
    cases h : w₁.bank.tokens (.ata o tp (.key key)) with
    | none => rfl
    | some x =>
      obtain ⟨md, h1, _⟩ := r1.bankInv.tok_mint _ _ h
      rcases r1.bankInv.tok_addr _ _ h with ⟨_, e⟩ | ⟨_, e, _⟩
      · cases e
      · injection e with _ _ e; rw [← e, m1] at h1; cases h1
  -- createMint
  let md0 : MintData := ⟨.token, 9, some signer, none, 0, none, none, false, false⟩
  let w₂ : World := { w₁ with clock := t 1, bank := w₁.bank.setMint (.key key) (some md0) }
  have t1 := tick_reach r1 (t := t 1) (by rw [c1]; exact ht 0) (hmax 1)
  have s2 : step rt { w₁ with clock := t 1 } (.env (.createMint key md0)) = .ok w₂ := by
    refine bind_ok.2 ⟨(), require_ok.2 ⟨rfl, fun _ => ⟨⟨rfl, rfl⟩, rfl, rfl⟩⟩, bind_ok.2 ⟨_, ?_, rfl⟩⟩
    exact bind_ok.2 ⟨(), require_ok.2 ⟨m1, k1⟩, rfl⟩
  have r2 := t1.step s2
  -- createAta
  have t2 := tick_reach r2 (t := t 2) (ht 1) (hmax 2)
  obtain ⟨l₃, s3, g3⟩ := createAta_new (rt := rt) (w := { w₂ with clock := t 2 }) (p := signer) (o := signer)
    (m := .key key) (tp := .token) (md := md0) (by simp [w₂]) rfl (none1 _ _)
    (by
      cases h : (w₁.bank.setMint (.key key) (some md0)).mints (.ata signer .token (.key key)) with
      | none => rfl
      | some md => rcases r2.bankInv.mint_addr _ md h with ⟨_, e⟩ | e <;> cases e)
    hs (by show _ ≤ w₁.lamports signer; omega)
  replace g3 : w₁.lamports signer - max (rt.rent (World.tokenSpace rt (.key key) .token)) 1 ≤ l₃ signer := g3
  let ata : Addr := .ata signer .token (.key key)
  let w₃ : World := { w₂ with
    clock := t 2, bank := w₂.bank.setToken ata (some ⟨.token, .key key, signer, 0, false⟩), lamports := l₃ }
  have s3' : step rt { w₂ with clock := t 2 } (.env (.createAta signer ata signer .token (.key key))) = .ok w₃ :=
    bind_ok.2 ⟨(), require_ok.2 hs, s3⟩
  have r3 := t2.step s3'
  -- mintTo
  have t3 := tick_reach r3 (t := t 3) (ht 2) (hmax 3)
  let w₄ : World := { w₃ with
    clock := t 3
    bank := (w₃.bank.setMint (.key key) (some (scriptToken signer))).setToken ata
      (some ⟨.token, .key key, signer, 1000000000000000, false⟩) }
  have s4 : step rt { w₃ with clock := t 3 } (.env (.mintTo (.key key) ata signer .token (Script.sol 1000000))) =
      .ok w₄ := by
    refine bind_ok.2 ⟨(), require_ok.2 hs, bind_ok.2 ⟨_, ?_, rfl⟩⟩
    exact mint_million (by simp [w₃, w₂, md0]) (by simp [w₃])
  have r4 := t3.step s4
  -- the orders
  have ofOrders : scriptOrders signer (t 4).toNat (t 5).toNat (t 6).toNat =
      [⟨signer, signer, 1, .ofNat (Script.sol 1000), .ofNat (t 4).toNat,
          if UInt64.ofNat 0 = 0 then 0 else .ofNat ((t 4).toNat + 0), .ofNat ((t 4).toNat + 3600), .ofNat 0, .ofNat 0, true⟩,
       ⟨signer, signer, 2, .ofNat (Script.sol 10000), .ofNat (t 5).toNat,
          if UInt64.ofNat 3600 = 0 then 0 else .ofNat ((t 5).toNat + 3600), .ofNat ((t 5).toNat + 3600 * 3), .ofNat 0,
          .ofNat (Script.sol 2000), true⟩,
       ⟨signer, signer, 3, .ofNat (Script.sol 30000), .ofNat (t 6).toNat,
          if UInt64.ofNat (3600 * 24) = 0 then 0 else .ofNat ((t 6).toNat + 3600 * 24),
          .ofNat ((t 6).toNat + 3 * 3600 * 24), .ofNat (Script.sol 2000), .ofNat (Script.sol 10000), false⟩] := by
    have g1 : UInt64.ofNat (Script.sol 1000) = 1000000000000 := by decide
    have g2 : UInt64.ofNat (Script.sol 10000) = 10000000000000 := by decide
    have g3 : UInt64.ofNat (Script.sol 30000) = 30000000000000 := by decide
    have g4 : UInt64.ofNat (Script.sol 2000) = 2000000000000 := by decide
    have g5 : UInt64.ofNat 0 = 0 := by decide
    have g6 : UInt64.ofNat 3600 ≠ 0 := by decide
    have g7 : UInt64.ofNat (3600 * 24) ≠ 0 := by decide
    have n1 : 3600 * 3 = 10800 := by decide
    have n2 : 3 * 3600 * 24 = 259200 := by decide
    have n3 : 3600 * 24 = 86400 := by decide
    rw [if_pos g5, if_neg g6, if_neg g7, g1, g2, g3, g4, g5, n1, n2, n3]
    unfold scriptOrders
    rfl
  generalize hA : (⟨signer, signer, 1, .ofNat (Script.sol 1000), .ofNat (t 4).toNat,
          if UInt64.ofNat 0 = 0 then 0 else .ofNat ((t 4).toNat + 0), .ofNat ((t 4).toNat + 3600), .ofNat 0, .ofNat 0, true⟩
          : Order) = A at ofOrders
  generalize hB : (⟨signer, signer, 2, .ofNat (Script.sol 10000), .ofNat (t 5).toNat,
          if UInt64.ofNat 3600 = 0 then 0 else .ofNat ((t 5).toNat + 3600), .ofNat ((t 5).toNat + 3600 * 3), .ofNat 0,
          .ofNat (Script.sol 2000), true⟩ : Order) = B at ofOrders
  generalize hC : (⟨signer, signer, 3, .ofNat (Script.sol 30000), .ofNat (t 6).toNat,
          if UInt64.ofNat (3600 * 24) = 0 then 0 else .ofNat ((t 6).toNat + 3600 * 24),
          .ofNat ((t 6).toNat + 3 * 3600 * 24), .ofNat (Script.sol 2000), .ofNat (Script.sol 10000), false⟩ : Order) = C
          at ofOrders
  have vA : A.Valid := by
    rw [← hA]; have := hge 4; have := hmax 4
    exact valid_of (by omega) (by omega) _ _ _ _ (by decide) (by decide) (by decide) (.inl ⟨rfl, rfl⟩) (by decide)
  have vB : B.Valid := by
    rw [← hB]; have := hge 5; have := hmax 5
    exact valid_of (by omega) (by omega) _ _ _ _ (by decide) (by decide) (by decide) (.inr (by decide)) (by decide)
  have vC : C.Valid := by
    rw [← hC]; have := hge 6; have := hmax 6
    exact valid_of (by omega) (by omega) _ _ _ _ (by decide) (by decide) (by decide) (.inr (by decide)) (by decide)
  have costA : A.cost = 1000000000000 := by rw [← hA]; rfl
  have costB : B.cost = 10000000000000 := by rw [← hB]; rfl
  have costC : C.cost = 30000000000000 := by rw [← hC]; rfl
  have pA : (A.sender, A.salt) = (signer, 1) := by rw [← hA]
  have pB : (B.sender, B.salt) = (signer, 2) := by rw [← hB]
  have pC : (C.sender, C.salt) = (signer, 3) := by rw [← hC]
  have dBA : (B.sender, B.salt) ≠ (A.sender, A.salt) := by rw [pA, pB]; intro e; injection e with _ e; revert e; decide
  have dCA : (C.sender, C.salt) ≠ (A.sender, A.salt) := by rw [pA, pC]; intro e; injection e with _ e; revert e; decide
  have dCB : (C.sender, C.salt) ≠ (B.sender, B.salt) := by rw [pB, pC]; intro e; injection e with _ e; revert e; decide
  let w₄' : World := { w₄ with clock := t 4 }
  have r4' : Reachable rt w₄' := tick_reach r4 (ht 3) (hmax 4)
  obtain ⟨nd, hnd, hnd0⟩ := a1.collection
  have f4 : FundedForAll rt w₄' signer (.key key) (scriptToken signer) .token [A, B, C] := by
    refine ⟨⟨nd, hnd, ?_⟩, by simp [w₄', w₄], hs, ⟨_, upd_same .., rfl, ?_, rfl⟩, congrArg Settings.cpiGuard (r4'.classicAtaSettings _ _), rfl, rfl, ?_⟩
    · rw [hnd0]; show 0 + 3 < 2 ^ 64; decide
    · simp only [List.map_cons, List.map_nil, List.sum_cons, List.sum_nil, costA, costB, costC]; decide
    · show 3 * createRent rt .token (.key key) .token ≤ l₃ signer
      omega
  have free4 : ∀ o : Order, o.Free w₄' (.key key) .token := by
    intro o
    have hstr : w₄'.lk.streams o.stream = none := by
      show w₁.lk.streams o.stream = none
      cases h : w₁.lk.streams o.stream with
      | none => rfl
      | some sd =>
        rw [a1.streams] at h
        have := (C80_lockup_before hr hn).1 o.sender o.salt.val
        rw [hr.exists_iff.2 ⟨sd, h⟩] at this; cases this
    constructor
    · cases h : streamExists w₄' o.sender o.salt.val with
      | false => rfl
      | true => obtain ⟨sd, h'⟩ := r4'.exists_iff.1 h; exact absurd (hstr.symm.trans h') (by simp)
    · have hne : Addr.ata o.stream .token (.key key) ≠ ata := by
        intro e; injection e with e; exact hpne _ rfl e.symm
      show (w₄.bank.tokens _) = none
      simp only [w₄, w₃, w₂, setToken_tokens, setMint_tokens, upd_ne _ _ hne]
      exact none1 _ _
  -- the three creations
  have e5 : step rt w₄' (Script.createStream signer key 0 (Script.sol 1000) true 1 3600 0 0) =
      step rt w₄' (A.create signer (.key key) .token .token) := by
    rw [← hA]; exact createStream_eq rfl (hge 4) (hmax 4) _ _ _ _ _ _ _ _ _ (by decide) (by decide)
  obtain ⟨w₅, nd5, s5, x5, _, ne5, f5⟩ := place r4' f4 vA (free4 A)
  replace s5 := e5.trans s5
  have r5 := r4'.step s5
  have c5 : w₅.clock = t 4 := x5.clock
  have d5 := place_done x5
  have fB5 := place_free r4' r5 x5 hs ne5 dBA (free4 B)
  have fC5 := place_free r4' r5 x5 hs ne5 dCA (free4 C)
  let w₅' : World := { w₅ with clock := t 5 }
  have r5' : Reachable rt w₅' := tick_reach r5 (by rw [c5]; exact ht 4) (hmax 5)
  have e6 : step rt w₅' (Script.createStream signer key 3600 (Script.sol 10000) true 2 (3600 * 3) (Script.sol 2000) 0) =
      step rt w₅' (B.create signer (.key key) .token .token) := by
    rw [← hB]; exact createStream_eq rfl (hge 5) (hmax 5) _ _ _ _ _ _ _ _ _ (by decide) (by decide)
  obtain ⟨w₆, nd6, s6, x6, _, ne6, f6⟩ := place r5' (o := B) (os := [C])
    ⟨f5.collection, f5.mint, f5.signer, f5.tokens, f5.unguarded, f5.flows, f5.thawed, f5.lamports⟩ vB ⟨fB5.unused, fB5.vaultUnused⟩
  replace s6 := e6.trans s6
  have r6 := r5'.step s6
  have c6 : w₆.clock = t 5 := x6.clock
  have dA6 : A.Done rt w₆ (.key key) (scriptToken signer) .token :=
    place_keeps x6 hs ne6 ne5 dBA.symm ⟨d5.stream, d5.vault, d5.nft⟩
  have d6 := place_done x6
  have fC6 := place_free r5' r6 x6 hs ne6 dCB ⟨fC5.unused, fC5.vaultUnused⟩
  let w₆' : World := { w₆ with clock := t 6 }
  have r6' : Reachable rt w₆' := tick_reach r6 (by rw [c6]; exact ht 5) (hmax 6)
  have e7 : step rt w₆' (Script.createStream signer key (3600 * 24) (Script.sol 30000) false 3 (3 * 3600 * 24)
      (Script.sol 10000) (Script.sol 2000)) = step rt w₆' (C.create signer (.key key) .token .token) := by
    rw [← hC]; exact createStream_eq rfl (hge 6) (hmax 6) _ _ _ _ _ _ _ _ _ (by decide) (by decide)
  obtain ⟨w₇, nd7, s7, x7, _, ne7, f7⟩ := place r6' (o := C) (os := [])
    ⟨f6.collection, f6.mint, f6.signer, f6.tokens, f6.unguarded, f6.flows, f6.thawed, f6.lamports⟩ vC ⟨fC6.unused, fC6.vaultUnused⟩
  replace s7 := e7.trans s7
  have dA7 : A.Done rt w₇ (.key key) (scriptToken signer) .token :=
    place_keeps x7 hs ne7 ne5 dCA.symm ⟨dA6.stream, dA6.vault, dA6.nft⟩
  have dB7 : B.Done rt w₇ (.key key) (scriptToken signer) .token :=
    place_keeps x7 hs ne7 ne6 dCB.symm ⟨d6.stream, d6.vault, d6.nft⟩
  have d7 := place_done x7
  refine ⟨w₇, ?_, ?_, ?_, ?_, ?_⟩
  · refine paced_step h0 (hmax 0) s1 ?_
    refine paced_step (by rw [c1]; exact ht 0) (hmax 1) s2 ?_
    refine paced_step (ht 1) (hmax 2) s3' ?_
    refine paced_step (ht 2) (hmax 3) s4 ?_
    refine paced_step (ht 3) (hmax 4) s5 ?_
    refine paced_step (by rw [c5]; exact ht 4) (hmax 5) s6 ?_
    refine paced_step (by rw [c6]; exact ht 5) (hmax 6) s7 ?_
    rfl
  · have h1 : w₇.lk.treasury = w₁.lk.treasury := by
      rw [x7.treasury]
      show w₆.lk.treasury = _
      rw [x6.treasury]
      show w₅.lk.treasury = _
      rw [x5.treasury]
    have h2 := a1.config
    simp only [configView, treasuryView, loadTreasury] at h2 ⊢
    rw [h1]; exact h2
  · rw [ofOrders]
    intro o ho
    simp only [List.mem_cons, List.not_mem_nil, or_false] at ho
    rcases ho with rfl | rfl | rfl
    · exact dA7
    · exact dB7
    · exact d7
  · obtain ⟨_, p5, _, _, q5⟩ := x5.paid
    obtain ⟨_, p6, _, _, q6⟩ := x6.paid
    obtain ⟨_, p7, _, _, q7⟩ := x7.paid
    replace p5 : w₄'.bank.tokens (.ata signer .token (.key key)) = some _ := p5
    replace q5 : w₅.bank.tokens (.ata signer .token (.key key)) = _ := q5
    replace p6 : w₅.bank.tokens (.ata signer .token (.key key)) = some _ := p6
    replace q6 : w₆.bank.tokens (.ata signer .token (.key key)) = _ := q6
    replace p7 : w₆.bank.tokens (.ata signer .token (.key key)) = some _ := p7
    rw [show w₄'.bank.tokens (.ata signer .token (.key key)) =
      some ⟨.token, .key key, signer, 1000000000000000, false⟩ from upd_same ..] at p5
    cases p5
    rw [q5] at p6; cases p6
    rw [q6] at p7; cases p7
    rw [show A.deposit.toNat = 1000000000000 from costA, show B.deposit.toNat = 10000000000000 from costB,
      show C.deposit.toNat = 30000000000000 from costC] at q7
    simp only at q7
    rw [show 1000000000000000 - 1000000000000 - 10000000000000 - 30000000000000 = 959000000000000 by decide] at q7
    exact q7
  · have h5 := x5.collection
    replace h5 : w₁.lk.nftCollectionData = some nd5 := h5
    rw [hnd] at h5; cases h5
    have h6 := x6.collection
    replace h6 : w₅.lk.nftCollectionData = some nd6 := h6
    rw [x5.counter] at h6; cases h6
    have h7 := x7.collection
    replace h7 : w₆.lk.nftCollectionData = some nd7 := h7
    rw [x6.counter] at h7; cases h7
    exact ⟨_, x7.counter, by show nd.totalSupply + 1 + 1 + 1 = 3; omega⟩

/-- On an unused chain, with a transaction every minute. -/
example := C95_lockup_script (rt := rt) (w := world0) reach0 (by intro tr h; cases h) (signer := alice) rfl (key := 77)
  ⟨rfl, rfl⟩ (by decide +kernel) ⟨collector, oracleProgram, feed⟩ (t := fun i => 1000 + 60 * min i 10)
  (by intro i; omega) (by intro i; omega) (by decide) (by decide)

/-- **C95**: the airdrop script works on every chain: in every reachable state in which the program is not initialised, a
funded signer can run it to the end in any classic token, with any root and expiration time, unless somebody has
already created that very campaign or its vault. The program is then configured as in the script, and the campaign
exists with exactly the data of the script, nothing claimed, and an empty vault. -/
theorem C95_campaign_script {rt : Runtime} {w : World} (hr : Reachable rt w)
    (hn : ∀ tr, configView rt w .merkle ≠ .ok tr) {signer : Addr} (hs : signer.canSign = true) {mint : Addr} {md : MintData}
    (hm : w.bank.mints mint = some md) (hcl : md.program = .token) (root : Bytes32) (expiration : UInt64)
    (hfree : ∀ cd, Merkle.campaignView w (.campaign signer root 1754142441 expiration.toNat Script.campaignName mint) ≠ .ok cd)
    (hvault : w.bank.tokens (.ata (.campaign signer root 1754142441 expiration.toNat Script.campaignName mint) .token mint)
      = none)
    (hl : campaignScriptRent rt mint ≤ w.lamports signer) (k : Script.Config) {t : Nat → Int} (ht : t 0 ≤ t 1)
    (hmax : t 1 < 2 ^ 63) (h0 : w.clock ≤ t 0) :
    ∃ w', runAll rt w (Script.paced t 0 (Script.merkleInstant signer mint k root expiration)) = .ok w' ∧
      configView rt w' .merkle = .ok ⟨rt.bump (.treasury .merkle), k.admin, k.chainlinkProgram, k.feed⟩ ∧
      Merkle.campaignView w' (.campaign signer root 1754142441 expiration.toNat Script.campaignName mint) = .ok
        { airdropTokenMint := mint, bump := rt.bump (.campaign signer root 1754142441 expiration.toNat Script.campaignName mint)
          campaignStartTime := 1754142441, creator := signer, expirationTime := expiration.toNat, firstClaimTime := 0
          ipfsCid := Script.campaignCid, merkleRoot := root, name := Script.campaignName } ∧
      w'.bank.tokens (.ata (.campaign signer root 1754142441 expiration.toNat Script.campaignName mint) .token mint) =
        some ⟨.token, mint, .campaign signer root 1754142441 expiration.toNat Script.campaignName mint, 0, false⟩ := by
  have est : Script.campaignStart.toNat = 1754142441 := by decide
  have n1 : Script.campaignName.length = 15 := by decide +kernel
  have n2 : Script.campaignCid.length = 59 := by decide +kernel
  rw [← est] at hfree hvault ⊢
  unfold campaignScriptRent at hl
  have hmax0 : t 0 < 2 ^ 63 := by omega
  have t0 := tick_reach hr h0 hmax0
  obtain ⟨w₁, s1, hc, e1, e2, _, _, _⟩ := C80_merkle_initialize (w := { w with clock := t 0 }) t0 hn hs
    (by show _ ≤ w.lamports signer; omega) k.admin k.chainlinkProgram k.feed
  have r1 := t0.step s1
  have c1 : w₁.clock = t 0 := by
    obtain ⟨_, _, _, l, _, h⟩ := Merkle.initializeProgram_ok s1
    rw [h]
  have hrent := (C60_rent_only (p := signer) rfl rfl s1).2.left
  replace hrent : w.lamports signer ≤ w₁.lamports signer + (max (rt.rent 105) 1 + 0) := by
    simpa [opens, charge] using hrent
  rw [show (105 : Nat) = Merkle.treasurySpace from rfl] at hrent
  have t1 := tick_reach r1 (t := t 1) (by rw [c1]; exact ht) hmax
  generalize hX : Addr.campaign signer root Script.campaignStart.toNat expiration.toNat Script.campaignName mint = x at *
  let c : Merkle.CreateCampaignAccts := ⟨signer, mint, x, .ata x .token mint, .token⟩
  have hm1 : w₁.bank.mints mint = some md := by rw [e2]; exact hm
  have hfree1 : ∀ cd, Merkle.campaignView { w₁ with clock := t 1 } x ≠ .ok cd := by
    intro cd h
    refine hfree cd (fetch_ok.2 ?_)
    have h' : w₁.mi.campaigns x = some cd := fetch_ok.1 h
    rw [e1] at h'; exact h'
  obtain ⟨w₂, s2⟩ := (C58_create_iff t1 (c := c) (root := root) (st := Script.campaignStart) (ex := expiration)
    (name := Script.campaignName) (cid := Script.campaignCid) (agg := 10000) (cnt := 100) (md := md) hm1 hs
    hcl.symm hX.symm (by rw [hcl]) (by
      rw [hcl]
      show max (rt.rent Merkle.campaignSpace) 1 + max (rt.rent (World.tokenSpace rt mint .token)) 1 ≤ w₁.lamports signer
      omega)).2 ⟨by omega, by omega, hfree1, by
        show w₁.bank.tokens (.ata x .token mint) = none
        rw [e2]; exact hvault⟩
  obtain ⟨md', he, _, _⟩ := C58_create_effect s2
  have hmd : md' = md := by have := he.mint; rw [show ({ w₁ with clock := t 1 } : World).bank.mints c.airdropTokenMint = some md from hm1] at this; cases this; rfl
  subst hmd
  refine ⟨w₂, ?_, ?_, ?_, ?_⟩
  · refine paced_step h0 hmax0 s1 ?_
    refine paced_step (by rw [c1]; exact ht) hmax ?_ (w' := w₂) rfl
    unfold Script.createCampaign
    simp only [hX]
    exact s2
  · have h1 : w₂.mi.treasury = w₁.mi.treasury := he.treasury
    simp only [configView, Merkle.treasuryView, Merkle.loadTreasury] at hc ⊢
    rw [h1]; exact hc
  · refine fetch_ok.2 ?_
    rw [he.campaigns]
    exact upd_same ..
  · have := he.vault
    rw [hcl, (hr.extensions _ _ hm hcl).2.2] at this
    exact this

/-- On a chain with one token. -/
example := C95_campaign_script (rt := rt) (w := after world0 [.env (.createMint 3 plainMint)])
  (reach0.steps (steps_after (by decide +kernel))) (by intro tr h; cases h) (signer := alice) rfl (mint := Demo.mint)
  (md := plainMint) (by decide +kernel) rfl (bytes32 5) 1800000000 (by intro cd h; cases h) (by decide +kernel) (by decide +kernel)
  ⟨collector, oracleProgram, feed⟩ (t := fun i => 1000 + 60 * i) (by decide) (by decide) (by decide)

end Solsab.Props
