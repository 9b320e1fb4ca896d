import Verif.Spec.Treasury
import Verif.Proofs.Oracle
import Verif.Props.Create
/-!
# C33–C38, C57: configuration, treasuries, fees, atomicity
-/

namespace Solsab.Props

open Spec Demo

/-! ## C33: initialize -/

/-- The stored treasury record. -/
def storedTreasury (w : World) : Prog → Option Treasury
  | .lockup => w.lk.treasury
  | .merkle => w.mi.treasury

theorem configView_ok {rt : Runtime} {w : World} (hr : Reachable rt w) {p : Prog} {tr : Treasury} :
    configView rt w p = .ok tr ↔ storedTreasury w p = some tr := by
  cases p with
  | lockup =>
    show Lockup.loadTreasury _ _ _ = _ ↔ _
    rw [Lockup.loadTreasury_ok]
    exact ⟨fun h => h.1, fun h => ⟨h, rfl, hr.lkTreasury_bump _ h⟩⟩
  | merkle =>
    show Merkle.loadTreasury _ _ _ = _ ↔ _
    rw [Merkle.loadTreasury_ok]
    exact ⟨fun h => h.1, fun h => ⟨h, rfl, hr.miTreasury_bump _ h⟩⟩

theorem init_stored {rt : Runtime} {w w' : World} {ix : Ix} {p : Prog} {f op fd : Addr}
    (hi : ix.initializes = some (p, f, op, fd)) (hs : step rt w ix = .ok w') :
    storedTreasury w p = none ∧ storedTreasury w' p = some ⟨rt.bump (.treasury p), f, op, fd⟩ := by
  match ix, hi with
  | .lockup (.initialize c f op fd), rfl =>
    obtain ⟨_, _, _, _, _, h⟩ := Lockup.initializeProgram_ok hs
    exact ⟨h.noTreasury, by rw [h.result]; rfl⟩
  | .merkle (.initialize c f op fd), rfl =>
    obtain ⟨_, _, h1, _, _, h2⟩ := Merkle.initializeProgram_ok hs
    exact ⟨h1, by rw [h2]; rfl⟩

theorem stored_steps {rt : Runtime} {w w' : World} (hs : Steps rt w w') {p : Prog} {tr : Treasury}
    (h : storedTreasury w p = some tr) : storedTreasury w' p = some tr := by
  cases p with
  | lockup => exact hs.lkTreasury h
  | merkle => exact hs.miTreasury h

/-- **C33**: a successful `initialize` stores exactly its arguments, and the program was not initialised before. -/
theorem C33_stores {rt : Runtime} {w w' : World} (hr : Reachable rt w) {ix : Ix} {p : Prog} {f op fd : Addr}
    (hi : ix.initializes = some (p, f, op, fd)) (hs : step rt w ix = .ok w') :
    (∀ tr, configView rt w p ≠ .ok tr) ∧ configView rt w' p = .ok ⟨rt.bump (.treasury p), f, op, fd⟩ := by
  have hr' : Reachable rt w' := hr.steps (.tail ix (.refl _) hs)
  obtain ⟨h1, h2⟩ := init_stored hi hs
  refine ⟨fun tr h => ?_, (configView_ok hr').2 h2⟩
  rw [configView_ok hr, h1] at h; cases h

example := C33_stores reach0 (ix := .merkle (.initialize ⟨alice, .treasury .merkle⟩ collector oracleProgram feed)) rfl
  (step_after (by decide +kernel))

/-- **C33**: after an `initialize`, in every later state the configuration is unchanged and every
`initialize` of the same program fails, whatever its accounts and arguments. -/
theorem C33_once {rt : Runtime} {w w' : World} (hr : Reachable rt w) (hs : Steps rt w w') {p : Prog} {tr : Treasury}
    (hc : configView rt w p = .ok tr) :
    configView rt w' p = .ok tr ∧
    ∀ ix f op fd, ix.initializes = some (p, f, op, fd) → ∃ e, step rt w' ix = .error e := by
  have h' := stored_steps hs ((configView_ok hr).1 hc)
  refine ⟨(configView_ok (hr.steps hs)).2 h', fun ix f op fd hi => ?_⟩
  cases hx : step rt w' ix with
  | error e => exact ⟨e, rfl⟩
  | ok w'' =>
    obtain ⟨h1, _⟩ := init_stored hi hx
    rw [h1] at h'; cases h'

example := C33_once reach1 (steps12.trans (steps23.trans steps34)) (p := .lockup)
  (tr := ⟨255, collector, oracleProgram, feed⟩) (by decide +kernel)

/-! ## C34: collect_fees -/

theorem collect_ok {rt : Runtime} {w w' : World} {ix : Ix} {p : Prog} {cl rc : Addr}
    (hi : ix.collectAccts p = some (cl, rc)) (hs : step rt w ix = .ok w') :
    ∃ tr x, storedTreasury w p = some tr ∧ Lockup.CollectOk rt w cl rc (.treasury p) p tr 105 x w' := by
  match ix, hi with
  | .lockup (.collectFees c), hi =>
    simp only [Ix.collectAccts, Option.ite_none_right_eq_some, Option.some.injEq, Prod.mk.injEq] at hi
    obtain ⟨⟨rfl, ht⟩, rfl, rfl⟩ := hi
    obtain ⟨tr, x, h1, h2⟩ := Lockup.collectFees_ok hs
    rw [ht] at h2
    exact ⟨tr, x, h1, h2⟩
  | .merkle (.collectFees c), hi =>
    simp only [Ix.collectAccts, Option.ite_none_right_eq_some, Option.some.injEq, Prod.mk.injEq] at hi
    obtain ⟨⟨rfl, ht⟩, rfl, rfl⟩ := hi
    obtain ⟨tr, x, h1, h2⟩ := Merkle.collectFees_ok hs
    rw [ht] at h2
    exact ⟨tr, x, h1, h2⟩

theorem moved_eq {l : Addr → Nat} {a b : Addr} {x : Nat} (h : x ≤ l a) :
    upd (upd l a (l a - x)) b (upd l a (l a - x) b + x) = moved l a b x := by
  funext y
  simp only [upd_apply, moved]
  by_cases hab : a = b
  · subst hab
    simp only [if_true]
    split
    · subst_vars; omega
    · rfl
  · rw [if_neg hab, if_neg (Ne.symm hab)]
    by_cases hy : y = b
    · subst hy; rw [if_pos rfl, if_neg (Ne.symm hab), if_pos rfl]
    · rw [if_neg hy, if_neg hy]
      split
      · subst_vars; rfl
      · rfl

/-- A `collect_fees` that succeeds passed the program's treasury. -/
theorem C34_right_treasury {rt : Runtime} {w w' : World} {ix : Ix} {p : Prog} (hi : ix.collects = some p)
    (hs : step rt w ix = .ok w') : ∃ cl rc, ix.collectAccts p = some (cl, rc) := by
  match ix, hi with
  | .lockup (.collectFees c), rfl =>
    obtain ⟨tr, x, h1, h2⟩ := Lockup.collectFees_ok hs
    exact ⟨_, _, if_pos ⟨rfl, h2.treasuryAddr⟩⟩
  | .merkle (.collectFees c), rfl =>
    obtain ⟨tr, x, h1, h2⟩ := Merkle.collectFees_ok hs
    exact ⟨_, _, if_pos ⟨rfl, h2.treasuryAddr⟩⟩

/-- **C34**: a successful `collect_fees` was signed by the configured collector and moves exactly
`balance - keep > 0` lamports to the chosen recipient; it changes nothing else and reports the amount. -/
theorem C34_collect {rt : Runtime} {w w' : World} (hr : Reachable rt w) {ix : Ix} {p : Prog} {cl rc : Addr}
    (hi : ix.collectAccts p = some (cl, rc)) (hs : step rt w ix = .ok w') :
    ∃ tr, configView rt w p = .ok tr ∧ cl = tr.feeCollector ∧ cl.canSign = true ∧
      keep rt < w.lamports (.treasury p) ∧
      w' = { w with
        lamports := moved w.lamports (.treasury p) rc (w.lamports (.treasury p) - keep rt)
        log := ⟨w.now, .feesCollected p (w.lamports (.treasury p) - keep rt) cl rc⟩ :: w.log } ∧
      (rc ≠ .treasury p → w'.lamports (.treasury p) = keep rt) := by
  obtain ⟨tr, x, h1, h⟩ := collect_ok hi hs
  have hk : keep rt = rt.rent 105 + REDUNDANCY_BUFFER := by unfold keep REDUNDANCY_BUFFER; rfl
  have hx : x = w.lamports (.treasury p) - keep rt := by rw [hk]; exact h.amount_eq
  have hp := h.pos
  generalize keep rt = K at *
  subst hx
  refine ⟨tr, (configView_ok hr).2 h1, h.collector_eq, h.signs, by omega, ?_, ?_⟩
  · rw [h.result, moved_eq (Nat.sub_le _ _)]
  · intro hne
    rw [h.result]
    simp only
    rw [upd_ne _ _ (Ne.symm hne), upd_same]
    omega

example := C34_collect reach7 (ix := ixCollect) (p := .lockup) rfl (step_after (by decide +kernel))

/-- **C34**: exactly when it succeeds and with which error it fails, for the configured collector and the
right treasury (rent minimum small enough for a `u64` sum). -/
theorem C34_exact {rt : Runtime} {w : World} (hr : Reachable rt w) {ix : Ix} {p : Prog} {cl rc : Addr} {tr : Treasury}
    (hi : ix.collectAccts p = some (cl, rc)) (hc : configView rt w p = .ok tr) (hcl : cl = tr.feeCollector)
    (hsig : cl.canSign = true) (hk : keep rt < 2 ^ 64) (hfit : rc ≠ .treasury p →
      w.lamports rc + (w.lamports (.treasury p) - keep rt) < 2 ^ 64) (hfit' : w.lamports (.treasury p) < 2 ^ 64) :
    (keep rt < w.lamports (.treasury p) → ∃ w', step rt w ix = .ok w') ∧
    (w.lamports (.treasury p) ≤ keep rt → step rt w ix = .error (zeroFees p)) := by
  have hs := (configView_ok hr).1 hc
  have hfit2 : upd w.lamports (.treasury p) (w.lamports (.treasury p) - (w.lamports (.treasury p) - keep rt)) rc +
      (w.lamports (.treasury p) - keep rt) < 2 ^ 64 := by
    by_cases hrc : rc = .treasury p
    · subst hrc; rw [upd_same]; omega
    · rw [upd_ne _ _ hrc]; exact hfit hrc
  match ix, hi with
  | .lockup (.collectFees c), hi =>
    simp only [Ix.collectAccts, Option.ite_none_right_eq_some, Option.some.injEq, Prod.mk.injEq] at hi
    obtain ⟨⟨rfl, ht⟩, rfl, rfl⟩ := hi
    have hl : Lockup.loadTreasury rt w c.treasury = .ok tr :=
      Lockup.loadTreasury_ok.2 ⟨hs, ht, by rw [ht]; exact hr.lkTreasury_bump _ hs⟩
    have hsc : safeCollectibleAmount rt (w.lamports (.treasury .lockup)) Lockup.treasurySpace =
      .ok (w.lamports (.treasury .lockup) - keep rt) := Lockup.safeCollectible_ok.2 ⟨hk, rfl⟩
    constructor
    · intro hlt
      show ∃ w', Lockup.collectFees rt w c = .ok w'
      unfold Lockup.collectFees
      rw [req_bind hsig, hl, ok_bind, req_bind hcl, ht, hsc, ok_bind,
        (Lockup.checkCollectFees_ok (u := ())).2 (show 0 < w.lamports (.treasury .lockup) - keep rt by omega), ok_bind,
        req_bind (Nat.sub_le _ _)]
      simp only
      rw [req_bind hfit2]
      exact ⟨_, rfl⟩
    · intro hle
      show Lockup.collectFees rt w c = _
      unfold Lockup.collectFees
      rw [req_bind hsig, hl, ok_bind, req_bind hcl, ht, hsc, ok_bind, Nat.sub_eq_zero_of_le hle]
      rfl
  | .merkle (.collectFees c), hi =>
    simp only [Ix.collectAccts, Option.ite_none_right_eq_some, Option.some.injEq, Prod.mk.injEq] at hi
    obtain ⟨⟨rfl, ht⟩, rfl, rfl⟩ := hi
    have hl : Merkle.loadTreasury rt w c.treasury = .ok tr :=
      Merkle.loadTreasury_ok.2 ⟨hs, ht, by rw [ht]; exact hr.miTreasury_bump _ hs⟩
    have hsc : safeCollectibleAmount rt (w.lamports (.treasury .merkle)) Merkle.treasurySpace =
      .ok (w.lamports (.treasury .merkle) - keep rt) := Lockup.safeCollectible_ok.2 ⟨hk, rfl⟩
    constructor
    · intro hlt
      show ∃ w', Merkle.collectFees rt w c = .ok w'
      unfold Merkle.collectFees
      rw [req_bind hsig, hl, ok_bind, req_bind hcl, ht, hsc, ok_bind,
        (Merkle.checkCollectFees_ok (u := ())).2 (show 0 < w.lamports (.treasury .merkle) - keep rt by omega), ok_bind,
        req_bind (Nat.sub_le _ _)]
      simp only
      rw [req_bind hfit2]
      exact ⟨_, rfl⟩
    · intro hle
      show Merkle.collectFees rt w c = _
      unfold Merkle.collectFees
      rw [req_bind hsig, hl, ok_bind, req_bind hcl, ht, hsc, ok_bind, Nat.sub_eq_zero_of_le hle]
      rfl

example := C34_exact reach7 (ix := ixCollect) (p := .lockup) rfl (tr := ⟨255, collector, oracleProgram, feed⟩)
  (by decide +kernel) rfl rfl (by decide +kernel) (by decide +kernel) (by decide +kernel)
-- both cases occur
example : keep rt < world7.lamports (.treasury .lockup) ∧ world8.lamports (.treasury .lockup) ≤ keep rt := by
  decide +kernel

/-! ## C35: treasury lamports -/

/-- **C35**: if a step lowers the treasury balance of `p`, it was a `collect_fees` of `p`, signed by the
configured collector, and the balance is then exactly `keep`. -/
theorem C35_only_collect {rt : Runtime} {w w' : World} (hr : Reachable rt w) {ix : Ix} (hs : step rt w ix = .ok w')
    {p : Prog} (hlt : w'.lamports (.treasury p) < w.lamports (.treasury p)) :
    ∃ tr rc, configView rt w p = .ok tr ∧ tr.feeCollector.canSign = true ∧
      ix.collectAccts p = some (tr.feeCollector, rc) ∧ w'.lamports (.treasury p) = keep rt := by
  by_cases hc : ix.collects = some p
  · obtain ⟨cl, rc, hi⟩ := C34_right_treasury hc hs
    obtain ⟨tr, h1, h2, h3, _, h5, h6⟩ := C34_collect hr hi hs
    subst h2
    refine ⟨tr, rc, h1, h3, hi, h6 ?_⟩
    rintro rfl
    rw [h5] at hlt
    simp [moved] at hlt
  · have := (step_did hs).lam_treasury hr p hc
    omega

example := C35_only_collect reach7 (ix := ixCollect) (step_after (by decide +kernel)) (p := .lockup) (by decide +kernel)

theorem collectedFrom_quiet {rt : Runtime} {w w' : World} {ix : Ix} (h : Did rt w ix w') {p : Prog}
    (hc : ix.collects ≠ some p) : total (collectedFrom p) w'.log = total (collectedFrom p) w.log := by
  cases h with
  | init _ h => rw [h.result]
  | create _ _ h => rw [h.result]; simp [total_cons, collectedFrom]
  | withdraw _ h => rw [h.result]; simp [total_cons, collectedFrom]
  | cancel _ h => rw [h.result]; simp [total_cons, collectedFrom]
  | renounce _ h => rw [h.result]; simp [total_cons, collectedFrom]
  | collect hix _ h =>
    rw [h.result]
    have : Prog.lockup ≠ p := by rintro rfl; exact hc (by rw [hix]; rfl)
    simp [total_cons, collectedFrom, this]
  | miInit _ _ _ _ h => rw [h]
  | campaign _ _ h => rw [h.result]; simp [total_cons, collectedFrom]
  | claim _ h => rw [h.result]; simp [total_cons, collectedFrom]
  | clawback _ h => rw [h.result]; simp [total_cons, collectedFrom]
  | miCollect hix _ h =>
    rw [h.result]
    have : Prog.merkle ≠ p := by rintro rfl; exact hc (by rw [hix]; rfl)
    simp [total_cons, collectedFrom, this]
  | env i _ h => rw [(env_ok h).log]

/-- **C35**: over any history, what the treasury loses is at most what the `FeesCollected` events say. -/
theorem C35_accounting {rt : Runtime} {w w' : World} (hr : Reachable rt w) (hs : Steps rt w w') (p : Prog) :
    w.lamports (.treasury p) + total (collectedFrom p) w.log ≤
      w'.lamports (.treasury p) + total (collectedFrom p) w'.log := by
  induction hs with
  | refl => exact Nat.le_refl _
  | @tail w₁ w₂ ix h1 h2 ih =>
    refine Nat.le_trans ih ?_
    have hr1 := hr.steps h1
    by_cases hc : ix.collects = some p
    · obtain ⟨cl, rc, hi⟩ := C34_right_treasury hc h2
      obtain ⟨tr, _, _, _, hk, h5, h6⟩ := C34_collect hr1 hi h2
      have hl : total (collectedFrom p) w₂.log = w₁.lamports (.treasury p) - keep rt + total (collectedFrom p) w₁.log := by
        rw [h5]; simp [total_cons, collectedFrom]
      rw [hl]
      by_cases hrc : rc = .treasury p
      · have : w₂.lamports (.treasury p) = w₁.lamports (.treasury p) := by
          rw [h5, hrc]; simp [moved]
        omega
      · have := h6 hrc; omega
    · have h3 := (step_did h2).lam_treasury hr1 p hc
      rw [collectedFrom_quiet (step_did h2) hc]
      omega

example := C35_accounting reach1 (steps12.trans (steps23.trans (steps34.trans (steps45.trans (steps56.trans
  (steps67.trans steps78)))))) .lockup
example : total (collectedFrom .lockup) world8.log = 1000000 := by decide +kernel

/-! ## C36: fee conversion -/

/-- **C36**: the zero cases. -/
theorem C36_zero (feeUsd : UInt64) (now : Nat) (o : OracleData)
    (h : feeUsd = 0 ∨ o.round = none ∨ (∃ r, o.round = some r ∧ (r.answer ≤ 0 ∨ now % 2 ^ 32 < r.timestamp ∨
      now % 2 ^ 32 - r.timestamp > 86400)) ∨ o.decimals = none) :
    convertUsdFeeToLamports feeUsd.toNat now o = .ok 0 := by
  unfold convertUsdFeeToLamports asU32 SECONDS_IN_24_HOURS
  rcases h with rfl | h | ⟨r, hr, h⟩ | h
  · rfl
  · rw [h]; simp only; split <;> rfl
  · rw [hr]; simp only
    split
    · rfl
    · split
      · rcases h with h | h | h
        · omega
        · rw [if_pos h]
        · rw [if_pos h]; split <;> rfl
      · rfl
  · cases hr : o.round with
    | none => simp only; split <;> rfl
    | some r =>
      simp only [h]
      repeat' split
      all_goals rfl

/-- **C36**: the conversion.  Otherwise, if the price fits `u64`, time fits `u32`, and the intermediate and
final values fit their types, the result is the floor of `fee_usd * 10^(1+decimals) / price`. -/
theorem C36_value {feeUsd now ts dec : Nat} {price : Int} (hp : 0 < price) (hp64 : price < 2 ^ 64)
    (hnow : now < 2 ^ 32) (h1 : ts ≤ now) (h2 : now - ts ≤ 86400)
    (hmul : if dec = 8 then feeUsd * 10 ^ 9 < 2 ^ 64 else 10 ^ (1 + dec) < 2 ^ 128 ∧ feeUsd * 10 ^ (1 + dec) < 2 ^ 128)
    (hres : feeUsd * 10 ^ (1 + dec) / price.toNat < 2 ^ 64) :
    ∃ x, convertUsdFeeToLamports feeUsd now ⟨some ⟨ts, price⟩, some dec⟩ = .ok x ∧
      x * price.toNat ≤ feeUsd * 10 ^ (1 + dec) ∧ feeUsd * 10 ^ (1 + dec) < (x + 1) * price.toNat := by
  have hpn : intAsU64 price = price.toNat := by
    unfold intAsU64; rw [Int.emod_eq_of_lt (by omega) (by omega)]
  have hpos : 0 < price.toNat := by omega
  have hx : convertUsdFeeToLamports feeUsd now ⟨some ⟨ts, price⟩, some dec⟩ =
      .ok (feeUsd * 10 ^ (1 + dec) / price.toNat) := by
    unfold convertUsdFeeToLamports asU32 SECONDS_IN_24_HOURS
    simp only
    by_cases hf : feeUsd = 0
    · rw [if_pos hf, hf, Nat.zero_mul, Nat.zero_div]
    · rw [if_neg hf, if_pos hp, Nat.mod_eq_of_lt hnow, if_neg (by omega), if_neg (by omega), hpn]
      by_cases hd : dec = 8
      · subst hd
        rw [if_pos rfl] at hmul
        rw [if_pos rfl, mulU64_ok.2 ⟨(by simpa [LAMPORTS_PER_SOL] using hmul), rfl⟩, ok_bind, divChecked_ok.2 ⟨by omega, rfl⟩]
        rfl
      · rw [if_neg hd] at hmul
        rw [if_neg hd, pow10U128_ok.2 ⟨hmul.1, rfl⟩, ok_bind, mulU128_ok.2 ⟨hmul.2, rfl⟩, ok_bind,
          divChecked_ok.2 ⟨by omega, rfl⟩, ok_bind, asU64, Nat.mod_eq_of_lt hres]
  refine ⟨_, hx, Nat.div_mul_le_self _ _, ?_⟩
  exact (Nat.div_lt_iff_lt_mul hpos).1 (Nat.lt_succ_self _)

-- $1 in hundred-millionths (fee unit), SOL at $150 with 8 decimals
example := C36_value (feeUsd := 100000000) (now := 1000) (ts := 900) (dec := 8) (price := 15000000000)
  (by decide) (by decide) (by decide) (by decide) (by decide) (by decide) (by decide)

/-- **C36**, limits: a price that is a multiple of 2^64 makes the conversion panic, so with a non-zero fee
such an oracle answer would block every withdrawal and claim. -/
theorem C36_price_truncation {feeUsd now ts dec : Nat} {price : Int} (hf : feeUsd ≠ 0) (hp : 0 < price)
    (hp64 : price % 2 ^ 64 = 0) (hnow : now < 2 ^ 32) (h1 : ts ≤ now) (h2 : now - ts ≤ 86400) :
    convertUsdFeeToLamports feeUsd now ⟨some ⟨ts, price⟩, some dec⟩ = .error .panic := by
  have hpn : intAsU64 price = 0 := by unfold intAsU64; rw [hp64]; rfl
  unfold convertUsdFeeToLamports asU32 SECONDS_IN_24_HOURS
  simp only
  rw [if_neg hf, if_pos hp, Nat.mod_eq_of_lt hnow, if_neg (by omega), if_neg (by omega), hpn]
  split
  · unfold mulU64; split <;> rfl
  · unfold pow10U128 mulU128
    split
    · rw [ok_bind]; split <;> rfl
    · rfl

example := C36_price_truncation (feeUsd := 5) (now := 1000) (ts := 900) (dec := 8) (price := 2 ^ 64)
  (by decide) (by decide) (by decide) (by decide) (by decide) (by decide)

/-! ## C37: the oracle has no influence -/

/-- **C37**: with the shipped fee constants every instruction of both programs gives the same result
(success or the same error, and the same ledger apart from the oracle data) whatever the oracle says. -/
theorem C37_oracle_independent {rt : Runtime} {w : World} {ix : Ix} (h : ∀ i, ix ≠ .env i)
    (o : Addr → Addr → OracleData) :
    step rt { w with oracle := o } ix = (step rt w ix).map (fun w' => { w' with oracle := o }) :=
  program_oracle o rt w ix h

example := C37_oracle_independent (rt := rt) (w := world2) (ix := ixWithdraw) (by intro i h; cases h)
  (fun _ _ => ⟨none, none⟩)

/-- **C37**: the fee views return 0. -/
theorem C37_fee_views {rt : Runtime} {w : World} (hr : Reachable rt w) {p : Prog} {tr : Treasury}
    (hc : configView rt w p = .ok tr) :
    (match p with
      | .lockup => Lockup.withdrawalFeeInLamports rt w (.treasury .lockup) tr.chainlinkProgram tr.chainlinkSolUsdFeed
      | .merkle => Merkle.claimFeeInLamports rt w (.treasury .merkle) tr.chainlinkProgram tr.chainlinkSolUsdFeed) =
    .ok 0 := by
  cases p with
  | lockup =>
    simp only
    unfold Lockup.withdrawalFeeInLamports
    have hl : Lockup.loadTreasury rt w (.treasury .lockup) = .ok tr := hc
    rw [hl, ok_bind, req_bind rfl, req_bind rfl]
    rfl
  | merkle =>
    simp only
    unfold Merkle.claimFeeInLamports
    have hl : Merkle.loadTreasury rt w (.treasury .merkle) = .ok tr := hc
    rw [hl, ok_bind, req_bind rfl, req_bind rfl]
    rfl

example := C37_fee_views reach1 (p := .merkle) (tr := ⟨255, collector, oracleProgram, feed⟩) (by decide +kernel)

theorem payRent_lam {rt : Runtime} {w w' : World} {p a : Addr} {k : Nat} (h : w.payRent rt p a k = .ok w') :
    w' = { w with lamports := rentPaid rt w.lamports p a k } := by
  simp only [World.payRent, bind_ok, require_ok, pure_ok] at h
  obtain ⟨_, h1, rfl⟩ := h
  rw [moved_eq h1]; rfl

/-- The lamports after creating the token account `a` if it does not exist. -/
theorem ensureAta_lam {rt : Runtime} {w w' : World} {p a o m : Addr} {tp : TokenProgram}
    (h : w.ensureAta rt p a o tp m = .ok w') :
    w'.lamports = if w.bank.tokens a = none then rentPaid rt w.lamports p a (World.tokenSpace rt m tp) else w.lamports := by
  unfold World.ensureAta at h
  cases hx : w.bank.tokens a with
  | none =>
    rw [hx] at h
    simp only [World.createAta, bind_ok, require_ok, pure_ok] at h
    obtain ⟨_, _, b, _, h4⟩ := h
    rw [payRent_lam h4, if_pos rfl]
  | some t =>
    rw [hx] at h
    simp only [bind_ok, require_ok, pure_ok] at h
    obtain ⟨_, _, _, _, _, _, rfl⟩ := h
    rw [if_neg (by simp)]

theorem transferTokens_lam {w w' : World} {s d x m : Addr} {tp : TokenProgram} {a k : Nat}
    (h : w.transferTokens s d x m tp a k = .ok w') : w'.lamports = w.lamports := by
  simp only [World.transferTokens, bind_ok, require_ok, pure_ok] at h
  obtain ⟨_, _, _, _, _, _, rfl⟩ := h; rfl

/-- **C37**: a withdrawal charges the signer nothing but the rent of the destination account it creates. -/
theorem C37_withdraw_lamports {rt : Runtime} {w w' : World} {ix : Ix} {c : Lockup.WithdrawAccts}
    (hc : ix.withdrawAccts = some c) (hs : step rt w ix = .ok w') :
    w'.lamports = if w.bank.tokens c.withdrawalRecipientAta = none then
      rentPaid rt w.lamports c.signer c.withdrawalRecipientAta (World.tokenSpace rt c.depositedTokenMint c.depositedTokenProgram)
      else w.lamports := by
  have key : ∀ w₁ sd dm a, Lockup.withdrawAccounts rt w c = .ok (w₁, sd, dm) →
      Lockup.withdrawHandler w₁ c sd dm a = .ok w' → w'.lamports = if w.bank.tokens c.withdrawalRecipientAta = none then
        rentPaid rt w.lamports c.signer c.withdrawalRecipientAta (World.tokenSpace rt c.depositedTokenMint c.depositedTokenProgram)
        else w.lamports := by
    intro w₁ sd dm a h1 h2
    simp only [Lockup.withdrawAccounts, bind_ok, pure_ok, Prod.mk.injEq] at h1
    obtain ⟨_, _, _, _, _, _, _, _, _, _, _, _, _, _, _, _, _, _, _, _, _, _, w₂, he, rfl, _, _⟩ := h1
    have hz : Lockup.WITHDRAWAL_FEE_USD = 0 := rfl
    simp only [Lockup.withdrawHandler, hz, chargeFee_zero, ok_bind, bind_ok, pure_ok] at h2
    obtain ⟨_, _, _, _, _, _, w₃, h3, rfl⟩ := h2
    have := transferTokens_lam h3
    show w₃.lamports = _
    rw [this]
    exact ensureAta_lam he
  match ix, hc with
  | .lockup (.withdraw c a), rfl =>
    obtain ⟨⟨w₁, sd, dm⟩, h1, h2⟩ := bind_ok.1 hs
    exact key _ _ _ _ h1 h2
  | .lockup (.withdrawMax c), rfl =>
    obtain ⟨⟨w₁, sd, dm⟩, h1, h2⟩ := bind_ok.1 hs
    obtain ⟨a, _, h3⟩ := bind_ok.1 h2
    exact key _ _ _ _ h1 h3

example := C37_withdraw_lamports (ix := ixWithdraw) (w := world2) rfl (step_after (by decide +kernel))

/-- **C37**: a claim charges the claimer nothing but the rent of the recipient's account, if it creates it,
and of the claim receipt. -/
theorem C37_claim_lamports {rt : Runtime} {w w' : World} {c : Merkle.ClaimAccts} {i : UInt32} {a : UInt64}
    {proof : List Bytes32} (hs : step rt w (.merkle (.claim c i a proof)) = .ok w') :
    w'.lamports = rentPaid rt (if w.bank.tokens c.recipientAta = none then
      rentPaid rt w.lamports c.claimer c.recipientAta (World.tokenSpace rt c.airdropTokenMint c.airdropTokenProgram)
      else w.lamports) c.claimer c.claimReceipt 8 := by
  obtain ⟨⟨w₁, cd, dm⟩, h1, h2⟩ := bind_ok.1 hs
  simp only [Merkle.claimAccounts, bind_ok, pure_ok, Prod.mk.injEq] at h1
  obtain ⟨_, _, _, _, _, _, _, _, _, _, _, _, _, _, _, _, w₂, he, _, _, _, _, w₃, h3, rfl, _, _⟩ := h1
  have hz : Merkle.CLAIM_FEE_USD = 0 := rfl
  simp only [Merkle.claimHandler, hz, chargeFee_zero, ok_bind, bind_ok, pure_ok, Merkle.campaignTransfer] at h2
  obtain ⟨_, _, w₄, ⟨_, _, h4⟩, rfl⟩ := h2
  have h5 := transferTokens_lam h4
  show w₄.lamports = _
  rw [h5]
  show w₃.lamports = _
  rw [payRent_lam h3, ensureAta_lam he]
  rfl

example := C37_claim_lamports (w := world2) (c := claimAccts bob 0) (i := 0) (a := 500) (proof := [leaf1])
  (step_after (by decide +kernel))

/-! ## C38: transactions -/

/-- **C38**: a transaction either commits the result of all its instructions, run in order, each of which
succeeded, or leaves the whole ledger as it was. -/
theorem C38_atomic (rt : Runtime) (w : World) (tx : List Ix) :
    (∃ w', runAll rt w tx = .ok w' ∧ execTx rt w tx = w' ∧ Steps rt w w') ∨
    (∃ e, runAll rt w tx = .error e ∧ execTx rt w tx = w) := by
  unfold execTx
  cases h : runAll rt w tx with
  | ok w' => exact .inl ⟨w', rfl, rfl, Demo.steps_runAll tx h⟩
  | error e => exact .inr ⟨e, rfl, rfl⟩

/-- **C38**: one failing instruction anywhere in a transaction undoes everything before it. -/
theorem C38_failure_undoes {rt : Runtime} {w w₁ : World} {pre post : List Ix} {ix : Ix} {e : Err}
    (h1 : runAll rt w pre = .ok w₁) (h2 : step rt w₁ ix = .error e) : execTx rt w (pre ++ ix :: post) = w := by
  have : runAll rt w (pre ++ ix :: post) = .error e := by
    induction pre generalizing w with
    | nil => cases h1; show (step rt w₁ ix >>= _) = _; rw [h2]; rfl
    | cons i is ih =>
      obtain ⟨w₂, h3, h4⟩ := bind_ok.1 h1
      show (step rt w i >>= fun w => runAll rt w (is ++ ix :: post)) = _
      rw [h3, ok_bind]
      exact ih h4
  unfold execTx; rw [this]

example : execTx rt world2 [ixWithdraw, .lockup (.withdraw (withdrawAccts bob 1) 100000), ixClaim] = world2 := by
  have h1 : (step rt world2 ixWithdraw).isOk = true := by decide +kernel
  have h2 := step_after h1
  have h3 : runAll rt world2 [ixWithdraw] = .ok (after world2 [ixWithdraw]) := by
    show (step rt world2 ixWithdraw >>= fun w => runAll rt w []) = _
    rw [h2, ok_bind]
    generalize after world2 [ixWithdraw] = X
    rfl
  cases h4 : step rt (after world2 [ixWithdraw]) (.lockup (.withdraw (withdrawAccts bob 1) 100000)) with
  | error e => exact C38_failure_undoes (pre := [ixWithdraw]) (post := [ixClaim]) h3 h4
  | ok w' =>
    have h5 : (step rt (after world2 [ixWithdraw]) (.lockup (.withdraw (withdrawAccts bob 1) 100000))).isOk = false := by
      decide +kernel
    rw [h4] at h5; cases h5

/-- **C38**: the states reached by any sequence of transactions, failed ones included, are states of the
histories all other theorems quantify over. -/
theorem C38_transactions {rt : Runtime} {w : World} (hr : Reachable rt w) (txs : List (List Ix)) :
    Reachable rt (txs.foldl (execTx rt) w) ∧ Steps rt w (txs.foldl (execTx rt) w) := by
  have key : ∀ (txs : List (List Ix)) (w : World), Steps rt w (txs.foldl (execTx rt) w) := by
    intro txs
    induction txs with
    | nil => intro w; exact .refl _
    | cons tx txs ih =>
      intro w
      rcases C38_atomic rt w tx with ⟨w', _, h2, h3⟩ | ⟨e, _, h2⟩
      · exact (show Steps rt w (execTx rt w tx) by rw [h2]; exact h3).trans (ih _)
      · have := ih (execTx rt w tx)
        rw [h2] at this
        show Steps rt w (txs.foldl (execTx rt) (execTx rt w tx))
        rw [h2]; exact this
  exact ⟨hr.steps (key txs w), key txs w⟩

example := C38_transactions reach0 [setup, createStreams, [ixWithdraw], openCampaign]

/-! ## C57: treasuries stay rent-exempt -/

theorem rentPaid_self {rt : Runtime} {l : Addr → Nat} {p a : Addr} {k : Nat} (h : p ≠ a) :
    rt.rent k ≤ rentPaid rt l p a k a := by
  unfold rentPaid moved
  rw [if_neg h, if_neg (Ne.symm h), if_pos rfl]
  omega

theorem init_rent {rt : Runtime} {w w' : World} {ix : Ix} {p : Prog} {f op fd : Addr}
    (hi : ix.initializes = some (p, f, op, fd)) (hs : step rt w ix = .ok w') :
    rt.rent 105 ≤ w'.lamports (.treasury p) := by
  have ne : ∀ a : Addr, a.canSign = true → a ≠ .treasury p := by rintro a h rfl; cases h
  match ix, hi with
  | .lockup (.initialize c f op fd), rfl =>
    have h : Lockup.initializeProgram rt w c f op fd = .ok w' := hs
    simp only [Lockup.initializeProgram, Lockup.nftInitializeCollection, bind_ok, require_ok] at h
    obtain ⟨_, hsg, _, h1, _, h2, w₁, hw₁, _, h3, _, h4, w₂, hw₂, _, h5, b₁, hb₁, w₃, hw₃, w₄, hw₄, b₃, hb₃,
      w₅, hw₅, hw₆⟩ := h
    rw [h1] at hw₁
    have e1 := payRent_lam hw₁
    have k1 : rt.rent 105 ≤ w₁.lamports (.treasury .lockup) := by rw [e1]; exact rentPaid_self (ne _ hsg)
    obtain ⟨l₂, rfl, hl₂⟩ := payRent_ok hw₂
    obtain ⟨l₃, rfl, hl₃⟩ := payRent_ok hw₃
    obtain ⟨b₂, l₄, ha, hb₂, hl₄, rfl⟩ := createAta_ok hw₄
    obtain ⟨hm, md, hmd, l₅, _, hl₅, rfl⟩ := Lockup.metaplexCollection_ok hw₅ hw₆
    exact Nat.le_trans k1 ((((hl₂.trans hl₃).trans hl₄).trans hl₅).pda hsg rfl)
  | .merkle (.initialize c f op fd), rfl =>
    have h : Merkle.initializeProgram rt w c f op fd = .ok w' := hs
    simp only [Merkle.initializeProgram, bind_ok, require_ok, pure_ok] at h
    obtain ⟨_, hsg, _, ht, _, hn, w₁, hw, rfl⟩ := h
    rw [ht] at hw
    rw [payRent_lam hw]
    exact rentPaid_self (ne _ hsg)

/-- **C57**: from its initialisation on, a treasury never has less than its rent minimum. -/
theorem C57_rent_exempt {rt : Runtime} {w : World} (hr : Reachable rt w) {p : Prog} {tr : Treasury}
    (hc : configView rt w p = .ok tr) : rt.rent 105 ≤ w.lamports (.treasury p) := by
  have hst := (configView_ok hr).1 hc
  clear hc
  obtain ⟨w₀, hg, hs⟩ := hr
  induction hs generalizing tr with
  | refl =>
    cases p
    · rw [storedTreasury, hg.no_lk_treasury] at hst; cases hst
    · rw [storedTreasury, hg.no_mi_treasury] at hst; cases hst
  | @tail w₁ w₂ ix h1 h2 ih =>
    have hr1 : Reachable rt w₁ := ⟨w₀, hg, h1⟩
    by_cases hc : ix.collects = some p
    · obtain ⟨cl, rc, hi⟩ := C34_right_treasury hc h2
      obtain ⟨tr', hv, _, _, hk, h5, h6⟩ := C34_collect hr1 hi h2
      by_cases hrc : rc = .treasury p
      · have : w₂.lamports (.treasury p) = w₁.lamports (.treasury p) := by
          rw [h5, hrc]; simp [moved]
        rw [this]
        exact ih ((configView_ok hr1).1 hv)
      · rw [h6 hrc]; exact Nat.le_add_right _ _
    · have hm := (step_did h2).lam_treasury hr1 p hc
      cases p with
      | lockup =>
        rcases (step_did h2).lkTreasury with h | ⟨c, f, op, fd, rfl, _, _⟩
        · exact Nat.le_trans (ih (tr := tr) (by rw [← hst]; exact h.symm)) hm
        · exact init_rent (f := f) (op := op) (fd := fd) rfl h2
      | merkle =>
        rcases (step_did h2).miTreasury with h | ⟨c, f, op, fd, rfl, _, _⟩
        · exact Nat.le_trans (ih (tr := tr) (by rw [← hst]; exact h.symm)) hm
        · exact init_rent (f := f) (op := op) (fd := fd) rfl h2

example := C57_rent_exempt reach8 (p := .lockup) (tr := ⟨255, collector, oracleProgram, feed⟩) (by decide +kernel)

end Solsab.Props
