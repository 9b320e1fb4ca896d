import Verif.Props.Treasury
import Verif.Props.Campaign
import Verif.AnyFee
import Verif.Spec.AnyFee
/-!
# C81 — the fee, for any fee constant

`convertUsdFeeToLamports` is tied to the published rule by C36; here the instructions that charge it are compared with
the shipped (free) ones.
-/

namespace Solsab.Props

open Solsab Spec Lockup Merkle Demo

theorem moved_zero (l : Addr → Nat) (a b : Addr) : moved l a b 0 = l := by
  funext y; unfold moved; split <;> [rfl; (split <;> [simp; (split <;> simp)])]

theorem moved_upd (l : Addr → Nat) {a b : Addr} (h : a ≠ b) (x : Nat) :
    upd (upd l a (l a - x)) b (upd l a (l a - x) b + x) = moved l a b x := by
  funext y; unfold moved
  simp only [upd_apply, if_neg h]
  by_cases h1 : y = a
  · subst h1; simp [h]
  · by_cases h2 : y = b
    · subst h2; simp [h1]
    · simp [h1, h2]

/-- What charging a fee does. -/
theorem chargeFee_ok {w w' : World} {F x : Nat} {p f s t : Addr} (h : s ≠ t) :
    chargeFee w F p f s t = .ok (w', x) ↔
      convertUsdFeeToLamports F w.now (w.oracle p f) = .ok x ∧ x ≤ w.lamports s ∧
        w' = { w with lamports := moved w.lamports s t x } := by
  unfold chargeFee World.systemTransfer
  cases hc : convertUsdFeeToLamports F w.now (w.oracle p f) with
  | error e => simp [bind, Except.bind]
  | ok y =>
    rw [ok_bind]
    by_cases hy : y > 0
    · rw [if_pos hy]
      simp only [bind_ok, require_ok, pure_ok, Prod.mk.injEq, moved_upd _ h, Except.ok.injEq]
      constructor
      · rintro ⟨_, ⟨_, h1, rfl⟩, rfl, rfl⟩; exact ⟨rfl, h1, rfl⟩
      · rintro ⟨rfl, h1, rfl⟩; exact ⟨_, ⟨(), h1, rfl⟩, rfl, rfl⟩
    · rw [if_neg hy]
      have : y = 0 := by omega
      subst this
      simp only [pure_ok, Prod.mk.injEq, Except.ok.injEq]
      constructor
      · rintro ⟨rfl, rfl⟩; exact ⟨rfl, Nat.zero_le _, by rw [moved_zero]⟩
      · rintro ⟨rfl, _, rfl⟩; exact ⟨by rw [moved_zero], rfl⟩

theorem withdrawHandlerWith_iff {F : Nat} {w w' : World} {c : WithdrawAccts} {sd : StreamData} {dm : MintData}
    {amount : Nat} (ht : c.treasury = .treasury .lockup) (hs : c.signer.canSign = true) :
    withdrawHandlerWith F w c sd dm amount = .ok w' ↔
      ∃ w₀ x, withdrawHandler w c sd dm amount = .ok w₀ ∧
        convertUsdFeeToLamports F w.now (w.oracle c.chainlinkProgram c.chainlinkSolUsdFeed) = .ok x ∧
        x ≤ w₀.lamports c.signer ∧ w' = feeWithdrawn w w₀ c amount x := by
  have hne : c.signer ≠ c.treasury := by rw [ht]; intro he; rw [he] at hs; cases hs
  have hz : WITHDRAWAL_FEE_USD = 0 := rfl
  unfold withdrawHandlerWith withdrawHandler feeWithdrawn
  simp only [hz, chargeFee_zero, ok_bind, bind_ok, pure_ok, Prod.exists, transferTokens_iff, chargeFee_ok hne]
  constructor
  · rintro ⟨y, h1, u, h2, sd', h3, w₁, x, ⟨h4, h5, rfl⟩, w₂, ⟨hu, b, h6, rfl⟩, rfl⟩
    exact ⟨_, x, ⟨y, h1, u, h2, sd', h3, _, ⟨hu, b, h6, rfl⟩, rfl⟩, h4, h5, by rw [← ht]; rfl⟩
  · rintro ⟨w₀, x, ⟨y, h1, u, h2, sd', h3, _, ⟨hu, b, h6, rfl⟩, rfl⟩, h4, h5, rfl⟩
    exact ⟨y, h1, u, h2, sd', h3, _, x, ⟨h4, h5, rfl⟩, _, ⟨hu, b, h6, rfl⟩, by rw [← ht]; rfl⟩

/-- **C81**, `withdraw`: with any fee constant `F`, a withdrawal succeeds exactly when the free one does, the oracle's
answer converts to some number `x` of lamports, and the signer has `x` lamports left after paying rent; and it does
exactly what the free one does, except that the signer pays `x` lamports to the treasury and the event says so. -/
theorem C81_withdraw {rt : Runtime} {w w' : World} {F : Nat} {c : WithdrawAccts} {amount : Nat} :
    Lockup.withdrawWith F rt w c amount = .ok w' ↔
      ∃ w₀ x, Lockup.withdraw rt w c amount = .ok w₀ ∧
        convertUsdFeeToLamports F w.now (w.oracle c.chainlinkProgram c.chainlinkSolUsdFeed) = .ok x ∧
        x ≤ w₀.lamports c.signer ∧ w' = feeWithdrawn w w₀ c amount x := by
  unfold withdrawWith withdraw
  simp only [bind_ok, Prod.exists]
  constructor
  · rintro ⟨w₁, sd, dm, ha, hh⟩
    obtain ⟨b, l, hacc, _, rfl⟩ := withdrawAccounts_ok ha
    obtain ⟨w₀, x, h1, h2, h3, h4⟩ := (withdrawHandlerWith_iff hacc.treasuryAddr hacc.signs).1 hh
    exact ⟨w₀, x, ⟨_, sd, dm, ha, h1⟩, h2, h3, h4⟩
  · rintro ⟨w₀, x, ⟨w₁, sd, dm, ha, h1⟩, h2, h3, h4⟩
    obtain ⟨b, l, hacc, _, rfl⟩ := withdrawAccounts_ok ha
    exact ⟨_, sd, dm, ha, (withdrawHandlerWith_iff hacc.treasuryAddr hacc.signs).2 ⟨w₀, x, h1, h2, h3, h4⟩⟩

/-- **C81**, `withdraw_max` with any fee is `withdraw` with that fee of what the view reports. -/
theorem C81_withdrawMax {rt : Runtime} {w w' : World} {F : Nat} {c : WithdrawAccts} :
    Lockup.withdrawMaxWith F rt w c = .ok w' ↔
      ∃ amount, withdrawableAmountOf rt w ⟨c.streamData, c.streamNftMint⟩ = .ok amount ∧
        Lockup.withdrawWith F rt w c amount = .ok w' := by
  unfold withdrawMaxWith withdrawWith withdrawableAmountOf
  simp only [bind_ok, Prod.exists]
  constructor
  · rintro ⟨w₁, sd, dm, ha, y, hy, hh⟩
    obtain ⟨b, l, hacc, _, rfl⟩ := withdrawAccounts_ok ha
    exact ⟨y, ⟨sd, loadStream_ok.2 ⟨hacc.stream, hacc.streamAddr, hacc.bump, hacc.nftMint⟩, hy⟩, _, sd, dm, ha, hh⟩
  · rintro ⟨y, ⟨sd', hl, hy⟩, w₁, sd, dm, ha, hh⟩
    obtain ⟨b, l, hacc, _, rfl⟩ := withdrawAccounts_ok ha
    have h1 := (loadStream_ok.1 hl).1
    rw [hacc.stream] at h1; cases h1
    exact ⟨_, _, dm, ha, y, hy, hh⟩

theorem claimHandlerWith_iff {rt : Runtime} {F : Nat} {w w' : World} {c : ClaimAccts} {cd : Campaign} {dm : MintData}
    {index amount : Nat} {proof : List Bytes32} (ht : c.treasury = .treasury .merkle) (hs : c.claimer.canSign = true) :
    claimHandlerWith F rt w c cd dm index amount proof = .ok w' ↔
      ∃ w₀ x, claimHandler rt w c cd dm index amount proof = .ok w₀ ∧
        convertUsdFeeToLamports F w.now (w.oracle c.chainlinkProgram c.chainlinkSolUsdFeed) = .ok x ∧
        x ≤ w₀.lamports c.claimer ∧ w' = feeClaimed w w₀ c index amount x := by
  have hne : c.claimer ≠ c.treasury := by rw [ht]; intro he; rw [he] at hs; cases hs
  have hz : CLAIM_FEE_USD = 0 := rfl
  unfold claimHandlerWith claimHandler campaignTransfer feeClaimed
  simp only [hz, chargeFee_zero, ok_bind, bind_ok, pure_ok, Prod.exists, transferTokens_iff, chargeFee_ok hne]
  constructor
  · rintro ⟨u, h2, w₁, x, ⟨h4, h5, rfl⟩, w₂, ⟨v, h3, hu, b, h6, rfl⟩, rfl⟩
    exact ⟨_, x, ⟨u, h2, _, ⟨v, h3, hu, b, h6, rfl⟩, rfl⟩, h4, h5, by rw [← ht]; rfl⟩
  · rintro ⟨w₀, x, ⟨u, h2, _, ⟨v, h3, hu, b, h6, rfl⟩, rfl⟩, h4, h5, rfl⟩
    exact ⟨u, h2, _, x, ⟨h4, h5, rfl⟩, _, ⟨v, h3, hu, b, h6, rfl⟩, by rw [← ht]; rfl⟩

/-- **C81**, `claim`: the same for claims, the claimer paying. -/
theorem C81_claim {rt : Runtime} {w w' : World} {F : Nat} {c : ClaimAccts} {index amount : Nat} {proof : List Bytes32} :
    Merkle.claimWith F rt w c index amount proof = .ok w' ↔
      ∃ w₀ x, Merkle.claim rt w c index amount proof = .ok w₀ ∧
        convertUsdFeeToLamports F w.now (w.oracle c.chainlinkProgram c.chainlinkSolUsdFeed) = .ok x ∧
        x ≤ w₀.lamports c.claimer ∧ w' = feeClaimed w w₀ c index amount x := by
  unfold claimWith claim
  simp only [bind_ok, Prod.exists]
  constructor
  · rintro ⟨w₁, cd, dm, ha, hh⟩
    obtain ⟨b, l, hacc, _, rfl⟩ := claimAccounts_ok ha
    obtain ⟨w₀, x, h1, h2, h3, h4⟩ := (claimHandlerWith_iff hacc.treasuryAddr hacc.signs).1 hh
    exact ⟨w₀, x, ⟨_, cd, dm, ha, h1⟩, h2, h3, h4⟩
  · rintro ⟨w₀, x, ⟨w₁, cd, dm, ha, h1⟩, h2, h3, h4⟩
    obtain ⟨b, l, hacc, _, rfl⟩ := claimAccounts_ok ha
    exact ⟨_, cd, dm, ha, (claimHandlerWith_iff hacc.treasuryAddr hacc.signs).2 ⟨w₀, x, h1, h2, h3, h4⟩⟩

/-- **C81**: the fee a withdrawal charges is what `withdrawal_fee_in_lamports` reports in the same state. -/
theorem C81_withdraw_view {rt : Runtime} {w w' : World} {F x : Nat} {c : WithdrawAccts} {amount : Nat}
    (h : Lockup.withdrawWith F rt w c amount = .ok w')
    (hx : withdrawalFeeInLamportsWith F rt w c.treasury c.chainlinkProgram c.chainlinkSolUsdFeed = .ok x) :
    ∃ w₀, Lockup.withdraw rt w c amount = .ok w₀ ∧ w' = feeWithdrawn w w₀ c amount x := by
  obtain ⟨w₀, y, h1, h2, _, h4⟩ := C81_withdraw.1 h
  simp only [withdrawalFeeInLamportsWith, bind_ok] at hx
  obtain ⟨_, _, _, _, _, _, hx⟩ := hx
  rw [h2] at hx; cases hx
  exact ⟨w₀, h1, h4⟩

/-- **C81**: the fee a claim charges is what `claim_fee_in_lamports` reports in the same state. -/
theorem C81_claim_view {rt : Runtime} {w w' : World} {F x : Nat} {c : ClaimAccts} {index amount : Nat}
    {proof : List Bytes32} (h : Merkle.claimWith F rt w c index amount proof = .ok w')
    (hx : claimFeeInLamportsWith F rt w c.treasury c.chainlinkProgram c.chainlinkSolUsdFeed = .ok x) :
    ∃ w₀, Merkle.claim rt w c index amount proof = .ok w₀ ∧ w' = feeClaimed w w₀ c index amount x := by
  obtain ⟨w₀, y, h1, h2, _, h4⟩ := C81_claim.1 h
  simp only [claimFeeInLamportsWith, bind_ok] at hx
  obtain ⟨_, _, _, _, _, _, hx⟩ := hx
  rw [h2] at hx; cases hx
  exact ⟨w₀, h1, h4⟩

theorem _root_.Solsab.Spec.NoPrice.zero {o : OracleData} {now : Nat} (h : NoPrice o now) (hn : now < 2 ^ 32) (F : Nat) :
    convertUsdFeeToLamports F now o = .ok 0 := by
  have hn' : asU32 now = now := Nat.mod_eq_of_lt hn
  unfold convertUsdFeeToLamports
  by_cases hF : F = 0
  · rw [if_pos hF]
  rw [if_neg hF]
  cases hr : o.round with
  | none => rfl
  | some r =>
    simp only [hn']
    split
    · split
      · rfl
      split
      · rfl
      · rename_i h1 h2 h3
        rcases h with h | h | ⟨r', hr', h⟩
        · rw [hr] at h; cases h
        · rw [h]
        · rw [hr] at hr'; cases hr'
          unfold SECONDS_IN_24_HOURS at h3
          omega
    · rfl

/-- **C81**: whatever the fee constant, an oracle without a usable price cannot stop or tax anybody: withdrawals and
claims then do exactly what the free program does. -/
theorem C81_no_price {rt : Runtime} {w : World} {F : Nat} (hn : w.now < 2 ^ 32) :
    (∀ c amount w', NoPrice (w.oracle c.chainlinkProgram c.chainlinkSolUsdFeed) w.now →
      (Lockup.withdrawWith F rt w c amount = .ok w' ↔ Lockup.withdraw rt w c amount = .ok w')) ∧
    (∀ c index amount proof w', NoPrice (w.oracle c.chainlinkProgram c.chainlinkSolUsdFeed) w.now →
      (Merkle.claimWith F rt w c index amount proof = .ok w' ↔
        Merkle.claim rt w c index amount proof = .ok w')) := by
  refine ⟨fun c amount w' h => ?_, fun c index amount proof w' h => ?_⟩
  · have e : ∀ w₀, Lockup.withdraw rt w c amount = .ok w₀ → feeWithdrawn w w₀ c amount 0 = w₀ := by
      intro w₀ h₀
      obtain ⟨_, _, _, _, _, _, h₀⟩ := withdraw_ok h₀
      rw [h₀.result]; unfold feeWithdrawn; rw [moved_zero]
    rw [C81_withdraw, h.zero hn]
    constructor
    · rintro ⟨w₀, x, h1, h2, _, rfl⟩; cases h2; rw [e w₀ h1]; exact h1
    · intro h1; exact ⟨w', 0, h1, rfl, Nat.zero_le _, (e w' h1).symm⟩
  · have e : ∀ w₀, Merkle.claim rt w c index amount proof = .ok w₀ → feeClaimed w w₀ c index amount 0 = w₀ := by
      intro w₀ h₀
      obtain ⟨_, _, _, _, _, h₀⟩ := claim_ok h₀
      rw [h₀.result]; unfold feeClaimed; rw [moved_zero]
    rw [C81_claim, h.zero hn]
    constructor
    · rintro ⟨w₀, x, h1, h2, _, rfl⟩; cases h2; rw [e w₀ h1]; exact h1
    · intro h1; exact ⟨w', 0, h1, rfl, Nat.zero_le _, (e w' h1).symm⟩

/-- **C81**: with a usable price `p` (in units of `10^-dec` dollars, a `u64`) the fee is the dollar amount converted
at that price and rounded down, as long as the products fit: `F` is in units of `10^-8` dollars, a SOL is `10^9`
lamports. -/
theorem C81_fair {rt : Runtime} {w w' : World} {F dec ts : Nat} {price : Int} {c : WithdrawAccts} {amount : Nat}
    (h : Lockup.withdrawWith F rt w c amount = .ok w')
    (ho : w.oracle c.chainlinkProgram c.chainlinkSolUsdFeed = ⟨some ⟨ts, price⟩, some dec⟩)
    (hp : 0 < price) (hp64 : price < 2 ^ 64) (hn : w.now < 2 ^ 32) (h1 : ts ≤ w.now) (h2 : w.now - ts ≤ 86400)
    (hmul : if dec = 8 then F * 10 ^ 9 < 2 ^ 64 else 10 ^ (1 + dec) < 2 ^ 128 ∧ F * 10 ^ (1 + dec) < 2 ^ 128)
    (hres : F * 10 ^ (1 + dec) / price.toNat < 2 ^ 64) :
    ∃ w₀ x, Lockup.withdraw rt w c amount = .ok w₀ ∧ x * price.toNat ≤ F * 10 ^ (1 + dec) ∧
      F * 10 ^ (1 + dec) < (x + 1) * price.toNat ∧
      w'.lamports c.signer + x = w₀.lamports c.signer ∧
      w'.lamports (.treasury .lockup) = w₀.lamports (.treasury .lockup) + x ∧
      w'.bank = w₀.bank ∧ w'.lk = w₀.lk := by
  obtain ⟨w₀, x, k1, k2, k3, rfl⟩ := C81_withdraw.1 h
  obtain ⟨_, _, _, _, _, _, h₀⟩ := withdraw_ok k1
  have hne : c.signer ≠ .treasury .lockup := by
    intro he; have := h₀.accts.signs; rw [he] at this; cases this
  obtain ⟨y, j1, j2, j3⟩ := C36_value (feeUsd := F) hp hp64 hn h1 h2 hmul hres
  rw [ho, j1] at k2; cases k2
  refine ⟨w₀, x, k1, j2, j3, ?_, ?_, rfl, rfl⟩
  · show moved _ _ _ _ _ + x = _
    unfold moved; rw [if_neg hne, if_pos rfl]; omega
  · show moved _ _ _ _ _ = _
    unfold moved; rw [if_neg hne, if_neg (fun h => hne h.symm), if_pos rfl]

/-- **C81**, limit: with a positive fee the oracle could stop everything: at a fresh price that is a multiple of `2^64`
no withdrawal and no claim succeeds. -/
theorem C81_oracle_can_block {rt : Runtime} {w : World} {F dec ts : Nat} {price : Int} (hF : F ≠ 0) (hp : 0 < price)
    (hp64 : price % 2 ^ 64 = 0) (hn : w.now < 2 ^ 32) (h1 : ts ≤ w.now) (h2 : w.now - ts ≤ 86400) :
    (∀ c amount w', w.oracle c.chainlinkProgram c.chainlinkSolUsdFeed = ⟨some ⟨ts, price⟩, some dec⟩ →
      Lockup.withdrawWith F rt w c amount ≠ .ok w') ∧
    (∀ c index amount proof w', w.oracle c.chainlinkProgram c.chainlinkSolUsdFeed = ⟨some ⟨ts, price⟩, some dec⟩ →
      Merkle.claimWith F rt w c index amount proof ≠ .ok w') := by
  have k := C36_price_truncation (feeUsd := F) (dec := dec) hF hp hp64 hn h1 h2
  refine ⟨fun c amount w' ho h => ?_, fun c index amount proof w' ho h => ?_⟩
  · obtain ⟨_, _, _, h2, _⟩ := C81_withdraw.1 h; rw [ho, k] at h2; cases h2
  · obtain ⟨_, _, _, h2, _⟩ := C81_claim.1 h; rw [ho, k] at h2; cases h2

/-! ## Non-vacuity: with a fee of one dollar at 150 dollars per SOL, bob pays 6,666,666 lamports -/

example : (Lockup.withdrawWith 100000000 Demo.rt world2 (withdrawAccts bob 1) 200).isOk = true := by decide +kernel
example : (match Lockup.withdrawWith 100000000 Demo.rt world2 (withdrawAccts bob 1) 200 with
    | .ok w' => w'.lamports (.treasury .lockup) - world2.lamports (.treasury .lockup)
    | .error _ => 0) = 6666666 := by decide +kernel
example : (match Merkle.claimWith 100000000 Demo.rt world2 (claimAccts bob 0) 0 500 [leaf1] with
    | .ok w' => w'.lamports (.treasury .merkle) - world2.lamports (.treasury .merkle)
    | .error _ => 0) = 6666666 := by decide +kernel
example : (Lockup.withdrawMaxWith 100000000 Demo.rt world2 (withdrawAccts bob 1)).isOk = true := by decide +kernel
example : withdrawalFeeInLamportsWith 100000000 Demo.rt world2 (.treasury .lockup) oracleProgram feed = .ok 6666666 := by
  decide +kernel
example : world2.oracle oracleProgram feed = ⟨some ⟨900, 15000000000⟩, some 8⟩ ∧ world2.now = 4000 := by decide +kernel
/-- After two days without an update there is no usable price. -/
example : NoPrice (world2.oracle oracleProgram feed) 180000 :=
  .inr (.inr ⟨⟨900, 15000000000⟩, by decide +kernel, .inr (.inr (by decide))⟩)

example {w' : World} (h : Lockup.withdrawWith 100000000 Demo.rt world2 (withdrawAccts bob 1) 200 = .ok w') :=
  C81_fair h (dec := 8) (ts := 900) (price := 15000000000) (by decide +kernel) (by decide) (by decide) (by decide +kernel)
    (by decide +kernel) (by decide +kernel) (by decide) (by decide)
example := (C81_no_price (rt := Demo.rt) (w := { world2 with clock := 180000 }) (F := 100000000) (by decide)).1
  (withdrawAccts bob 1) 200
/-- The oracle answers `2^64` just now. -/
def blockedWorld : World := { world2 with oracle := fun _ _ => ⟨some ⟨3900, 2 ^ 64⟩, some 8⟩ }
example (w' : World) : Lockup.withdrawWith 1 Demo.rt blockedWorld (withdrawAccts bob 1) 200 ≠ .ok w' :=
  (C81_oracle_can_block (rt := Demo.rt) (w := blockedWorld) (F := 1) (dec := 8) (ts := 3900) (price := 2 ^ 64) (by decide)
    (by decide) (by decide) (by decide +kernel) (by decide +kernel) (by decide +kernel)).1 _ _ _ rfl
example : (Lockup.withdrawWith 0 Demo.rt blockedWorld (withdrawAccts bob 1) 200).isOk = true := by decide +kernel

end Solsab.Props
