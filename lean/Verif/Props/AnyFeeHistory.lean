import Verif.Props.AnyFee
import Verif.Props.Solvency
import Verif.Props.Withdraw
import Verif.Props.Campaign
import Verif.Proofs.LogFree
import Verif.Spec.AnyFeeHistory
/-!
# C103 — whole histories of a deployment with other fee constants
-/

namespace Solsab.Props

open Solsab Spec Lockup Merkle Demo

/-- With the shipped constants it is the shipped machine. -/
theorem C103_shipped : stepWith WITHDRAWAL_FEE_USD CLAIM_FEE_USD = step := by
  funext rt w ix
  unfold stepWith
  split
  · exact congrFun (congrFun (congrFun (congrFun withdrawWith_shipped rt) w) _) _
  · exact congrFun (congrFun (congrFun withdrawMaxWith_shipped rt) w) _
  · rw [claimWith_shipped]; rfl
  · rfl

/-- The events of one instruction of the free deployment report no fee. -/
theorem Did.fresh_noFee {rt : Runtime} {w w' : World} {ix : Ix} (h : Did rt w ix w') :
    w'.log = w.log ∨ ∃ e, w'.log = e :: w.log ∧ Event.noFee e.event = e.event ∧ ∀ p, feePaidTo p e.event = 0 := by
  cases h with
  | init hix h => left; rw [h.result]
  | create hix hp h => right; rw [h.result]; exact ⟨_, rfl, rfl, fun _ => rfl⟩
  | withdraw hix h => right; rw [h.result]; exact ⟨_, rfl, rfl, fun p => by simp [feePaidTo]⟩
  | cancel hix h => right; rw [h.result]; exact ⟨_, rfl, rfl, fun _ => rfl⟩
  | renounce hix h => right; rw [h.result]; exact ⟨_, rfl, rfl, fun _ => rfl⟩
  | collect hix _ h => right; rw [h.result]; exact ⟨_, rfl, rfl, fun _ => rfl⟩
  | miInit _ _ _ _ h => left; rw [h]
  | campaign hix _ h => right; rw [h.result]; exact ⟨_, rfl, rfl, fun _ => rfl⟩
  | claim hix h => right; rw [h.result]; exact ⟨_, rfl, rfl, fun p => by simp [feePaidTo]⟩
  | clawback hix h => right; rw [h.result]; exact ⟨_, rfl, rfl, fun _ => rfl⟩
  | miCollect hix _ h => right; rw [h.result]; exact ⟨_, rfl, rfl, fun _ => rfl⟩
  | env i hix h => left; exact (env_ok h).log

/-- The events of a step, on a world and on the world that forgot its fees. -/
theorem step_forget {rt : Runtime} {w w' : World} {ix : Ix} (h : step rt w ix = .ok w') :
    step rt (forgetFees w) ix = .ok (forgetFees w') := by
  obtain ⟨es, h1, h2⟩ := step_withLog h ((forgetFees w).log)
  refine h2.trans (congrArg _ ?_)
  show w'.withLog _ = w'.withLog _
  refine congrArg w'.withLog ?_
  show es ++ w.log.map _ = w'.log.map _
  rcases Did.fresh_noFee (step_did h) with h3 | ⟨e, h3, h4, _⟩
  · rw [h1] at h3
    have : es = [] := by simpa using h3
    subst this; rw [h1]; rfl
  · rw [h1] at h3
    have : es = [e] := by
      have : es ++ w.log = [e] ++ w.log := h3
      exact List.append_cancel_right this
    subst this
    rw [h1]
    show _ = (⟨e.time, Event.noFee e.event⟩ : LogEntry) :: _
    rw [h4]; rfl

theorem noFee_noFee (e : Event) : Event.noFee (Event.noFee e) = Event.noFee e := by cases e <;> rfl

theorem _root_.Solsab.StepsWith.trans {Fw Fc : Nat} {rt : Runtime} {a b c : World} (h1 : StepsWith Fw Fc rt a b)
    (h2 : StepsWith Fw Fc rt b c) : StepsWith Fw Fc rt a c := by
  induction h2 with
  | refl => exact h1
  | tail ix _ h ih => exact ih.tail ix h

/-- The lamport payment that a fee is. -/
theorem pay_fee {rt : Runtime} {w : World} {s : Addr} {p : Prog} {x : Nat} (hs : s.canSign = true) (hx : x ≤ w.lamports s) :
    step rt w (.env (.sendLamports s (.treasury p) x)) =
      .ok { w with lamports := moved w.lamports s (.treasury p) x } := by
  have hne : s ≠ .treasury p := by rintro rfl; cases hs
  show (EnvIx.sendLamports s (.treasury p) x).run rt w = _
  simp only [EnvIx.run, World.systemTransfer, bind_ok, require_ok, pure_ok]
  exact ⟨(), hs, (), hx, by rw [moved_upd _ hne]⟩

/-- What one step of the deployment with fees is: a step of the shipped one, and possibly a payment of `x` lamports by
a signer to a treasury `p`, reported in the event. -/
theorem stepWith_split {Fw Fc : Nat} {rt : Runtime} {w w' : World} {ix : Ix} (h : stepWith Fw Fc rt w ix = .ok w') :
    step rt w ix = .ok w' ∨ ∃ w₀ s p x e, step rt w ix = .ok w₀ ∧ s.canSign = true ∧ x ≤ w₀.lamports s ∧
      (∃ e₀, w₀.log = ⟨w.now, e₀⟩ :: w.log ∧ Event.noFee e = e₀) ∧ feePaidTo p e = x ∧
      (∀ q, q ≠ p → feePaidTo q e = 0) ∧ (∀ q, collectedFrom q e = 0) ∧ ix.collects = none ∧
      w' = { w₀ with lamports := moved w₀.lamports s (.treasury p) x, log := ⟨w.now, e⟩ :: w.log } := by
  have wd : ∀ c a, Lockup.withdrawWith Fw rt w c a = .ok w' → (∀ w₀, Lockup.withdraw rt w c a = .ok w₀ → step rt w ix = .ok w₀) → ix.collects = none →
      ∃ w₀ s p x e, step rt w ix = .ok w₀ ∧ s.canSign = true ∧ x ≤ w₀.lamports s ∧
      (∃ e₀, w₀.log = ⟨w.now, e₀⟩ :: w.log ∧ Event.noFee e = e₀) ∧ feePaidTo p e = x ∧
      (∀ q, q ≠ p → feePaidTo q e = 0) ∧ (∀ q, collectedFrom q e = 0) ∧ ix.collects = none ∧
      w' = { w₀ with lamports := moved w₀.lamports s (.treasury p) x, log := ⟨w.now, e⟩ :: w.log } := by
    intro c a h he hc
    obtain ⟨w₀, x, h1, _, h3, rfl⟩ := C81_withdraw.1 h
    obtain ⟨_, _, _, _, _, _, h₀⟩ := withdraw_ok h1
    refine ⟨w₀, c.signer, .lockup, x, .withdrawFromLockupStream c.depositedTokenMint x c.streamData c.streamNftMint a,
      he _ h1, h₀.accts.signs, h3, ⟨_, congrArg World.log h₀.result, rfl⟩, rfl, ?_, fun _ => rfl, hc, rfl⟩
    intro q hq
    exact if_neg hq
  unfold stepWith at h
  split at h
  · exact .inr (wd _ _ h (fun _ h => h) rfl)
  · obtain ⟨a, ha, h⟩ := C81_withdrawMax.1 h
    refine .inr (wd _ _ h (fun w₀ h₀ => ?_) rfl)
    have k := (C81_withdrawMax (F := WITHDRAWAL_FEE_USD)).2 ⟨a, ha, by rw [withdrawWith_shipped]; exact h₀⟩
    rw [withdrawMaxWith_shipped] at k
    exact k
  · rename_i c i a p
    right
    obtain ⟨w₀, x, h1, _, h3, rfl⟩ := C81_claim.1 h
    obtain ⟨_, _, _, _, _, h₀⟩ := claim_ok h1
    refine ⟨w₀, c.claimer, .merkle, x, .claim a.toNat c.campaign c.claimer c.claimReceipt x i.toNat c.recipient,
      h1, h₀.accts.signs, h3, ⟨_, congrArg World.log h₀.result, rfl⟩, rfl, ?_, fun _ => rfl, rfl, rfl⟩
    intro q hq
    exact if_neg hq
  · exact .inl h

/-- **C103**: every history of a deployment with any fee constants is a history of the shipped (free) programs in which
each fee is an ordinary payment to the treasury made right after the instruction, except that the free programs' events
report no fee. -/
theorem C103_history {Fw Fc : Nat} {rt : Runtime} {w w' : World} (hs : StepsWith Fw Fc rt w w') :
    Steps rt (forgetFees w) (forgetFees w') := by
  induction hs with
  | refl => exact .refl _
  | @tail w₁ w₂ ix _ h2 ih =>
    rcases stepWith_split h2 with h | ⟨w₀, s, p, x, e, h, hs, hx, ⟨e₀, hl, he⟩, _, _, _, _, rfl⟩
    · exact ih.tail ix (step_forget h)
    · refine (ih.tail ix (step_forget h)).tail (.env (.sendLamports s (.treasury p) x)) ?_
      rw [pay_fee hs (show x ≤ (forgetFees w₀).lamports s from hx)]
      refine congrArg _ ?_
      show World.mk _ _ _ _ _ _ _ _ _ _ = World.mk _ _ _ _ _ _ _ _ _ _
      congr 1
      show w₀.log.map _ = _
      rw [hl, ← he]
      exact congrArg (· :: _) (congrArg (LogEntry.mk _) (noFee_noFee e))

/-- **C103**: so every state such a deployment can reach is, but for the fees its events report, a state of the shipped
programs: whatever is proved of the accounts, the clock and the log of every reachable state holds for it. -/
theorem C103_reachable {Fw Fc : Nat} {rt : Runtime} {w : World} (hr : ReachableWith Fw Fc rt w) :
    ∃ v, Reachable rt v ∧ (∀ a, v.account a = w.account a) ∧ v.clock = w.clock ∧ v.oracle = w.oracle ∧
      v.log = w.log.map fun e => ⟨e.time, Event.noFee e.event⟩ := by
  obtain ⟨w₀, hg, hs⟩ := hr
  refine ⟨forgetFees w, ⟨w₀, hg, ?_⟩, fun _ => rfl, rfl, rfl, rfl⟩
  have h := C103_history hs
  have : forgetFees w₀ = w₀ := by
    show World.mk _ _ _ _ _ _ _ _ _ _ = _
    rw [hg.no_log]
    show w₀.withLog [] = w₀
    rw [← hg.no_log]; rfl
  rwa [this] at h

theorem _root_.Solsab.ReachableWith.free {Fw Fc : Nat} {rt : Runtime} {w : World} (hr : ReachableWith Fw Fc rt w) :
    Reachable rt (forgetFees w) := by
  obtain ⟨v, h, h1, h2, h3, h4⟩ := C103_reachable hr
  have : v = forgetFees w := C68_accounts_complete h1 h2 h3 h4
  exact this ▸ h

/-- A count that does not look at fees. -/
theorem total_forget {f : Event → Nat} (hf : ∀ e, f (Event.noFee e) = f e) (l : List LogEntry) :
    total f (l.map fun e => ⟨e.time, Event.noFee e.event⟩) = total f l := by
  induction l with
  | nil => rfl
  | cons e l ih => rw [List.map_cons, total_cons, total_cons, ih, hf]

/-- **C103**, solvency: with any fee constants, the vault of a stream in a plain token holds at least what is still owed,
and what the stream's events say was paid out plus the vault covers the deposit. -/
theorem C103_solvent {Fw Fc : Nat} {rt : Runtime} {w : World} (hr : ReachableWith Fw Fc rt w) {s : Addr} {n : Nat}
    {sd : StreamData} (hs : w.lk.streams (streamAddr s n) = some sd) {md : MintData}
    (hm : w.bank.mints sd.depositedTokenMint = some md) (hp : md.Plain) :
    sd.amounts.deposited - sd.amounts.withdrawn - sd.amounts.refunded ≤
      w.bank.balance (.ata (streamAddr s n) md.program sd.depositedTokenMint) ∧
    sd.amounts.deposited ≤ w.bank.balance (.ata (streamAddr s n) md.program sd.depositedTokenMint) +
      total (withdrawnBy (streamAddr s n)) w.log + total (refundedBy (streamAddr s n)) w.log := by
  have hf := hr.free
  constructor
  · obtain ⟨md', t, h1, h2, _, _, h5⟩ := C18_solvent hf (w := forgetFees w) hs
    have h1' : w.bank.mints sd.depositedTokenMint = some md' := h1
    rw [hm] at h1'; cases h1'
    have h2' : w.bank.tokens _ = some t := h2
    rw [Bank.balance, h2']
    exact h5 hp
  · have h := C18_solvent_history hf (w := forgetFees w) hs hm hp
    have e1 : total (withdrawnBy (streamAddr s n)) (forgetFees w).log = _ :=
      total_forget (fun e => by cases e <;> rfl) w.log
    have e2 : total (refundedBy (streamAddr s n)) (forgetFees w).log = _ :=
      total_forget (fun e => by cases e <;> rfl) w.log
    rw [e1, e2] at h
    exact h

/-- **C103**, revenue: with any fee constants, over any history, the treasury of either program gains at least the fees
that the events report, less what the `FeesCollected` events say was collected. -/
theorem C103_revenue {Fw Fc : Nat} {rt : Runtime} {w w' : World} (hr : ReachableWith Fw Fc rt w)
    (hs : StepsWith Fw Fc rt w w') (p : Prog) :
    w.lamports (.treasury p) + total (collectedFrom p) w.log + total (feePaidTo p) w'.log ≤
      w'.lamports (.treasury p) + total (collectedFrom p) w'.log + total (feePaidTo p) w.log := by
  induction hs with
  | refl => exact Nat.le_refl _
  | @tail w₁ w₂ ix h1 h2 ih =>
    have hr1 : ReachableWith Fw Fc rt w₁ := by
      obtain ⟨w₀, hg, h0⟩ := hr
      exact ⟨w₀, hg, h0.trans h1⟩
    have free : ∀ {w₂}, step rt w₁ ix = .ok w₂ → w₁.lamports (.treasury p) + total (collectedFrom p) w₁.log ≤
        w₂.lamports (.treasury p) + total (collectedFrom p) w₂.log := by
      intro w₂ h
      have k := C35_accounting hr1.free (Steps.tail ix (.refl _) (step_forget h)) p
      have e : ∀ v, total (collectedFrom p) (forgetFees v).log = total (collectedFrom p) v.log := fun v =>
        total_forget (fun e => by cases e <;> rfl) v.log
      rw [e, e] at k
      exact k
    rcases stepWith_split h2 with h | ⟨w₀, s, q, x, e, h, hs, hx, ⟨e₀, hl, he⟩, hp, hq, hc, _, rfl⟩
    · have k := free h
      rcases Did.fresh_noFee (step_did h) with h3 | ⟨e, h3, _, h5⟩
      · rw [h3] at k ⊢; omega
      · have : total (feePaidTo p) w₂.log = total (feePaidTo p) w₁.log := by rw [h3, total_cons, h5]; omega
        omega
    · have k := free h
      have c0 : collectedFrom p e₀ = 0 := by
        rw [← he]; have := hc p; cases e <;> exact this
      rw [hl, total_cons] at k
      rw [total_cons, total_cons]
      have hne : s ≠ .treasury q := by rintro rfl; cases hs
      have hm : moved w₀.lamports s (.treasury q) x (.treasury p) = w₀.lamports (.treasury p) + feePaidTo p e := by
        have hne' : s ≠ .treasury p := by rintro rfl; cases hs
        unfold moved
        rw [if_neg hne, if_neg (fun h => hne' h.symm)]
        by_cases hqp : Addr.treasury p = .treasury q
        · rw [if_pos hqp]; cases hqp; rw [hp]
        · rw [if_neg hqp, hq p (fun h => hqp (by rw [h]))]
          rfl
      have k2 := hc p
      show _ ≤ moved w₀.lamports s (.treasury q) x (.treasury p) + _ + _
      rw [hm]
      dsimp only at k ⊢
      omega

/-- **C103**: with any fee constants, no index of a campaign is ever claimed twice, and the receipt says whether it was. -/
theorem C103_claims_once {Fw Fc : Nat} {rt : Runtime} {w : World} (hr : ReachableWith Fw Fc rt w) (x : Addr) (i : Nat) :
    total (claimOf x i) w.log ≤ 1 ∧ (w.mi.receipts (.claimReceipt x i) = true ↔ total (claimOf x i) w.log = 1) := by
  have e : total (claimOf x i) (forgetFees w).log = total (claimOf x i) w.log :=
    total_forget (fun e => by cases e <;> rfl) w.log
  have h := (hr.free.campaignsOK x).2 i
  rw [e] at h
  rw [h]
  show _ ∧ ((forgetFees w).mi.receipts (.claimReceipt x i) = true ↔ _)
  split <;> simp_all

/-- **C103**, way out: with any fee constants, in every state such a deployment can reach, the withdrawable amount (or
any part of it) of a stream in a plain token can be withdrawn, whatever happened before, if the oracle gives no usable
price (dead, stale, ...), or if the signer has the fee on top of the rent of the destination account when that is new. -/
theorem C103_exit {Fw Fc : Nat} {rt : Runtime} {w : World} (hr : ReachableWith Fw Fc rt w) {c : WithdrawAccts} {s : Addr}
    {n : Nat} {sd : StreamData} {md : MintData} (hc : WithdrawReady rt w c s n sd md) (hp : md.Plain)
    (ht : Transferable w md c.streamDataAta c.withdrawalRecipientAta) {x : Nat}
    (hx : withdrawableAmountOf rt w (viewOf s n) = .ok x) {amount : UInt64} (h0 : 0 < amount.toNat)
    (hle : amount.toNat ≤ x)
    (hf : (w.now < 2 ^ 32 ∧ NoPrice (w.oracle c.chainlinkProgram c.chainlinkSolUsdFeed) w.now) ∨
      ∃ y, convertUsdFeeToLamports Fw w.now (w.oracle c.chainlinkProgram c.chainlinkSolUsdFeed) = .ok y ∧
        y + (if w.bank.tokens c.withdrawalRecipientAta = none then
          max (rt.rent (World.tokenSpace rt c.depositedTokenMint c.depositedTokenProgram)) 1 -
            w.lamports c.withdrawalRecipientAta else 0) ≤ w.lamports c.signer) :
    ∃ w', stepWith Fw Fc rt w (.lockup (.withdraw c amount)) = .ok w' := by
  obtain ⟨v, hv⟩ := C12_withdraw_succeeds hr.free (w := forgetFees w) (c := c) (s := s) (n := n) (sd := sd) (md := md)
    ⟨hc.stream, hc.mint, hc.signer, hc.dest, hc.treasury, hc.a1, hc.a2, hc.a3, hc.a4, hc.a5, hc.a6, hc.a7, hc.a8, hc.nft,
      hc.usable⟩ hp ⟨ht.unblocked, ht.srcThawed, ht.dstThawed, ht.opensThawed, ht.noMemo⟩ hx h0 hle
  obtain ⟨es, _, h2⟩ := step_withLog hv w.log
  have h : Lockup.withdraw rt w c amount.toNat = .ok (v.withLog (es ++ w.log)) := h2
  show ∃ w', Lockup.withdrawWith Fw rt w c amount.toNat = .ok w'
  rcases hf with ⟨hn, hf⟩ | ⟨y, hy, hl⟩
  · exact ⟨_, ((C81_no_price hn).1 c _ _ hf).2 h⟩
  · refine ⟨_, C81_withdraw.2 ⟨_, y, h, hy, ?_, rfl⟩⟩
    have hlam := C37_withdraw_lamports (ix := .lockup (.withdraw c amount)) rfl h
    rw [hlam]
    have hne : c.withdrawalRecipientAta ≠ c.signer := by
      intro e; have := hc.signer; rw [← e, hc.a8] at this; cases this
    split
    · rename_i hnone
      rw [if_pos hnone] at hl
      show y ≤ moved _ _ _ _ _
      unfold moved
      rw [if_neg hne.symm, if_pos rfl]
      omega
    · rename_i hsome
      rw [if_neg hsome] at hl
      exact hl

/-- **C103**, way out of an airdrop: with any fee constants, in every state such a deployment can reach, anybody can make
an unclaimed, provable claim inside the window succeed, as long as the vault holds the amount, the token's transfers work
and the claimer has the rent, and either the oracle gives no usable price or the claimer has the fee too. -/
theorem C103_claim_exit {Fw Fc : Nat} {rt : Runtime} {w : World} (hr : ReachableWith Fw Fc rt w) {c : ClaimAccts} {x : Addr}
    {cd : Campaign} {md : MintData} {i : UInt32} {a : UInt64} {p : List Bytes32} (hc : ClaimReady rt w c x cd md i.toNat)
    (hfresh : hasClaimedView w x i.toNat = .ok false) (hfund : claimRent rt cd.airdropTokenMint md.program ≤ w.lamports c.claimer)
    (hwin : InWindow w.now cd.campaignStartTime cd.expirationTime)
    (hproof : computeRoot rt (leafHash rt i.toNat c.recipient a.toNat) p = cd.merkleRoot)
    (hfee : md.feeConfig = none) (ht : Transferable w md c.campaignAta c.recipientAta)
    (hbal : a.toNat ≤ w.bank.balance c.campaignAta)
    (hf : (w.now < 2 ^ 32 ∧ NoPrice (w.oracle c.chainlinkProgram c.chainlinkSolUsdFeed) w.now) ∨
      ∃ y, convertUsdFeeToLamports Fc w.now (w.oracle c.chainlinkProgram c.chainlinkSolUsdFeed) = .ok y ∧
        y + claimRent rt cd.airdropTokenMint md.program ≤ w.lamports c.claimer) :
    ∃ w', stepWith Fw Fc rt w (.merkle (.claim c i a p)) = .ok w' := by
  obtain ⟨v, hv⟩ := C45_claim_succeeds hr.free (w := forgetFees w) (c := c) (x := x) (cd := cd) (md := md) (i := i) (a := a)
    (p := p) ⟨hc.campaign, hc.mint, hc.signer, hc.treasury, hc.a1, hc.a2, hc.a3, hc.a4, hc.a5, hc.a6, hc.a7, hc.usable⟩
    hfresh hfund hwin hproof hfee ⟨ht.unblocked, ht.srcThawed, ht.dstThawed, ht.opensThawed, ht.noMemo⟩ hbal
  obtain ⟨es, _, h2⟩ := step_withLog hv w.log
  have h : Merkle.claim rt w c i.toNat a.toNat p = .ok (v.withLog (es ++ w.log)) := h2
  show ∃ w', Merkle.claimWith Fc rt w c i.toNat a.toNat p = .ok w'
  rcases hf with ⟨hn, hf⟩ | ⟨y, hy, hl⟩
  · exact ⟨_, ((C81_no_price hn).2 c _ _ _ _ hf).2 h⟩
  · refine ⟨_, C81_claim.2 ⟨_, y, h, hy, ?_, rfl⟩⟩
    have hlam := C37_claim_lamports (c := c) (i := i) (a := a) (proof := p) h
    rw [hlam]
    have n1 : c.claimer ≠ c.recipientAta := by
      intro e; have := hc.signer; rw [e, hc.a6] at this; cases this
    have n2 : c.claimer ≠ c.claimReceipt := by
      intro e; have := hc.signer; rw [e, hc.a7] at this; cases this
    unfold claimRent at hl
    rw [← hc.a3, ← hc.a4] at hl
    have k : ∀ l q n, c.claimer ≠ q → l c.claimer ≤ rentPaid rt l c.claimer q n c.claimer + max (rt.rent n) 1 := by
      intro l q n hq
      unfold rentPaid moved
      rw [if_neg hq, if_pos rfl]
      omega
    have k2 := k (if w.bank.tokens c.recipientAta = none then
      rentPaid rt w.lamports c.claimer c.recipientAta (World.tokenSpace rt c.airdropTokenMint c.airdropTokenProgram)
      else w.lamports) _ 8 n2
    have k1 := k w.lamports _ (World.tokenSpace rt c.airdropTokenMint c.airdropTokenProgram) n1
    split at k2
    · rename_i h0; rw [if_pos h0]; omega
    · rename_i h0; rw [if_neg h0]; omega

/-! ## Non-vacuity: a history with fees of one dollar at 150 dollars per SOL -/

/-- Instructions of the deployment with fees of one dollar, one after the other. -/
def runWith (w : World) : List Ix → Res World
  | [] => .ok w
  | i :: is => do
      let w ← stepWith 100000000 100000000 Demo.rt w i
      runWith w is

theorem stepsWith_run : ∀ (ixs : List Ix) {w w' : World}, runWith w ixs = .ok w' →
    StepsWith 100000000 100000000 Demo.rt w w'
  | [], w, w', h => by cases h; exact .refl _
  | i :: is, w, w', h => by
    obtain ⟨w₁, h1, h2⟩ := bind_ok.1 h
    exact (StepsWith.tail i (.refl w) h1).trans (stepsWith_run is h2)

/-- Bob withdraws, carol claims for bob, alice cancels, carol triggers the rest, the collector collects. -/
def feeHistory : List Ix :=
  setup ++ createStreams ++ openCampaign ++ [ixWithdraw, ixClaim, ixCancel, ixWithdrawMax, ixCollect]

/-- The state after it. -/
def feeWorld : World := match runWith world0 feeHistory with
  | .ok w => w
  | .error _ => world0

theorem stepsFee : StepsWith 100000000 100000000 Demo.rt world0 feeWorld := by
  have h : (runWith world0 feeHistory).isOk = true := by decide +kernel
  unfold feeWorld
  cases hr : runWith world0 feeHistory with
  | error e => rw [hr] at h; cases h
  | ok w' => exact stepsWith_run _ hr

theorem reachFee : ReachableWith 100000000 100000000 Demo.rt feeWorld := ⟨world0, genesis0, stepsFee⟩

-- two withdrawals and a claim paid 6,666,666 lamports each; what exceeds the reserve was collected
example : total (feePaidTo .lockup) feeWorld.log = 13333332 ∧ total (feePaidTo .merkle) feeWorld.log = 6666666 := by
  decide +kernel
example : total (collectedFrom .lockup) feeWorld.log = 12333332 := by decide +kernel
example := C103_reachable reachFee
example := C103_history stepsFee
/-- The stream is canceled and paid out completely. -/
example {sd : StreamData} (h : feeWorld.lk.streams (streamAddr alice 1) = some sd) {md : MintData}
    (hm : feeWorld.bank.mints sd.depositedTokenMint = some md) (hp : md.Plain) := C103_solvent reachFee h hm hp
example := C103_claims_once reachFee camp 0
example := C103_revenue ⟨world0, genesis0, .refl _⟩ stepsFee .lockup
example : total (claimOf camp 0) feeWorld.log = 1 := by decide +kernel
example : ∃ sd, feeWorld.lk.streams (streamAddr alice 1) = some sd ∧ sd.amounts.deposited = 1000 ∧
    sd.isDepleted = true := by
  refine ⟨(feeWorld.lk.streams (streamAddr alice 1)).get (by decide +kernel), ?_, ?_, ?_⟩ <;> decide +kernel
example : ∃ md, feeWorld.bank.mints mint = some md ∧ md.Plain := by
  refine ⟨(feeWorld.bank.mints mint).get (by decide +kernel), ?_, ?_, ?_⟩ <;> decide +kernel

/-- The state before the cancellation. -/
def feeWorld3 : World := match runWith world0 (setup ++ createStreams ++ openCampaign ++ [ixWithdraw, ixClaim]) with
  | .ok w => w
  | .error _ => world0

theorem reachFee3 : ReachableWith 100000000 100000000 Demo.rt feeWorld3 := by
  have h : (runWith world0 (setup ++ createStreams ++ openCampaign ++ [ixWithdraw, ixClaim])).isOk = true := by
    decide +kernel
  unfold feeWorld3
  cases hr : runWith world0 (setup ++ createStreams ++ openCampaign ++ [ixWithdraw, ixClaim]) with
  | error e => rw [hr] at h; cases h
  | ok w' => exact ⟨world0, genesis0, stepsWith_run _ hr⟩

theorem feeReady : WithdrawReady rt feeWorld3 (withdrawAccts carol 1) alice 1
    ⟨⟨100, 200, 1000, 0, 200⟩, Demo.mint, 255, 1, true, false, ⟨3000, 6000, 2000⟩, alice, false⟩
    { plainMint with supply := 1000000 } := by
  constructor
  case nft => exact ⟨⟨tok, nft 1, bob, 1, false⟩, by decide +kernel⟩
  case usable => exact .inl ⟨⟨tok, Demo.mint, bob, 700, false⟩, by decide +kernel⟩
  case treasury => exact ⟨⟨255, collector, oracleProgram, feed⟩, by decide +kernel⟩
  all_goals decide +kernel

theorem feeTransferable : Transferable feeWorld3 { plainMint with supply := 1000000 } (vault 1) (ataOf bob) := by
  refine ⟨rfl, fun t h => ?_, fun t h => ?_, fun _ => rfl, by decide +kernel⟩
  · have e : feeWorld3.bank.tokens (vault 1) = some ⟨tok, Demo.mint, str 1, 800, false⟩ := by decide +kernel
    rw [e] at h; cases h; rfl
  · have e : feeWorld3.bank.tokens (ataOf bob) = some ⟨tok, Demo.mint, bob, 700, false⟩ := by decide +kernel
    rw [e] at h; cases h; rfl

/-- Carol pays a dollar to withdraw the rest for bob. -/
example :=
  C103_exit reachFee3 feeReady ⟨rfl, rfl⟩ feeTransferable (x := 333) (by decide +kernel) (amount := 333) (by decide) (by decide)
    (.inr ⟨6666666, by decide +kernel, by decide +kernel⟩)

/-- The instructions that charge a fee. -/
def charges : Ix → Bool
  | .lockup (.withdraw _ _) | .lockup (.withdrawMax _) | .merkle (.claim _ _ _ _) => true
  | _ => false

theorem stepsWith_after {w : World} {ixs : List Ix} (hc : ∀ i ∈ ixs, charges i = false)
    (h : (runAll Demo.rt w ixs).isOk = true) : StepsWith 100000000 100000000 Demo.rt w (after w ixs) := by
  have e : ∀ (ixs : List Ix) (w : World), (∀ i ∈ ixs, charges i = false) → runWith w ixs = runAll Demo.rt w ixs := by
    intro ixs
    induction ixs with
    | nil => intro w _; rfl
    | cons i is ih =>
      intro w hc
      have h0 : stepWith 100000000 100000000 Demo.rt w i = step Demo.rt w i := by
        have := hc i (List.mem_cons_self ..)
        unfold stepWith
        split <;> first | rfl | cases this
      show (stepWith _ _ _ w i >>= fun w => runWith w is) = (step _ w i >>= fun w => runAll _ w is)
      rw [h0]
      congr 1
      funext w'
      exact ih w' fun j hj => hc j (List.mem_cons_of_mem _ hj)
  unfold after execTx
  cases hr : runAll Demo.rt w ixs with
  | error e => rw [hr] at h; cases h
  | ok w' => exact stepsWith_run _ ((e ixs w hc).trans hr)

theorem reachFee2 : ReachableWith 100000000 100000000 Demo.rt world2 :=
  ⟨world0, genesis0, (stepsWith_after (ixs := setup ++ createStreams) (by decide) (by decide +kernel)).trans
    (stepsWith_after (ixs := openCampaign) (by decide) (by decide +kernel))⟩

/-- Carol pays a dollar and the rent to claim for bob. -/
example := C103_claim_exit reachFee2 (i := 0) (a := 500) (p := [leaf1]) demo_claimReady (by decide +kernel) (by decide +kernel)
  ⟨by decide +kernel, by decide +kernel⟩ (by decide +kernel) rfl demo_claimTransferable (by decide +kernel)
  (.inr ⟨6666666, by decide +kernel, by decide +kernel⟩)

end Solsab.Props
