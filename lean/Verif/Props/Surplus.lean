import Verif.Spec.Surplus
import Verif.Props.Cancel
import Verif.Props.Withdraw
import Verif.Props.Solvency
import Verif.Props.Tree
/-!
# C74, C75: tokens beyond what is owed are locked for ever
-/

namespace Solsab.Props

open Lockup Spec Demo

/-- **C74**: if the vault of a stream holds `k` tokens more than the stream still owes (donated to it, or left there
by a withdrawal to itself), then it does so in every later state, whatever anybody does: no instruction of any
program, in any order, with any accounts and any signers, ever gets at those tokens.  (The token must have no
permanent delegate: such a delegate can take anything, C19.) -/
theorem C74_surplus_locked {rt : Runtime} {w w' : World} (hr : Reachable rt w) (hs : Steps rt w w') {s : Addr} {n : Nat}
    {sd : StreamData} (hx : w.lk.streams (streamAddr s n) = some sd) {md : MintData}
    (hm : w.bank.mints sd.depositedTokenMint = some md) (hpd : md.permanentDelegate = none) {k : Nat}
    (hk : Surplus w (.ata (streamAddr s n) md.program sd.depositedTokenMint)
      (stillOwed w (streamAddr s n) sd.amounts.deposited) k) :
    Surplus w' (.ata (streamAddr s n) md.program sd.depositedTokenMint)
      (stillOwed w' (streamAddr s n) sd.amounts.deposited) k := by
  obtain ⟨md', t, hv⟩ := hr.vaultsOK _ _ hx
  have e := hv.mint; rw [hm] at e; cases e
  obtain ⟨sd', hx', hl⟩ := hs.stream hr hx
  obtain ⟨md', t', hv', hkept, hflow⟩ := hs.vault_flow hr hx hx' hv
  have hflow := hflow hpd
  have hok := hr.streamOK hx
  have hok' := (hr.steps hs).streamOK hx'
  have hsum := hok.sum_le
  have hsum' := hok'.sum_le
  have hdep := hl.terms.deposited
  have hmint := hl.terms.mint
  have hvault' := hv'.vault
  rw [hkept.1, hmint] at hvault'
  simp only [Surplus, stillOwed, hok.logW, hok.logR, hok'.logW, hok'.logR, Bank.balance, hv.vault, hvault'] at hk ⊢
  omega

/-- **C74**: the NFT holder may direct a withdrawal to the stream account itself.  Then the withdrawal is recorded and
announced as usual, but no token moves: the surplus of the vault grows by the withdrawn amount ... -/
theorem C74_self_withdraw {rt : Runtime} {w w' : World} (hr : Reachable rt w) {c : WithdrawAccts} {amount : UInt64}
    {s : Addr} {n : Nat} (hc : c.streamData = streamAddr s n) (hto : c.withdrawalRecipient = streamAddr s n)
    (h : step rt w (.lockup (.withdraw c amount)) = .ok w') {sd : StreamData}
    (hx : w.lk.streams (streamAddr s n) = some sd) (md : MintData) :
    w'.bank = w.bank ∧ (c.signer = c.streamRecipient ∨ c.streamRecipient = streamAddr s n) ∧
    total (withdrawnBy (streamAddr s n)) w'.log = total (withdrawnBy (streamAddr s n)) w.log + amount.toNat ∧
    ∀ k, Surplus w (.ata (streamAddr s n) md.program sd.depositedTokenMint)
        (stillOwed w (streamAddr s n) sd.amounts.deposited) k →
      Surplus w' (.ata (streamAddr s n) md.program sd.depositedTokenMint)
        (stillOwed w' (streamAddr s n) sd.amounts.deposited) (k + amount.toNat) := by
  obtain ⟨sd₁, sd', dm, b₁, b₂, l, hw⟩ := withdraw_ok (h : withdraw rt w c amount.toNat = _)
  have hsd := hw.accts.stream
  rw [hc, hx] at hsd; cases hsd
  have hok := hr.streamOK hx
  have hva := hw.accts.vaultAddr
  obtain ⟨hra, hens⟩ := hw.accts.ensure
  rw [hto] at hra
  rw [hc] at hva
  have hsame : c.withdrawalRecipientAta = c.streamDataAta := by rw [hra, hva]
  obtain ⟨v, hv, _, _⟩ := hw.accts.vault
  have hb1 : b₁ = w.bank := by
    rcases hens with h1 | ⟨h1, _⟩
    · exact h1.1
    · rw [hsame, hv] at h1; cases h1
  obtain ⟨tf, tt, md', hf, _, _⟩ := transferChecked_ok hw.transfer
  have hb2 : b₂ = b₁ := by
    rcases hf.result with ⟨_, h1⟩ | ⟨h1, _⟩
    · exact h1
    · exact absurd hsame.symm h1
  have hbank : w'.bank = w.bank := by rw [hw.result]; show b₂ = _; rw [hb2, hb1]
  have hlogW : total (withdrawnBy (streamAddr s n)) w'.log =
      total (withdrawnBy (streamAddr s n)) w.log + amount.toNat := by
    rw [hw.result]; simp [total, withdrawnBy, hc]; omega
  have hlogR : total (refundedBy (streamAddr s n)) w'.log = total (refundedBy (streamAddr s n)) w.log := by
    rw [hw.result]; simp [total, refundedBy]
  have hr' := hr.step h
  have hx' : w'.lk.streams (streamAddr s n) = some sd' := by rw [hw.result, ← hc]; simp
  have hok' := hr'.streamOK hx'
  have hsum' := hok'.sum_le
  rw [← hok'.logW, ← hok'.logR, hlogW, hlogR] at hsum'
  have hdep : sd'.amounts.deposited = sd.amounts.deposited := by rw [(withdraw_data hw.data).2.2]
  refine ⟨hbank, ?_, hlogW, fun k hk => ?_⟩
  · rcases hw.accts.dest with h1 | h1
    · exact .inr (h1.symm.trans hto)
    · exact .inl h1
  · simp only [Surplus, stillOwed, hlogW, hlogR, hbank] at hk ⊢
    omega

/-- ... **C74**: and so those tokens are lost: for a token without transfer fee and permanent delegate, in every state
after a withdrawal of `amount` to the stream account itself the vault holds `amount` more than will ever be paid out. -/
theorem C74_self_withdraw_lost {rt : Runtime} {w w' w'' : World} (hr : Reachable rt w) {c : WithdrawAccts}
    {amount : UInt64} {s : Addr} {n : Nat} (hc : c.streamData = streamAddr s n)
    (hto : c.withdrawalRecipient = streamAddr s n) (h : step rt w (.lockup (.withdraw c amount)) = .ok w')
    {sd : StreamData} (hx : w.lk.streams (streamAddr s n) = some sd) {md : MintData}
    (hm : w.bank.mints sd.depositedTokenMint = some md) (hp : md.Plain) (hs : Steps rt w' w'') :
    Surplus w'' (.ata (streamAddr s n) md.program sd.depositedTokenMint)
      (stillOwed w'' (streamAddr s n) sd.amounts.deposited) amount.toNat := by
  obtain ⟨hb, _, _, hk⟩ := C74_self_withdraw hr hc hto h hx md
  have h0 := C18_solvent_history hr hx hm hp
  have hk := hk 0 (by simp only [Surplus, stillOwed]; omega)
  obtain ⟨sd', hx', hl⟩ := (Steps.tail _ (.refl w) h).stream hr hx
  have hmint := hl.terms.mint
  have := C74_surplus_locked (hr.step h) hs hx' (md := md) (by rw [hb, hmint, hm]) hp.2 (k := amount.toNat)
    (by rw [hmint, hl.terms.deposited]; simpa using hk)
  rwa [hmint, hl.terms.deposited] at this

/-- Bob, who holds the NFT of stream 1, withdraws 100 to the stream account at time 4000. -/
def selfAccts : WithdrawAccts :=
  { withdrawAccts bob 1 with withdrawalRecipient := str 1, withdrawalRecipientAta := vault 1 }

def selfPaid : World := after world3 [.lockup (.withdraw selfAccts 100)]

example := C74_self_withdraw_lost reach3 (c := selfAccts) (amount := 100) (s := alice) (n := 1) rfl rfl
  (w' := selfPaid) (step_after (by decide +kernel))
  (sd := ⟨⟨100, 200, 1000, 0, 200⟩, mint, 255, 1, true, false, ⟨3000, 6000, 2000⟩, alice, false⟩)
  (by decide +kernel) (md := { plainMint with supply := 1000000 }) (by decide +kernel) (by decide) (.refl _)

example : world3.bank.balance (vault 1) = 800 ∧ selfPaid.bank.balance (vault 1) = 800 ∧
    stillOwed world3 (str 1) 1000 = 800 ∧ stillOwed selfPaid (str 1) 1000 = 700 := by decide +kernel

/-- 50 tokens donated to the vault of stream 1. -/
def donated : World :=
  after world3 [.env (.transfer (ataOf alice) (vault 1) alice mint tok 50 6)]

theorem steps3donated : Steps rt world3 donated := steps_after (by decide +kernel)

example := C74_surplus_locked (reach3.steps steps3donated) (.refl _)
  (s := alice) (n := 1)
  (sd := ⟨⟨100, 200, 1000, 0, 200⟩, mint, 255, 1, true, false, ⟨3000, 6000, 2000⟩, alice, false⟩)
  (by decide +kernel) (md := { plainMint with supply := 1000000 }) (by decide +kernel) rfl (k := 50)
  (by rw [Surplus]; decide +kernel)

/-! ## C75 -/

/-- **C75**: seven days after the first claim of a campaign that never expires, what its vault holds beyond the
allocations that are not claimed yet is locked for ever: in every later history, whatever anybody does, the
vault keeps at least `balance + claimed so far − all allocations` (unless some claim exhibits a Keccak collision). -/
theorem C75_leftover_locked {rt : Runtime} {w₀ w w' : World} (hg : Genesis w₀) (h0 : 0 < w₀.clock) {before later : List Ix}
    (hrun : runAll rt w₀ before = .ok w) (hlater : runAll rt w later = .ok w') {x : Addr} {cd : Merkle.Campaign} {t : Nat}
    (hx : Merkle.campaignView w x = .ok cd) (hf : firstClaim x w.log = some t) (ht : t + sevenDays < w.now)
    (hne : cd.expirationTime = 0) {md : MintData} (hm : w.bank.mints cd.airdropTokenMint = some md)
    (hpd : md.permanentDelegate = none) {tree : MTree} (htree : cd.merkleRoot = tree.root rt.keccak)
    (hcol : ¬ CollisionInHistory rt tree x (before ++ later)) :
    w.bank.balance (.ata x md.program cd.airdropTokenMint) + total (claimedFrom x) w.log ≤
      w'.bank.balance (.ata x md.program cd.airdropTokenMint) + tree.totalAmount := by
  have hs0 := Demo.steps_runAll before hrun
  have hs := Demo.steps_runAll later hlater
  have hrp : ReachablePos rt w := ⟨w₀, hg, h0, hs0⟩
  have hr := hrp.reachable
  have hcl : total (clawedFrom x) w'.log = total (clawedFrom x) w.log := by
    clear hlater
    induction hs with
    | refl => rfl
    | tail ix h1 h2 ih => 
      rw [← ih]
      rcases (step_did h2).campaign_cases x with ⟨hq, _⟩ | ⟨c, p, dm, b, l, rfl, _, _, _, hok⟩ |
        ⟨c, index, amount, proof, cd', dm, b₁, b₂, l, rfl, ⟨i, a, rfl, _⟩, hok⟩ |
        ⟨c, amount, cd', dm, b₁, b₂, l, rfl, ⟨a, rfl, _⟩, hok⟩
      · rw [hq.total clawedFrom_quiet]
      · rw [hok.result]; simp [total, clawedFrom]
      · rw [hok.result]; simp [total, clawedFrom]
      · obtain ⟨e, he⟩ := (C47_no_clawback (w'' := w) hrp hx hf ht h1 (by simp [Expired, hne])).1 c a rfl
        rw [h2] at he; cases he
  have hacc := C51_accounting hr hs hx hm hpd
  obtain ⟨t', hcd', _⟩ := hs.campaign (fetch_ok.1 hx)
  have htot := (C44_total hg (runAll_append hrun hlater) (x := x) (fetch_ok.2 hcd') htree hcol).1
  omega

/-- A campaign for the same list that never expires, funded with 1000 (the list needs 800). -/
def camp0 : Addr := .campaign alice root 1500 0 campaignName mint
def claim0 : Merkle.ClaimAccts :=
  { claimAccts bob 0 with campaign := camp0, campaignAta := .ata camp0 tok mint, claimReceipt := .claimReceipt camp0 0 }

/-- Created, funded, claimed from once; then eight days pass. -/
def history0 : List Ix :=
  setup ++
  [ .merkle (.createCampaign ⟨alice, mint, camp0, .ata camp0 tok mint, tok⟩ root 1500 0 campaignName [81, 109] 800 2),
    .env (.transfer (ataOf alice) (.ata camp0 tok mint) alice mint tok 1000 6),
    .env (.tick 4000), .merkle (.claim claim0 0 500 [leaf1]), .env (.tick 700000) ]

def world0' : World := after world0 history0

def history1 : List Ix :=
  [.merkle (.claim { claim0 with recipient := carol, recipientAta := ataOf carol, claimReceipt := .claimReceipt camp0 1 }
    1 300 [leaf0])]

example := C75_leftover_locked genesis0 (by decide) (before := history0) (w := world0') (runAll_after (by decide +kernel))
  (later := history1) (runAll_after (by decide +kernel)) (x := camp0)
  (cd := ⟨mint, 255, 1500, alice, 0, 4000, [81, 109], root, campaignName⟩) (t := 4000) (by decide +kernel)
  (by decide +kernel) (by decide +kernel) rfl (md := { plainMint with supply := 1000000 }) (by decide +kernel) rfl
  (tree := demoTree) (by rw [demoTree_root]) (not_exhibits (by decide +kernel))

example : world0'.bank.balance (.ata camp0 tok mint) = 500 ∧ total (claimedFrom camp0) world0'.log = 500 ∧
    (after world0' history1).bank.balance (.ata camp0 tok mint) = 200 := by decide +kernel

end Solsab.Props
