import Verif.Props.Custody
import Verif.Props.Hazards
import Verif.Spec.Holder
/-!
# C84 — the right to withdraw is the NFT
-/

namespace Solsab.Props

open Solsab Spec Lockup Demo

/-- Every successful withdrawal names the holder. -/
theorem withdraw_holder {rt : Runtime} {w w' : World} (hr : Reachable rt w) {ix : Ix} {c : WithdrawAccts}
    (hc : ix.withdrawAccts = some c) {s : Addr} {n : Nat} (hx : c.streamData = streamAddr s n)
    (h : step rt w ix = .ok w') : ∃ np, Holds w s n np c.streamRecipient := by
  obtain ⟨s', n', tp, md, sd, h1, _, _, _, ⟨t, h2, h3, _, h4⟩, _⟩ := C07_pays_holder hr hc h
  obtain ⟨rfl, rfl⟩ := streamAddr_inj (hx.symm.trans h1)
  exact ⟨tp, t, h2, h3, h4⟩

/-- Where the NFT is decides who can be named. -/
theorem holder_of {rt : Runtime} {w : World} (hr : Reachable rt w) {s : Addr} {n : Nat} {np : TokenProgram} {p a : Addr}
    (hp : Holds w s n np p) {t : TokenData} (ha : w.bank.tokens a = some t) (hm : t.mint = .streamNftMint s n)
    (hpos : 0 < t.amount) : a = .ata p np (.streamNftMint s n) ∧ t.owner = p := by
  obtain ⟨t₁, h1, h2, h3⟩ := hp
  have q := (ata_token hr.bankInv h1).2
  have e := (C30_unique_holder hr ha hm hpos).2.2 _ _ h1 q (by omega)
  rw [e, ha] at h1; cases h1
  exact ⟨e.symm, h2⟩

/-- **C84**: whoever holds the NFT is the only one a withdrawal can be for; a withdrawal he did not sign pays him. -/
theorem C84_exclusive {rt : Runtime} {w w' : World} (hr : Reachable rt w) {s : Addr} {n : Nat} {np : TokenProgram}
    {p : Addr} (hp : Holds w s n np p) {ix : Ix} {c : WithdrawAccts} (hc : ix.withdrawAccts = some c)
    (hx : c.streamData = streamAddr s n) (h : step rt w ix = .ok w') :
    c.streamRecipient = p ∧ (signerOf ix ≠ some p → c.withdrawalRecipient = p) := by
  obtain ⟨np', t', h1, h2, h3⟩ := withdraw_holder hr hc hx h
  obtain ⟨_, e⟩ := holder_of hr hp h1 (ata_token hr.bankInv h1).2 (by omega)
  have hrec : c.streamRecipient = p := h2.symm.trans e
  refine ⟨hrec, fun hn => ?_⟩
  obtain ⟨_, _, _, _, _, _, _, _, _, _, h4, _⟩ := C07_pays_holder hr hc h
  rcases h4 with h4 | h4
  · rw [h4, hrec]
  · refine absurd ?_ hn
    rw [← hrec, ← h4]
    match ix, hc with
    | .lockup (.withdraw c a), rfl => rfl
    | .lockup (.withdrawMax c), rfl => rfl

/-- In the demo bob holds the NFT of stream 1. -/
theorem bobHolds : Holds world2 alice 1 tok bob := ⟨⟨tok, nft 1, bob, 1, false⟩, by decide +kernel, rfl, rfl⟩

example := C84_exclusive reach2 (np := tok) (p := bob) (s := alice) (n := 1) bobHolds
  (ix := ixWithdraw) rfl rfl (step_after (by decide +kernel))

/-- **C84**: the holder keeps the right until he signs: over any history without his signature, if he has approved no
delegate for his NFT account before, he still holds the NFT, and every withdrawal in it or right after it pays him. -/
theorem C84_kept {rt : Runtime} {w w' : World} (hr : Reachable rt w) {s : Addr} {n : Nat} {np : TokenProgram}
    {p : Addr} (hsig : p.canSign = true) (hp : Holds w s n np p)
    (hna : w.approvals (.ata p np (.streamNftMint s n)) = none) (hs : StepsUnsignedBy rt p w w') :
    Holds w' s n np p ∧
    ∀ ix c w'', ix.withdrawAccts = some c → c.streamData = streamAddr s n → step rt w' ix = .ok w'' →
      c.streamRecipient = p ∧ (signerOf ix ≠ some p → c.withdrawalRecipient = p) := by
  have hr' : Reachable rt w' := by
    clear hp
    induction hs with
    | refl => exact hr
    | tail ix _ h _ ih => exact ih.step h
  have hk : Holds w' s n np p := by
    obtain ⟨t, h1, h2, h3⟩ := hp
    have q := (ata_token hr.bankInv h1).2
    obtain ⟨md, hm, _⟩ := hr.bankInv.tok_mint _ _ h1
    rw [q] at hm
    have hpl := (hr.bankInv.nft _ _ rfl hm).1
    obtain ⟨t', k1, k2, k3, _, k5, _⟩ := C79_history hr hs hsig h1 h2 (by rw [q]; exact hm) hpl.2
    have k6 : allowance w (.ata p np (.streamNftMint s n)) = 0 := by unfold allowance; rw [hna]
    have := (C30_unique_holder hr' k1 (k3.trans q) (by omega)).1
    exact ⟨t', k1, k2, this⟩
  exact ⟨hk, fun ix c w'' hc hx h => C84_exclusive hr' hk hc hx h⟩

/-- A transfer of the NFT into the associated account of `q` makes `q` the holder. -/
theorem nft_moved {rt : Runtime} {w w' : World} (hr : Reachable rt w) {s : Addr} {n : Nat} {np : TokenProgram}
    {a x q : Addr} {k dec : Nat} (hk : 0 < k)
    (hb : w.bank.transferChecked a (.ata q np (.streamNftMint s n)) x (.streamNftMint s n) np k dec = .ok w'.bank)
    {tq : TokenData} (hq : w.bank.tokens (.ata q np (.streamNftMint s n)) = some tq) (ho : tq.owner = q) :
    Holds w' s n np q := by
  obtain ⟨tf, tt, md, hf, _, _⟩ := transferChecked_ok hb
  have e := hf.dst
  rw [hq] at e; cases e
  have hu := C30_unique_holder hr hf.src hf.mints.1 (by have := hf.funds; omega)
  have hfee : md.fee k = 0 := by
    unfold MintData.fee
    rw [(hr.bankInv.nft _ _ rfl hf.mint).1.1]
  unfold Holds
  rcases hf.result with ⟨e, e'⟩ | ⟨hne, _, e'⟩
  · subst e
    exact ⟨tf, by rw [e']; exact hf.src, by have := hf.src; rw [hq] at this; cases this; exact ho, hu.1⟩
  · have h0 : tq.amount = 0 := by
      by_contra hz
      exact hne (hu.2.2 _ _ hq hf.mints.2 (by omega)).symm
    have := hf.funds
    refine ⟨{ tq with amount := tq.amount + (k - md.fee k) }, ?_, ho, ?_⟩
    · rw [e']; exact upd_same _ _ _
    · show tq.amount + (k - md.fee k) = 1
      rw [hfee, h0]; omega

/-- **C84**: handing the NFT over hands the right over: after a transfer of the NFT (by its owner `x`, or by a delegate
`x` he approved) to the associated account of `q`, `q` holds it, and withdrawals for anybody else fail. -/
theorem C84_handover {rt : Runtime} {w w' : World} (hr : Reachable rt w) {s : Addr} {n : Nat} {np : TokenProgram}
    {a x q : Addr} {k dec : Nat} (hk : 0 < k)
    (h : step rt w (.env (.transfer a (.ata q np (.streamNftMint s n)) x (.streamNftMint s n) np k dec)) = .ok w' ∨
      step rt w (.env (.approvedTransfer a (.ata q np (.streamNftMint s n)) x (.streamNftMint s n) np k dec)) = .ok w')
    {tq : TokenData} (hq : w.bank.tokens (.ata q np (.streamNftMint s n)) = some tq) (ho : tq.owner = q) :
    Holds w' s n np q ∧
    ∀ ix c w'', ix.withdrawAccts = some c → c.streamData = streamAddr s n → c.streamRecipient ≠ q →
      step rt w' ix ≠ .ok w'' := by
  have hr' : Reachable rt w' := h.elim hr.step hr.step
  have hh : Holds w' s n np q := by
    rcases h with h | h
    · rw [step, EnvIx.run] at h
      obtain ⟨_, _, h⟩ := bind_ok.1 h
      obtain ⟨b, hb, h⟩ := bind_ok.1 h
      cases h
      exact nft_moved hr hk hb hq ho
    · simp only [step, EnvIx.run, bind_ok, require_ok, pure_ok, fetch_ok] at h
      obtain ⟨u, h1, ap, h2, _, _, _, _, b, hb, rfl⟩ := h
      exact nft_moved hr hk hb hq ho
  refine ⟨hh, fun ix c w'' hc hx hne h' => hne (C84_exclusive hr' hh hc hx h').1⟩

/-- **C84**: an NFT kept anywhere but in its owner's associated account suspends the stream: nobody can withdraw. -/
theorem C84_misplaced {rt : Runtime} {w : World} (hr : Reachable rt w) {s : Addr} {n : Nat} {a : Addr}
    {t : TokenData} (ha : w.bank.tokens a = some t) (hm : t.mint = .streamNftMint s n) (hpos : 0 < t.amount)
    (hne : a ≠ .ata t.owner t.program (.streamNftMint s n)) {ix : Ix} {c : WithdrawAccts}
    (hc : ix.withdrawAccts = some c) (hx : c.streamData = streamAddr s n) (w' : World) :
    step rt w ix ≠ .ok w' := by
  intro h
  obtain ⟨np, hp⟩ := withdraw_holder hr hc hx h
  obtain ⟨e1, e2⟩ := holder_of hr hp ha hm hpos
  apply hne
  have := (ata_token hr.bankInv (e1 ▸ ha)).1
  rw [e1, e2, this]

/-! ### Examples -/

/-- Bob hands stream 1 over to carol; later he moves the NFT of stream 2 to a plain token account. -/
def handover : List Ix :=
  [ .env (.createAta bob (.ata carol tok (nft 1)) carol tok (nft 1)) ]
def ixHandover : Ix := .env (.transfer (.ata bob tok (nft 1)) (.ata carol tok (nft 1)) bob (nft 1) tok 1 0)
def misplace : List Ix :=
  [ .env (.createTokenAccount 77 bob (nft 2) tok),
    .env (.transfer (.ata bob tok (nft 2)) (.key 77) bob (nft 2) tok 1 0) ]

def worldH0 : World := after world2 handover
def worldH1 : World := after worldH0 [ixHandover]
def worldH2 : World := after world2 misplace

theorem reachH0 : Reachable rt worldH0 := reach2.steps (steps_after (by decide +kernel))
theorem reachH1 : Reachable rt worldH1 := reachH0.steps (steps_after (by decide +kernel))
theorem reachH2 : Reachable rt worldH2 := reach2.steps (steps_after (by decide +kernel))

example := C84_handover reachH0 (s := alice) (n := 1) (q := carol) (np := tok) (k := 1) (by decide)
  (.inl (step_after (ix := ixHandover) (by decide +kernel))) (tq := ⟨tok, nft 1, carol, 0, false⟩) (by decide +kernel) rfl

/-- Carol can now withdraw, bob cannot. -/
def carolAccts : Lockup.WithdrawAccts :=
  { withdrawAccts carol 1 with
    streamRecipient := carol, withdrawalRecipient := carol, withdrawalRecipientAta := ataOf carol,
    recipientStreamNftAta := .ata carol tok (nft 1) }
example : (step rt worldH1 (.lockup (.withdrawMax carolAccts))).isOk = true ∧
    (step rt worldH1 ixWithdraw).isOk = false := by decide +kernel

example := C84_misplaced reachH2 (s := alice) (n := 2) (a := .key 77) (t := ⟨tok, nft 2, bob, 1, false⟩)
  (by decide +kernel) rfl (by decide) (by decide +kernel) (ix := .lockup (.withdrawMax (withdrawAccts bob 2))) rfl rfl

/-- Alice pays for a withdrawal of bob's stream: bob signs nothing and still holds the NFT. -/
theorem unsignedH : StepsUnsignedBy rt bob world2 (after world2 [.lockup (.withdraw (withdrawAccts carol 1) 5)]) :=
  .tail _ (.refl _) (step_after (by decide +kernel)) (by decide +kernel)

example := C84_kept reach2 (p := bob) rfl bobHolds (by decide +kernel) unsignedH

end Solsab.Props
