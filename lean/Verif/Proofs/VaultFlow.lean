import Verif.Proofs.VaultInv
import Verif.Proofs.StreamSteps
/-!
# Flow out of a stream vault, for every mint without a permanent delegate
-/

namespace Solsab

open Spec Lockup

theorem Evolves.paid {rt now log x sd sd'} (hok : StreamOK rt now log x sd) (h : Evolves now sd sd') :
    sd.amounts.withdrawn + sd.amounts.refunded ≤ sd'.amounts.withdrawn + sd'.amounts.refunded := by
  cases h with
  | same => exact Nat.le_refl _
  | withdraw hd hp hle h =>
    obtain ⟨_, _, rfl⟩ := withdraw_data h
    show _ ≤ sd.amounts.withdrawn + _ + sd.amounts.refunded
    omega
  | cancel hc hn hd hlt =>
    have := (hok.live hn).1
    show _ ≤ sd.amounts.withdrawn + (sd.amounts.deposited - _)
    omega
  | renounce => exact Nat.le_refl _

/-- One step keeps the vault's identity, and (no permanent delegate) vault balance plus everything paid out
does not decrease. -/
theorem Did.vault_flow {rt : Runtime} {w w' : World} {ix : Ix} (hr : Reachable rt w) (hd : Did rt w ix w')
    {x : Addr} {sd sd' : StreamData} (hx : w.lk.streams x = some sd) (hx' : w'.lk.streams x = some sd')
    {md : MintData} {t : TokenData} (hv : VaultOK w.bank x sd md t) :
    ∃ t', w'.bank.tokens (.ata x md.program sd.depositedTokenMint) = some t' ∧ TokKept t t' ∧
      (md.permanentDelegate = none →
        t.amount + sd.amounts.withdrawn + sd.amounts.refunded ≤
          t'.amount + sd'.amounts.withdrawn + sd'.amounts.refunded) := by
  have hok := hr.streamOK hx
  obtain ⟨sd₁, h1, hev, hsame⟩ := hd.evolves hr hx
  rw [hx'] at h1; cases h1
  have hpaid := hev.paid hok
  have hxs : x.canSign = false := by rw [hok.addr]; rfl
  rcases hd.bank with hs | ⟨s, d, y, m, tp, amt, hp, hwho⟩
  · obtain ⟨t', h1, h2, h3⟩ := hs.account hv.vault (by rw [hv.owner]; exact hxs)
    refine ⟨t', h1, h2, fun hpd => ?_⟩
    have := h3 ⟨md, by rw [hv.tmint]; exact hv.mint, hpd⟩
    omega
  · by_cases hsrc : Addr.ata x md.program sd.depositedTokenMint = s
    · have hxy : x = y := by
        have := hp.srcAddr; rw [← hsrc] at this; injection this
      subst hxy
      obtain ⟨t', h1, h2, _⟩ := hd.account hv.vault (by rw [hv.owner]; exact hxs)
      refine ⟨t', h1, h2, fun _ => ?_⟩
      rcases hd.stream x with ⟨_, hsp⟩ | ⟨c, p, nd, dm, md, cm, k, name, b₁, b₂, b₃, b₄, b₆, l, hc, hcr, hp', hok'⟩ |
        ⟨c, amount, sd₁, sd₂, dm, b₁, b₂, l, hc, hix, hok'⟩ | ⟨c, sd₁, dm, streamed, b₁, b₂, l, hc, hix, hok'⟩ |
        ⟨c, sd₁, streamed, hc, hix, hok'⟩
      · rcases hwho with ⟨h | h, _⟩ | ⟨_, cd, _, hcd⟩
        · exact absurd h hsp.w
        · exact absurd h hsp.c
        · rw [hok.addr] at hcd; cases hcd
      · subst hc
        have := hok'.fresh
        rw [hx] at this; cases this
      · subst hc
        have e1 := hok'.accts.stream
        rw [hx] at e1; cases e1
        have e2 : w'.lk.streams c.streamData = some sd₂ := by rw [hok'.result]; simp
        rw [hx'] at e2; cases e2
        obtain ⟨_, _, rfl⟩ := withdraw_data hok'.data
        obtain ⟨t₁, t₂, p1, _, p3, p4, p5, p6, _, p8⟩ := hok'.payout.src
        have hva : Addr.ata c.streamData md.program sd.depositedTokenMint = c.streamDataAta := by
          obtain ⟨md', q1, q2⟩ := hr.bankInv.tok_mint _ _ p1
          have := hok'.accts.mintAddr
          rw [p3, this, hv.mint] at q1; cases q1
          rw [hok'.accts.vaultAddr, this, ← p4, q2]
        rw [← hva, hv.vault] at p1; cases p1
        rw [← hva, h1] at p6; cases p6
        show _ ≤ t'.amount + (sd.amounts.withdrawn + amount) + sd.amounts.refunded
        split at p8 <;> omega
      · subst hc
        have e1 := hok'.accts.stream
        rw [hx] at e1; cases e1
        have e2 : w'.lk.streams c.streamData = some
          (sd.cancel (sd.amounts.deposited - streamed) (streamed - sd.amounts.withdrawn)) := by
          rw [hok'.result]; simp
        rw [hx'] at e2; cases e2
        have h0 := (StreamOK.ofCancel hok' hok).2.1
        obtain ⟨t₁, t₂, p1, _, p3, p4, p5, p6, _, p8⟩ := hok'.payout.src
        have hva : Addr.ata c.streamData md.program sd.depositedTokenMint = c.streamDataAta := by
          obtain ⟨md', q1, q2⟩ := hr.bankInv.tok_mint _ _ p1
          have := hok'.accts.mintAddr
          rw [p3, this, hv.mint] at q1; cases q1
          rw [hok'.accts.vaultAddr, this, ← p4, q2]
        rw [← hva, hv.vault] at p1; cases p1
        rw [← hva, h1] at p6; cases p6
        show _ ≤ t'.amount + sd.amounts.withdrawn + (sd.amounts.deposited - streamed)
        split at p8 <;> omega
      · subst hix
        rcases hwho with ⟨h | h, _⟩ | ⟨h | h, _⟩ <;> cases h
    · obtain ⟨t', h1, h2⟩ := hp.other hv.vault hsrc
      refine ⟨t', h1, h2.kept, fun _ => ?_⟩
      have := h2.2.2.2
      omega

/-- The same along any history. -/
theorem Steps.vault_flow {rt : Runtime} {w w' : World} (hr : Reachable rt w) (hs : Steps rt w w')
    {x : Addr} {sd sd' : StreamData} (hx : w.lk.streams x = some sd) (hx' : w'.lk.streams x = some sd')
    {md : MintData} {t : TokenData} (hv : VaultOK w.bank x sd md t) :
    ∃ md' t', VaultOK w'.bank x sd' md' t' ∧ MintKept md md' ∧
      (md.permanentDelegate = none →
        t.amount + sd.amounts.withdrawn + sd.amounts.refunded ≤
          t'.amount + sd'.amounts.withdrawn + sd'.amounts.refunded) := by
  induction hs generalizing sd' with
  | refl => rw [hx] at hx'; cases hx'; exact ⟨md, t, hv, .refl _, fun _ => Nat.le_refl _⟩
  | tail ix hst hs ih =>
    obtain ⟨sd₁, hx1, hl1⟩ := hst.stream hr hx
    obtain ⟨md₁, t₁, hv1, hk1, h1⟩ := ih hx1
    have hr1 := hr.steps hst
    have hd := step_did hs
    obtain ⟨md₂, hm2, hk2⟩ := hd.mint hv1.mint
    obtain ⟨t₂, ht2, hk, h2⟩ := hd.vault_flow hr1 hx1 hx' hv1
    obtain ⟨md₃, t₃, hv3⟩ := (hr1.step hs).vaultsOK _ _ hx'
    obtain ⟨_, hxe, hev, _⟩ := hd.evolves hr1 hx1
    rw [hx'] at hxe; cases hxe
    have hmint : sd'.depositedTokenMint = sd₁.depositedTokenMint := hev.terms.mint
    have e3 : md₃ = md₂ := by
      have := hv3.mint; rw [hmint, hm2] at this; cases this; rfl
    subst e3
    have e4 : t₃ = t₂ := by
      have := hv3.vault; rw [hmint, hk2.1, ht2] at this; cases this; rfl
    subst e4
    refine ⟨md₃, t₃, hv3, hk1.trans hk2, fun hpd => ?_⟩
    have := h1 hpd
    have := h2 (hk1.2.2.1.trans hpd)
    omega

end Solsab
