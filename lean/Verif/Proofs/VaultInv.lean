import Verif.Proofs.StreamInv
/-!
# Vaults of streams, their NFT mints
-/

namespace Solsab

open Spec Lockup

/-- The vault of the stream at `x`: exists, belongs to the stream, and for a plain token covers what is
still owed. -/
structure VaultOK (b : Bank) (x : Addr) (sd : StreamData) (md : MintData) (t : TokenData) : Prop where
  mint : b.mints sd.depositedTokenMint = some md
  vault : b.tokens (.ata x md.program sd.depositedTokenMint) = some t
  owner : t.owner = x
  tmint : t.mint = sd.depositedTokenMint
  prog : t.program = md.program
  solvent : md.Plain → sd.amounts.deposited ≤ t.amount + sd.amounts.withdrawn + sd.amounts.refunded

def VaultsOK (w : World) : Prop := ∀ x sd, w.lk.streams x = some sd → ∃ md t, VaultOK w.bank x sd md t

/-- Stream NFT mints exist exactly for existing streams. -/
def NftMintsOK (w : World) : Prop := ∀ s n,
  (w.bank.mints (.streamNftMint s n)).isSome = (w.lk.streams (.streamData (.streamNftMint s n))).isSome

/-- The vault right after `create`. -/
theorem CreateOk.vault {rt w c p w' nd dm md cm k name b₁ b₂ b₃ b₄ b₆ l}
    (h : CreateOk rt w c p w' nd dm md cm k name b₁ b₂ b₃ b₄ b₆ l) (hb : BankInv w.bank) :
    ∃ md' t, b₆.mints c.depositTokenMint = some md' ∧ MintKept dm md' ∧
      b₆.tokens c.streamDataAta = some t ∧ t.owner = c.streamData ∧ t.mint = c.depositTokenMint ∧
      t.program = c.depositTokenProgram ∧ t.amount = p.depositAmount - md'.fee p.depositAmount := by
  obtain ⟨md', hm', hk⟩ := h.safes.mint h.mint
  obtain ⟨tf, tt, md₂, hf, ho, _⟩ := transferChecked_ok h.transfer
  -- the vault before the transfer
  obtain ⟨_, _, _, r3⟩ := openAccount_ok h.openVault
  obtain ⟨_, _, _, hnft, _, _, _, _, _, _, r4⟩ := mintTo_ok h.mintTo
  have hne : c.streamDataAta ≠ c.recipientStreamNftAta := by
    intro he
    have hv := h.openVault
    obtain ⟨_, hnone, _, _⟩ := openAccount_ok hv
    obtain ⟨_, _, _, r2⟩ := openAccount_ok h.openNftAta
    rw [he, r2] at hnone
    simp at hnone
  have hv4 : (lockAuthority b₄ c.streamNftMint md).tokens c.streamDataAta =
      some ⟨c.depositTokenProgram, c.depositTokenMint, c.streamData, 0, b₂.opensFrozen c.depositTokenMint⟩ := by
    unfold lockAuthority
    rw [setMint_tokens, r4, setToken_tokens, setMint_tokens, upd_ne _ _ hne, r3]
    simp
  have hd := hf.dst
  rw [hv4] at hd
  injection hd with hd
  have hm2 : md₂ = md' := by
    have h1 := hf.mint
    rcases hf.result with ⟨_, hr⟩ | ⟨_, _, hr⟩
    · rw [← hr, hm'] at h1; exact (Option.some.inj h1).symm
    · have : b₆.mints = (lockAuthority b₄ c.streamNftMint md).mints := by rw [hr]; rfl
      rw [← this, hm'] at h1; exact (Option.some.inj h1).symm
  have hsd : c.creatorAta ≠ c.streamDataAta := by
    intro he
    rw [h.creatorAtaAddr, h.vaultAddr] at he
    injection he with he
    have := h.signs
    rw [he, h.streamAddr] at this
    cases this
  rcases hf.result with ⟨he, _⟩ | ⟨_, _, hr⟩
  · exact absurd he hsd
  · refine ⟨md', { tt with amount := tt.amount + (p.depositAmount - md₂.fee p.depositAmount) }, hm', hk, ?_, ?_, ?_, ?_, ?_⟩
    · rw [hr]; simp [Bank.move]
    · rw [← hd]
    · rw [← hd]
    · rw [← hd]
    · rw [← hd, hm2]; simp

theorem plain_fee {md : MintData} (h : md.Plain) (x : Nat) : md.fee x = 0 := by
  unfold MintData.fee; rw [h.1]

theorem Reachable.vaultsOK {rt : Runtime} {w : World} (h : Reachable rt w) : VaultsOK w := by
  refine h.induct ?_ ?_
  · intro w hg x sd hx; rw [hg.no_streams] at hx; cases hx
  · intro w ix w' hr hv hd x sd' hx'
    have hb := hr.bankInv
    -- a payout from this vault, if any
    have keep : ∀ sd, w.lk.streams x = some sd → sd'.depositedTokenMint = sd.depositedTokenMint →
        sd'.amounts.deposited = sd.amounts.deposited →
        (sd.amounts.withdrawn + sd.amounts.refunded ≤ sd'.amounts.withdrawn + sd'.amounts.refunded) →
        (BSafes w.bank w'.bank ∨ ∃ s d y m tp amt, Payout w.bank w'.bank s d y m tp amt ∧ (y = x →
          sd.amounts.withdrawn + sd.amounts.refunded + amt ≤ sd'.amounts.withdrawn + sd'.amounts.refunded)) →
        ∃ md t, VaultOK w'.bank x sd' md t := by
      intro sd hsd hmint hdep hmono hpay
      obtain ⟨md, t, hok⟩ := hv x sd hsd
      have hxs : x.canSign = false := by rw [(hr.streamOK hsd).addr]; rfl
      obtain ⟨md', hm', hk⟩ := hd.mint hok.mint
      rcases hpay with hs | ⟨s, d, y, m, tp, amt, hp, hamt⟩
      · obtain ⟨t', h1, h2, h3⟩ := hs.account hok.vault (by rw [hok.owner]; exact hxs)
        refine ⟨md', t', by rw [hmint]; exact hm', by rw [hmint, hk.1]; exact h1, by rw [h2.2.2, hok.owner],
          by rw [h2.2.1, hok.tmint, hmint], by rw [h2.1, hok.prog, hk.1], ?_⟩
        intro hpl
        have hpl' := hk.plain.1 hpl
        have := hok.solvent hpl'
        have := h3 ⟨md, by rw [hok.tmint]; exact hok.mint, hpl'.2⟩
        omega
      · by_cases hsrc : Addr.ata x md.program sd.depositedTokenMint = s
        · have hxy : x = y := by
            have := hp.srcAddr; rw [← hsrc] at this; injection this
          subst hxy
          obtain ⟨t₀, t', h1, _, _, _, _, h6, h7, h8⟩ := hp.src
          rw [← hsrc, hok.vault] at h1
          injection h1 with h1
          subst h1
          have hpay' := hamt rfl
          refine ⟨md', t', by rw [hmint]; exact hm', by rw [hmint, hk.1, hsrc]; exact h6,
            by rw [h7.2.2, hok.owner], by rw [h7.2.1, hok.tmint, hmint], by rw [h7.1, hok.prog, hk.1], ?_⟩
          intro hpl
          have := hok.solvent (hk.plain.1 hpl)
          split at h8 <;> omega
        · obtain ⟨t', h1, h2⟩ := hp.other hok.vault hsrc
          refine ⟨md', t', by rw [hmint]; exact hm', by rw [hmint, hk.1]; exact h1, by rw [h2.2.2.1, hok.owner],
            by rw [h2.2.1, hok.tmint, hmint], by rw [h2.1, hok.prog, hk.1], ?_⟩
          intro hpl
          have := hok.solvent (hk.plain.1 hpl)
          have := h2.2.2.2
          omega
    rcases hd.stream x with ⟨hq, hsp⟩ | ⟨c, p, nd, dm, md, cm, k, name, b₁, b₂, b₃, b₄, b₆, l, hx, _, hp, hok⟩ |
      ⟨c, amount, sd, sd₁, dm, b₁, b₂, l, hx, hix, hok⟩ | ⟨c, sd, dm, streamed, b₁, b₂, l, hx, hix, hok⟩ |
      ⟨c, sd, streamed, hx, hix, hok⟩
    · rw [hq.data] at hx'
      refine keep sd' hx' rfl rfl (Nat.le_refl _) ?_
      rcases hd.bank with hs | ⟨s, d, y, m, tp, amt, hp, hwho⟩
      · exact .inl hs
      · refine .inr ⟨s, d, y, m, tp, amt, hp, ?_⟩
        intro hyx
        subst hyx
        rcases hwho with ⟨h | h, _⟩ | ⟨_, cd, _, hcd⟩
        · exact absurd h hsp.w
        · exact absurd h hsp.c
        · rw [(hr.streamOK hx').addr] at hcd; cases hcd
    · subst hx
      obtain ⟨md', t, h1, h2, h3, h4, h5, h6, h7⟩ := CreateOk.vault hok hb
      have hb6 : w'.bank = b₆ := by rw [hok.result]
      rw [hok.result] at hx'
      simp only [upd_same, Option.some.injEq] at hx'
      subst hx'
      have hprog : md'.program = c.depositTokenProgram := by rw [h2.1, hok.program]
      refine ⟨md', t, by rw [hb6]; exact h1, ?_, h4, h5, by rw [h6, hprog], ?_⟩
      · rw [hb6, hprog]; rw [hok.vaultAddr] at h3; exact h3
      · intro hpl
        show p.depositAmount ≤ t.amount + 0 + 0
        rw [h7, plain_fee hpl]; omega
    · subst hx
      have hsd1 : w'.lk.streams c.streamData = some sd₁ := by rw [hok.result]; simp
      rw [hsd1] at hx'; cases hx'
      obtain ⟨_, _, rfl⟩ := withdraw_data hok.data
      refine keep sd hok.accts.stream rfl rfl ?_ (.inr ⟨_, _, _, _, _, _, hok.payout, fun _ => ?_⟩)
      · show _ ≤ sd.amounts.withdrawn + amount + sd.amounts.refunded; omega
      · show _ ≤ sd.amounts.withdrawn + amount + sd.amounts.refunded; omega
    · subst hx
      have hsd1 : w'.lk.streams c.streamData = some
        (sd.cancel (sd.amounts.deposited - streamed) (streamed - sd.amounts.withdrawn)) := by rw [hok.result]; simp
      rw [hsd1] at hx'; cases hx'
      have h0 := (StreamOK.ofCancel hok (hr.streamOK hok.accts.stream)).2.1
      refine keep sd hok.accts.stream rfl rfl ?_ (.inr ⟨_, _, _, _, _, _, hok.payout, fun _ => ?_⟩)
      · show _ ≤ sd.amounts.withdrawn + (sd.amounts.deposited - streamed); omega
      · show _ ≤ sd.amounts.withdrawn + (sd.amounts.deposited - streamed); omega
    · subst hx
      have hsd1 : w'.lk.streams c.streamData = some sd.renounce := by rw [hok.result]; simp
      rw [hsd1] at hx'; cases hx'
      refine keep sd hok.stream rfl rfl (Nat.le_refl _) (.inl ?_)
      rw [hok.result]; exact .refl _

end Solsab
