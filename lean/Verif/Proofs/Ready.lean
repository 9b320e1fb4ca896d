import Verif.Proofs.Errors
import Verif.Spec.Accounts
/-!
# The right accounts pass validation
-/

namespace Solsab

open Lockup Spec

theorem ata_not_mint {b : Bank} (hb : BankInv b) (o : Addr) (tp : TokenProgram) (m : Addr) :
    b.mints (.ata o tp m) = none := by
  cases h : b.mints (.ata o tp m) with
  | none => rfl
  | some md =>
    rcases hb.mint_addr _ _ h with ⟨n, hn⟩ | hn
    · cases hn
    · simp [Addr.isNftMint] at hn

theorem ata_token {b : Bank} (hb : BankInv b) {o : Addr} {tp : TokenProgram} {m : Addr} {t : TokenData}
    (h : b.tokens (.ata o tp m) = some t) : t.program = tp ∧ t.mint = m := by
  rcases hb.tok_addr _ _ h with ⟨n, hn⟩ | ⟨o', hn, _⟩
  · cases hn
  · injection hn with h1 h2 h3
    exact ⟨h2.symm, h3.symm⟩

theorem payRent_of {rt : Runtime} {w : World} {p a : Addr} {k : Nat} (h : CanFund rt w p a k) :
    ∃ l, w.payRent rt p a k = .ok { w with lamports := l } := by
  unfold World.payRent
  refine ⟨_, bind_ok.2 ⟨(), require_ok.2 h, rfl⟩⟩

/-- An `init_if_needed` associated account succeeds. -/
theorem ensureAta_of {rt : Runtime} {w : World} (hb : BankInv w.bank) {p a o m : Addr} {tp : TokenProgram}
    {md : MintData} (hm : w.bank.mints m = some md) (hp : md.program = tp) (ha : a = .ata o tp m)
    (hu : AtaUsable rt w p a o tp m) :
    ∃ w₁, w.ensureAta rt p a o tp m = .ok w₁ := by
  subst ha
  unfold World.ensureAta
  rcases hu with ⟨t, ht, ho⟩ | ⟨hn, hf⟩
  · rw [ht]
    obtain ⟨h1, h2⟩ := ata_token hb ht
    refine ⟨w, bind_ok.2 ⟨(), require_ok.2 ⟨h2, ho⟩, bind_ok.2 ⟨(), require_ok.2 h1, bind_ok.2 ⟨(), require_ok.2 rfl, rfl⟩⟩⟩⟩
  · rw [hn]
    have hop : w.bank.openAccount (.ata o tp m) o m tp =
        .ok (w.bank.setToken (.ata o tp m) (some ⟨tp, m, o, 0, md.startsFrozen⟩)) := by
      unfold Bank.openAccount
      exact bind_ok.2 ⟨md, fetch_ok.2 hm, bind_ok.2 ⟨(), require_ok.2 hp,
        bind_ok.2 ⟨(), require_ok.2 ⟨hn, ata_not_mint hb _ _ _⟩, rfl⟩⟩⟩
    obtain ⟨l, hl⟩ := payRent_of (w := { w with bank := w.bank.setToken (.ata o tp m) (some ⟨tp, m, o, 0, md.startsFrozen⟩) })
      (rt := rt) (p := p) (a := .ata o tp m) (k := World.tokenSpace rt m tp) hf
    unfold World.createAta
    rw [hop]
    exact ⟨_, bind_ok.2 ⟨(), require_ok.2 rfl, bind_ok.2 ⟨_, rfl, hl⟩⟩⟩

theorem checkAta_of {b : Bank} (hb : BankInv b) {a o m : Addr} {tp : TokenProgram} {t : TokenData}
    (ha : a = .ata o tp m) (ht : b.tokens a = some t) (ho : t.owner = o) :
    b.checkAta a o tp m = .ok t := by
  subst ha
  exact checkAta_ok.2 ⟨ht, ho, rfl, (ata_token hb ht).1⟩

theorem WithdrawReady.accounts {rt : Runtime} {w : World} (hr : Reachable rt w) {c : WithdrawAccts} {s : Addr}
    {n : Nat} {sd : StreamData} {md : MintData} (h : WithdrawReady rt w c s n sd md) :
    ∃ w₁, withdrawAccounts rt w c = .ok (w₁, sd, md) := by
  have hb := hr.bankInv
  have hl : loadStream rt w (streamAddr s n) (.streamNftMint s n) = .ok sd := hr.load h.stream
  obtain ⟨tr, ht1, ht2, ht3⟩ := h.treasury
  obtain ⟨nt, hn1, hn2, hn3⟩ := h.nft
  obtain ⟨md', t, hv⟩ := hr.vaultsOK _ _ h.stream
  have hmm := hv.mint
  rw [h.mint] at hmm; cases hmm
  obtain ⟨w₁, hw₁⟩ := ensureAta_of (rt := rt) (w := w) (p := c.signer) (a := c.withdrawalRecipientAta)
    (o := c.withdrawalRecipient) (m := c.depositedTokenMint) (tp := c.depositedTokenProgram) (md := md) hb
    (by rw [h.a4]; exact h.mint) h.a5.symm (by rw [h.a4, h.a5]; exact h.a8) (by rw [h.a4, h.a5]; exact h.usable)
  refine ⟨w₁, ?_⟩
  unfold withdrawAccounts
  refine bind_ok.2 ⟨(), require_ok.2 h.signer, ?_⟩
  refine bind_ok.2 ⟨(), require_ok.2 ?_, ?_⟩
  · rcases h.dest with h1 | h1
    · exact .inl h1
    · by_cases h2 : c.withdrawalRecipient = c.streamRecipient
      · exact .inl h2
      · exact .inr ⟨h2, h1⟩
  refine bind_ok.2 ⟨tr, loadTreasury_ok.2 ⟨ht1, h.a1, ?_⟩, ?_⟩
  · rw [h.a1]; exact hr.lkTreasury_bump tr ht1
  refine bind_ok.2 ⟨sd, by rw [h.a2, h.a3]; exact hl, ?_⟩
  refine bind_ok.2 ⟨(), require_ok.2 h.a4, ?_⟩
  refine bind_ok.2 ⟨md, fetch_ok.2 (by rw [h.a4]; exact h.mint), ?_⟩
  refine bind_ok.2 ⟨nt, checkAta_of hb (by rw [h.a3]; exact h.a6) hn1 hn2, ?_⟩
  refine bind_ok.2 ⟨(), require_ok.2 hn3, ?_⟩
  refine bind_ok.2 ⟨t, checkAta_of hb (by rw [h.a2, h.a4, h.a5]; exact h.a7) (by rw [h.a7]; exact hv.vault)
    (by rw [h.a2]; exact hv.owner), ?_⟩
  refine bind_ok.2 ⟨(), require_ok.2 ht2, ?_⟩
  refine bind_ok.2 ⟨(), require_ok.2 ht3, ?_⟩
  exact bind_ok.2 ⟨w₁, hw₁, rfl⟩

theorem CancelReady.accounts {rt : Runtime} {w : World} (hr : Reachable rt w) {c : CancelAccts} {s : Addr}
    {n : Nat} {sd : StreamData} {md : MintData} (h : CancelReady rt w c s n sd md) :
    ∃ w₁, cancelAccounts rt w c = .ok (w₁, sd, md) := by
  have hb := hr.bankInv
  have hl : loadStream rt w (streamAddr s n) (.streamNftMint s n) = .ok sd := hr.load h.stream
  have hok := hr.streamOK h.stream
  obtain ⟨md', t, hv⟩ := hr.vaultsOK _ _ h.stream
  have hmm := hv.mint
  rw [h.mint] at hmm; cases hmm
  obtain ⟨w₁, hw₁⟩ := ensureAta_of (rt := rt) (w := w) (p := c.sender) (a := c.senderAta)
    (o := c.sender) (m := c.depositedTokenMint) (tp := c.depositedTokenProgram) (md := md) hb
    (by rw [h.a4]; exact h.mint) h.a5.symm (by rw [h.a4, h.a5]; exact h.a8) (by rw [h.a4, h.a5]; exact h.usable)
  refine ⟨w₁, ?_⟩
  unfold cancelAccounts
  refine bind_ok.2 ⟨(), require_ok.2 h.signer, ?_⟩
  refine bind_ok.2 ⟨sd, by rw [h.a2, h.a3]; exact hl, ?_⟩
  refine bind_ok.2 ⟨(), require_ok.2 ?_, ?_⟩
  · have := hok.addr
    unfold streamAddr at this
    injection this with this
    injection this with this
    rw [h.sender]; exact this
  refine bind_ok.2 ⟨(), require_ok.2 h.a4, ?_⟩
  refine bind_ok.2 ⟨md, fetch_ok.2 (by rw [h.a4]; exact h.mint), ?_⟩
  refine bind_ok.2 ⟨t, checkAta_of hb (by rw [h.a2, h.a4, h.a5]; exact h.a7) (by rw [h.a7]; exact hv.vault)
    (by rw [h.a2]; exact hv.owner), ?_⟩
  exact bind_ok.2 ⟨w₁, hw₁, rfl⟩

/-- A program-signed transfer out of a vault succeeds. -/
theorem transfer_of {b b₁ : Bank} (hb : BankInv b) {src dst auth owner mint : Addr} {tp : TokenProgram}
    {md : MintData} {t : TokenData} {amount : Nat}
    (hens : b.Ensure dst owner tp mint b₁)
    (hm : b.mints mint = some md) (hp : md.program = tp) (hf : md.feeConfig = none)
    (hs : src = .ata auth tp mint) (ht : b.tokens src = some t) (ho : t.owner = auth)
    (hblk : md.transferBlocked = false)
    (hfs : t.frozen = false) (hfd : ∀ t, b.tokens dst = some t → t.frozen = false)
    (hfo : b.tokens dst = none → md.startsFrozen = false)
    (ha : amount ≤ t.amount) :
    ∃ b₂, b₁.transferChecked src dst auth mint tp amount md.decimals = .ok b₂ := by
  have hts := hens.token ht
  have hmd : b₁.mints mint = some md := by rw [hens.mints]; exact hm
  obtain ⟨td, hd1, hd2, hd3, hd4, hd5⟩ := hens.dst
  have htk : t.program = tp ∧ t.mint = mint := by rw [hs] at ht; exact ata_token hb ht
  have hfd' : td.frozen = false := by
    rcases hens.2 with ⟨rfl, t', h1, _⟩ | ⟨h1, h2⟩
    · exact hfd _ hd1
    · obtain ⟨_, _, _, rfl⟩ := openAccount_ok h2
      rw [setToken_tokens, upd_same] at hd1
      cases hd1
      show b.opensFrozen mint = false
      rw [Bank.opensFrozen_some hm]; exact hfo h1
  have hfee : md.fee amount = 0 := by unfold MintData.fee; rw [hf]
  unfold Bank.transferChecked Bank.transferCore
  by_cases hsd : src = dst
  · refine ⟨b₁, ?_⟩
    refine bind_ok.2 ⟨t, fetch_ok.2 hts, bind_ok.2 ⟨md, fetch_ok.2 hmd, bind_ok.2 ⟨(), require_ok.2 ho,
      bind_ok.2 ⟨(), require_ok.2 rfl, bind_ok.2 ⟨t, fetch_ok.2 hts, bind_ok.2 ⟨td, fetch_ok.2 hd1,
      bind_ok.2 ⟨md, fetch_ok.2 hmd, bind_ok.2 ⟨(), require_ok.2 ⟨htk.1, hd4, hp⟩,
      bind_ok.2 ⟨(), require_ok.2 ⟨htk.2, hd2⟩, bind_ok.2 ⟨(), require_ok.2 ⟨hfs, hfd'⟩,
      bind_ok.2 ⟨(), require_ok.2 hblk, bind_ok.2 ⟨(), require_ok.2 ha, ?_⟩⟩⟩⟩⟩⟩⟩⟩⟩⟩⟩⟩
    rw [if_pos hsd]; rfl
  · have hsum : t.amount + td.amount < 2 ^ 64 := by
      obtain ⟨h1, h2⟩ := hb.supply mint md hm
      have h3 := h2.pair hsd
      rw [bal_of_token ht, if_pos htk.2] at h3
      have h4 : td.amount ≤ b.bal mint dst := by
        rw [hd5]
        unfold Bank.balance Bank.bal
        cases hbd : b.tokens dst with
        | none => simp
        | some t' =>
          have : t'.mint = mint := by
            have := hens.token hbd
            rw [hd1] at this; cases this; exact hd2
          simp [this]
      omega
    refine ⟨b₁.move src dst t td amount (md.fee amount), ?_⟩
    refine bind_ok.2 ⟨t, fetch_ok.2 hts, bind_ok.2 ⟨md, fetch_ok.2 hmd, bind_ok.2 ⟨(), require_ok.2 ho,
      bind_ok.2 ⟨(), require_ok.2 rfl, bind_ok.2 ⟨t, fetch_ok.2 hts, bind_ok.2 ⟨td, fetch_ok.2 hd1,
      bind_ok.2 ⟨md, fetch_ok.2 hmd, bind_ok.2 ⟨(), require_ok.2 ⟨htk.1, hd4, hp⟩,
      bind_ok.2 ⟨(), require_ok.2 ⟨htk.2, hd2⟩, bind_ok.2 ⟨(), require_ok.2 ⟨hfs, hfd'⟩,
      bind_ok.2 ⟨(), require_ok.2 hblk, bind_ok.2 ⟨(), require_ok.2 ha, ?_⟩⟩⟩⟩⟩⟩⟩⟩⟩⟩⟩⟩
    rw [if_neg hsd]
    exact bind_ok.2 ⟨(), require_ok.2 (by rw [hfee]; omega), rfl⟩

end Solsab
