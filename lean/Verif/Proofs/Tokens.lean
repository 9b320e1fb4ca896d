import Verif.Proofs.Lamports
/-!
# Token flows of the programs' instructions
-/

namespace Solsab

open Spec

/-- Effect on the holdings of `m` of one operation: mints other than `x` keep their record; the total is kept if the
token has no fee. -/
structure Kept (x : Option Addr) (b b' : Bank) : Prop where
  mints : ∀ m, x ≠ some m → b'.mints m = b.mints m
  total : ∀ m, x ≠ some m → (∀ md, b.mints m = some md → md.feeConfig = none) → SameTotal (b.bal m) (b'.bal m)

theorem Kept.refl {x : Option Addr} (b : Bank) : Kept x b b := ⟨fun _ _ => rfl, fun _ _ _ => .refl _⟩

theorem Kept.trans {x : Option Addr} {b₁ b₂ b₃ : Bank} (h : Kept x b₁ b₂) (h' : Kept x b₂ b₃) : Kept x b₁ b₃ :=
  ⟨fun m hm => (h'.mints m hm).trans (h.mints m hm), fun m hm hf => (h.total m hm hf).trans
    (h'.total m hm (by rw [h.mints m hm]; exact hf))⟩

theorem Kept.weaken {x : Option Addr} {b b' : Bank} (h : Kept none b b') : Kept x b b' :=
  ⟨fun m _ => h.mints m nofun, fun m _ hf => h.total m nofun hf⟩

theorem SameTotal.of_eq {l l' : Addr → Nat} (h : ∀ a, l' a = l a) : SameTotal l l' := ⟨∅, fun a _ => h a, rfl⟩

theorem openAccount_kept {b b' : Bank} {a o m : Addr} {tp : TokenProgram} (h : b.openAccount a o m tp = .ok b') :
    Kept none b b' := by
  obtain ⟨_, h1, _, rfl⟩ := openAccount_ok h
  refine ⟨fun _ _ => rfl, fun n _ _ => SameTotal.of_eq fun y => ?_⟩
  simp only [Bank.bal, Bank.setToken, upd_apply]
  by_cases hy : y = a
  · subst hy; rw [if_pos rfl, h1]; simp
  · rw [if_neg hy]

theorem ensure_kept {b b' : Bank} {a o m : Addr} {tp : TokenProgram} (h : b.Ensure a o tp m b') : Kept none b b' := by
  obtain ⟨_, ⟨rfl, _⟩ | ⟨_, h⟩⟩ := h
  · exact .refl _
  · exact openAccount_kept h

theorem openMint_kept {b b' : Bank} {a : Addr} {md : MintData} (h : b.openMint a md = .ok b') :
    Kept (some a) b b' := by
  obtain ⟨_, _, rfl⟩ := openMint_ok h
  refine ⟨fun m hm => ?_, fun _ _ _ => SameTotal.of_eq fun _ => rfl⟩
  exact upd_ne _ _ fun e => hm (by rw [e])

theorem mintTo_kept {b b' : Bank} {m d x : Addr} {tp : TokenProgram} {amt : Nat}
    (h : b.mintTo m d x tp amt = .ok b') : Kept (some m) b b' := by
  obtain ⟨md, tt, h1, h2, _, _, h3, _, _, _, rfl⟩ := mintTo_ok h
  refine ⟨fun n hm => upd_ne _ _ fun e => hm (by rw [e]), fun n hn _ => SameTotal.of_eq fun y => ?_⟩
  simp only [Bank.bal, Bank.setToken, Bank.setMint, upd_apply]
  by_cases hy : y = d
  · subst hy; rw [if_pos rfl, h2]
    have : m ≠ n := fun e => hn (by rw [e])
    simp [h3, this]
  · rw [if_neg hy]

theorem lock_kept {b : Bank} {m : Addr} {md : MintData} : Kept (some m) b (Lockup.lockAuthority b m md) :=
  ⟨fun _ hm => upd_ne _ _ fun e => hm (by rw [e]), fun _ _ _ => SameTotal.of_eq fun _ => rfl⟩

theorem transfer_kept {b b' : Bank} {s d x m : Addr} {tp : TokenProgram} {amt dec : Nat}
    (h : b.transferChecked s d x m tp amt dec = .ok b') : Kept none b b' := by
  obtain ⟨tf, tt, md, hf, _, _⟩ := transferChecked_ok h
  rcases hf.result with ⟨_, rfl⟩ | ⟨hne, _, rfl⟩
  · exact .refl _
  · refine ⟨fun _ _ => rfl, fun n _ hn => ?_⟩
    have e1 := hf.mints.1
    have e2 := hf.mints.2
    by_cases hm : n = m
    · subst hm
      have hz : md.fee amt = 0 := by unfold MintData.fee; rw [hn md hf.mint]
      have hle := hf.funds
      refine ⟨{s, d}, fun y hy => ?_, ?_⟩
      · simp only [Finset.mem_insert, Finset.mem_singleton, not_or] at hy
        simp only [Bank.bal, Bank.move, Bank.setToken, upd_ne _ _ hy.1, upd_ne _ _ hy.2]
      · rw [Finset.sum_pair hne, Finset.sum_pair hne]
        simp only [Bank.bal, Bank.move, Bank.setToken, upd_same, upd_ne _ _ hne, hf.src, hf.dst, e1, e2, hz, if_true]
        omega
    · refine SameTotal.of_eq fun y => ?_
      simp only [Bank.bal, Bank.move, Bank.setToken, upd_apply]
      have hm' : ¬ m = n := fun e => hm e.symm
      by_cases hd : y = d
      · subst hd; rw [if_pos rfl, hf.dst]; simp [e2, hm']
      · rw [if_neg hd]
        by_cases hs : y = s
        · subst hs; rw [if_pos rfl, hf.src]; simp [e1, hm']
        · rw [if_neg hs]

theorem step_kept {rt : Runtime} {w w' : World} {ix : Ix} {p : Addr} (hp : ix.payer = some p)
    (hs : step rt w ix = .ok w') : Kept (newNft ix) w.bank w'.bank := by
  have cr : ∀ {c : Lockup.CreateAccts} {q : Lockup.CreateParams}, Lockup.createWithTimestamps rt w c q = .ok w' →
      Kept (some (.streamNftMint c.sender q.salt)) w.bank w'.bank := by
    intro c q h
    obtain ⟨nd, dm, md, cm, k, name, b₁, b₂, b₃, b₄, b₆, l, h⟩ := Lockup.create_ok h
    rw [h.result, ← h.nftMintAddr]
    exact ((((openMint_kept h.openMint).trans (openAccount_kept h.openNftAta).weaken).trans
      (openAccount_kept h.openVault).weaken).trans (mintTo_kept h.mintTo)).trans
      (lock_kept.trans (transfer_kept h.transfer).weaken)
  have wd : ∀ {c : Lockup.WithdrawAccts} {a}, Lockup.withdraw rt w c a = .ok w' → Kept none w.bank w'.bank := by
    intro c a h
    obtain ⟨_, _, _, _, _, _, h⟩ := Lockup.withdraw_ok h
    rw [h.result]
    exact (ensure_kept h.accts.ensure).trans (transfer_kept h.transfer)
  cases ix with
  | env i => cases hp
  | lockup i =>
    cases i with
    | «initialize» c f o s =>
      obtain ⟨_, _, _, _, _, h⟩ := Lockup.initializeProgram_ok hs
      rw [h.result]
      exact (((openMint_kept h.openMint).trans (openAccount_kept h.openAta).weaken).trans
        (mintTo_kept h.mintTo)).trans lock_kept
    | createWithTimestamps c salt dep st cl en su cu ca => exact cr hs
    | createWithDurations c salt dep cd td su cu ca =>
      obtain ⟨h1, h2, h⟩ := Lockup.createWithDurations_eq hs
      exact cr h
    | withdraw c a => exact wd hs
    | withdrawMax c =>
      obtain ⟨_, _, _, _, h⟩ := Lockup.withdrawMax_ok hs
      exact wd h
    | cancel c =>
      obtain ⟨_, _, _, _, _, _, h⟩ := Lockup.cancel_ok hs
      rw [h.result]
      exact (ensure_kept h.accts.ensure).trans (transfer_kept h.transfer)
    | renounce c =>
      obtain ⟨_, _, h⟩ := Lockup.renounce_ok hs
      rw [h.result]; exact .refl _
    | collectFees c =>
      obtain ⟨_, _, _, h⟩ := Lockup.collectFees_ok hs
      rw [h.result]; exact .refl _
  | merkle i =>
    cases i with
    | «initialize» c f o s =>
      obtain ⟨_, _, _, _, _, h⟩ := Merkle.initializeProgram_ok hs
      rw [h]; exact .refl _
    | createCampaign c root st ex name cid agg cnt =>
      obtain ⟨_, _, _, h⟩ := Merkle.createCampaign_ok hs
      rw [h.result]; exact openAccount_kept h.openVault
    | claim c i a proof =>
      obtain ⟨_, _, _, _, _, h⟩ := Merkle.claim_ok hs
      rw [h.result]
      exact (ensure_kept h.accts.ensure).trans (transfer_kept h.transfer)
    | clawback c a =>
      obtain ⟨_, _, _, _, _, h⟩ := Merkle.clawback_ok hs
      rw [h.result]
      exact (ensure_kept h.accts.ensure).trans (transfer_kept h.transfer)
    | collectFees c =>
      obtain ⟨_, _, _, h⟩ := Merkle.collectFees_ok hs
      rw [h.result]; exact .refl _

end Solsab
