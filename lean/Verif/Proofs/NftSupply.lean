import Verif.Proofs.ConfigInv
/-!
# The supply of a stream NFT never grows after creation
-/

namespace Solsab

open Spec Lockup

/-- The mint at `a`, if present, stays and its supply does not grow. -/
def SupplyKept (a : Addr) (b b' : Bank) : Prop :=
  ∀ md, b.mints a = some md → ∃ md', b'.mints a = some md' ∧ md'.supply ≤ md.supply

theorem SupplyKept.of_eq {a : Addr} {b b' : Bank} (h : b'.mints = b.mints) : SupplyKept a b b' := by
  intro md hm; exact ⟨md, by rw [h]; exact hm, Nat.le_refl _⟩

theorem SupplyKept.upd {a m : Addr} {b b' : Bank} {md md' : MintData} (hm : b.mints m = some md)
    (h : b'.mints = upd b.mints m (some md')) (hs : a = m → md'.supply ≤ md.supply) : SupplyKept a b b' := by
  intro x hx
  by_cases he : a = m
  · subst he
    rw [hm] at hx; cases hx
    exact ⟨md', by rw [h]; simp, hs rfl⟩
  · exact ⟨x, by rw [h, upd_ne _ _ he]; exact hx, Nat.le_refl _⟩

theorem SupplyKept.fresh {a m : Addr} {b b' : Bank} {md' : MintData} (hm : b.mints m = none)
    (h : b'.mints = Solsab.upd b.mints m (some md')) : SupplyKept a b b' := by
  intro x hx
  have he : a ≠ m := by intro he; rw [he, hm] at hx; cases hx
  exact ⟨x, by rw [h, upd_ne _ _ he]; exact hx, Nat.le_refl _⟩

theorem burn_kept {a : Addr} {b b' : Bank} {s : Addr} {amt : Nat} (h : b.burn s amt = .ok b') : SupplyKept a b b' := by
  obtain ⟨_, _, _, h1, _, _, rfl⟩ := burn_ok h
  exact .upd h1 rfl (fun _ => Nat.sub_le _ _)

theorem env_supply {rt : Runtime} {w w' : World} {i : EnvIx} (hb : BankInv w.bank) (h : i.run rt w = .ok w') {a : Addr}
    (hn : a.isNftMint = true) : SupplyKept a w.bank w'.bank := by
  cases i with
  | tick t =>
    simp only [EnvIx.run, bind_ok, require_ok, pure_ok] at h
    obtain ⟨_, _, rfl⟩ := h; exact .of_eq rfl
  | setOracle p f d => simp only [EnvIx.run, pure_ok] at h; subst h; exact .of_eq rfl
  | setWallet n amount => simp only [EnvIx.run, pure_ok] at h; subst h; exact .of_eq rfl
  | sendLamports src dst amount =>
    simp only [EnvIx.run, World.systemTransfer, bind_ok, require_ok, pure_ok] at h
    obtain ⟨_, h1, _, _, rfl⟩ := h; exact .of_eq rfl
  | createMint n md =>
    simp only [EnvIx.run, bind_ok, require_ok, pure_ok] at h
    obtain ⟨_, h1, b, h2, rfl⟩ := h
    obtain ⟨h3, _, rfl⟩ := openMint_ok h2
    exact .fresh h3 rfl
  | setFee m f =>
    simp only [EnvIx.run, bind_ok, require_ok, fetch_ok, pure_ok] at h
    obtain ⟨md, h1, _, h2, rfl⟩ := h; exact .upd h1 rfl (fun _ => Nat.le_refl _)
  | setBlocked n x y =>
    simp only [EnvIx.run, bind_ok, require_ok, fetch_ok, pure_ok] at h
    obtain ⟨md, h1, _, _, rfl⟩ := h; exact .upd h1 rfl (fun _ => Nat.le_refl _)
  | setMintAuthority m s x =>
    simp only [EnvIx.run, bind_ok, require_ok, fetch_ok, pure_ok] at h
    obtain ⟨md, h1, _, ⟨h2, h3⟩, rfl⟩ := h; exact .upd h1 rfl (fun _ => Nat.le_refl _)
  | setFreezeAuthority m s x =>
    simp only [EnvIx.run, bind_ok, require_ok, fetch_ok, pure_ok] at h
    obtain ⟨md, h1, _, ⟨h2, h3⟩, rfl⟩ := h; exact .upd h1 rfl (fun _ => Nat.le_refl _)
  | mintTo m d x tp amt =>
    simp only [EnvIx.run, bind_ok, require_ok, pure_ok] at h
    obtain ⟨_, h1, b, h2, rfl⟩ := h
    obtain ⟨md, _, h3, _, _, _, _, _, h4, _, rfl⟩ := mintTo_ok h2
    refine .upd h3 rfl (fun he => ?_)
    subst he
    obtain ⟨_, _, ⟨y, hy, hs⟩, _⟩ := hb.nft _ _ hn h3
    rw [h4] at hy; cases hy
    rw [h1] at hs; cases hs
  | transfer s d x m tp amt dec =>
    simp only [EnvIx.run, bind_ok, require_ok, pure_ok] at h
    obtain ⟨_, h1, b, h2, rfl⟩ := h
    exact .of_eq (transferChecked_mints h2)
  | delegateTransfer s d x m tp amt =>
    simp only [EnvIx.run, bind_ok, require_ok, fetch_ok, pure_ok] at h
    obtain ⟨md, h1, _, ⟨h2, _⟩, b, h3, rfl⟩ := h
    exact .of_eq (transferCore_mints h3)
  | burn s o amt =>
    simp only [EnvIx.run, bind_ok, require_ok, fetch_ok, pure_ok] at h
    obtain ⟨t, h1, _, ⟨h2, h3⟩, b, h4, rfl⟩ := h; exact burn_kept h4
  | delegateBurn s x amt =>
    simp only [EnvIx.run, bind_ok, require_ok, fetch_ok, pure_ok] at h
    obtain ⟨t, h1, md, h2, _, ⟨h3, _⟩, b, h4, rfl⟩ := h; exact burn_kept h4
  | approve a' o d k =>
    simp only [EnvIx.run, bind_ok, require_ok, fetch_ok, pure_ok] at h
    obtain ⟨t, h1, _, h2, _, h3, rfl⟩ := h; exact .of_eq rfl
  | changeSettings a' x s =>
    simp only [EnvIx.run, bind_ok, require_ok, fetch_ok, pure_ok] at h
    obtain ⟨t, h1, _, h2, _, h3, rfl⟩ := h; exact .of_eq rfl
  | revoke a' x =>
    simp only [EnvIx.run, bind_ok, require_ok, fetch_ok, pure_ok] at h
    obtain ⟨t, h1, _, h2, rfl⟩ := h; exact .of_eq rfl
  | approvedTransfer s d x m tp amt dec =>
    simp only [EnvIx.run, bind_ok, require_ok, fetch_ok, pure_ok] at h
    obtain ⟨t, h1, ap, h2, _, h3, _, h6, b, h7, rfl⟩ := h
    exact .of_eq (transferChecked_mints h7)
  | approvedBurn s x amt =>
    simp only [EnvIx.run, bind_ok, require_ok, fetch_ok, pure_ok] at h
    obtain ⟨t, h1, ap, h2, _, h3, _, h6, b, h7, rfl⟩ := h; exact burn_kept h7
  | metaplexFreeze a' x f =>
    simp only [EnvIx.run, bind_ok, require_ok, fetch_ok, pure_ok] at h
    obtain ⟨t, h1, md, h2, ap, h3, _, h4, _, h5, rfl⟩ := h; exact .of_eq rfl
  | metaplexBurn acc o m =>
    simp only [EnvIx.run, bind_ok, require_ok, fetch_ok, pure_ok] at h
    obtain ⟨t, h1, _, ⟨h2, h3⟩, _, ⟨h4, h5⟩, md, h6, _, _, b, h7, rfl⟩ := h
    have h8 : SupplyKept a w.bank b := burn_kept h7
    exact h8
  | metaplexCreate | metaplexUpdate | metaplexSign | metaplexVerify | metaplexUnverify =>
    obtain ⟨m, rfl, _⟩ := metaStep_ok rfl h
    exact .of_eq rfl
  | createAta payer addr owner tp mint =>
    simp only [EnvIx.run, bind_ok, require_ok] at h
    obtain ⟨_, h1, h2⟩ := h
    obtain ⟨b, l, rfl, hb, hl, rfl⟩ := createAta_ok h2
    exact .of_eq (openAccount_mints hb)
  | createTokenAccount n o m tp =>
    simp only [EnvIx.run, bind_ok, pure_ok] at h
    obtain ⟨b, h1, rfl⟩ := h
    exact .of_eq (openAccount_mints h1)
  | setOwner a' o o' =>
    simp only [EnvIx.run, bind_ok, require_ok, fetch_ok, pure_ok] at h
    obtain ⟨t, h1, _, ⟨h2, h3⟩, _, _, rfl⟩ := h; exact .of_eq rfl
  | closeToken a' o d =>
    simp only [EnvIx.run, bind_ok, require_ok, fetch_ok, pure_ok] at h
    obtain ⟨t, h1, _, ⟨h2, h3⟩, _, h4, rfl⟩ := h; exact .of_eq rfl
  | setFrozen a' x f =>
    simp only [EnvIx.run, bind_ok, require_ok, fetch_ok, pure_ok] at h
    obtain ⟨t, h1, md, h2, _, ⟨h3, h4⟩, rfl⟩ := h; exact .of_eq rfl

theorem mintTo_other {b b' : Bank} {m d x a : Addr} {tp amt} (h : b.mintTo m d x tp amt = .ok b') (ha : a ≠ m) :
    b'.mints a = b.mints a := by
  obtain ⟨_, _, h1, _, _, _, _, _, _, _, rfl⟩ := mintTo_ok h
  exact upd_ne _ _ ha

theorem Did.nft_supply {rt : Runtime} {w w' : World} {ix : Ix} (hr : Reachable rt w) (h : Did rt w ix w') {s : Addr}
    {n : Nat} : SupplyKept (.streamNftMint s n) w.bank w'.bank := by
  cases h with
  | @init c f p sw md b₁ b₂ b₃ l _ h =>
    intro x hx
    refine ⟨x, ?_, Nat.le_refl _⟩
    rw [h.result]
    obtain ⟨_, _, r1⟩ := openMint_ok h.openMint
    have e2 := openAccount_mints h.openAta
    show (lockAuthority b₃ .nftCollectionMint md).mints _ = _
    rw [lockAuthority, setMint_mints, upd_ne _ _ (by simp), mintTo_other h.mintTo (by simp), e2, r1, setMint_mints,
      upd_ne _ _ (by simp)]
    exact hx
  | @create c p nd dm md cm k name b₁ b₂ b₃ b₄ b₆ l _ _ h =>
    intro x hx
    refine ⟨x, ?_, Nat.le_refl _⟩
    obtain ⟨h0, _, r1⟩ := openMint_ok h.openMint
    have he : Addr.streamNftMint s n ≠ c.streamNftMint := by
      intro he; rw [← he, hx] at h0; cases h0
    have e2 := openAccount_mints h.openNftAta
    have e3 := openAccount_mints h.openVault
    rw [h.result]
    show b₆.mints _ = _
    rw [transferChecked_mints h.transfer]
    show upd b₄.mints _ _ _ = _
    rw [upd_ne _ _ he, mintTo_other h.mintTo he, e3, e2, r1, setMint_mints, upd_ne _ _ he]
    exact hx
  | withdraw _ h => exact .of_eq h.payout.mints_eq
  | cancel _ h => exact .of_eq h.payout.mints_eq
  | renounce _ h => rw [h.result]; exact .of_eq rfl
  | collect _ _ h => rw [h.result]; exact .of_eq rfl
  | miInit _ _ _ _ h => rw [h]; exact .of_eq rfl
  | campaign _ _ h => rw [h.result]; exact .of_eq (openAccount_mints h.openVault)
  | claim _ h => exact .of_eq h.payout.mints_eq
  | clawback _ h => exact .of_eq h.payout.mints_eq
  | miCollect _ _ h => rw [h.result]; exact .of_eq rfl
  | env i _ h => exact env_supply hr.bankInv h rfl

theorem Steps.nft_supply {rt : Runtime} {w w' : World} (hr : Reachable rt w) (hs : Steps rt w w') {s : Addr}
    {n : Nat} : SupplyKept (.streamNftMint s n) w.bank w'.bank := by
  induction hs with
  | refl => exact .of_eq rfl
  | tail ix h1 h2 ih =>
    intro md hm
    obtain ⟨m1, e1, l1⟩ := ih md hm
    obtain ⟨m2, e2, l2⟩ := (step_did h2).nft_supply (hr.steps h1) (s := s) (n := n) m1 e1
    exact ⟨m2, e2, Nat.le_trans l2 l1⟩

end Solsab
