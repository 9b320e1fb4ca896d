import Verif.Props.Create
import Verif.Props.Cancel
import Verif.Props.Campaign
import Verif.Spec.Settings
/-!
# C96: memo requirements and CPI guards

The owner of a Token-2022 account may make memos compulsory for incoming transfers, and may forbid programs to move its
tokens.  The two programs attach no memo and are programs.
-/

namespace Solsab

namespace Lockup

theorem create_unlocked {rt : Runtime} {w w' : World} {c : CreateAccts} {p : CreateParams}
    (h : createWithTimestamps rt w c p = .ok w') : w.Unlocked c.creatorAta c.streamDataAta := by
  simp only [createWithTimestamps, nftCreateStream, NftCollectionData.create, bind_ok, require_ok, fetch_ok,
    pure_ok, checkAta_ok, addU64_ok] at h
  obtain ⟨_, hs, ta, ⟨t1, t2, t3, t4⟩, _, h1, nd, h2, _, h3, _, h4, _, _, dm, h5, _, h6, _, h7, b₁, hb₁, w₁,
    hw₁, w₂, hw₂, _, h8, _, h9, w₃, hw₃, w₄, hw₄, _, hck, w₅, ⟨name, hname, b₄, hb₄, w₆, hw₆, hw₇⟩, nd',
    ⟨_, ⟨hcnt, rfl⟩, rfl⟩, w₈, hw₈, rfl⟩ := h
  obtain ⟨l₁, e1, hl₁⟩ := payRent_ok hw₁
  obtain ⟨b₂, l₂, ha₂, hb₂, hl₂, e2⟩ := createAta_ok hw₂
  obtain ⟨l₃, e3, hl₃⟩ := payRent_ok hw₃
  obtain ⟨b₃, l₄, ha₄, hb₃, hl₄, e4⟩ := createAta_ok hw₄
  obtain ⟨hm, _, md, hmd, _, _, _, l₅, _, hl₅, e5⟩ := metaplexCreate_ok hw₆
  obtain ⟨im, cm, k, him, hcm, hk, e6⟩ := metaplexVerifyItem_ok hw₇
  refine (transferTokens_iff.1 hw₈).1.of_eq ?_
  rw [e6, e5, e4, e3, e2, e1]

end Lockup

namespace Merkle

theorem claim_unlocked {rt : Runtime} {w w' : World} {c : ClaimAccts} {index amount : Nat} {proof : List Bytes32}
    (h : claim rt w c index amount proof = .ok w') : w.Unlocked c.campaignAta c.recipientAta := by
  simp only [claim, bind_ok] at h
  obtain ⟨⟨w₁, cd, dm⟩, ha, hh⟩ := h
  obtain ⟨b₁, l, hacc, hl, e⟩ := claimAccounts_ok ha
  simp only [claimHandler, bind_ok, checkClaim_ok, CLAIM_FEE_USD, chargeFee_zero, ok_inj, pure_ok, campaignTransfer,
    require_ok] at hh
  obtain ⟨_, ⟨h1, h2, h3⟩, p, rfl, w₂, ⟨_, _, hw₂⟩, rfl⟩ := hh
  refine (transferTokens_iff.1 hw₂).1.of_eq ?_
  rw [e]

theorem clawback_unlocked {rt : Runtime} {w w' : World} {c : ClawbackAccts} {amount : Nat}
    (h : clawback rt w c amount = .ok w') : w.Unlocked c.campaignAta c.clawbackRecipientAta := by
  simp only [clawback, clawbackAccounts, clawbackHandler, bind_ok, require_ok, fetch_ok, pure_ok,
    checkAta_ok, campaignTransfer] at h
  obtain ⟨⟨w₁, cd, dm⟩, ⟨_, hs, cd', hcd, _, hcr, _, hm, dm', hdm, v, ⟨v1, v2, v3, v4⟩, w₂, he, heq⟩, _, hck,
    w₃, ⟨_, _, hw₃⟩, rfl⟩ := h
  cases heq
  obtain ⟨b, l, hb, hl, e⟩ := ensureAta_ok he
  refine (transferTokens_iff.1 hw₃).1.of_eq ?_
  rw [e]

end Merkle

end Solsab

namespace Solsab.Props

open Spec Demo Lockup

/-- **C96**: the settings of an existing token account change only when its owner, who signs, changes them (and then
the account is one of Token-2022), or closes the account, and they disappear with it. -/
theorem C96_only_by_owner {rt : Runtime} {w w' : World} {ix : Ix} (h : step rt w ix = .ok w') {a : Addr}
    (hne : w'.settings a ≠ w.settings a) :
    ∃ t, w.bank.tokens a = some t ∧ signerOf ix = some t.owner ∧ t.owner.canSign = true ∧
      ((ix = .env (.changeSettings a t.owner (w'.settings a)) ∧ t.program = .token2022) ∨
       (w'.bank.tokens a = none ∧ w'.settings a = .off)) := by
  cases step_settings h with
  | same e _ => exact absurd (by rw [e]) hne
  | change x t s hi ht ho hp e _ =>
    rw [e, upd_apply] at hne
    split at hne
    · rename_i hx; subst hx
      exact ⟨t, ht, by rw [hi]; rfl, ho, .inl ⟨by rw [hi, e, upd_same], hp⟩⟩
    · exact absurd rfl hne
  | close x t ht hi ho hc e _ =>
    rw [e, upd_apply] at hne
    split at hne
    · rename_i hx; subst hx
      exact ⟨t, ht, hi, ho, .inr ⟨hc, by rw [e, upd_same]⟩⟩
    · exact absurd rfl hne

/-- **C96**: the programs themselves never change them. -/
theorem C96_programs_leave_them {rt : Runtime} {w w' : World} {ix : Ix} (hix : isSablier ix = true)
    (h : step rt w ix = .ok w') : w'.settings = w.settings := (step_did h).settings hix

/-- **C96**: what can have settings in a reachable state: only token accounts of Token-2022 that exist, and of the
associated token accounts only those of addresses with a private key.  So never a vault, never an account of the classic
token program, never an account still to be opened. -/
theorem C96_where {rt : Runtime} {w : World} (hr : Reachable rt w) :
    (∀ a, w.bank.tokens a = none → w.settings a = .off) ∧
    (∀ a t, w.bank.tokens a = some t → t.program = .token → w.settings a = .off) ∧
    (∀ o m, w.settings (.ata o .token m) = .off) ∧
    (∀ o tp m, o.canSign = false → w.settings (.ata o tp m) = .off) ∧
    (∀ s n tp m, w.settings (.ata (streamAddr s n) tp m) = .off) ∧
    (∀ x cd tp m, w.mi.campaigns x = some cd → w.settings (.ata x tp m) = .off) :=
  ⟨fun _ h => hr.noSettings h, fun a t => hr.classicSettings, fun o m => hr.classicAtaSettings o m, fun o tp m h => hr.vaultSettings h tp m,
    fun s n tp m => hr.vaultSettings rfl tp m,
    fun x cd tp m h => hr.vaultSettings (by rw [(hr.campaignOK h).addr]; rfl) tp m⟩

/-- **C96**: an instruction that pays into an account with a memo requirement, or out of a guarded account, fails. -/
theorem C96_refused {rt : Runtime} {w w' : World} {ix : Ix} (h : step rt w ix = .ok w') :
    (∀ d, paysInto ix = some d → (w.settings d).memoRequired = false) ∧
    (∀ s, paysFrom ix = some s → (w.settings s).cpiGuard = false) := by
  cases ix with
  | env i => exact ⟨nofun, nofun⟩
  | lockup i =>
    cases i with
    | createWithTimestamps c salt dep st cl en su cu ca =>
      have hu := create_unlocked (h : createWithTimestamps rt w c _ = _)
      exact ⟨fun _ e => by cases e; exact hu.2, fun _ e => by cases e; exact hu.1⟩
    | createWithDurations c salt dep cd td su cu ca =>
      have hu := create_unlocked (createWithDurations_eq (h : createWithDurations rt w c _ = _)).2.2
      exact ⟨fun _ e => by cases e; exact hu.2, fun _ e => by cases e; exact hu.1⟩
    | withdraw c a =>
      have hu := withdraw_unlocked (h : withdraw rt w c _ = _)
      exact ⟨fun _ e => by cases e; exact hu.2, fun _ e => by cases e; exact hu.1⟩
    | withdrawMax c =>
      obtain ⟨_, _, _, _, h'⟩ := withdrawMax_ok (h : withdrawMax rt w c = _)
      have hu := withdraw_unlocked h'
      exact ⟨fun _ e => by cases e; exact hu.2, fun _ e => by cases e; exact hu.1⟩
    | cancel c =>
      have hu := cancel_unlocked (h : cancel rt w c = _)
      exact ⟨fun _ e => by cases e; exact hu.2, fun _ e => by cases e; exact hu.1⟩
    | _ => exact ⟨nofun, nofun⟩
  | merkle i =>
    cases i with
    | claim c i a p =>
      have hu := Merkle.claim_unlocked (h : Merkle.claim rt w c _ _ _ = _)
      exact ⟨fun _ e => by cases e; exact hu.2, fun _ e => by cases e; exact hu.1⟩
    | clawback c a =>
      have hu := Merkle.clawback_unlocked (h : Merkle.clawback rt w c _ = _)
      exact ⟨fun _ e => by cases e; exact hu.2, fun _ e => by cases e; exact hu.1⟩
    | _ => exact ⟨nofun, nofun⟩

/-- **C96**: but nothing is lost.  The owner of the account can switch both settings off again at any time, … -/
theorem C96_reversible {rt : Runtime} {w : World} {a : Addr} {t : TokenData} (ht : w.bank.tokens a = some t)
    (hs : t.owner.canSign = true) (hp : t.program = .token2022) :
    ∃ w', step rt w (.env (.changeSettings a t.owner .off)) = .ok w' ∧ w'.settings a = .off ∧
      w'.bank = w.bank ∧ w'.lk = w.lk ∧ w'.mi = w.mi ∧ w'.now = w.now ∧ w'.log = w.log := by
  refine ⟨{ w with settings := upd w.settings a .off }, ?_, upd_same _ _ _, rfl, rfl, rfl, rfl, rfl⟩
  simp only [step, EnvIx.run, bind_ok, require_ok, fetch_ok, pure_ok]
  exact ⟨t, ht, (), ⟨rfl, hs⟩, (), hp, trivial⟩

/-- **C96**: … and meanwhile the holder of a stream can have it paid into an account that does not exist yet: no setting of
anybody can be in the way. -/
theorem C96_elsewhere {rt : Runtime} {w : World} (hr : Reachable rt w) {c : WithdrawAccts} {s : Addr}
    {n : Nat} {sd : StreamData} {md : MintData} (hc : WithdrawReady rt w c s n sd md) (hp : md.Plain)
    (hb : md.transferBlocked = false) (hsf : md.startsFrozen = false) (hv : ∀ t, w.bank.tokens c.streamDataAta = some t → t.frozen = false)
    (hnew : w.bank.tokens c.withdrawalRecipientAta = none) {x : Nat}
    (hx : withdrawableAmountOf rt w (viewOf s n) = .ok x) {amount : UInt64} (h0 : 0 < amount.toNat)
    (hle : amount.toNat ≤ x) :
    ∃ w', step rt w (.lockup (.withdraw c amount)) = .ok w' :=
  C12_withdraw_succeeds hr hc hp
    ⟨hb, hv, fun t h => (by rw [hnew] at h; cases h), fun _ => hsf, by rw [hr.noSettings hnew]; rfl⟩ hx h0 hle

/-! ### Examples: a plain Token-2022 token -/

def token22 : Addr := .key 9
def ata22 (o : Addr) : Addr := .ata o .token2022 token22

def createAccts22 : CreateAccts :=
  { createAccts 5 with
    creatorAta := ata22 alice, depositTokenMint := token22, streamDataAta := ata22 (str 5),
    depositTokenProgram := .token2022 }
def ixCreate22 : Ix := .lockup (.createWithTimestamps createAccts22 5 1000 2000 0 6000 0 0 true)

def withdrawAccts22 : WithdrawAccts :=
  { withdrawAccts bob 5 with
    withdrawalRecipientAta := ata22 bob, depositedTokenMint := token22, streamDataAta := ata22 (str 5),
    depositedTokenProgram := .token2022 }

/-- Alice has 10000 of the token. -/
def worldS0 : World := after world1
  [ .env (.createMint 9 { feeMintData with feeConfig := none }),
    .env (.createAta alice (ata22 alice) alice .token2022 token22),
    .env (.mintTo token22 (ata22 alice) alice .token2022 10000) ]
/-- She guards her account against programs. -/
def worldS0g : World := after worldS0 [.env (.changeSettings (ata22 alice) alice ⟨false, true⟩)]
/-- Without the guard, she has opened stream 5, it has ended, and bob's account exists. -/
def worldS1 : World := after worldS0
  [ ixCreate22, .env (.tick 6000), .env (.createAta bob (ata22 bob) bob .token2022 token22) ]
/-- Bob makes memos compulsory. -/
def ixMemo : Ix := .env (.changeSettings (ata22 bob) bob ⟨true, false⟩)
def worldS2 : World := after worldS1 [ixMemo]

theorem reachS0 : Reachable rt worldS0 := reach1.steps (steps_after (by decide +kernel))
theorem reachS1 : Reachable rt worldS1 := reachS0.steps (steps_after (by decide +kernel))
theorem reachS2 : Reachable rt worldS2 := reachS1.steps (steps_after (by decide +kernel))

example := C96_only_by_owner (rt := rt) (w := worldS1) (ix := ixMemo) (step_after (by decide +kernel)) (a := ata22 bob)
  (by decide +kernel)
example := C96_where reachS2
example : worldS2.settings (ata22 bob) ≠ .off := by decide +kernel
example := C96_programs_leave_them (rt := rt) (w := worldS0) (ix := ixCreate22) rfl (step_after (by decide +kernel))

-- Bob is paid before he makes memos compulsory, and not after; alice cannot open a stream from the guarded account.
example : (step rt worldS1 (.lockup (.withdraw withdrawAccts22 1000))).isOk = true := by decide +kernel
example : (step rt worldS2 (.lockup (.withdraw withdrawAccts22 1000))).isOk = false := by decide +kernel
example : (step rt worldS0g ixCreate22).isOk = false := by decide +kernel
example := C96_refused (rt := rt) (w := worldS1) (ix := .lockup (.withdraw withdrawAccts22 1000)) (step_after (by decide +kernel))

example := C96_reversible (rt := rt) (w := worldS2) (a := ata22 bob) (t := ⟨.token2022, token22, bob, 0, false⟩)
  (by decide +kernel) rfl rfl

def elsewhere : WithdrawAccts :=
  { withdrawAccts22 with withdrawalRecipient := carol, withdrawalRecipientAta := ata22 carol }

/-- Bob, whose account requires memos, is paid into a new account of carol. -/
theorem demo_elsewhere : WithdrawReady rt worldS2 elsewhere alice 5
    ⟨⟨0, 0, 1000, 0, 0⟩, token22, 255, 5, true, false, ⟨0, 6000, 2000⟩, alice, false⟩
    { feeMintData with feeConfig := none, supply := 10000 } := by
  constructor
  case nft => exact ⟨⟨tok, nft 5, bob, 1, false⟩, by decide +kernel⟩
  case usable => exact .inr ⟨by decide +kernel, by unfold CanFund; decide +kernel⟩
  case treasury => exact ⟨⟨255, collector, oracleProgram, feed⟩, by decide +kernel⟩
  all_goals decide +kernel

example := C96_elsewhere (c := elsewhere) reachS2 demo_elsewhere (by decide) rfl rfl
  (fun t h => by
    have : worldS2.bank.tokens elsewhere.streamDataAta =
        some ⟨.token2022, token22, str 5, 1000, false⟩ := by decide +kernel
    rw [this] at h; cases h; rfl)
  (by decide +kernel) (x := 1000)
  (show withdrawableAmountOf rt worldS2 (viewOf alice 5) = .ok 1000 by
    have h := (reachS2.viewsOf (s := alice) (n := 5) demo_elsewhere.stream).withdrawable
    rw [h]; exact congrArg Except.ok (by decide +kernel))
  (amount := 400) (by decide) (by decide)

end Solsab.Props
