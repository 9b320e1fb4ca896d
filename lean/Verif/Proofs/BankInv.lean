import Verif.Proofs.Inv
import Mathlib.Algebra.BigOperators.Group.Finset.Basic
import Mathlib.Algebra.Order.BigOperators.Group.Finset
import Mathlib.Tactic.Ring
/-!
# Token-ledger invariants

`BSafe b b'`: one operation on the token ledger other than a program-signed transfer out of a vault.
`BankInv`: facts true of every reachable ledger.
-/

namespace Solsab

/-- Mints created by the lockup program. -/
def Addr.isNftMint : Addr → Bool
  | .nftCollectionMint => true
  | .streamNftMint _ _ => true
  | _ => false

/-- Amount of mint `m` in account `a`. -/
def Bank.bal (b : Bank) (m a : Addr) : Nat :=
  match b.tokens a with
  | some t => if t.mint = m then t.amount else 0
  | none => 0

/-- Every finite sum of values of `f` is at most `S`. -/
def SumLe (f : Addr → Nat) (S : Nat) : Prop := ∀ s : Finset Addr, s.sum f ≤ S

theorem SumLe.mono {f f' : Addr → Nat} {S : Nat} (h : SumLe f S) (hf : ∀ a, f' a ≤ f a) : SumLe f' S :=
  fun s => Nat.le_trans (Finset.sum_le_sum (fun a _ => hf a)) (h s)

theorem SumLe.single {f : Addr → Nat} {S : Nat} (h : SumLe f S) (a : Addr) : f a ≤ S := by
  simpa using h {a}

theorem SumLe.pair {f : Addr → Nat} {S : Nat} (h : SumLe f S) {a a' : Addr} (hne : a ≠ a') :
    f a + f a' ≤ S := by
  have := h {a, a'}
  rwa [Finset.sum_pair hne] at this

theorem SumLe.add {f f' : Addr → Nat} {S d : Nat} {k : Addr} (h : SumLe f S)
    (hf : ∀ a, a ≠ k → f' a = f a) (hk : f' k ≤ f k + d) : SumLe f' (S + d) := by
  intro s
  have h1 : s.sum f' ≤ (insert k (s.erase k)).sum f' :=
    Finset.sum_le_sum_of_subset (by
      intro x hx
      by_cases hxk : x = k
      · simp [hxk]
      · simp [hxk, hx])
  have h2 := h (insert k (s.erase k))
  rw [Finset.sum_insert (by simp)] at h1 h2
  have h3 : ∑ x ∈ s.erase k, f' x = ∑ x ∈ s.erase k, f x :=
    Finset.sum_congr rfl (fun a ha => hf a (Finset.ne_of_mem_erase ha))
  omega

theorem SumLe.sub {f f' : Addr → Nat} {S d : Nat} {k : Addr} (h : SumLe f S)
    (hf : ∀ a, a ≠ k → f' a = f a) (hk : f' k + d ≤ f k) : SumLe f' (S - d) := by
  intro s
  have h1 : s.sum f' ≤ (insert k (s.erase k)).sum f' :=
    Finset.sum_le_sum_of_subset (by
      intro x hx
      by_cases hxk : x = k
      · simp [hxk]
      · simp [hxk, hx])
  have h2 := h (insert k (s.erase k))
  rw [Finset.sum_insert (by simp)] at h1 h2
  have h3 : ∑ x ∈ s.erase k, f' x = ∑ x ∈ s.erase k, f x :=
    Finset.sum_congr rfl (fun a ha => hf a (Finset.ne_of_mem_erase ha))
  omega

/-- Facts about the token ledger that hold in every reachable state. -/
structure BankInv (b : Bank) : Prop where
  /-- Token accounts are at keypair addresses or at the associated address of their mint and program;
  an associated account of an owner that cannot sign still belongs to that owner. -/
  tok_addr : ∀ a t, b.tokens a = some t →
    (∃ n, a = .key n) ∨ ∃ o, a = .ata o t.program t.mint ∧ (o.canSign = false → t.owner = o)
  tok_mint : ∀ a t, b.tokens a = some t → ∃ md, b.mints t.mint = some md ∧ md.program = t.program
  mint_addr : ∀ a md, b.mints a = some md → (∃ n, a = .key n) ∨ a.isNftMint = true
  nft : ∀ a md, a.isNftMint = true → b.mints a = some md →
    md.Plain ∧ md.supply ≤ 1 ∧ (∃ x, md.authority = some x ∧ x.canSign = false) ∧
    (∃ x, md.freezeAuthority = some x ∧ x.canSign = false) ∧ md.decimals = 0 ∧ md.transferBlocked = false ∧ md.startsFrozen = false
  supply : ∀ m md, b.mints m = some md → md.supply < 2 ^ 64 ∧ SumLe (b.bal m) md.supply

/-- One ledger operation that is not a transfer out of a program-owned vault. -/
inductive BSafe : Bank → Bank → Prop
  | openAta {b b' o m tp} (h : b.openAccount (.ata o tp m) o m tp = .ok b') : BSafe b b'
  | openKey {b b' n o m tp} (h : b.openAccount (.key n) o m tp = .ok b') : BSafe b b'
  | openMintKey {b b' n md} (hs : md.supply = 0 ∧ md.ExtensionsOk) (h : b.openMint (.key n) md = .ok b') : BSafe b b'
  | openMintNft {b b' a tp} (ha : a.isNftMint = true)
      (h : b.openMint a (Lockup.freshNftMint tp) = .ok b') : BSafe b b'
  | mintTo {b b' m d x tp amt} (hx : x.canSign = true) (h : b.mintTo m d x tp amt = .ok b') : BSafe b b'
  | mintNft {b b' m d x tp md} (ha : m.isNftMint = true) (hm : b.mints m = some md) (hs : md.supply = 0)
      (h : b.mintTo m d x tp 1 = .ok b') : BSafe b b'
  | lock {b m md} (ha : m.isNftMint = true) (hm : b.mints m = some md) : BSafe b (Lockup.lockAuthority b m md)
  | transfer {b b' s d x m tp amt dec} (hx : x.canSign = true)
      (h : b.transferChecked s d x m tp amt dec = .ok b') : BSafe b b'
  | delegate {b b' s d m tp amt md x} (hm : b.mints m = some md) (hd : md.permanentDelegate = some x)
      (h : b.transferCore s d m tp amt = .ok b') : BSafe b b'
  | burn {b b' s amt t} (ht : b.tokens s = some t) (ho : t.owner.canSign = true)
      (h : b.burn s amt = .ok b') : BSafe b b'
  | delegateBurn {b b' s amt t md x} (ht : b.tokens s = some t) (hm : b.mints t.mint = some md)
      (hd : md.permanentDelegate = some x) (h : b.burn s amt = .ok b') : BSafe b b'
  | setFee {b m md f} (hm : b.mints m = some md) (hf : md.feeConfig.isSome = true) :
      BSafe b (b.setMint m (some { md with feeConfig := some f }))
  | setBlocked {b n md x y} (hm : b.mints (.key n) = some md) (hp : md.program = .token2022) :
      BSafe b (b.setMint (.key n) (some { md with transferBlocked := x, startsFrozen := y }))
  | setMintAuth {b m md s a} (hm : b.mints m = some md) (ha : md.authority = some s)
      (hs : s.canSign = true) : BSafe b (b.setMint m (some { md with authority := a }))
  | setFreezeAuth {b m md s a} (hm : b.mints m = some md) (ha : md.freezeAuthority = some s)
      (hs : s.canSign = true) : BSafe b (b.setMint m (some { md with freezeAuthority := a }))
  | setOwner {b a t o} (ht : b.tokens a = some t) (hs : t.owner.canSign = true) :
      BSafe b (b.setToken a (some { t with owner := o }))
  | close {b a t} (ht : b.tokens a = some t) (hs : t.owner.canSign = true) (h0 : t.amount = 0) :
      BSafe b (b.setToken a none)
  | setFrozen {b a t md x f} (ht : b.tokens a = some t) (hm : b.mints t.mint = some md)
      (ha : md.freezeAuthority = some x) :
      BSafe b (b.setToken a (some { t with frozen := f }))

/-- Any number of such operations. -/
inductive BSafes : Bank → Bank → Prop
  | refl (b) : BSafes b b
  | tail {b b' b''} : BSafes b b' → BSafe b' b'' → BSafes b b''

theorem BSafes.single {b b' : Bank} (h : BSafe b b') : BSafes b b' := .tail (.refl _) h

theorem BSafes.trans {b b' b'' : Bank} (h : BSafes b b') (h' : BSafes b' b'') : BSafes b b'' := by
  induction h' with
  | refl => exact h
  | tail _ hs ih => exact .tail ih hs

/-! ## Inversion of the ledger operations -/

/-- Whether a new account of the mint is frozen. -/
def Bank.opensFrozen (b : Bank) (m : Addr) : Bool := (b.mints m).any MintData.startsFrozen

theorem Bank.opensFrozen_some {b : Bank} {m : Addr} {md : MintData} (h : b.mints m = some md) :
    b.opensFrozen m = md.startsFrozen := by
  unfold Bank.opensFrozen; rw [h]; rfl

theorem openAccount_ok {b b' : Bank} {a o m : Addr} {tp : TokenProgram} (h : b.openAccount a o m tp = .ok b') :
    (∃ md, b.mints m = some md ∧ md.program = tp) ∧ b.tokens a = none ∧ b.mints a = none ∧
      b' = b.setToken a (some ⟨tp, m, o, 0, b.opensFrozen m⟩) := by
  simp only [Bank.openAccount, bind_ok, fetch_ok, require_ok, pure_ok] at h
  obtain ⟨md, h1, _, h2, _, ⟨h3, h4⟩, rfl⟩ := h
  exact ⟨⟨md, h1, h2⟩, h3, h4, by rw [Bank.opensFrozen_some h1]⟩

theorem openMint_ok {b b' : Bank} {a : Addr} {md : MintData} (h : b.openMint a md = .ok b') :
    b.mints a = none ∧ b.tokens a = none ∧ b' = b.setMint a (some md) := by
  simp only [Bank.openMint, bind_ok, require_ok, pure_ok] at h
  obtain ⟨_, ⟨h1, h2⟩, rfl⟩ := h
  exact ⟨h1, h2, rfl⟩

/-- Checks and effect of a transfer. -/
structure TransferFacts (b : Bank) (s d m : Addr) (tp : TokenProgram) (amt : Nat) (b' : Bank)
    (tf tt : TokenData) (md : MintData) : Prop where
  src : b.tokens s = some tf
  dst : b.tokens d = some tt
  mint : b.mints m = some md
  prog : tf.program = tp ∧ tt.program = tp ∧ md.program = tp
  mints : tf.mint = m ∧ tt.mint = m
  thawed : tf.frozen = false ∧ tt.frozen = false
  unblocked : md.transferBlocked = false
  funds : amt ≤ tf.amount
  result : (s = d ∧ b' = b) ∨ (s ≠ d ∧ tt.amount + (amt - md.fee amt) < 2 ^ 64 ∧
    b' = b.move s d tf tt amt (md.fee amt))

theorem transferCore_ok {b b' : Bank} {s d m : Addr} {tp : TokenProgram} {amt : Nat}
    (h : b.transferCore s d m tp amt = .ok b') : ∃ tf tt md, TransferFacts b s d m tp amt b' tf tt md := by
  simp only [Bank.transferCore, bind_ok, fetch_ok, require_ok] at h
  obtain ⟨tf, h1, tt, h2, md, h3, _, h4, _, h5, _, h6, _, h7, _, h8, h9⟩ := h
  refine ⟨tf, tt, md, h1, h2, h3, h4, h5, h6, h7, h8, ?_⟩
  split at h9
  · rename_i hsd; cases h9; exact .inl ⟨hsd, rfl⟩
  · rename_i hsd
    simp only [bind_ok, require_ok, pure_ok] at h9
    obtain ⟨_, h10, rfl⟩ := h9
    exact .inr ⟨hsd, h10, rfl⟩

theorem transferChecked_ok {b b' : Bank} {s d x m : Addr} {tp : TokenProgram} {amt dec : Nat}
    (h : b.transferChecked s d x m tp amt dec = .ok b') :
    ∃ tf tt md, TransferFacts b s d m tp amt b' tf tt md ∧ tf.owner = x ∧ md.decimals = dec := by
  simp only [Bank.transferChecked, bind_ok, fetch_ok, require_ok] at h
  obtain ⟨tf, h1, md, h2, _, h3, _, h4, h5⟩ := h
  obtain ⟨tf', tt, md', hf⟩ := transferCore_ok h5
  have e1 := hf.src; have e2 := hf.mint
  rw [h1] at e1; cases e1
  rw [h2] at e2; cases e2
  exact ⟨tf, tt, md, hf, h3, h4⟩

theorem mintTo_ok {b b' : Bank} {m d x : Addr} {tp : TokenProgram} {amt : Nat}
    (h : b.mintTo m d x tp amt = .ok b') :
    ∃ md tt, b.mints m = some md ∧ b.tokens d = some tt ∧ md.program = tp ∧ tt.program = tp ∧ tt.mint = m ∧
      tt.frozen = false ∧ md.authority = some x ∧ md.supply + amt < 2 ^ 64 ∧
      b' = (b.setMint m (some { md with supply := md.supply + amt })).setToken d
        (some { tt with amount := tt.amount + amt }) := by
  simp only [Bank.mintTo, bind_ok, fetch_ok, require_ok, pure_ok] at h
  obtain ⟨md, h1, tt, h2, _, ⟨h3, h4⟩, _, h5, _, h6, _, h7, _, h8, _, h9, rfl⟩ := h
  exact ⟨md, tt, h1, h2, h3, h4, h5, h6, h7, h8, rfl⟩

theorem burn_ok {b b' : Bank} {s : Addr} {amt : Nat} (h : b.burn s amt = .ok b') :
    ∃ tf md, b.tokens s = some tf ∧ b.mints tf.mint = some md ∧ amt ≤ tf.amount ∧ amt ≤ md.supply ∧
      b' = (b.setMint tf.mint (some { md with supply := md.supply - amt })).setToken s
        (some { tf with amount := tf.amount - amt }) := by
  simp only [Bank.burn, bind_ok, fetch_ok, require_ok, pure_ok] at h
  obtain ⟨tf, h1, md, h2, _, _, _, ⟨h3, h4⟩, rfl⟩ := h
  exact ⟨tf, md, h1, h2, h3, h4, rfl⟩

@[simp] theorem setToken_mints (b : Bank) (a : Addr) (t) : (b.setToken a t).mints = b.mints := rfl
@[simp] theorem setMint_tokens (b : Bank) (a : Addr) (m) : (b.setMint a m).tokens = b.tokens := rfl
@[simp] theorem setToken_tokens (b : Bank) (a : Addr) (t) : (b.setToken a t).tokens = upd b.tokens a t := rfl
@[simp] theorem setMint_mints (b : Bank) (a : Addr) (m) : (b.setMint a m).mints = upd b.mints a m := rfl
@[simp] theorem move_mints (b : Bank) (s d : Addr) (tf tt amt fee) :
    (b.move s d tf tt amt fee).mints = b.mints := rfl
@[simp] theorem setMint_bal (b : Bank) (a m x : Addr) (md) : (b.setMint a md).bal m x = b.bal m x := rfl

theorem setToken_bal (b : Bank) (a m x : Addr) (t : Option TokenData) :
    (b.setToken a t).bal m x =
      if x = a then (match t with | some t => if t.mint = m then t.amount else 0 | none => 0) else b.bal m x := by
  unfold Bank.bal
  simp only [setToken_tokens, upd_apply]
  by_cases h : x = a <;> simp [h]

theorem bal_of_token {b : Bank} {a m : Addr} {t : TokenData} (h : b.tokens a = some t) :
    b.bal m a = if t.mint = m then t.amount else 0 := by
  unfold Bank.bal; rw [h]

theorem bal_of_none {b : Bank} {a m : Addr} (h : b.tokens a = none) : b.bal m a = 0 := by
  unfold Bank.bal; rw [h]

theorem move_bal {b : Bank} {s d m : Addr} {tf tt : TokenData} {amt fee : Nat}
    (hs : tf.mint = m) (hd : tt.mint = m) (hne : s ≠ d) (x : Addr) :
    (b.move s d tf tt amt fee).bal m x =
      if x = d then tt.amount + (amt - fee) else if x = s then tf.amount - amt else b.bal m x := by
  unfold Bank.move
  rw [setToken_bal, setToken_bal]
  simp [hs, hd]

/-! ## Preservation -/

theorem BankInv.setToken {b : Bank} (hb : BankInv b) {a : Addr} {t t' : TokenData}
    (ht : b.tokens a = some t) (hm : t'.mint = t.mint) (hp : t'.program = t.program)
    (ho : t'.owner = t.owner ∨ t.owner.canSign = true)
    (hs : ∀ md, b.mints t.mint = some md → SumLe ((b.setToken a (some t')).bal t.mint) md.supply) :
    BankInv (b.setToken a (some t')) := by
  constructor
  · intro x u hx
    simp only [setToken_tokens, upd_apply] at hx
    split at hx
    · rename_i hxa; subst hxa; cases hx
      rcases hb.tok_addr _ _ ht with h | ⟨o, h1, h2⟩
      · exact .inl h
      · refine .inr ⟨o, by rw [hm, hp]; exact h1, fun hc => ?_⟩
        rcases ho with h | h
        · rw [h]; exact h2 hc
        · rw [h2 hc, hc] at h; cases h
    · exact hb.tok_addr _ _ hx
  · intro x u hx
    simp only [setToken_tokens, upd_apply] at hx
    split at hx
    · cases hx; rw [hm, hp]; exact hb.tok_mint _ _ ht
    · exact hb.tok_mint _ _ hx
  · exact hb.mint_addr
  · exact hb.nft
  · intro m md hmd
    by_cases hmt : t.mint = m
    · subst hmt; exact ⟨(hb.supply _ _ hmd).1, hs _ hmd⟩
    · refine ⟨(hb.supply _ _ hmd).1, (hb.supply _ _ hmd).2.mono ?_⟩
      intro x
      rw [setToken_bal]
      split
      · simp [hm, hmt]
      · exact Nat.le_refl _

theorem BankInv.setMint {b : Bank} (hb : BankInv b) {m : Addr} {md md' : MintData}
    (hm : b.mints m = some md) (hp : md'.program = md.program)
    (hn : m.isNftMint = true → md'.Plain ∧ md'.supply ≤ 1 ∧ (∃ x, md'.authority = some x ∧ x.canSign = false) ∧
      (∃ x, md'.freezeAuthority = some x ∧ x.canSign = false) ∧ md'.decimals = 0 ∧ md'.transferBlocked = false ∧ md'.startsFrozen = false)
    (hs : md'.supply < 2 ^ 64 ∧ SumLe (b.bal m) md'.supply) : BankInv (b.setMint m (some md')) := by
  constructor
  · exact hb.tok_addr
  · intro x u hx
    obtain ⟨md₀, h1, h2⟩ := hb.tok_mint _ _ hx
    simp only [setMint_mints, upd_apply]
    split
    · rename_i he; rw [he, hm] at h1; cases h1
      exact ⟨md', rfl, by rw [hp, h2]⟩
    · exact ⟨md₀, h1, h2⟩
  · intro x u hx
    simp only [setMint_mints, upd_apply] at hx
    split at hx
    · rename_i he; rw [he]; exact hb.mint_addr _ _ hm
    · exact hb.mint_addr _ _ hx
  · intro x u hxn hx
    simp only [setMint_mints, upd_apply] at hx
    split at hx
    · rename_i he; cases hx; rw [he] at hxn; exact hn hxn
    · exact hb.nft _ _ hxn hx
  · intro x u hx
    simp only [setMint_mints, upd_apply] at hx
    split at hx
    · rename_i he; cases hx; rw [he]; exact hs
    · exact hb.supply _ _ hx

theorem BankInv.openAccount {b b' : Bank} (hb : BankInv b) {a o m : Addr} {tp : TokenProgram}
    (ha : (∃ n, a = .key n) ∨ a = .ata o tp m) (h : b.openAccount a o m tp = .ok b') : BankInv b' := by
  obtain ⟨⟨md, h1, h2⟩, h3, h4, rfl⟩ := openAccount_ok h
  constructor
  · intro x u hx
    simp only [setToken_tokens, upd_apply] at hx
    split at hx
    · rename_i hxa; subst hxa; cases hx
      rcases ha with h | h
      · exact .inl h
      · exact .inr ⟨o, h, fun _ => rfl⟩
    · exact hb.tok_addr _ _ hx
  · intro x u hx
    simp only [setToken_tokens, upd_apply] at hx
    split at hx
    · cases hx; exact ⟨md, h1, h2⟩
    · exact hb.tok_mint _ _ hx
  · exact hb.mint_addr
  · exact hb.nft
  · intro x u hx
    refine ⟨(hb.supply _ _ hx).1, (hb.supply _ _ hx).2.mono ?_⟩
    intro y
    rw [setToken_bal]
    split <;> simp

theorem BankInv.openMint {b b' : Bank} (hb : BankInv b) {a : Addr} {md : MintData} (hs : md.supply = 0)
    (ha : (∃ n, a = .key n) ∨ (∃ tp, md = Lockup.freshNftMint tp) ∧ a.isNftMint = true)
    (h : b.openMint a md = .ok b') : BankInv b' := by
  obtain ⟨h1, h2, rfl⟩ := openMint_ok h
  have hno : ∀ x u, b.tokens x = some u → u.mint ≠ a := by
    intro x u hx he
    obtain ⟨md₀, h3, _⟩ := hb.tok_mint _ _ hx
    rw [he, h1] at h3; cases h3
  constructor
  · exact hb.tok_addr
  · intro x u hx
    obtain ⟨md₀, h3, h4⟩ := hb.tok_mint _ _ hx
    refine ⟨md₀, ?_, h4⟩
    simp only [setMint_mints, upd_apply]
    rw [if_neg (hno _ _ hx)]; exact h3
  · intro x u hx
    simp only [setMint_mints, upd_apply] at hx
    split at hx
    · rename_i he; subst he
      rcases ha with h | ⟨_, h⟩
      · exact .inl h
      · exact .inr h
    · exact hb.mint_addr _ _ hx
  · intro x u hxn hx
    simp only [setMint_mints, upd_apply] at hx
    split at hx
    · rename_i he; subst he; cases hx
      rcases ha with ⟨n, rfl⟩ | ⟨⟨tp, rfl⟩, _⟩
      · cases hxn
      · exact ⟨⟨rfl, rfl⟩, by simp [Lockup.freshNftMint], ⟨_, rfl, rfl⟩, ⟨_, rfl, rfl⟩, rfl, rfl, rfl⟩
    · exact hb.nft _ _ hxn hx
  · intro x u hx
    simp only [setMint_mints, upd_apply] at hx
    split at hx
    · rename_i he; subst he; cases hx
      refine ⟨by omega, ?_⟩
      intro s
      rw [Finset.sum_eq_zero]
      · exact Nat.zero_le _
      · intro y _
        unfold Bank.bal
        simp only [setMint_tokens]
        split
        · rename_i t ht
          rw [if_neg (hno _ _ ht)]
        · rfl
    · exact hb.supply _ _ hx

theorem BankInv.mintTo {b b' : Bank} (hb : BankInv b) {m d x : Addr} {tp : TokenProgram} {amt : Nat}
    (hx : x.canSign = true ∨ (∃ md, b.mints m = some md ∧ md.supply + amt ≤ 1))
    (h : b.mintTo m d x tp amt = .ok b') : BankInv b' := by
  obtain ⟨md, tt, h1, h2, h3, h4, h5, h6, h7, h8, rfl⟩ := mintTo_ok h
  have hsup := hb.supply _ _ h1
  have hb1 : BankInv (b.setMint m (some { md with supply := md.supply + amt })) := by
    refine hb.setMint h1 rfl ?_ ⟨h8, fun s => Nat.le_trans (hsup.2 s) (Nat.le_add_right _ _)⟩
    intro hn
    obtain ⟨a1, a2, ⟨y, a3, a3'⟩, a4, a5, a6⟩ := hb.nft _ _ hn h1
    refine ⟨a1, ?_, ⟨y, a3, a3'⟩, a4, a5, a6⟩
    rcases hx with hx | ⟨md', hx, hs⟩
    · rw [h7] at a3; cases a3; rw [a3'] at hx; cases hx
    · rw [h1] at hx; cases hx; exact hs
  refine hb1.setToken h2 rfl rfl (.inl rfl) ?_
  intro md' hmd'
  rw [h5] at hmd' ⊢
  simp only [setMint_mints, upd_same] at hmd'
  cases hmd'
  refine (hsup.2).add (k := d) ?_ ?_
  · intro a ha
    rw [setToken_bal, if_neg ha]; rfl
  · rw [setToken_bal, if_pos rfl, bal_of_token h2]
    simp [h5]

theorem BankInv.burn {b b' : Bank} (hb : BankInv b) {s : Addr} {amt : Nat}
    (h : b.burn s amt = .ok b') : BankInv b' := by
  obtain ⟨tf, md, h1, h2, h3, h4, rfl⟩ := burn_ok h
  have hsup := hb.supply _ _ h2
  have hsum : SumLe ((b.setToken s (some { tf with amount := tf.amount - amt })).bal tf.mint)
      (md.supply - amt) := by
    refine (hsup.2).sub (k := s) ?_ ?_
    · intro a ha; rw [setToken_bal, if_neg ha]
    · rw [setToken_bal, if_pos rfl, bal_of_token h1]; simp; omega
  have hb1 : BankInv (b.setToken s (some { tf with amount := tf.amount - amt })) := by
    refine hb.setToken h1 rfl rfl (.inl rfl) ?_
    intro md' hmd'
    rw [h2] at hmd'; cases hmd'
    exact fun t => Nat.le_trans (hsum t) (Nat.sub_le _ _)
  refine hb1.setMint (md := md) h2 rfl ?_ ⟨by simp only; omega, hsum⟩
  intro hn
  obtain ⟨a1, a2, a3, a4, a5, a6⟩ := hb.nft _ _ hn h2
  exact ⟨a1, by simp only; omega, a3, a4, a5, a6⟩

theorem BankInv.transferFacts {b b' : Bank} (hb : BankInv b) {s d m : Addr} {tp : TokenProgram} {amt : Nat}
    {tf tt : TokenData} {md : MintData} (h : TransferFacts b s d m tp amt b' tf tt md) : BankInv b' := by
  rcases h.result with ⟨_, rfl⟩ | ⟨hne, _, rfl⟩
  · exact hb
  have hsup := hb.supply _ _ h.mint
  have hsub : SumLe ((b.setToken s (some { tf with amount := tf.amount - amt })).bal m) (md.supply - amt) := by
    refine (hsup.2).sub (k := s) ?_ ?_
    · intro a ha; rw [setToken_bal, if_neg ha]
    · rw [setToken_bal, if_pos rfl, bal_of_token h.src]
      have := h.funds
      simp [h.mints.1]; omega
  have hle : amt ≤ md.supply := by
    have := hsup.2.single s
    rw [bal_of_token h.src, if_pos h.mints.1] at this
    exact Nat.le_trans h.funds this
  have hb1 : BankInv (b.setToken s (some { tf with amount := tf.amount - amt })) := by
    refine hb.setToken h.src rfl rfl (.inl rfl) ?_
    intro md' hmd'
    rw [h.mints.1, h.mint] at hmd'; cases hmd'
    have hsub' := hsub
    rw [← h.mints.1] at hsub'
    exact fun t => Nat.le_trans (hsub' t) (Nat.sub_le _ _)
  have hdst : (b.setToken s (some { tf with amount := tf.amount - amt })).tokens d = some tt := by
    rw [setToken_tokens, upd_ne _ _ (Ne.symm hne)]; exact h.dst
  refine hb1.setToken hdst rfl rfl (.inl rfl) ?_
  intro md' hmd'
  rw [h.mints.2, setToken_mints, h.mint] at hmd'; cases hmd'
  have := hsub.add (k := d) (d := amt - md.fee amt)
    (f' := ((b.setToken s (some { tf with amount := tf.amount - amt })).setToken d
      (some { tt with amount := tt.amount + (amt - md.fee amt) })).bal m) ?_ ?_
  · rw [← h.mints.2] at this
    exact fun t => Nat.le_trans (this t) (by omega)
  · intro a ha; rw [setToken_bal, if_neg ha]
  · rw [setToken_bal, if_pos rfl, bal_of_token hdst]; simp [h.mints.2]

theorem BankInv.transferChecked {b b' : Bank} (hb : BankInv b) {s d x m : Addr} {tp : TokenProgram}
    {amt dec : Nat} (h : b.transferChecked s d x m tp amt dec = .ok b') : BankInv b' := by
  obtain ⟨_, _, _, hf, _⟩ := transferChecked_ok h
  exact hb.transferFacts hf

theorem BankInv.safe {b b' : Bank} (hb : BankInv b) (h : BSafe b b') : BankInv b' := by
  cases h with
  | openAta h => exact hb.openAccount (.inr rfl) h
  | openKey h => exact hb.openAccount (.inl ⟨_, rfl⟩) h
  | openMintKey hs h => exact hb.openMint hs.1 (.inl ⟨_, rfl⟩) h
  | openMintNft ha h => exact hb.openMint rfl (.inr ⟨⟨_, rfl⟩, ha⟩) h
  | mintTo hx h => exact hb.mintTo (.inl hx) h
  | mintNft ha hm hs h => exact hb.mintTo (.inr ⟨_, hm, by omega⟩) h
  | lock _ hm =>
    have hsup := hb.supply _ _ hm
    refine hb.setMint hm rfl ?_ hsup
    intro hn
    obtain ⟨a1, a2, a3, a4, a5, a6⟩ := hb.nft _ _ hn hm
    exact ⟨a1, a2, ⟨_, rfl, rfl⟩, ⟨_, rfl, rfl⟩, a5, a6⟩
  | transfer hx h => exact hb.transferChecked h
  | delegate hm hd h =>
    obtain ⟨_, _, _, hf⟩ := transferCore_ok h
    exact hb.transferFacts hf
  | burn ht ho h => exact hb.burn h
  | delegateBurn ht hm hd h => exact hb.burn h
  | setFee hm hf =>
    have hsup := hb.supply _ _ hm
    refine hb.setMint hm rfl ?_ hsup
    intro hn
    obtain ⟨⟨a1, _⟩, _⟩ := hb.nft _ _ hn hm
    rw [a1] at hf; cases hf
  | setBlocked hm _ =>
    have hsup := hb.supply _ _ hm
    refine hb.setMint hm rfl ?_ hsup
    intro hn; cases hn
  | setMintAuth hm ha hs =>
    have hsup := hb.supply _ _ hm
    refine hb.setMint hm rfl ?_ hsup
    intro hn
    obtain ⟨a1, a2, ⟨y, a3, a3'⟩, a4, a5, a6⟩ := hb.nft _ _ hn hm
    rw [ha] at a3; cases a3; rw [a3'] at hs; cases hs
  | setFreezeAuth hm ha hs =>
    have hsup := hb.supply _ _ hm
    refine hb.setMint hm rfl ?_ hsup
    intro hn
    obtain ⟨a1, a2, a3, ⟨y, a4, a4'⟩, a5, a6⟩ := hb.nft _ _ hn hm
    rw [ha] at a4; cases a4; rw [a4'] at hs; cases hs
  | @setOwner a t o ht hs =>
    refine hb.setToken ht rfl rfl (.inr hs) ?_
    intro md hmd
    refine (hb.supply _ _ hmd).2.mono ?_
    intro y; rw [setToken_bal]; split
    · rename_i he; subst he; rw [bal_of_token ht]
    · exact Nat.le_refl _
  | @close a t ht hs h0 =>
    constructor
    · intro x u hx
      simp only [setToken_tokens, upd_apply] at hx
      split at hx
      · cases hx
      · exact hb.tok_addr _ _ hx
    · intro x u hx
      simp only [setToken_tokens, upd_apply] at hx
      split at hx
      · cases hx
      · exact hb.tok_mint _ _ hx
    · exact hb.mint_addr
    · exact hb.nft
    · intro m md hmd
      refine ⟨(hb.supply _ _ hmd).1, (hb.supply _ _ hmd).2.mono ?_⟩
      intro y; rw [setToken_bal]; split
      · exact Nat.zero_le _
      · exact Nat.le_refl _
  | @setFrozen a t md x f ht hm ha =>
    refine hb.setToken ht rfl rfl (.inl rfl) ?_
    intro md hmd
    refine (hb.supply _ _ hmd).2.mono ?_
    intro y; rw [setToken_bal]; split
    · rename_i he; subst he; rw [bal_of_token ht]
    · exact Nat.le_refl _

theorem BankInv.safes {b b' : Bank} (hb : BankInv b) (h : BSafes b b') : BankInv b' := by
  induction h with
  | refl => exact hb
  | tail _ hs ih => exact ih.safe hs

end Solsab
