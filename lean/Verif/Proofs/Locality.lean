import Verif.Spec.Locality
import Verif.Proofs.Inv
/-!
# Locality: two runs from states that agree on the accounts of the instruction
-/

namespace Solsab

/-- Two results correspond: same error, or related values. -/
def ResRel {α β : Type} (R : α → β → Prop) : Res α → Res β → Prop
  | .ok a, .ok b => R a b
  | .error e, .error e' => e = e'
  | _, _ => False

theorem ResRel.bind {α β γ δ : Type} {R : α → β → Prop} {Q : γ → δ → Prop} {x : Res α} {y : Res β}
    {f : α → Res γ} {g : β → Res δ} (h : ResRel R x y) (hf : ∀ a b, R a b → ResRel Q (f a) (g b)) :
    ResRel Q (x >>= f) (y >>= g) := by
  cases x <;> cases y
  · exact h
  · exact h.elim
  · exact h.elim
  · exact hf _ _ h

/-- The same computation on both sides. -/
theorem ResRel.both {α γ δ : Type} {Q : γ → δ → Prop} {x y : Res α} {f : α → Res γ} {g : α → Res δ}
    (h : x = y) (hf : ∀ a, x = .ok a → ResRel Q (f a) (g a)) : ResRel Q (x >>= f) (y >>= g) := by
  subst h
  cases x with
  | error e => exact rfl
  | ok a => exact hf a rfl

/-- `w`, `v` agree on the accounts `S`, and came from `w₀`, `v₀` by the same events and changes of accounts in `W`. -/
structure Twin (S W : List Addr) (w₀ v₀ w v : World) : Prop where
  clock : w.clock = v.clock
  clock₀ : w.clock = w₀.clock
  same : ∀ a ∈ S, w.account a = v.account a
  left : ∀ a, a ∉ W → w.account a = w₀.account a
  right : ∀ a, a ∉ W → v.account a = v₀.account a
  oracle : w.oracle = w₀.oracle
  oracle' : v.oracle = v₀.oracle
  log : ∃ es, w.log = es ++ w₀.log ∧ v.log = es ++ v₀.log

namespace Twin

variable {S W : List Addr} {w₀ v₀ w v : World}

theorem now (h : Twin S W w₀ v₀ w v) : w.now = v.now := by unfold World.now; rw [h.clock]
theorem lam (h : Twin S W w₀ v₀ w v) {a : Addr} (ha : a ∈ S) : w.lamports a = v.lamports a :=
  congrArg Account.lamports (h.same a ha)
theorem tok (h : Twin S W w₀ v₀ w v) {a : Addr} (ha : a ∈ S) : w.bank.tokens a = v.bank.tokens a :=
  congrArg Account.token (h.same a ha)
theorem mint (h : Twin S W w₀ v₀ w v) {a : Addr} (ha : a ∈ S) : w.bank.mints a = v.bank.mints a :=
  congrArg Account.mint (h.same a ha)
theorem meta' (h : Twin S W w₀ v₀ w v) {m : Addr} (ha : .metadata m ∈ S) : w.metas m = v.metas m :=
  congrArg Account.metadata (h.same _ ha)
theorem stream (h : Twin S W w₀ v₀ w v) {a : Addr} (ha : a ∈ S) : w.lk.streams a = v.lk.streams a :=
  congrArg Account.stream (h.same a ha)
theorem coll (h : Twin S W w₀ v₀ w v) (ha : .nftCollectionData ∈ S) :
    w.lk.nftCollectionData = v.lk.nftCollectionData := congrArg Account.collection (h.same _ ha)
theorem lkTreasury (h : Twin S W w₀ v₀ w v) (ha : .treasury .lockup ∈ S) : w.lk.treasury = v.lk.treasury :=
  congrArg Account.treasury (h.same _ ha)
theorem miTreasury (h : Twin S W w₀ v₀ w v) (ha : .treasury .merkle ∈ S) : w.mi.treasury = v.mi.treasury :=
  congrArg Account.treasury (h.same _ ha)
theorem campaign (h : Twin S W w₀ v₀ w v) {a : Addr} (ha : a ∈ S) : w.mi.campaigns a = v.mi.campaigns a :=
  congrArg Account.campaign (h.same a ha)
theorem receipt (h : Twin S W w₀ v₀ w v) {a : Addr} (ha : a ∈ S) : w.mi.receipts a = v.mi.receipts a :=
  congrArg Account.receipt (h.same a ha)

/-- Both sides change the accounts in `W` only, in the same way. -/
theorem change {w' v' : World} (h : Twin S W w₀ v₀ w v) (hc : w'.clock = w.clock) (hc' : v'.clock = v.clock)
    (ho : w'.oracle = w.oracle) (ho' : v'.oracle = v.oracle) (hl : w'.log = w.log) (hl' : v'.log = v.log)
    (hs : ∀ a ∈ S, w'.account a = v'.account a) (h1 : ∀ a, a ∉ W → w'.account a = w.account a)
    (h2 : ∀ a, a ∉ W → v'.account a = v.account a) : Twin S W w₀ v₀ w' v' where
  clock := by rw [hc, hc', h.clock]
  clock₀ := by rw [hc, h.clock₀]
  same := hs
  left a ha := (h1 a ha).trans (h.left a ha)
  right a ha := (h2 a ha).trans (h.right a ha)
  oracle := ho.trans h.oracle
  oracle' := ho'.trans h.oracle'
  log := by rw [hl, hl']; exact h.log

theorem setLam (h : Twin S W w₀ v₀ w v) {a : Addr} (ha : a ∈ W) (x : Nat) :
    Twin S W w₀ v₀ { w with lamports := upd w.lamports a x } { v with lamports := upd v.lamports a x } := by
  refine h.change rfl rfl rfl rfl rfl rfl (fun b hb => ?_) (fun b hb => ?_) (fun b hb => ?_)
  · have := h.same b hb
    simp only [World.account, Account.mk.injEq, upd_apply] at this ⊢
    simp only [this, and_self]
  · have hne : b ≠ a := fun hh => hb (hh ▸ ha)
    simp only [World.account, upd_ne _ _ hne]
  · have hne : b ≠ a := fun hh => hb (hh ▸ ha)
    simp only [World.account, upd_ne _ _ hne]

theorem setToken (h : Twin S W w₀ v₀ w v) {a : Addr} (ha : a ∈ W) (x : Option TokenData) :
    Twin S W w₀ v₀ { w with bank := w.bank.setToken a x } { v with bank := v.bank.setToken a x } := by
  refine h.change rfl rfl rfl rfl rfl rfl (fun b hb => ?_) (fun b hb => ?_) (fun b hb => ?_)
  · have := h.same b hb
    simp only [World.account, Account.mk.injEq, Bank.setToken, upd_apply] at this ⊢
    simp only [this, and_self]
  · have hne : b ≠ a := fun hh => hb (hh ▸ ha)
    simp only [World.account, Bank.setToken, upd_ne _ _ hne]
  · have hne : b ≠ a := fun hh => hb (hh ▸ ha)
    simp only [World.account, Bank.setToken, upd_ne _ _ hne]

theorem setMint (h : Twin S W w₀ v₀ w v) {a : Addr} (ha : a ∈ W) (x : Option MintData) :
    Twin S W w₀ v₀ { w with bank := w.bank.setMint a x } { v with bank := v.bank.setMint a x } := by
  refine h.change rfl rfl rfl rfl rfl rfl (fun b hb => ?_) (fun b hb => ?_) (fun b hb => ?_)
  · have := h.same b hb
    simp only [World.account, Account.mk.injEq, Bank.setMint, upd_apply] at this ⊢
    simp only [this, and_self]
  · have hne : b ≠ a := fun hh => hb (hh ▸ ha)
    simp only [World.account, Bank.setMint, upd_ne _ _ hne]
  · have hne : b ≠ a := fun hh => hb (hh ▸ ha)
    simp only [World.account, Bank.setMint, upd_ne _ _ hne]

theorem setStream (h : Twin S W w₀ v₀ w v) {a : Addr} (ha : a ∈ W) (x : Option Lockup.StreamData) :
    Twin S W w₀ v₀ { w with lk := { w.lk with streams := upd w.lk.streams a x } }
      { v with lk := { v.lk with streams := upd v.lk.streams a x } } := by
  refine h.change rfl rfl rfl rfl rfl rfl (fun b hb => ?_) (fun b hb => ?_) (fun b hb => ?_)
  · have := h.same b hb
    simp only [World.account, Account.mk.injEq, upd_apply] at this ⊢
    simp only [this, and_self]
  · have hne : b ≠ a := fun hh => hb (hh ▸ ha)
    simp only [World.account, upd_ne _ _ hne]
  · have hne : b ≠ a := fun hh => hb (hh ▸ ha)
    simp only [World.account, upd_ne _ _ hne]

theorem setCampaign (h : Twin S W w₀ v₀ w v) {a : Addr} (ha : a ∈ W) (x : Option Merkle.Campaign) :
    Twin S W w₀ v₀ { w with mi := { w.mi with campaigns := upd w.mi.campaigns a x } }
      { v with mi := { v.mi with campaigns := upd v.mi.campaigns a x } } := by
  refine h.change rfl rfl rfl rfl rfl rfl (fun b hb => ?_) (fun b hb => ?_) (fun b hb => ?_)
  · have := h.same b hb
    simp only [World.account, Account.mk.injEq, upd_apply] at this ⊢
    simp only [this, and_self]
  · have hne : b ≠ a := fun hh => hb (hh ▸ ha)
    simp only [World.account, upd_ne _ _ hne]
  · have hne : b ≠ a := fun hh => hb (hh ▸ ha)
    simp only [World.account, upd_ne _ _ hne]

theorem setReceipt (h : Twin S W w₀ v₀ w v) {a : Addr} (ha : a ∈ W) (x : Bool) :
    Twin S W w₀ v₀ { w with mi := { w.mi with receipts := upd w.mi.receipts a x } }
      { v with mi := { v.mi with receipts := upd v.mi.receipts a x } } := by
  refine h.change rfl rfl rfl rfl rfl rfl (fun b hb => ?_) (fun b hb => ?_) (fun b hb => ?_)
  · have := h.same b hb
    simp only [World.account, Account.mk.injEq, upd_apply] at this ⊢
    simp only [this, and_self]
  · have hne : b ≠ a := fun hh => hb (hh ▸ ha)
    simp only [World.account, upd_ne _ _ hne]
  · have hne : b ≠ a := fun hh => hb (hh ▸ ha)
    simp only [World.account, upd_ne _ _ hne]

theorem setMeta (h : Twin S W w₀ v₀ w v) {m : Addr} (ha : .metadata m ∈ W) (x : Option Metadata) :
    Twin S W w₀ v₀ { w with metas := upd w.metas m x } { v with metas := upd v.metas m x } := by
  refine h.change rfl rfl rfl rfl rfl rfl (fun b hb => ?_) (fun b hb => ?_) (fun b hb => ?_)
  · have := h.same b hb
    cases b <;> simp only [World.account, Account.mk.injEq, upd_apply] at this ⊢ <;> simp only [this, and_self]
  · cases b <;> try rfl
    rename_i n
    have hne : n ≠ m := fun hh => hb (hh ▸ ha)
    simp only [World.account, upd_ne _ _ hne]
  · cases b <;> try rfl
    rename_i n
    have hne : n ≠ m := fun hh => hb (hh ▸ ha)
    simp only [World.account, upd_ne _ _ hne]

theorem setColl (h : Twin S W w₀ v₀ w v) (ha : .nftCollectionData ∈ W) (x : Option Lockup.NftCollectionData) :
    Twin S W w₀ v₀ { w with lk := { w.lk with nftCollectionData := x } }
      { v with lk := { v.lk with nftCollectionData := x } } := by
  refine h.change rfl rfl rfl rfl rfl rfl (fun b hb => ?_) (fun b hb => ?_) (fun b hb => ?_)
  · have := h.same b hb
    cases b <;> simp only [World.account, Account.mk.injEq] at this ⊢ <;> simp only [this, and_self]
  · cases b <;> first | rfl | exact absurd ha hb
  · cases b <;> first | rfl | exact absurd ha hb

theorem setLkTreasury (h : Twin S W w₀ v₀ w v) (ha : .treasury .lockup ∈ W) (x : Option Treasury) :
    Twin S W w₀ v₀ { w with lk := { w.lk with treasury := x } }
      { v with lk := { v.lk with treasury := x } } := by
  refine h.change rfl rfl rfl rfl rfl rfl (fun b hb => ?_) (fun b hb => ?_) (fun b hb => ?_)
  · have := h.same b hb
    rcases b with _ | (_ | _) <;> simp only [World.account, Account.mk.injEq] at this ⊢ <;> simp only [this, and_self]
  · rcases b with _ | (_ | _) <;> first | rfl | exact absurd ha hb
  · rcases b with _ | (_ | _) <;> first | rfl | exact absurd ha hb

theorem setMiTreasury (h : Twin S W w₀ v₀ w v) (ha : .treasury .merkle ∈ W) (x : Option Treasury) :
    Twin S W w₀ v₀ { w with mi := { w.mi with treasury := x } }
      { v with mi := { v.mi with treasury := x } } := by
  refine h.change rfl rfl rfl rfl rfl rfl (fun b hb => ?_) (fun b hb => ?_) (fun b hb => ?_)
  · have := h.same b hb
    rcases b with _ | (_ | _) <;> simp only [World.account, Account.mk.injEq] at this ⊢ <;> simp only [this, and_self]
  · rcases b with _ | (_ | _) <;> first | rfl | exact absurd ha hb
  · rcases b with _ | (_ | _) <;> first | rfl | exact absurd ha hb

theorem emit (h : Twin S W w₀ v₀ w v) (e : Event) : Twin S W w₀ v₀ (w.emit e) (v.emit e) where
  clock := h.clock
  clock₀ := h.clock₀
  same := h.same
  left := h.left
  right := h.right
  oracle := h.oracle
  oracle' := h.oracle'
  log := by
    obtain ⟨es, h1, h2⟩ := h.log
    refine ⟨⟨w.now, e⟩ :: es, ?_, ?_⟩
    · show _ :: w.log = _
      rw [h1]; rfl
    · show ⟨v.now, e⟩ :: v.log = _
      rw [h2, h.now]; rfl

end Twin

namespace Twin

variable {S W : List Addr} {w₀ v₀ w v : World}

theorem payRent (h : Twin S W w₀ v₀ w v) (rt : Runtime) {p a : Addr} (hp : p ∈ S) (ha : a ∈ S) (hp' : p ∈ W)
    (ha' : a ∈ W) (k : Nat) : ResRel (Twin S W w₀ v₀) (w.payRent rt p a k) (v.payRent rt p a k) := by
  unfold World.payRent
  rw [h.lam hp, h.lam ha]
  refine ResRel.both rfl fun _ _ => ?_
  have h1 := h.setLam hp' (v.lamports p - (max (rt.rent k) 1 - v.lamports a))
  have h2 := h1.setLam ha' (upd v.lamports p (v.lamports p - (max (rt.rent k) 1 - v.lamports a)) a +
    (max (rt.rent k) 1 - v.lamports a))
  have h3 : upd w.lamports p (v.lamports p - (max (rt.rent k) 1 - v.lamports a)) a =
      upd v.lamports p (v.lamports p - (max (rt.rent k) 1 - v.lamports a)) a := h1.lam ha
  show Twin S W w₀ v₀ _ _
  rw [h3]
  exact h2

theorem createAta (h : Twin S W w₀ v₀ w v) (rt : Runtime) {p a m : Addr} (hp : p ∈ S) (ha : a ∈ S) (hp' : p ∈ W)
    (ha' : a ∈ W) (hm : m ∈ S) (o : Addr) (tp : TokenProgram) :
    ResRel (Twin S W w₀ v₀) (w.createAta rt p a o tp m) (v.createAta rt p a o tp m) := by
  unfold World.createAta Bank.openAccount
  refine ResRel.both rfl fun _ _ => ?_
  rw [h.mint hm, h.mint ha, h.tok ha]
  refine ResRel.bind (R := fun b b' => Twin S W w₀ v₀ { w with bank := b } { v with bank := b' }) ?_ fun b b' hb => ?_
  · refine ResRel.both rfl fun _ _ => ?_
    refine ResRel.both rfl fun _ _ => ?_
    refine ResRel.both rfl fun _ _ => ?_
    exact h.setToken ha' _
  · exact hb.payRent rt hp ha hp' ha' _

theorem ensureAta (h : Twin S W w₀ v₀ w v) (rt : Runtime) {p a m : Addr} (hp : p ∈ S) (ha : a ∈ S) (hp' : p ∈ W)
    (ha' : a ∈ W) (hm : m ∈ S) (o : Addr) (tp : TokenProgram) :
    ResRel (Twin S W w₀ v₀) (w.ensureAta rt p a o tp m) (v.ensureAta rt p a o tp m) := by
  unfold World.ensureAta
  rw [h.tok ha]
  cases v.bank.tokens a with
  | none => exact h.createAta rt hp ha hp' ha' hm o tp
  | some t =>
    refine ResRel.both rfl fun _ _ => ?_
    refine ResRel.both rfl fun _ _ => ?_
    refine ResRel.both rfl fun _ _ => ?_
    exact h

theorem checkAta (h : Twin S W w₀ v₀ w v) {a : Addr} (ha : a ∈ S) (o m : Addr) (tp : TokenProgram) :
    w.bank.checkAta a o tp m = v.bank.checkAta a o tp m := by
  unfold Bank.checkAta; rw [h.tok ha]

theorem settings (h : Twin S W w₀ v₀ w v) {a : Addr} (ha : a ∈ S) : w.settings a = v.settings a :=
  congrArg Account.settings (h.same a ha)

theorem transferTokens (h : Twin S W w₀ v₀ w v) {s d m : Addr} (hs : s ∈ S) (hd : d ∈ S) (hs' : s ∈ W) (hd' : d ∈ W)
    (hm : m ∈ S) (x : Addr) (tp : TokenProgram) (a k : Nat) :
    ResRel (Twin S W w₀ v₀) (w.transferTokens s d x m tp a k) (v.transferTokens s d x m tp a k) := by
  unfold World.transferTokens Bank.transferChecked Bank.transferCore
  rw [h.tok hs, h.tok hd, h.mint hm, h.settings hs, h.settings hd]
  refine ResRel.both rfl fun _ _ => ?_
  refine ResRel.both rfl fun _ _ => ?_
  refine ResRel.bind (R := fun b b' => Twin S W w₀ v₀ { w with bank := b } { v with bank := b' }) ?_ fun b b' hb => hb
  refine ResRel.both rfl fun _ _ => ?_
  refine ResRel.both rfl fun _ _ => ?_
  refine ResRel.both rfl fun _ _ => ?_
  refine ResRel.both rfl fun _ _ => ?_
  refine ResRel.both rfl fun _ _ => ?_
  refine ResRel.both rfl fun _ _ => ?_
  refine ResRel.both rfl fun _ _ => ?_
  refine ResRel.both rfl fun _ _ => ?_
  refine ResRel.both rfl fun _ _ => ?_
  refine ResRel.both rfl fun _ _ => ?_
  refine ResRel.both rfl fun _ _ => ?_
  refine ResRel.both rfl fun _ _ => ?_
  split
  · exact h
  · refine ResRel.both rfl fun _ _ => ?_
    exact (h.setToken hs' _).setToken hd' _

theorem mintTo (h : Twin S W w₀ v₀ w v) {m d : Addr} (hd : d ∈ S) (hd' : d ∈ W)
    (hm : m ∈ S) (hm' : m ∈ W) (x : Addr) (tp : TokenProgram) (a : Nat) :
    ResRel (fun b b' => Twin S W w₀ v₀ { w with bank := b } { v with bank := b' })
      (w.bank.mintTo m d x tp a) (v.bank.mintTo m d x tp a) := by
  unfold Bank.mintTo
  rw [h.tok hd, h.mint hm]
  iterate 8 refine ResRel.both rfl fun _ _ => ?_
  exact (h.setMint hm' _).setToken hd' _

theorem openMint (h : Twin S W w₀ v₀ w v) {m : Addr} (hm : m ∈ S) (hm' : m ∈ W) (md : MintData) :
    ResRel (fun b b' => Twin S W w₀ v₀ { w with bank := b } { v with bank := b' })
      (w.bank.openMint m md) (v.bank.openMint m md) := by
  unfold Bank.openMint
  rw [h.tok hm, h.mint hm]
  refine ResRel.both rfl fun _ _ => ?_
  exact h.setMint hm' _

theorem systemTransfer (h : Twin S W w₀ v₀ w v) {p a : Addr} (hp : p ∈ S) (ha : a ∈ S) (hp' : p ∈ W)
    (ha' : a ∈ W) (x : Nat) : ResRel (Twin S W w₀ v₀) (w.systemTransfer p a x) (v.systemTransfer p a x) := by
  unfold World.systemTransfer
  rw [h.lam hp]
  refine ResRel.both rfl fun _ _ => ?_
  have h1 := h.setLam hp' (v.lamports p - x)
  have h2 := h1.setLam ha' (upd v.lamports p (v.lamports p - x) a + x)
  have h3 : upd w.lamports p (v.lamports p - x) a = upd v.lamports p (v.lamports p - x) a := h1.lam ha
  show Twin S W w₀ v₀ _ _
  rw [h3]
  exact h2

theorem payMetaplex (h : Twin S W w₀ v₀ w v) (rt : Runtime) {p m : Addr} (hp : p ∈ S) (hp' : p ∈ W)
    (hx : .metadata m ∈ S) (hx' : .metadata m ∈ W) (he : .edition m ∈ S) (he' : .edition m ∈ W) :
    ResRel (Twin S W w₀ v₀) (Lockup.payMetaplex rt w p m) (Lockup.payMetaplex rt v p m) := by
  unfold Lockup.payMetaplex
  refine ResRel.bind (h.systemTransfer hp hx hp' hx' _) fun w₁ v₁ h => ?_
  refine ResRel.bind (h.payRent rt hp hx hp' hx' _) fun w₂ v₂ h => ?_
  exact h.payRent rt hp he hp' he' _

theorem metaplexCreate (h : Twin S W w₀ v₀ w v) (rt : Runtime) {p m : Addr} (hp : p ∈ S) (hp' : p ∈ W) (hm : m ∈ S)
    (hm' : m ∈ W) (hx : .metadata m ∈ S) (hx' : .metadata m ∈ W) (he : .edition m ∈ S) (he' : .edition m ∈ W)
    (x : Addr) (name : List Char) (i : NftInfo) (k : Option Nat) :
    ResRel (Twin S W w₀ v₀) (Lockup.metaplexCreate rt w p m x name i k) (Lockup.metaplexCreate rt v p m x name i k) := by
  unfold Lockup.metaplexCreate
  rw [h.mint hm, h.meta' hx]
  iterate 3 refine ResRel.both rfl fun _ _ => ?_
  refine ResRel.both rfl fun md _ => ?_
  iterate 2 refine ResRel.both rfl fun _ _ => ?_
  refine ResRel.bind (h.payMetaplex rt hp hp' hx hx' he he') fun w₁ v₁ h => ?_
  exact (h.setMint hm' _).setMeta hx' _

theorem metaplexVerify (h : Twin S W w₀ v₀ w v) {i c : Addr} (hi : .metadata i ∈ S) (hc : .metadata c ∈ S)
    (hi' : .metadata i ∈ W) (hc' : .metadata c ∈ W) (a : Addr) :
    ResRel (Twin S W w₀ v₀) (Lockup.metaplexVerifyItem w i c a) (Lockup.metaplexVerifyItem v i c a) := by
  unfold Lockup.metaplexVerifyItem
  rw [h.meta' hi, h.meta' hc]
  iterate 5 refine ResRel.both rfl fun _ _ => ?_
  exact (h.setMeta hi' _).setMeta hc' _

theorem metaplexSign (h : Twin S W w₀ v₀ w v) {m : Addr} (hm : .metadata m ∈ S) (hm' : .metadata m ∈ W) (c : Addr) :
    ResRel (Twin S W w₀ v₀) (Lockup.metaplexSign w m c) (Lockup.metaplexSign v m c) := by
  unfold Lockup.metaplexSign
  rw [h.meta' hm]
  iterate 2 refine ResRel.both rfl fun _ _ => ?_
  exact h.setMeta hm' _

theorem loadStream (h : Twin S W w₀ v₀ w v) (rt : Runtime) {x m : Addr} (hx : x ∈ S) (hm : m ∈ S) :
    Lockup.loadStream rt w x m = Lockup.loadStream rt v x m := by
  unfold Lockup.loadStream; rw [h.stream hx, h.mint hm]

theorem loadLk (h : Twin S W w₀ v₀ w v) (rt : Runtime) {t : Addr} (ht : t ∈ S) :
    Lockup.loadTreasury rt w t = Lockup.loadTreasury rt v t := by
  unfold Lockup.loadTreasury
  by_cases h' : t = .treasury .lockup
  · rw [h.lkTreasury (h' ▸ ht)]
  · have : ∀ (f g : Unit → Res Treasury), (require (t = .treasury .lockup) (.anchor .constraintSeeds) >>= f) =
        (require (t = .treasury .lockup) (.anchor .constraintSeeds) >>= g) := by
      intro f g; unfold require; rw [if_neg h']; rfl
    exact this _ _

theorem loadMi (h : Twin S W w₀ v₀ w v) (rt : Runtime) {t : Addr} (ht : t ∈ S) :
    Merkle.loadTreasury rt w t = Merkle.loadTreasury rt v t := by
  unfold Merkle.loadTreasury
  by_cases h' : t = .treasury .merkle
  · rw [h.miTreasury (h' ▸ ht)]
  · have : ∀ (f g : Unit → Res Treasury), (require (t = .treasury .merkle) (.anchor .constraintSeeds) >>= f) =
        (require (t = .treasury .merkle) (.anchor .constraintSeeds) >>= g) := by
      intro f g; unfold require; rw [if_neg h']; rfl
    exact this _ _

end Twin

end Solsab
