import Verif.Machine
import Verif.Spec.Api
/-!
# The airdrop protocol as a small state machine

A campaign, without accounts, tokens and bytes: its terms, the set of claimed indices, and the time of the first
claim, if there was one.  `Props/Airdrop` proves that the merkle_instant program implements it.
-/

namespace Solsab.Spec.Airdrop

open Merkle (lexLe leBytes)

structure Campaign where
  creator : Addr
  token : Addr
  root : Bytes32
  start : Nat
  /-- 0: never. -/
  expiration : Nat
  name : List UInt8
  cid : List UInt8
  claimed : Nat → Bool
  first : Option Nat

/-- The claim window is open. -/
def Campaign.isOpen (p : Campaign) (t : Nat) : Prop := p.start ≤ t ∧ (p.expiration = 0 ∨ t < p.expiration)

instance (p : Campaign) (t : Nat) : Decidable (p.isOpen t) := inferInstanceAs (Decidable (_ ∧ _))

def Campaign.expired (p : Campaign) (t : Nat) : Prop := p.expiration ≠ 0 ∧ p.expiration ≤ t

instance (p : Campaign) (t : Nat) : Decidable (p.expired t) := inferInstanceAs (Decidable (_ ∧ _))

/-- The creator may take tokens back: nobody has claimed yet, or the first claim is at most seven days old, or the
campaign has expired. -/
def Campaign.mayClawback (p : Campaign) (t : Nat) : Prop :=
  p.expired t ∨ match p.first with
    | none => True
    | some f => t ≤ f + 7 * 86400

instance (p : Campaign) (t : Nat) : Decidable (p.mayClawback t) := by
  unfold Campaign.mayClawback
  cases p.first <;> exact inferInstance

/-- The proof leads from the entry `(index, recipient, amount)` to the root: hash the entry twice, then fold in the
elements of the proof, the smaller of two hashes first. -/
def Proves (rt : Runtime) (root : Bytes32) (index : Nat) (recipient : Addr) (amount : Nat) (proof : List Bytes32) : Prop :=
  proof.foldl (fun h e => if lexLe h.val e.val then rt.keccak (h.val ++ e.val) else rt.keccak (e.val ++ h.val))
    (rt.keccak (rt.keccak (leBytes 4 index ++ (rt.keyBytes recipient).val ++ leBytes 8 amount)).val) = root

instance (rt : Runtime) (root : Bytes32) (i : Nat) (r : Addr) (a : Nat) (p : List Bytes32) : Decidable (Proves rt root i r a p) :=
  inferInstanceAs (Decidable (_ = _))

inductive Action
  | claim (index : Nat) (recipient : Addr) (amount : Nat) (proof : List Bytes32)
  | clawback (by_ : Addr)

/-- The machine. -/
def act (rt : Runtime) (t : Nat) (p : Campaign) : Action → Option Campaign
  | .claim i r a proof =>
    if p.isOpen t ∧ p.claimed i = false ∧ Proves rt p.root i r a proof then
      some { p with claimed := fun j => if j = i then true else p.claimed j, first := some (p.first.getD t) }
    else none
  | .clawback who => if who = p.creator ∧ p.mayClawback t then some p else none

/-- A run of the machine: actions at non-decreasing times between `t` and `t'`. -/
inductive Run (rt : Runtime) : Nat → Campaign → List (Nat × Action) → Nat → Campaign → Prop
  | nil {t t' : Nat} {p : Campaign} (h : t ≤ t') : Run rt t p [] t' p
  | cons {t u t' : Nat} {p q r : Campaign} {a : Action} {l : List (Nat × Action)} (h : t ≤ u) (ha : act rt u p a = some q)
      (hl : Run rt u q l t' r) : Run rt t p ((u, a) :: l) t' r

/-! ## Reading the chain -/

/-- The campaign at address `x`: the account, and which receipts exist. -/
def read (w : World) (x : Addr) : Option Campaign :=
  (w.mi.campaigns x).map fun cd =>
    { creator := cd.creator, token := cd.airdropTokenMint, root := cd.merkleRoot, start := cd.campaignStartTime,
      expiration := cd.expirationTime, name := cd.name, cid := cd.ipfsCid,
      claimed := fun i => w.mi.receipts (.claimReceipt x i)
      first := if cd.firstClaimTime = 0 then none else some cd.firstClaimTime }

/-- What an instruction asks of the campaign at `x`. -/
def asks (ix : Ix) (x : Addr) : Option Action :=
  match ix with
  | .merkle (.claim c i a proof) => if c.campaign = x then some (.claim i.toNat c.recipient a.toNat proof) else none
  | .merkle (.clawback c _) => if c.campaign = x then some (.clawback c.campaignCreator) else none
  | _ => none

/-- The campaign that an instruction asks to create, and its address. -/
def opens (ix : Ix) : Option (Addr × Campaign) :=
  match ix with
  | .merkle (.createCampaign c root st ex name cid _ _) =>
    some (.campaign c.creator root st.toNat ex.toNat name c.airdropTokenMint,
      ⟨c.creator, c.airdropTokenMint, root, st.toNat, ex.toNat, name, cid, fun _ => false, none⟩)
  | _ => none

/-- What the protocol makes, at time `t`, of the campaign at `x` (`none`: there is none) when the instruction `ix` is
executed.  The outer `none` means: not allowed, the instruction has to fail. -/
def next (rt : Runtime) (ix : Ix) (x : Addr) (t : Nat) : Option Campaign → Option (Option Campaign)
  | none =>
    match opens ix with
    | some (y, p) => if y = x then some (some p) else some none
    | none => if (asks ix x).isSome then none else some none
  | some p =>
    match opens ix with
    | some (y, _) => if y = x then none else some (some p)
    | none =>
      match asks ix x with
      | some a => (act rt t p a).map some
      | none => some (some p)

end Solsab.Spec.Airdrop
