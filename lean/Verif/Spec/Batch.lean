import Verif.Spec.CreateFor
import Verif.Spec.Stream
/-!
# Specification vocabulary: creating many streams

What somebody who opens a list of streams in one token (a payroll, the post-deployment script) has to provide, and
what the result is.
-/

namespace Solsab.Spec

open Lockup

/-- One stream to open. -/
structure Order where
  sender : Addr
  recipient : Addr
  salt : Fin (2 ^ 128)
  deposit : UInt64
  start : UInt64
  cliff : UInt64
  «end» : UInt64
  startUnlock : UInt64
  cliffUnlock : UInt64
  cancelable : Bool

/-- The address of the stream. -/
def Order.stream (o : Order) : Addr := streamAddr o.sender o.salt.val

/-- The mint of its NFT. -/
def Order.nft (o : Order) : Addr := .streamNftMint o.sender o.salt.val

/-- The terms are allowed. -/
def Order.Valid (o : Order) : Prop :=
  ValidTerms ⟨o.cliff.toNat, o.end.toNat, o.start.toNat⟩
    ⟨o.startUnlock.toNat, o.cliffUnlock.toNat, o.deposit.toNat, 0, 0⟩

/-- Its deposit. -/
def Order.cost (o : Order) : Nat := o.deposit.toNat

/-- The creation paid by `p` in token `m` (token program `tp`), with token program `ntp` for the NFT. -/
def Order.create (p m : Addr) (tp ntp : TokenProgram) (o : Order) : Ix :=
  .lockup (.createWithTimestamps (createFor p o.sender o.recipient m tp ntp o.salt.val) o.salt o.deposit o.start o.cliff
    o.end o.startUnlock o.cliffUnlock o.cancelable)

/-- The stream account the order asks for. -/
def Order.data (rt : Runtime) (m : Addr) (o : Order) : StreamData where
  amounts := { startUnlock := o.startUnlock.toNat, cliffUnlock := o.cliffUnlock.toNat, deposited := o.deposit.toNat,
               refunded := 0, withdrawn := 0 }
  depositedTokenMint := m
  bump := rt.bump o.stream
  salt := o.salt.val
  isCancelable := o.cancelable
  isDepleted := false
  timestamps := { cliff := o.cliff.toNat, «end» := o.end.toNat, start := o.start.toNat }
  sender := o.sender
  wasCanceled := false

/-- `p` can pay for all the orders: the stream counter has room for them, `p` signs, holds the rent of as many
streams and the sum of the deposits, in an associated token account that can pay out. -/
structure FundedForAll (rt : Runtime) (w : World) (p m : Addr) (md : MintData) (ntp : TokenProgram)
    (orders : List Order) : Prop where
  collection : ∃ nd, w.lk.nftCollectionData = some nd ∧ nd.totalSupply + orders.length < 2 ^ 64
  mint : w.bank.mints m = some md
  signer : p.canSign = true
  tokens : ∃ t, w.bank.tokens (.ata p md.program m) = some t ∧ t.owner = p ∧ (orders.map Order.cost).sum ≤ t.amount ∧
    t.frozen = false
  unguarded : (w.settings (.ata p md.program m)).cpiGuard = false
  flows : md.transferBlocked = false
  thawed : md.startsFrozen = false
  lamports : orders.length * createRent rt ntp m md.program ≤ w.lamports p

/-- The place of an order is free: nobody has opened that stream or its vault. -/
structure Order.Free (w : World) (m : Addr) (tp : TokenProgram) (o : Order) : Prop where
  unused : streamExists w o.sender o.salt.val = false
  vaultUnused : w.bank.tokens (.ata o.stream tp m) = none

/-- The order was carried out: the stream stores what was asked for, the vault has the deposit (less the token's own
fee), the recipient has the NFT. -/
structure Order.Done (rt : Runtime) (w : World) (m : Addr) (md : MintData) (ntp : TokenProgram) (o : Order) : Prop where
  stream : w.lk.streams o.stream = some (o.data rt m)
  vault : w.bank.tokens (.ata o.stream md.program m) =
    some ⟨md.program, m, o.stream, o.deposit.toNat - md.fee o.deposit.toNat, false⟩
  nft : w.bank.tokens (.ata o.recipient ntp o.nft) = some ⟨ntp, o.nft, o.recipient, 1, false⟩

/-- All orders were carried out between `w` and `w'`, and nothing else happened. -/
structure BatchDone (rt : Runtime) (w w' : World) (p m : Addr) (md : MintData) (ntp : TokenProgram)
    (orders : List Order) : Prop where
  done : ∀ o ∈ orders, o.Done rt w' m md ntp
  /-- `p` paid the sum of the deposits -/
  paid : ∃ t, w.bank.tokens (.ata p md.program m) = some t ∧
    w'.bank.tokens (.ata p md.program m) = some { t with amount := t.amount - (orders.map Order.cost).sum }
  /-- and at most the rent -/
  rent : w.lamports p ≤ w'.lamports p + orders.length * createRent rt ntp m md.program
  /-- the counter counts them -/
  counter : ∃ nd, w.lk.nftCollectionData = some nd ∧
    w'.lk.nftCollectionData = some { nd with totalSupply := nd.totalSupply + orders.length }
  /-- no other stream, token account or mint changes -/
  streams : ∀ a, (∀ o ∈ orders, a ≠ o.stream) → w'.lk.streams a = w.lk.streams a
  tokens : ∀ a, a ≠ .ata p md.program m → (∀ o ∈ orders, a ≠ .ata o.stream md.program m ∧ a ≠ .ata o.recipient ntp o.nft) →
    w'.bank.tokens a = w.bank.tokens a
  mints : ∀ a, (∀ o ∈ orders, a ≠ o.nft) → w'.bank.mints a = w.bank.mints a
  treasury : w'.lk.treasury = w.lk.treasury
  merkle : w'.mi = w.mi
  clock : w'.clock = w.clock

/-- The three streams of the post-deployment script, from and to the signer: an hour without cliff; three hours with a
cliff after one, when a fifth is released; three days, not cancelable, with a cliff after one, a part released at the
start and a third at the cliff. They are created at the times `a`, `b`, `c`. Amounts in units of 10⁻⁹. -/
def scriptOrders (signer : Addr) (a b c : Nat) : List Order :=
  [⟨signer, signer, 1, 1000000000000, .ofNat a, 0, .ofNat (a + 3600), 0, 0, true⟩,
   ⟨signer, signer, 2, 10000000000000, .ofNat b, .ofNat (b + 3600), .ofNat (b + 10800), 0, 2000000000000, true⟩,
   ⟨signer, signer, 3, 30000000000000, .ofNat c, .ofNat (c + 86400), .ofNat (c + 259200), 2000000000000, 10000000000000,
     false⟩]

end Solsab.Spec
