import Verif.Spec.Wire
/-!
# Specification vocabulary: transactions

A transaction is one list of privileges, agreed to by its signers, and a list of messages run in order under all of
them. It takes effect as a whole or not at all.
-/

namespace Solsab.Spec

open Wire

/-- One item of a transaction: a message to one of the two programs, or something else that happens on the chain. -/
inductive TxItem
  | message (m : Message)
  | other (e : EnvIx)

/-- The items of a transaction, run one after the other until one fails. What others do needs their signature too. -/
inductive RunsTo (ids : Ids) (rt : Runtime) (h : Header) : World → List TxItem → World → Prop
  | nil (w : World) : RunsTo ids rt h w [] w
  | message {w w₁ w₂ : World} {m : Message} {ret : List UInt8} {items : List TxItem}
      (hx : exec ids rt w h m = .ok (w₁, ret)) (rest : RunsTo ids rt h w₁ items w₂) :
      RunsTo ids rt h w (.message m :: items) w₂
  | other {w w₁ w₂ : World} {e : EnvIx} {items : List TxItem} (hx : step rt w (.env e) = .ok w₁)
      (hs : ∀ p, signerOf (.env e) = some p → p ∈ h.signers) (rest : RunsTo ids rt h w₁ items w₂) :
      RunsTo ids rt h w (.other e :: items) w₂

open Classical in
/-- What a transaction does: all of it or nothing. -/
noncomputable def transact (ids : Ids) (rt : Runtime) (h : Header) (w : World) (items : List TxItem) : World :=
  if hx : ∃ w', RunsTo ids rt h w items w' then hx.choose else w

/-- A history of transactions, failed ones included. -/
noncomputable def ledger (ids : Ids) (rt : Runtime) (w : World) (txs : List (Header × List TxItem)) : World :=
  txs.foldl (fun w tx => transact ids rt tx.1 w tx.2) w

/-- An instruction together with the call data that carries its arguments. -/
inductive Planned
  | lockup (i : LockupIx) (call : Abi.LockupCall)
  | merkle (i : MerkleIx) (call : Abi.MerkleCall)

def Planned.ix : Planned → Ix
  | .lockup i _ => .lockup i
  | .merkle i _ => .merkle i

/-- The call data carries the arguments, within the limits of the encoding. -/
def Planned.Sound (ids : Ids) : Planned → Prop
  | .lockup i call => LockupCarries ids i call
  | .merkle i call => MerkleCarries ids i call ∧ MerkleCall.Sized call ∧ MerkleCall.Texts call

/-- The message a client builds for it. -/
def Planned.toMessage (ids : Ids) : Planned → Message
  | .lockup i call => lockupMessage ids i call
  | .merkle i call => merkleMessage ids i call

/-- The privileges a client asks for on behalf of several instructions: all of them together. -/
def bundleHeader (ids : Ids) (ps : List Planned) : Header := headerOf (ps.flatMap fun p => metasOf ids p.ix)

end Solsab.Spec
