import Verif.Bytes.Packet
import Verif.Spec.Transactions
import Verif.Spec.Tree
/-!
# Specification vocabulary: transactions as bytes

What a transaction asks for, read off its instructions; how a planned instruction of the two programs becomes one; and
what the two programs make of a received transaction.
-/

namespace Solsab.Spec

open Wire Packet

/-- Some instruction names the address as a signer, or it pays the transaction fee. -/
def AsksSignature (payer : Bytes32) (ixs : List Instruction) (k : Bytes32) : Prop :=
  k = payer ∨ ∃ i ∈ ixs, ∃ m ∈ i.accounts, m.key = k ∧ m.isSigner = true

/-- Some instruction names the address as writable, or it pays the transaction fee. -/
def AsksWrite (payer : Bytes32) (ixs : List Instruction) (k : Bytes32) : Prop :=
  k = payer ∨ ∃ i ∈ ixs, ∃ m ∈ i.accounts, m.key = k ∧ m.isWritable = true

/-- The received transaction says what was asked for, no less and no more. -/
structure Says (payer blockhash : Bytes32) (ixs : List Instruction) (r : Received) : Prop where
  feePayer : r.feePayer = payer
  blockhash : r.blockhash = blockhash
  signers : ∀ k, k ∈ r.signers ↔ AsksSignature payer ixs k
  writable : ∀ k, k ∈ r.writable ↔ AsksWrite payer ixs k
  calls : r.calls = ixs.map fun i => ⟨i.program, i.accounts.map Meta.key, i.data⟩

/-- A length takes one byte up to 127, two up to 16383, else three. -/
def lengthBytes (n : Nat) : Nat := if n ≤ 127 then 1 else if n ≤ 16383 then 2 else 3

/-- How many different addresses sign. -/
def signatureCount (payer : Bytes32) (ixs : List Instruction) : Nat :=
  (payer :: ixs.flatMap fun i => (i.accounts.filter Meta.isSigner).map Meta.key).dedup.length

/-- How many different addresses occur. -/
def addressCount (payer : Bytes32) (ixs : List Instruction) : Nat :=
  (payer :: ixs.flatMap fun i => i.program :: i.accounts.map Meta.key).dedup.length

/-- Bytes of one instruction: one byte for the program and for each account, the data, and two lengths. -/
def instructionSize (i : Instruction) : Nat :=
  1 + lengthBytes i.accounts.length + i.accounts.length + lengthBytes i.data.length + i.data.length

/-- An instruction of the two programs, as a client puts it into a transaction. -/
def Planned.toInstruction (ids : Ids) (rt : Runtime) (p : Planned) : Instruction where
  program := Pda.progId (match p with | .lockup .. => .lockup | .merkle .. => .merkle)
  accounts := (metasOf ids p.ix).map fun m => ⟨rt.keyBytes m.addr, m.isSigner, m.isWritable⟩
  data := (p.toMessage ids).data

/-- What the two programs are given of a call: a message if one of them is called, nothing if it is the compute budget
program; other programs are not modelled here. -/
def callItems (ids : Ids) (c : Call) : Option (List TxItem) :=
  if c.program = Pda.lockupId then some [.message ⟨.lockup, c.accounts.map ids.addrOf, c.data⟩]
  else if c.program = Pda.merkleId then some [.message ⟨.merkle, c.accounts.map ids.addrOf, c.data⟩]
  else if c.program = computeBudgetId then some []
  else none

/-- The items of a received transaction. -/
def receivedItems (ids : Ids) : List Call → Option (List TxItem)
  | [] => some []
  | c :: cs => do
      let a ← callItems ids c
      let b ← receivedItems ids cs
      pure (a ++ b)

/-- The privileges of a received transaction. -/
def receivedHeader (ids : Ids) (r : Received) : Header := ⟨r.signers.map ids.addrOf, r.writable.map ids.addrOf⟩

/-- The claim of one allocation, as a client puts it into a transaction. -/
def claimInstruction (ids : Ids) (rt : Runtime) (c : Merkle.ClaimAccts) (index : UInt32) (amount : UInt64)
    (proof : List Bytes32) : Instruction :=
  (Planned.merkle (.claim c index amount proof) (.claim index amount proof)).toInstruction ids rt

/-- The fourteen addresses of a claim: the program and its accounts. -/
def claimAddresses (ids : Ids) (rt : Runtime) (c : Merkle.ClaimAccts) : List Bytes32 :=
  Pda.merkleId :: ([c.claimer, c.recipient, c.recipientAta, c.treasury, c.airdropTokenMint, c.campaign, c.campaignAta,
    c.claimReceipt, tokenProgramId ids c.airdropTokenProgram, ids.associatedToken, c.chainlinkProgram,
    c.chainlinkSolUsdFeed, ids.system] : List Addr).map rt.keyBytes

end Solsab.Spec
