import Mathlib.Data.List.Dedup
import Verif.Bytes.Wire
import Verif.Bytes.Pda
/-!
# Transactions as bytes

What a wallet signs and what travels over the network is a byte string: a legacy Solana transaction, the format the
project's scripts produce (`.rpc()` and `.preInstructions(...)` of `@coral-xyz/anchor`, `@solana/web3.js` 1.x:
`scripts/ts/init-lockup-and-create-streams.ts:88-112`, `scripts/ts/init-merkle-instant-and-create-campaign.ts:40-62`,
`tests/common/context.ts`).  This file models the client side (collecting the addresses of all instructions, each once,
sorted into four groups by their privileges, and writing the message) and the validator side (reading it, the sanity
checks, the privileges each address has).  Neither is in /repo; the format is Solana's.

Simplifications.  The order of the addresses within a group is the model's own (web3.js sorts them by their base58
text); nothing below depends on it.  The runtime's write demotion of reserved and called program addresses is left
out.  Signature verification is a parameter.
-/

namespace Solsab.Packet

open Borsh Abi

/-- An account of an instruction, with the privileges the client asks for (`AccountMeta` of web3.js). Solana, used at
`scripts/ts/init-lockup-and-create-streams.ts:91-112`. -/
structure Meta where
  key : Bytes32
  isSigner : Bool
  isWritable : Bool

/-- An instruction as the client builds it (`TransactionInstruction`). Solana, used at
`scripts/ts/init-lockup-and-create-streams.ts:88-112`. -/
structure Instruction where
  program : Bytes32
  accounts : List Meta
  data : List UInt8

/-- `compact-u16`: seven bits per byte, least significant first; only the shortest form is read back. Solana
(`ShortU16`), no line of /repo. -/
def short : Codec Nat where
  enc n :=
    if n < 128 then [UInt8.ofNat n]
    else if n < 16384 then [UInt8.ofNat (n % 128 + 128), UInt8.ofNat (n / 128)]
    else [UInt8.ofNat (n % 128 + 128), UInt8.ofNat (n / 128 % 128 + 128), UInt8.ofNat (n / 16384)]
  dec
    | [] => none
    | a :: l =>
      if a.toNat < 128 then some (a.toNat, l)
      else match l with
        | [] => none
        | b :: l =>
          if b.toNat = 0 then none
          else if b.toNat < 128 then some (a.toNat - 128 + 128 * b.toNat, l)
          else match l with
            | [] => none
            | c :: l =>
              if c.toNat = 0 ∨ 3 < c.toNat then none
              else some (a.toNat - 128 + 128 * (b.toNat - 128) + 16384 * c.toNat, l)

/-- A list preceded by its length. Solana (`short_vec`), no line of /repo. -/
def shortVec {α : Type} (c : Codec α) : Codec (List α) where
  enc xs := short.enc xs.length ++ xs.flatMap c.enc
  dec l := do
    let (n, l) ← short.dec l
    decMany c n l

/-- An Ed25519 signature. Solana, no line of /repo. -/
abbrev Sig := { l : List UInt8 // l.length = 64 }

/-- Solana, no line of /repo. -/
def sig : Codec Sig where
  enc x := x.val
  dec l := if h : 64 ≤ l.length then some (⟨l.take 64, by simp [h]⟩, l.drop 64) else none

/-- An instruction of a message: positions in the list of addresses, and the data. Solana (`CompiledInstruction`), no
line of /repo. -/
structure CompiledIx where
  program : UInt8
  accounts : List UInt8
  data : List UInt8

/-- A message: how many addresses sign, how many of the signing and of the other ones are only read, the addresses, a
recent blockhash, the instructions. Solana (`Message`), no line of /repo. -/
structure Compiled where
  signers : UInt8
  readonlySigners : UInt8
  readonlyOthers : UInt8
  keys : List Bytes32
  blockhash : Bytes32
  instructions : List CompiledIx

/-- Solana, no line of /repo. -/
def compiledIx : Codec CompiledIx :=
  struct (pair u8 (pair (shortVec u8) (shortVec u8))) (fun (a, b, c) => ⟨a, b, c⟩) fun x => (x.program, x.accounts, x.data)

/-- Solana, no line of /repo. -/
def compiled : Codec Compiled :=
  struct (pair u8 (pair u8 (pair u8 (pair (shortVec key) (pair key (shortVec compiledIx))))))
    (fun (a, b, c, d, e, f) => ⟨a, b, c, d, e, f⟩)
    fun x => (x.signers, x.readonlySigners, x.readonlyOthers, x.keys, x.blockhash, x.instructions)

/-! ## The client -/

/-- Everything the transaction asks for: the fee payer signs and pays, the accounts as each instruction wants them,
the programs. web3.js (`Transaction.compileMessage`), used at `scripts/ts/init-lockup-and-create-streams.ts:91-112`. -/
def asked (payer : Bytes32) (ixs : List Instruction) : List Meta :=
  ⟨payer, true, true⟩ :: ixs.flatMap fun i => i.accounts ++ [⟨i.program, false, false⟩]

/-- Whether some instruction needs the signature. web3.js (`Transaction.compileMessage`), as above. -/
def signs (ms : List Meta) (k : Bytes32) : Bool := ms.any fun m => m.key = k && m.isSigner

/-- Whether some instruction writes. web3.js (`Transaction.compileMessage`), as above. -/
def writes (ms : List Meta) (k : Bytes32) : Bool := ms.any fun m => m.key = k && m.isWritable

/-- The addresses of one group, each once, without the fee payer, who comes first. web3.js
(`Transaction.compileMessage`), as above. -/
def group (payer : Bytes32) (ms : List Meta) (s w : Bool) : List Bytes32 :=
  (ms.map Meta.key).dedup.filter fun k => k ≠ payer && signs ms k == s && writes ms k == w

/-- The addresses that must sign, in the order of the signatures. web3.js (`Transaction.compileMessage`), as above. -/
def signerKeys (payer : Bytes32) (ixs : List Instruction) : List Bytes32 :=
  payer :: (group payer (asked payer ixs) true true ++ group payer (asked payer ixs) true false)

/-- All addresses. web3.js (`Transaction.compileMessage`), as above. -/
def allKeys (payer : Bytes32) (ixs : List Instruction) : List Bytes32 :=
  signerKeys payer ixs ++
    (group payer (asked payer ixs) false true ++ group payer (asked payer ixs) false false)

/-- Position of an address. web3.js (`Transaction.compileMessage`), as above. -/
def position (keys : List Bytes32) (k : Bytes32) : UInt8 := UInt8.ofNat (keys.idxOf k)

/-- The message for a list of instructions. web3.js (`Transaction.compileMessage`), as above. -/
def compile (payer : Bytes32) (ixs : List Instruction) (blockhash : Bytes32) : Compiled where
  signers := UInt8.ofNat (signerKeys payer ixs).length
  readonlySigners := UInt8.ofNat (group payer (asked payer ixs) true false).length
  readonlyOthers := UInt8.ofNat (group payer (asked payer ixs) false false).length
  keys := allKeys payer ixs
  blockhash := blockhash
  instructions := ixs.map fun i =>
    ⟨position (allKeys payer ixs) i.program, i.accounts.map fun m => position (allKeys payer ixs) m.key, i.data⟩

/-- The bytes that are signed. web3.js (`Message.serialize`), as above. -/
def messageBytes (payer : Bytes32) (ixs : List Instruction) (blockhash : Bytes32) : List UInt8 :=
  compiled.enc (compile payer ixs blockhash)

/-- The bytes that are sent: the signatures of all signers, then the message. web3.js (`Transaction.serialize`), as
above. -/
def transaction (sign : Bytes32 → List UInt8 → Sig) (payer : Bytes32) (ixs : List Instruction) (blockhash : Bytes32) :
    List UInt8 :=
  let msg := messageBytes payer ixs blockhash
  (shortVec sig).enc ((signerKeys payer ixs).map fun k => sign k msg) ++ msg

/-! ## The validator -/

/-- One call, as the runtime hands it to the program. Solana, no line of /repo. -/
structure Call where
  program : Bytes32
  accounts : List Bytes32
  data : List UInt8
  deriving DecidableEq

/-- What a validator understands: who pays, who signed, what may be written, the calls in order. Solana, no line of
/repo. -/
structure Received where
  feePayer : Bytes32
  blockhash : Bytes32
  signers : List Bytes32
  writable : List Bytes32
  calls : List Call
  deriving DecidableEq

/-- `PACKET_DATA_SIZE`: the IPv6 minimum MTU less its header. Solana, no line of /repo. -/
def maxSize : Nat := 1280 - 40 - 8

/-- The address at a position. Solana, no line of /repo. -/
def lookup (keys : List Bytes32) (i : UInt8) : Option Bytes32 := keys[i.toNat]?

/-- A call with the positions resolved; the fee payer is never the program. Solana (`Message::sanitize`), no line of
/repo. -/
def resolve (keys : List Bytes32) (i : CompiledIx) : Option Call := do
  guard (i.program ≠ 0)
  let p ← lookup keys i.program
  let accounts ← i.accounts.mapM (lookup keys)
  pure ⟨p, accounts, i.data⟩

/-- What a message says. Solana (`Message::sanitize`, `is_signer`, `is_writable`, `AccountLoadedTwice`), no line of
/repo. -/
def understand (msg : List UInt8) : Option Received := do
  let (m, rest) ← compiled.dec msg
  guard (rest = [])
  guard (m.readonlySigners.toNat < m.signers.toNat)
  guard (m.signers.toNat + m.readonlyOthers.toNat ≤ m.keys.length)
  guard m.keys.Nodup
  let payer ← m.keys.head?
  let calls ← m.instructions.mapM (resolve m.keys)
  pure { feePayer := payer
         blockhash := m.blockhash
         signers := m.keys.take m.signers.toNat
         writable := m.keys.take (m.signers.toNat - m.readonlySigners.toNat) ++
           (m.keys.take (m.keys.length - m.readonlyOthers.toNat)).drop m.signers.toNat
         calls := calls }

/-- Whether a signature is that of the address over the bytes. Ed25519, no line of /repo. -/
abbrev Verify := Bytes32 → List UInt8 → Sig → Bool

/-- A packet that is not too long, whose signatures are exactly those of the signers, in order, over the message.
Solana, no line of /repo. -/
def receive (verify : Verify) (packet : List UInt8) : Option Received := do
  guard (packet.length ≤ maxSize)
  let (sigs, msg) ← (shortVec sig).dec packet
  let r ← understand msg
  guard (sigs.length = r.signers.length)
  guard ((r.signers.zip sigs).all fun (k, s) => verify k msg s)
  pure r

/-- The compute budget program. Solana, used at `scripts/ts/init-lockup-and-create-streams.ts:88-89`. -/
def computeBudgetId : Bytes32 :=
  ⟨[3, 6, 70, 111, 229, 33, 23, 50, 255, 236, 173, 186, 114, 195, 155, 231, 188, 140, 229, 187, 197, 247, 18, 107, 44,
    67, 155, 58, 64, 0, 0, 0], by decide⟩

example : String.ofList (Base58.encode computeBudgetId.val) = "ComputeBudget111111111111111111111111111111" := by
  decide +kernel

/-- `ComputeBudgetProgram.setComputeUnitLimit({ units })`, `scripts/ts/init-lockup-and-create-streams.ts:88-89`. -/
def setComputeUnitLimit (units : Nat) : Instruction where
  program := computeBudgetId
  accounts := []
  data := 2 :: Merkle.leBytes 4 units

end Solsab.Packet
