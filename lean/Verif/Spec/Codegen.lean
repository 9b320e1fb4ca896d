import Verif.Codegen
import Verif.Spec.Errors
/-!
# Specification vocabulary: reading TypeScript

A reader for the small part of TypeScript that the generated files use. It knows the language, not the generators: it
looks at one line after the other.
-/

namespace Solsab.Spec.Ts

open Codegen (Str IdlTy IdlField IdlType IdlError)

/-- The lines of a text. -/
def linesOf : Str → List Str
  | [] => [[]]
  | c :: cs =>
    if c = '\n' then [] :: linesOf cs
    else match linesOf cs with
      | [] => [[c]]
      | l :: ls => (c :: l) :: ls

/-- What follows a prefix. -/
def after? : Str → Str → Option Str
  | [], s => some s
  | p :: ps, c :: cs => if p = c then after? ps cs else none
  | _ :: _, [] => none

/-- The text before the first `c`, and what follows it. -/
def cut? (c : Char) : Str → Option (Str × Str)
  | [] => none
  | x :: xs => if x = c then some ([], xs) else (cut? c xs).map fun r => (x :: r.1, r.2)

/-- A decimal numeral. -/
def number? (s : Str) : Option Nat :=
  if s = [] then none
  else s.foldl (fun acc c => do
    let n ← acc
    if c.isDigit then some (10 * n + (c.toNat - '0'.toNat)) else none) (some 0)

/-- `  name: text<stop>` and nothing after it. -/
def property? (stop : Char) (line : Str) : Option (Str × Str) := do
  let rest ← after? "  ".toList line
  let (name, rest) ← cut? ':' rest
  let rest ← after? " ".toList rest
  let (text, rest) ← cut? stop rest
  if rest = [] then some (name, text) else none

/-! ## The error table -/

/-- The properties of an object literal up to its closing line, with numbers as values. -/
def members? : List Str → Option (List (Str × Nat))
  | [] => none
  | l :: ls =>
    if l = "} as const;".toList then some []
    else do
      let (name, text) ← property? ',' l
      let n ← number? text
      let rest ← members? ls
      some ((name, n) :: rest)

/-- The constant `ProgramErrorCode` of a TypeScript file. -/
def errorTable? : List Str → Option (List (Str × Nat))
  | [] => none
  | l :: ls => if l = "export const ProgramErrorCode = {".toList then members? ls else errorTable? ls

/-! ## Type declarations -/

/-- A type of the generated files: a name with some number of `[]` after it. -/
structure TsType where
  base : Str
  dims : Nat
  deriving DecidableEq

/-- A declaration: an object type or a union of string literals. -/
inductive Decl
  | object (name : Str) (fields : List (Str × TsType))
  | union (name : Str) (members : List Str)
  deriving DecidableEq

def Decl.name : Decl → Str
  | .object n _ => n
  | .union n _ => n

/-- Read `T[][]...`: the name up to the first bracket, then the brackets. -/
def dims? : Str → Option Nat
  | [] => some 0
  | '[' :: ']' :: rest => (dims? rest).map (· + 1)
  | _ => none

def type? (s : Str) : Option TsType :=
  match cut? '[' s with
  | none => some ⟨s, 0⟩
  | some (base, rest) => (dims? ('[' :: rest)).map fun d => ⟨base, d⟩

/-- Read `"A" | "B" | ...;`: after an opening quote, the rest of a union. `fuel` bounds the number of members. -/
def literals? : Nat → Str → Option (List Str)
  | 0, _ => none
  | fuel + 1, s => do
    let (x, rest) ← cut? '"' s
    if rest = ";".toList then some [x]
    else do
      let rest ← after? " | \"".toList rest
      let xs ← literals? fuel rest
      some (x :: xs)

/-- The fields of an object type up to its closing line, and the lines after it. -/
def fields? : List Str → Option (List (Str × TsType) × List Str)
  | [] => none
  | l :: ls =>
    if l = "};".toList then some ([], ls)
    else do
      let (name, text) ← property? ';' l
      let t ← type? text
      let (fs, rest) ← fields? ls
      some ((name, t) :: fs, rest)

/-- The declarations of a file. Lines that do not begin with `export type` are skipped (comments, imports, empty lines).
`fuel` bounds the number of lines. -/
def decls? : Nat → List Str → Option (List Decl)
  | 0, [] => some []
  | 0, _ :: _ => none
  | _ + 1, [] => some []
  | fuel + 1, l :: ls =>
    match after? "export type ".toList l with
    | none => decls? fuel ls
    | some rest => do
      let (name, rest) ← cut? ' ' rest
      let rest ← after? "= ".toList rest
      if rest = "{".toList then do
        let (fs, ls) ← fields? ls
        let ds ← decls? fuel ls
        some (.object name fs :: ds)
      else do
        let rest ← after? "\"".toList rest
        let ms ← literals? rest.length rest
        let ds ← decls? fuel ls
        some (.union name ms :: ds)

/-- The declarations of a TypeScript file. -/
def declarations? (s : Str) : Option (List Decl) := decls? (linesOf s).length (linesOf s)

/-- What the file imports. -/
def importsBN (s : Str) : Prop := "import type { BN } from \"@coral-xyz/anchor\";".toList ∈ linesOf s
def importsPublicKey (s : Str) : Prop := "import { type PublicKey } from \"@solana/web3.js\";".toList ∈ linesOf s

/-! ## What should be there -/

/-- The name of a thing in a program: letters, digits and underscores, at least one. -/
def Ident (s : Str) : Prop := s ≠ [] ∧ ∀ c ∈ s, c.isAlphanum = true ∨ c = '_'

instance (s : Str) : Decidable (Ident s) := inferInstanceAs (Decidable (_ ∧ _))

/-- The TypeScript type for a type of the interface, `none` for those the generators do not know: 64 bits and more are
`BN`, less is `number`, keys are `PublicKey`, arrays are arrays, everything else keeps its name. -/
def typeFor : IdlTy → Option TsType
  | .prim s => some ⟨
      if s = "u64".toList ∨ s = "u128".toList ∨ s = "i64".toList then "BN".toList
      else if s = "u8".toList ∨ s = "u32".toList then "number".toList
      else if s = "bool".toList then "boolean".toList
      else if s = "pubkey".toList then "PublicKey".toList
      else s, 0⟩
  | .defined n => some ⟨n, 0⟩
  | .array e _ => (typeFor e).map fun t => ⟨t.base, t.dims + 1⟩
  | .other => none

/-- A lower-case letter. -/
def lower (c : Char) : Bool := decide ('a' ≤ c ∧ c ≤ 'z')

/-- The rest of a name after a letter: lower-case letters, and single underscores that are followed by a letter. -/
def snakeRest : Str → Bool
  | [] => true
  | c :: cs =>
    if c = '_' then
      match cs with
      | [] => false
      | d :: ds => lower d && snakeRest ds
    else lower c && snakeRest cs

/-- A name as Rust writes fields: `chainlink_sol_usd_feed`. -/
def Snake : Str → Bool
  | [] => false
  | c :: cs => lower c && snakeRest cs

/-- The same name as JavaScript writes it, `chainlinkSolUsdFeed`: underscores vanish, the letter after one becomes a
capital. -/
def toCamel : Str → Str
  | [] => []
  | c :: cs =>
    if c = '_' then
      match cs with
      | [] => []
      | d :: ds => d.toUpper :: toCamel ds
    else c :: toCamel cs

/-- The declaration for a type of the interface. Types without content (no fields) have none. -/
def declFor (t : IdlType) : Option Decl :=
  match t.body with
  | .struct (some (f :: fs)) =>
    ((f :: fs).mapM fun x => (typeFor x.type).map fun ty => (toCamel x.name, ty)).map (.object t.name)
  | .enum (some (v :: vs)) => some (.union t.name (v :: vs))
  | _ => none

/-- Names inside a type of the interface. -/
def namesOk : IdlTy → Prop
  | .prim s => Ident s
  | .defined n => Ident n
  | .array e _ => namesOk e
  | .other => True

/-- A type of the interface whose names are names: the type's, its fields' (in snake case), its variants'; an enum has
variants. -/
def WellNamed (t : IdlType) : Prop :=
  Ident t.name ∧
  match t.body with
  | .struct (some fs) => ∀ f ∈ fs, Snake f.name = true ∧ namesOk f.type
  | .enum (some vs) => vs ≠ [] ∧ ∀ v ∈ vs, Ident v
  | .enum none => False
  | _ => True

/-- Does the type contain something the generators do not know? -/
def unknown : IdlTy → Bool
  | .array e _ => unknown e
  | .other => true
  | _ => false

/-- All the fields of the type have types the generators know. -/
def Known (t : IdlType) : Prop := ∀ fs, t.body = .struct (some fs) → ∀ f ∈ fs, unknown f.type = false

/-- The type has content: fields or variants. -/
def hasContent (t : IdlType) : Bool :=
  match t.body with
  | .struct (some (_ :: _)) => true
  | .enum (some (_ :: _)) => true
  | _ => false

/-- A type of a field that makes sense: a primitive that TypeScript or the generators know, or a type with content that is
defined in the same interface. -/
def Resolved (types : List IdlType) : IdlTy → Prop
  | .prim s => s ∈ ["bool", "i64", "pubkey", "u8", "u32", "u64", "u128", "string"].map String.toList
  | .defined n => ∃ t ∈ types, t.name = n ∧ hasContent t = true
  | .array e _ => Resolved types e
  | .other => False

/-- What TypeScript has built in, of what is used here. -/
def builtin (s : Str) : Prop := s = "boolean".toList ∨ s = "number".toList ∨ s = "string".toList

/-- The name of an error as clients write it (`programs/lockup/src/utils/errors.rs:3-58`). -/
def _root_.Solsab.LockupErr.name : LockupErr → String
  | .streamDepleted => "StreamDepleted"
  | .streamCanceled => "StreamCanceled"
  | .streamIsNotCancelable => "StreamIsNotCancelable"
  | .streamSettled => "StreamSettled"
  | .cantCollectZeroFees => "CantCollectZeroFees"
  | .cliffTimeNotLessThanEndTime => "CliffTimeNotLessThanEndTime"
  | .cliffTimeZeroUnlockAmountNotZero => "CliffTimeZeroUnlockAmountNotZero"
  | .depositAmountZero => "DepositAmountZero"
  | .startTimeNotLessThanCliffTime => "StartTimeNotLessThanCliffTime"
  | .startTimeNotLessThanEndTime => "StartTimeNotLessThanEndTime"
  | .startTimeZero => "StartTimeZero"
  | .unlockAmountsSumTooHigh => "UnlockAmountsSumTooHigh"
  | .streamAlreadyNonCancelable => "StreamAlreadyNonCancelable"
  | .overdraw => "Overdraw"
  | .withdrawAmountZero => "WithdrawAmountZero"

/-- `programs/merkle_instant/src/utils/errors.rs:3-28`. -/
def _root_.Solsab.MerkleErr.name : MerkleErr → String
  | .campaignExpired => "CampaignExpired"
  | .invalidMerkleProof => "InvalidMerkleProof"
  | .campaignNotStarted => "CampaignNotStarted"
  | .clawbackNotAllowed => "ClawbackNotAllowed"
  | .cantCollectZeroFees => "CantCollectZeroFees"

end Solsab.Spec.Ts
