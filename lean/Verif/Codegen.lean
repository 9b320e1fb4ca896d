/-!
# The generators of the TypeScript bindings

`scripts/ts/codegen-errors.ts`, `scripts/ts/codegen-structs.ts`, `scripts/ts/common/codegen-utils.ts`: from the interface
description (IDL) of a program they write the two TypeScript files through which clients name the errors and the data of the
programs. Text is `List Char`; a thrown error is `none`.
-/

namespace Solsab.Codegen

/-- Text. Simplification: JavaScript strings as lists of characters. No line of /repo. -/
abbrev Str := List Char

/-- `lines.join("\n")`. `scripts/ts/codegen-errors.ts:63`, `scripts/ts/codegen-structs.ts:225`. -/
def joinLines : List Str → Str
  | [] => []
  | [l] => l
  | l :: ls => l ++ '\n' :: joinLines ls

/-- An entry of the `errors` field of an IDL (`IdlErrorCode` of Anchor): `scripts/ts/codegen-errors.ts:15, 53`. -/
structure IdlError where
  name : Str
  code : Nat
  deriving DecidableEq

/-- `IdlTypeDefinition`, `scripts/ts/codegen-structs.ts:49-57`; `other` is anything else an IDL can contain there (`vec`,
`option`, ...). -/
inductive IdlTy
  | prim (name : Str)
  | defined (name : Str)
  | array (elem : IdlTy) (length : Nat)
  | other
  deriving DecidableEq

/-- `IdlField`, `scripts/ts/codegen-structs.ts:28-34`. -/
structure IdlField where
  name : Str
  type : IdlTy
  deriving DecidableEq

/-- The `type` of `IdlType`, `scripts/ts/codegen-structs.ts:36-47`: `fields?` and `variants?` may be missing; `other` is a kind
that is neither `struct` nor `enum`, without fields. -/
inductive IdlBody
  | struct (fields : Option (List IdlField))
  | enum (variants : Option (List Str))
  | other
  deriving DecidableEq

/-- `IdlType`, `scripts/ts/codegen-structs.ts:36-47`. -/
structure IdlType where
  name : Str
  body : IdlBody
  deriving DecidableEq

/-- What the generators read of `target/idl/{program}.json` (`readIdlFile`, `scripts/ts/common/codegen-utils.ts:92-110`):
`address`, `metadata.name`, and the two fields, which may be missing or not an array (`none`). -/
structure Idl where
  address : Str
  name : Str
  errors : Option (List IdlError)
  types : Option (List IdlType)

/-- `generateFileHeader`, `scripts/ts/common/codegen-utils.ts:77-83`. -/
def fileHeader (imports : List Str) : List Str :=
  ["// THIS IS AN AUTOGENERATED FILE. DO NOT EDIT THIS FILE DIRECTLY.".toList] ++ imports ++
    (if imports.length > 0 then [[]] else [])

/-- A number in decimal, as a template literal prints it. No line of /repo (JavaScript). -/
def decimal (n : Nat) : Str := (Nat.toDigits 10 n)

/-! ## Errors -/

/-- `validateErrors`, `scripts/ts/codegen-errors.ts:72-74`: no empty name, no code 0. -/
def validateErrors (errors : List IdlError) : Bool :=
  !errors.any fun e => decide (e.name = []) || decide (e.code = 0)

/-- One line of the object: `scripts/ts/codegen-errors.ts:53`. -/
def errorEntry (e : IdlError) : Str := "  ".toList ++ e.name ++ ": ".toList ++ decimal e.code ++ ",".toList

/-- `generateErrorCode`, `scripts/ts/codegen-errors.ts:52-64`. -/
def generateErrorCode (errors : List IdlError) : Str :=
  joinLines (fileHeader [] ++ ["export const ProgramErrorCode = {".toList] ++ errors.map errorEntry ++
    ["} as const;".toList, [], "export type ProgramErrorName = keyof typeof ProgramErrorCode;".toList])

/-! ## Types -/

/-- `RUST_TYPES`, `scripts/ts/codegen-structs.ts:70-78`. -/
def RUST_TYPES : List (Str × Str) :=
  [("bool".toList, "boolean".toList), ("i64".toList, "BN".toList), ("pubkey".toList, "PublicKey".toList),
   ("u8".toList, "number".toList), ("u32".toList, "number".toList), ("u64".toList, "BN".toList),
   ("u128".toList, "BN".toList)]

/-- `mapSolanaTypeToTypeScript`, `scripts/ts/codegen-structs.ts:178-201`. (The names of properties that every JavaScript
object inherits, such as `toString`, are not treated specially.) -/
def mapType : IdlTy → Option Str
  | .prim s => some ((RUST_TYPES.lookup s).getD s)
  | .defined n => some n
  | .array e _ => (mapType e).map (· ++ "[]".toList)
  | .other => none

/-- Split at underscores; empty parts are dropped. Part of lodash's `camelCase`, external. -/
def words : Str → List Str
  | [] => []
  | c :: cs =>
    if c = '_' then words cs
    else match cs with
      | [] => [[c]]
      | d :: _ =>
        if d = '_' then [c] :: words cs
        else match words cs with
          | [] => [[c]]
          | w :: ws => (c :: w) :: ws

/-- First letter in upper case. Part of lodash's `camelCase`, external. -/
def capitalize : Str → Str
  | [] => []
  | c :: cs => c.toUpper :: cs

/-- `_.camelCase` of lodash, used at `scripts/ts/codegen-structs.ts:154`. Simplification: for names of lower-case letters and
underscores (lodash also starts words at digits and capitals; no field of the two programs has any, see
`C102_programs`). -/
def camelCase (s : Str) : Str :=
  match words s with
  | [] => []
  | w :: ws => w ++ (ws.map capitalize).flatten

/-- `haystack.includes(needle)`. JavaScript; `scripts/ts/codegen-structs.ts:110-114`. -/
def includes (haystack needle : Str) : Bool := decide (needle <:+: haystack)

/-- The scan of one field, `scripts/ts/codegen-structs.ts:106-115`: (needs BN, needs PublicKey). -/
def scanField (needs : Bool × Bool) (f : IdlField) : Option (Bool × Bool) := do
  let m ← mapType f.type
  if includes m "BN".toList then some (true, needs.2)
  else if includes m "PublicKey".toList then some (needs.1, true)
  else some needs

/-- The scan of one type, `scripts/ts/codegen-structs.ts:101-116`. -/
def scanType (needs : Bool × Bool) (t : IdlType) : Option (Bool × Bool) :=
  match t.body with
  | .struct (some fields) => fields.foldlM scanField needs
  | _ => some needs

/-- `scripts/ts/codegen-structs.ts:120`. -/
def importBN : Str := "import type { BN } from \"@coral-xyz/anchor\";".toList
/-- `scripts/ts/codegen-structs.ts:123`. -/
def importPublicKey : Str := "import { type PublicKey } from \"@solana/web3.js\";".toList

/-- `generateImports`, `scripts/ts/codegen-structs.ts:95-127`. -/
def generateImports (types : List IdlType) : Option (List Str) := do
  let needs ← types.foldlM scanType (false, false)
  pure ((if needs.1 then [importBN] else []) ++ (if needs.2 then [importPublicKey] else []))

/-- `xs.join(sep)`. JavaScript; `scripts/ts/codegen-structs.ts:146`. -/
def join (sep : Str) : List Str → Str
  | [] => []
  | [x] => x
  | x :: xs => x ++ sep ++ join sep xs

/-- One field of an object type, `scripts/ts/codegen-structs.ts:156-160`. -/
def fieldLine (f : IdlField) : Option Str := do
  let m ← mapType f.type
  pure ("  ".toList ++ camelCase f.name ++ ": ".toList ++ m ++ ";".toList)

/-- `generateStructType`, `scripts/ts/codegen-structs.ts:141-166`. A missing `variants` is printed as `undefined`. -/
def generateStructType (t : IdlType) : Option Str :=
  match t.body with
  | .enum variants =>
    let v := match variants with
      | some vs => join " | ".toList (vs.map fun v => "\"".toList ++ v ++ "\"".toList)
      | none => "undefined".toList
    some ("export type ".toList ++ t.name ++ " = ".toList ++ v ++ ";\n".toList)
  | .struct none => some []
  | .struct (some []) => some []
  | .struct (some fields) => do
    let ls ← fields.mapM fieldLine
    pure ("export type ".toList ++ t.name ++ " = {\n".toList ++ joinLines ls ++ "\n};\n".toList)
  | .other => some []

/-- The content `genStructs` writes, `scripts/ts/codegen-structs.ts:216-229`. -/
def generateStructs (types : List IdlType) : Option Str := do
  let imports ← generateImports types
  let defs ← types.mapM generateStructType
  pure (joinLines (fileHeader imports ++ defs.filter (· ≠ [])))

/-! ## The commands -/

/-- `readIdlFile`, `scripts/ts/common/codegen-utils.ts:92-110`: `files` are the parsed files under `target/idl`. -/
def readIdlFile (files : Str → Option Idl) (program : Str) : Option Idl := do
  let idl ← files program
  if idl.address = [] ∨ idl.name = [] then none else some idl

/-- What a run writes: (file under `target/types`, content). `writeGeneratedFile`,
`scripts/ts/common/codegen-utils.ts:119-122`. -/
abbrev Write := Str × Str

/-- `genErrors`, `scripts/ts/codegen-errors.ts:35-39`, with `extractIdlField`,
`scripts/ts/common/codegen-utils.ts:44-69`. -/
def genErrors (files : Str → Option Idl) (program : Str) : Option Write := do
  let idl ← readIdlFile files program
  let errors ← idl.errors
  if validateErrors errors then some (program ++ "_errors.ts".toList, generateErrorCode errors) else none

/-- `genStructs`, `scripts/ts/codegen-structs.ts:216-230`, with `extractIdlField`. -/
def genStructs (files : Str → Option Idl) (program : Str) : Option Write := do
  let idl ← readIdlFile files program
  let types ← idl.types
  let content ← generateStructs types
  pure (program ++ "_structs.ts".toList, content)

/-- `lib/enums.ts:1-4`. -/
def LOCKUP : Str := "sablier_lockup".toList
/-- `lib/enums.ts:1-4`. -/
def MERKLE_INSTANT : Str := "sablier_merkle_instant".toList
/-- `VALID_PROGRAMS`, `scripts/ts/common/codegen-utils.ts:29`. -/
def VALID_PROGRAMS : List Str := ["all".toList, LOCKUP, MERKLE_INSTANT]

/-- `createMainFunction`, `executeCodegen` and `validateProgramName`, `scripts/ts/common/codegen-utils.ts:134-185`: the files
written, and whether the run ended normally (not with an error or `process.exit(1)`). A file written before an error
stays. -/
def main (generator : Str → Option Write) (argument : Option Str) : List Write × Bool :=
  match argument with
  | none => ([], false)
  | some a =>
    if a = [] ∨ a ∉ VALID_PROGRAMS then ([], false)
    else if a = "all".toList then
      match generator LOCKUP with
      | none => ([], false)
      | some x => match generator MERKLE_INSTANT with
        | none => ([x], false)
        | some y => ([x, y], true)
    else match generator a with
      | none => ([], false)
      | some x => ([x], true)

end Solsab.Codegen
