import Verif.Merkle.Validations
import Verif.Merkle.State
import Verif.Lockup.State
/-!
# Borsh encoding of the account data

`#[account]` structs are stored as an 8-byte discriminator followed by the Borsh encoding: fields in
declaration order; integers little-endian; `bool` one byte 0/1; `Pubkey`, `[u8; 32]` verbatim; `String` a `u32`
length and the bytes.  (External crate `borsh`, used through `AnchorSerialize`/`AnchorDeserialize`.)
Reading ignores bytes after the value, as Anchor does.  Simplification: reading a `String` does not check
that the bytes are UTF-8.
-/

namespace Solsab.Borsh

/-- A writer and a reader for values of type `α`. External (Borsh), derived by `AnchorSerialize` / `#[account]` in
`programs/lockup/src/state/*.rs`, `programs/merkle_instant/src/state/*.rs`. -/
structure Codec (α : Type) where
  enc : α → List UInt8
  dec : List UInt8 → Option (α × List UInt8)

/-- Value of a little-endian byte string. External (Borsh), derived by `AnchorSerialize` / `#[account]` in
`programs/lockup/src/state/*.rs`, `programs/merkle_instant/src/state/*.rs`. -/
def fromLE : List UInt8 → Nat
  | [] => 0
  | b :: l => b.toNat + 256 * fromLE l

/-- The first `n` bytes, if there are that many. External (Borsh), derived by `AnchorSerialize` / `#[account]` in
`programs/lockup/src/state/*.rs`, `programs/merkle_instant/src/state/*.rs`. -/
def takeBytes (n : Nat) (l : List UInt8) : Option (List UInt8 × List UInt8) :=
  if n ≤ l.length then some (l.take n, l.drop n) else none

/-- An `n`-byte little-endian unsigned integer, converted with `of`. External (Borsh), derived by `AnchorSerialize` /
`#[account]` in `programs/lockup/src/state/*.rs`, `programs/merkle_instant/src/state/*.rs`. -/
def uint (n : Nat) {α : Type} (toNat : α → Nat) (of : Nat → α) : Codec α where
  enc x := Merkle.leBytes n (toNat x)
  dec l := (takeBytes n l).map fun (b, r) => (of (fromLE b), r)

/-- External (Borsh), derived by `AnchorSerialize` / `#[account]` in `programs/lockup/src/state/*.rs`,
`programs/merkle_instant/src/state/*.rs`. -/
def u8 : Codec UInt8 := uint 1 UInt8.toNat UInt8.ofNat
/-- External (Borsh), derived by `AnchorSerialize` / `#[account]` in `programs/lockup/src/state/*.rs`,
`programs/merkle_instant/src/state/*.rs`. -/
def u32 : Codec UInt32 := uint 4 UInt32.toNat UInt32.ofNat
/-- External (Borsh), derived by `AnchorSerialize` / `#[account]` in `programs/lockup/src/state/*.rs`,
`programs/merkle_instant/src/state/*.rs`. -/
def u64 : Codec UInt64 := uint 8 UInt64.toNat UInt64.ofNat
/-- External (Borsh), derived by `AnchorSerialize` / `#[account]` in `programs/lockup/src/state/*.rs`,
`programs/merkle_instant/src/state/*.rs`. -/
def u128 : Codec (Fin (2 ^ 128)) := uint 16 Fin.val (Fin.ofNat (2 ^ 128))

/-- `bool`: any byte other than 0 and 1 is an error. External (Borsh), derived by `AnchorSerialize` / `#[account]` in
`programs/lockup/src/state/*.rs`, `programs/merkle_instant/src/state/*.rs`. -/
def bool : Codec Bool where
  enc x := [if x then 1 else 0]
  dec
    | 0 :: r => some (false, r)
    | 1 :: r => some (true, r)
    | _ => none

/-- `Pubkey` and `[u8; 32]`. External (Borsh), derived by `AnchorSerialize` / `#[account]` in
`programs/lockup/src/state/*.rs`, `programs/merkle_instant/src/state/*.rs`. -/
def key : Codec Bytes32 where
  enc x := x.val
  dec l := if h : 32 ≤ l.length then some (⟨l.take 32, by simp [h]⟩, l.drop 32) else none

/-- `String` (the length is a `u32`). External (Borsh), derived by `AnchorSerialize` / `#[account]` in
`programs/lockup/src/state/*.rs`, `programs/merkle_instant/src/state/*.rs`. -/
def string : Codec (List UInt8) where
  enc s := Merkle.leBytes 4 s.length ++ s
  dec l := do
    let (n, l) ← u32.dec l
    takeBytes n.toNat l

/-- Two fields one after the other. External (Borsh), derived by `AnchorSerialize` / `#[account]` in
`programs/lockup/src/state/*.rs`, `programs/merkle_instant/src/state/*.rs`. -/
def pair {α β : Type} (a : Codec α) (b : Codec β) : Codec (α × β) where
  enc x := a.enc x.1 ++ b.enc x.2
  dec l := do
    let (x, l) ← a.dec l
    let (y, l) ← b.dec l
    some ((x, y), l)

/-- A struct, given as a tuple of its fields. External (Borsh), derived by `AnchorSerialize` / `#[account]` in
`programs/lockup/src/state/*.rs`, `programs/merkle_instant/src/state/*.rs`. -/
def struct {α β : Type} (c : Codec α) (mk : α → β) (fields : β → α) : Codec β where
  enc x := c.enc (fields x)
  dec l := (c.dec l).map fun (x, r) => (mk x, r)

/-- The fields of `StreamData` as stored.  `programs/lockup/src/state/lockup.rs:4-10, 14-24, 28-32`. -/
structure RawStream where
  startUnlock : UInt64
  cliffUnlock : UInt64
  deposited : UInt64
  refunded : UInt64
  withdrawn : UInt64
  depositedTokenMint : Bytes32
  bump : UInt8
  salt : Fin (2 ^ 128)
  isCancelable : Bool
  isDepleted : Bool
  cliff : UInt64
  «end» : UInt64
  start : UInt64
  sender : Bytes32
  wasCanceled : Bool
  deriving DecidableEq

/-- `programs/lockup/src/state/lockup.rs:12-24` (field order of `Amounts`: 4-10, of `Timestamps`: 28-32). -/
def stream : Codec RawStream :=
  struct (pair u64 (pair u64 (pair u64 (pair u64 (pair u64 (pair key (pair u8 (pair u128 (pair bool (pair bool
      (pair u64 (pair u64 (pair u64 (pair key bool))))))))))))))
    (fun (a, b, c, d, e, f, g, h, i, j, k, l, m, n, o) => ⟨a, b, c, d, e, f, g, h, i, j, k, l, m, n, o⟩)
    (fun s => (s.startUnlock, s.cliffUnlock, s.deposited, s.refunded, s.withdrawn, s.depositedTokenMint, s.bump,
      s.salt, s.isCancelable, s.isDepleted, s.cliff, s.end, s.start, s.sender, s.wasCanceled))

/-- The fields of `Treasury` as stored.  `programs/lockup/src/state/treasury.rs:5-10`,
`programs/merkle_instant/src/state/treasury.rs:5-10`. -/
structure RawTreasury where
  bump : UInt8
  feeCollector : Bytes32
  chainlinkProgram : Bytes32
  chainlinkSolUsdFeed : Bytes32
  deriving DecidableEq

/-- `programs/lockup/src/state/treasury.rs:3-10`. -/
def treasury : Codec RawTreasury :=
  struct (pair u8 (pair key (pair key key))) (fun (a, b, c, d) => ⟨a, b, c, d⟩)
    (fun t => (t.bump, t.feeCollector, t.chainlinkProgram, t.chainlinkSolUsdFeed))

/-- `programs/lockup/src/state/nft_collection_data.rs:5-8`. -/
structure RawCollection where
  totalSupply : UInt64
  bump : UInt8
  deriving DecidableEq

/-- `programs/lockup/src/state/nft_collection_data.rs:3-8`. -/
def collection : Codec RawCollection :=
  struct (pair u64 u8) (fun (a, b) => ⟨a, b⟩) (fun c => (c.totalSupply, c.bump))

/-- The fields of `Campaign` as stored.  `programs/merkle_instant/src/state/campaign.rs:8-20`. -/
structure RawCampaign where
  airdropTokenMint : Bytes32
  bump : UInt8
  campaignStartTime : UInt64
  creator : Bytes32
  expirationTime : UInt64
  firstClaimTime : UInt64
  ipfsCid : List UInt8
  merkleRoot : Bytes32
  name : List UInt8
  deriving DecidableEq

/-- `programs/merkle_instant/src/state/campaign.rs:6-20`. -/
def campaign : Codec RawCampaign :=
  struct (pair key (pair u8 (pair u64 (pair key (pair u64 (pair u64 (pair string (pair key string))))))))
    (fun (a, b, c, d, e, f, g, h, i) => ⟨a, b, c, d, e, f, g, h, i⟩)
    (fun c => (c.airdropTokenMint, c.bump, c.campaignStartTime, c.creator, c.expirationTime, c.firstClaimTime,
      c.ipfsCid, c.merkleRoot, c.name))

/-- `Account::try_deserialize`: the discriminator must match, then the value is read.  (Anchor's
`#[account]` macro; the discriminator is the first 8 bytes of SHA-256 of `"account:<Name>"`.) External (Borsh),
derived by `AnchorSerialize` / `#[account]` in `programs/lockup/src/state/*.rs`,
`programs/merkle_instant/src/state/*.rs`. -/
def readAccount {α : Type} (disc : List UInt8) (c : Codec α) (data : List UInt8) : Option α :=
  if data.take 8 = disc then (c.dec (data.drop 8)).map Prod.fst else none

/-- `Account::exit`: discriminator and value are written over the beginning of the account's `space` bytes;
the rest keeps its old content `old`; an error if they do not fit. External (Borsh), derived by `AnchorSerialize` /
`#[account]` in `programs/lockup/src/state/*.rs`, `programs/merkle_instant/src/state/*.rs`. -/
def writeAccount {α : Type} (disc : List UInt8) (c : Codec α) (old : List UInt8) (x : α) : Option (List UInt8) :=
  let new := disc ++ c.enc x
  if new.length ≤ old.length then some (new ++ old.drop new.length) else none

/-- What is stored for a stream of the model. `programs/lockup/src/state/lockup.rs:13-36`. -/
def rawStream (rt : Runtime) (s : Lockup.StreamData) : RawStream :=
  { startUnlock := .ofNat s.amounts.startUnlock, cliffUnlock := .ofNat s.amounts.cliffUnlock
    deposited := .ofNat s.amounts.deposited, refunded := .ofNat s.amounts.refunded
    withdrawn := .ofNat s.amounts.withdrawn, depositedTokenMint := rt.keyBytes s.depositedTokenMint
    bump := .ofNat s.bump, salt := Fin.ofNat (2 ^ 128) s.salt, isCancelable := s.isCancelable
    isDepleted := s.isDepleted, cliff := .ofNat s.timestamps.cliff, «end» := .ofNat s.timestamps.end
    start := .ofNat s.timestamps.start, sender := rt.keyBytes s.sender, wasCanceled := s.wasCanceled }

/-- What is stored for a campaign of the model. `programs/merkle_instant/src/state/campaign.rs:7-20`. -/
def rawCampaign (rt : Runtime) (c : Merkle.Campaign) : RawCampaign :=
  { airdropTokenMint := rt.keyBytes c.airdropTokenMint, bump := .ofNat c.bump
    campaignStartTime := .ofNat c.campaignStartTime, creator := rt.keyBytes c.creator
    expirationTime := .ofNat c.expirationTime, firstClaimTime := .ofNat c.firstClaimTime
    ipfsCid := c.ipfsCid, merkleRoot := c.merkleRoot, name := c.name }

end Solsab.Borsh
