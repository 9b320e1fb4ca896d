import Verif.Bytes.Pda
/-!
# Specification vocabulary: the 32 bytes behind a symbolic address

The model's addresses are symbolic.  `Derivation.bytes` computes the real address of a symbolic one, from
SHA-256, the canonical bumps and the keys of the outside world.
-/

namespace Solsab.Spec

open Pda

/-- The parts of the outside world that determine real addresses (all arbitrary). -/
structure Derivation where
  sha256 : List UInt8 → Bytes32
  bump : Addr → UInt8
  key : Nat → Bytes32

namespace Derivation

/-- `create_program_address` with the canonical bump. -/
def derive (d : Derivation) (a : Addr) (s : Seeds) : Bytes32 := d.sha256 (s.preimage (d.bump a))

/-- The real address. -/
def bytes (d : Derivation) : Addr → Bytes32
  | .key n => d.key n
  | .treasury p => d.derive (.treasury p) (.treasury p)
  | .nftCollectionData => d.derive .nftCollectionData .nftCollectionData
  | .nftCollectionMint => d.derive .nftCollectionMint .nftCollectionMint
  | .streamNftMint s n => d.derive (.streamNftMint s n) (.streamNftMint (d.bytes s) (Fin.ofNat (2 ^ 128) n))
  | .streamData m => d.derive (.streamData m) (.streamData (d.bytes m))
  | .campaign c r st ex nm m =>
    d.derive (.campaign c r st ex nm m) (.campaign (d.bytes c) r (.ofNat st) (.ofNat ex) nm (d.bytes m))
  | .claimReceipt c i => d.derive (.claimReceipt c i) (.claimReceipt (d.bytes c) (.ofNat i))
  | .metadata m => d.derive (.metadata m) (.metadata (d.bytes m))
  | .edition m => d.derive (.edition m) (.edition (d.bytes m))
  | .ata o p m => d.derive (.ata o p m) (.ata (d.bytes o) p (d.bytes m))

/-- The seeds of a derived address (`none` for a key). -/
def seeds? (d : Derivation) : Addr → Option Seeds
  | .key _ => none
  | .treasury p => some (.treasury p)
  | .nftCollectionData => some .nftCollectionData
  | .nftCollectionMint => some .nftCollectionMint
  | .streamNftMint s n => some (.streamNftMint (d.bytes s) (Fin.ofNat (2 ^ 128) n))
  | .streamData m => some (.streamData (d.bytes m))
  | .campaign c r st ex nm m => some (.campaign (d.bytes c) r (.ofNat st) (.ofNat ex) nm (d.bytes m))
  | .claimReceipt c i => some (.claimReceipt (d.bytes c) (.ofNat i))
  | .metadata m => some (.metadata (d.bytes m))
  | .edition m => some (.edition (d.bytes m))
  | .ata o p m => some (.ata (d.bytes o) p (d.bytes m))

end Derivation

/-- The numbers inside the address fit their types. -/
def InRange : Addr → Prop
  | .streamNftMint s n => InRange s ∧ n < 2 ^ 128
  | .streamData m => InRange m
  | .campaign c _ st ex _ m => InRange c ∧ st < 2 ^ 64 ∧ ex < 2 ^ 64 ∧ InRange m
  | .claimReceipt c i => InRange c ∧ i < 2 ^ 32
  | .metadata m => InRange m
  | .edition m => InRange m
  | .ata o _ m => InRange o ∧ InRange m
  | _ => True

/-- The address and all addresses used to derive it. -/
def ingredients : Addr → List Addr
  | .streamNftMint s n => .streamNftMint s n :: ingredients s
  | .streamData m => .streamData m :: ingredients m
  | .campaign c r st ex nm m => .campaign c r st ex nm m :: (ingredients c ++ ingredients m)
  | .claimReceipt c i => .claimReceipt c i :: ingredients c
  | .metadata m => .metadata m :: ingredients m
  | .edition m => .edition m :: ingredients m
  | .ata o p m => .ata o p m :: (ingredients o ++ ingredients m)
  | a => [a]

/-- Two different addresses have the same bytes, for a reason outside the programs: one of them is a key of
the outside world, or two different byte strings have the same SHA-256 hash. -/
structure Clash (d : Derivation) (x y : Addr) : Prop where
  ne : x ≠ y
  same : d.bytes x = d.bytes y
  reason : (∃ n, x = .key n) ∨ (∃ n, y = .key n) ∨
    ∃ s s', d.seeds? x = some s ∧ d.seeds? y = some s' ∧ s.preimage (d.bump x) ≠ s'.preimage (d.bump y) ∧
      d.sha256 (s.preimage (d.bump x)) = d.sha256 (s'.preimage (d.bump y))

end Solsab.Spec
