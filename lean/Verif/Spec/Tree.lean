import Verif.World
/-!
# Specification vocabulary: Merkle trees over airdrop allocations

What an airdrop creator publishes: a binary tree whose leaves are allocations.  A leaf's hash is the double
Keccak hash of its 44 bytes; an inner node's hash is the Keccak hash of its children's hashes, the
lexicographically smaller one first.
-/

namespace Solsab.Spec

/-- One line of the airdrop: `index`, the recipient's 32-byte key, and the amount. -/
structure Allocation where
  index : UInt32
  recipient : Bytes32
  amount : UInt64
  deriving DecidableEq

/-- The `n` low bytes of `x`, least significant first. -/
def littleEndian (n x : Nat) : List UInt8 := (List.range n).map fun i => UInt8.ofNat (x / 256 ^ i)

/-- 4 bytes of index, 32 bytes of recipient, 8 bytes of amount. -/
def Allocation.encoding (a : Allocation) : List UInt8 :=
  littleEndian 4 a.index.toNat ++ a.recipient.val ++ littleEndian 8 a.amount.toNat

/-- The two hashes one after the other, the smaller (lexicographically) first. -/
def sortedPair (a b : Bytes32) : List UInt8 := if a.val ≤ b.val then a.val ++ b.val else b.val ++ a.val

/-- A binary tree of any shape. -/
inductive MTree where
  | leaf (a : Allocation)
  | node (l r : MTree)

namespace MTree

/-- The allocations, left to right. -/
def leaves : MTree → List Allocation
  | .leaf a => [a]
  | .node l r => l.leaves ++ r.leaves

/-- The root hash. -/
def root (keccak : List UInt8 → Bytes32) : MTree → Bytes32
  | .leaf a => keccak (keccak a.encoding).val
  | .node l r => keccak (sortedPair (l.root keccak) (r.root keccak))

/-- All byte strings that are hashed to compute the root. -/
def inputs (keccak : List UInt8 → Bytes32) : MTree → List (List UInt8)
  | .leaf a => [a.encoding, (keccak a.encoding).val]
  | .node l r => sortedPair (l.root keccak) (r.root keccak) :: (l.inputs keccak ++ r.inputs keccak)

/-- `t.Proof keccak a p`: `a` is a leaf of `t` and `p` is the list of sibling hashes on its way up. -/
inductive Proof (keccak : List UInt8 → Bytes32) : MTree → Allocation → List Bytes32 → Prop
  | leaf (a : Allocation) : Proof keccak (.leaf a) a []
  | left {l r : MTree} {a : Allocation} {p : List Bytes32} :
      Proof keccak l a p → Proof keccak (.node l r) a (p ++ [r.root keccak])
  | right {l r : MTree} {a : Allocation} {p : List Bytes32} :
      Proof keccak r a p → Proof keccak (.node l r) a (p ++ [l.root keccak])

/-- Sum of all allocations. -/
def totalAmount (t : MTree) : Nat := (t.leaves.map fun a => a.amount.toNat).sum

end MTree

/-- The byte strings that are hashed when a proof is checked from the hash `h` upwards. -/
def chainInputs (keccak : List UInt8 → Bytes32) (h : Bytes32) : List Bytes32 → List (List UInt8)
  | [] => []
  | p :: ps => sortedPair h p :: chainInputs keccak (keccak (sortedPair h p)) ps

/-- The byte strings that are hashed when a claim of `a` with proof `ps` is checked. -/
def checkInputs (keccak : List UInt8 → Bytes32) (a : Allocation) (ps : List Bytes32) : List (List UInt8) :=
  a.encoding :: (keccak a.encoding).val :: chainInputs keccak (keccak (keccak a.encoding).val) ps

/-- A hash collision between a string hashed for the tree and a string hashed for the claim. -/
def CollisionIn (keccak : List UInt8 → Bytes32) (xs ys : List (List UInt8)) : Prop :=
  ∃ x ∈ xs, ∃ y ∈ ys, x ≠ y ∧ keccak x = keccak y

end Solsab.Spec
