import Verif.Merkle.Validations
import Verif.Spec.Tree
/-!
# The project's Merkle tree builder, `tests/merkle-instant/utils/merkle.ts`

`buildTree` is `new MerkleTree(leaves.map(computeLeaf), keccak256, { sortPairs: true })` of the external
package `merkletreejs` 0.5.x (`package.json:29`; not in `/repo`).  Its documented behaviour, modelled here: a
layer is obtained from the one below by hashing consecutive pairs, each pair sorted by `Buffer.compare`; a last
node without partner is moved up unchanged (`duplicateOdd: false`); layers are built until one node is left.
`getProof` collects, layer by layer, the partner of the node if it exists.
-/

namespace Solsab.Merkle

/-- `computeLeaf`, `merkle.ts:36-51`. -/
def jsLeaf (rt : Runtime) (a : Spec.Allocation) : Bytes32 :=
  rt.keccak (rt.keccak (leBytes 4 a.index.toNat ++ a.recipient.val ++ leBytes 8 a.amount.toNat)).val

/-- `combined.sort(Buffer.compare)`, then `hashFn(concat(combined))`.  JavaScript's sort of two elements swaps
them exactly if the first is greater. External (`merkletreejs`), used at `tests/merkle-instant/utils/merkle.ts:31-34`.
-/
def jsPair (rt : Runtime) (l r : Bytes32) : Bytes32 :=
  if lexLe l.val r.val then rt.keccak (l.val ++ r.val) else rt.keccak (r.val ++ l.val)

/-- One layer from the one below (`createHashes`). External (`merkletreejs`), used at
`tests/merkle-instant/utils/merkle.ts:31-34`. -/
def jsLayer (rt : Runtime) : List Bytes32 → List Bytes32
  | x :: y :: rest => jsPair rt x y :: jsLayer rt rest
  | [x] => [x]
  | [] => []

theorem jsLayer_length (rt : Runtime) : ∀ l, (jsLayer rt l).length = (l.length + 1) / 2
  | [] => rfl
  | [_] => by simp [jsLayer]
  | _ :: _ :: rest => by
    simp only [jsLayer, List.length_cons, jsLayer_length rt rest]
    omega

/-- `getRoot()`, of a non-empty tree (`merkle.ts:22-25`; of an empty one the library returns an empty buffer,
here `none`). -/
def jsRoot (rt : Runtime) : List Bytes32 → Option Bytes32
  | [] => none
  | [x] => some x
  | x :: y :: rest => jsRoot rt (jsLayer rt (x :: y :: rest))
termination_by l => l.length
decreasing_by rw [jsLayer_length]; simp only [List.length_cons]; omega

/-- `getProof(leaf)` for the leaf at position `k`: in each layer the partner of the node, if there is one. External
(`merkletreejs`), used at `tests/merkle-instant/utils/merkle.ts:13-20`. -/
def jsProof (rt : Runtime) : List Bytes32 → Nat → List Bytes32
  | [], _ => []
  | [_], _ => []
  | x :: y :: rest, k =>
    let partner := if k % 2 = 1 then k - 1 else k + 1
    (match (x :: y :: rest)[partner]? with
      | some h => [h]
      | none => []) ++ jsProof rt (jsLayer rt (x :: y :: rest)) (k / 2)
termination_by l => l.length
decreasing_by rw [jsLayer_length]; simp only [List.length_cons]; omega

/-- The position used by `getProof(leaf)`: the last leaf with the same hash. External (`merkletreejs`), used at
`tests/merkle-instant/utils/merkle.ts:13-20`. -/
def jsPosition (leaf : Bytes32) : List Bytes32 → Option Nat
  | [] => none
  | x :: rest =>
    match jsPosition leaf rest with
    | some k => some (k + 1)
    | none => if x = leaf then some 0 else none

/-- `getRoot(leaves)`, `merkle.ts:22-25`. -/
def getRoot (rt : Runtime) (leaves : List Spec.Allocation) : Option Bytes32 := jsRoot rt (leaves.map (jsLeaf rt))

/-- `getProof(leaves, targetLeaf)`, `merkle.ts:13-20`; the empty proof when the leaf is not listed. -/
def getProof (rt : Runtime) (leaves : List Spec.Allocation) (target : Spec.Allocation) : List Bytes32 :=
  match jsPosition (jsLeaf rt target) (leaves.map (jsLeaf rt)) with
  | some k => jsProof rt (leaves.map (jsLeaf rt)) k
  | none => []

end Solsab.Merkle
