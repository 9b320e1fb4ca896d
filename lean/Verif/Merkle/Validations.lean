import Verif.World
/-!
# `programs/merkle_instant/src/utils/validations.rs`

`now` is the value of `get_current_time()?` (`utils/time.rs:4-6`).
-/

namespace Solsab.Merkle

/-- `x.to_le_bytes()` of an `n`-byte unsigned integer. `programs/merkle_instant/src/utils/validations.rs:25-27`. -/
def leBytes : Nat → Nat → List UInt8
  | 0, _ => []
  | n + 1, x => UInt8.ofNat (x % 256) :: leBytes n (x / 256)

/-- Rust `<=` on `[u8; 32]`: lexicographic comparison. `programs/merkle_instant/src/utils/validations.rs:41`. -/
def lexLe : List UInt8 → List UInt8 → Bool
  | [], _ => true
  | _ :: _, [] => false
  | a :: as, b :: bs => if a < b then true else if b < a then false else lexLe as bs

/-- The concatenated slices of the leaf, `validations.rs:25-28`. -/
def leafBytes (rt : Runtime) (index : Nat) (recipient : Addr) (amount : Nat) : List UInt8 :=
  leBytes 4 index ++ (rt.keyBytes recipient).val ++ leBytes 8 amount

/-- The doubly hashed leaf, `validations.rs:30-34`. -/
def leafHash (rt : Runtime) (index : Nat) (recipient : Addr) (amount : Nat) : Bytes32 :=
  rt.keccak (rt.keccak (leafBytes rt index recipient amount)).val

/-- One round of the proof loop, `validations.rs:40-48`. -/
def hashPair (rt : Runtime) (computed element : Bytes32) : Bytes32 :=
  if lexLe computed.val element.val then
    rt.keccak (computed.val ++ element.val)
  else
    rt.keccak (element.val ++ computed.val)

/-- The proof loop, `validations.rs:39-48`. -/
def computeRoot (rt : Runtime) (leaf : Bytes32) (proof : List Bytes32) : Bytes32 :=
  proof.foldl (hashPair rt) leaf

/-- `has_campaign_started`, `validations.rs:78-82`. -/
def hasCampaignStarted (now startTime : Nat) : Bool := decide (startTime ≤ now)

/-- `has_expired`, `validations.rs:85-89`. -/
def hasExpired (now expirationTime : Nat) : Bool :=
  decide (expirationTime > 0) && decide (expirationTime ≤ now)

/-- `grace_period`, `validations.rs:94`. -/
def GRACE_PERIOD : Nat := 7 * 24 * 60 * 60

/-- `has_grace_period_passed`, `validations.rs:92-97`.  `&&` is short-circuit, so the (overflow-checked)
addition happens only for a positive first claim time. -/
def hasGracePeriodPassed (now firstClaimTime : Nat) : Res Bool :=
  if firstClaimTime > 0 then do
    let t ← addU64 firstClaimTime GRACE_PERIOD
    .ok (decide (now > t))
  else
    .ok false

/-- `check_claim`, `validations.rs:6-55`. -/
def checkClaim (rt : Runtime) (now amount campaignStartTime expirationTime index : Nat)
    (merkleProof : List Bytes32) (merkleRoot : Bytes32) (recipient : Addr) : Res Unit :=
  if !hasCampaignStarted now campaignStartTime then .error (.merkle .campaignNotStarted)
  else if hasExpired now expirationTime then .error (.merkle .campaignExpired)
  else if computeRoot rt (leafHash rt index recipient amount) merkleProof ≠ merkleRoot then
    .error (.merkle .invalidMerkleProof)
  else .ok ()

/-- `check_clawback`, `validations.rs:58-65`. -/
def checkClawback (now expirationTime firstClaimTime : Nat) : Res Unit := do
  let passed ← hasGracePeriodPassed now firstClaimTime
  if passed && !hasExpired now expirationTime then .error (.merkle .clawbackNotAllowed)
  else .ok ()

/-- `check_collect_fees`, `validations.rs:68-75`. -/
def checkCollectFees (collectibleAmount : Nat) : Res Unit :=
  if collectibleAmount = 0 then .error (.merkle .cantCollectZeroFees) else .ok ()

end Solsab.Merkle
