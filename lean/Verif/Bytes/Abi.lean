import Verif.Bytes.Borsh
import Verif.Bytes.Sha256
import Verif.Machine
/-!
# Instruction data and event data as bytes

What Anchor's `#[program]` and `#[event]` macros generate from `programs/lockup/src/lib.rs`,
`programs/merkle_instant/src/lib.rs` and the two `utils/events.rs` (anchor-lang 0.31.1): an instruction is the first
eight bytes of SHA-256 of `"global:<name>"` followed by the Borsh encoding of the arguments; an event is the first
eight bytes of SHA-256 of `"event:<Name>"` followed by the Borsh encoding of its fields.

Simplifications: strings are byte strings (UTF-8 validity is not checked); the IDL and CPI-event instructions that
Anchor adds are not represented (their tags are not method names of the two programs).  The account lists are in
`Verif/Bytes/Wire.lean`.
-/

namespace Solsab.Abi

open Borsh

/-- No bytes. E.g. `cancel`, `programs/lockup/src/lib.rs:44`. -/
def noArgs : Codec Unit where
  enc _ := []
  dec l := some ((), l)

/-- Reads `n` values. External (Borsh). -/
def decMany {α : Type} (c : Codec α) : Nat → List UInt8 → Option (List α × List UInt8)
  | 0, l => some ([], l)
  | n + 1, l => do
    let (x, l) ← c.dec l
    let (xs, l) ← decMany c n l
    some (x :: xs, l)

/-- `Vec<T>`: a `u32` length, then the elements. `merkle_proof`, `programs/merkle_instant/src/lib.rs:52`. -/
def vec {α : Type} (c : Codec α) : Codec (List α) where
  enc xs := Merkle.leBytes 4 xs.length ++ xs.flatMap c.enc
  dec l := do
    let (n, l) ← u32.dec l
    decMany c n.toNat l

/-- First eight bytes of SHA-256 of `"<space>:<name>"`. Generated by `#[program]`, `programs/lockup/src/lib.rs:13-14`,
`programs/merkle_instant/src/lib.rs:13-14`. -/
def tag (space name : String) : List UInt8 := (Sha256.sha256 (Sha256.ascii (space ++ ":" ++ name))).take 8

/-- Calls of the lockup program with their arguments, `programs/lockup/src/lib.rs:44-344`, in the order of the
file. -/
inductive LockupCall
  | cancel
  | collectFees
  | createWithDurations (salt : Fin (2 ^ 128)) (depositAmount cliffDuration totalDuration startUnlockAmount
      cliffUnlockAmount : UInt64) (isCancelable : Bool)
  | createWithTimestamps (salt : Fin (2 ^ 128)) (depositAmount startTime cliffTime endTime startUnlockAmount
      cliffUnlockAmount : UInt64) (isCancelable : Bool)
  | «initialize» (feeCollector chainlinkProgram chainlinkSolUsdFeed : Bytes32)
  | renounce
  | withdraw (amount : UInt64)
  | withdrawMax
  | refundableAmountOf
  | statusOf
  | streamExists (sender : Bytes32) (salt : Fin (2 ^ 128))
  | streamedAmountOf
  | treasuryView
  | withdrawableAmountOf
  | withdrawalFeeInLamports
  deriving DecidableEq

/-- Calls of the merkle_instant program with their arguments, `programs/merkle_instant/src/lib.rs:52-240`. -/
inductive MerkleCall
  | claim (index : UInt32) (amount : UInt64) (merkleProof : List Bytes32)
  | clawback (amount : UInt64)
  | collectFees
  | createCampaign (merkleRoot : Bytes32) (campaignStartTime expirationTime : UInt64) (name ipfsCid : List UInt8)
      (aggregateAmount : UInt64) (recipientCount : UInt32)
  | «initialize» (feeCollector chainlinkProgram chainlinkSolUsdFeed : Bytes32)
  | campaignView
  | claimFeeInLamports
  | hasClaimed (index : UInt32)
  | hasExpired
  | hasGracePeriodPassed
  | hasCampaignStarted
  | treasuryView
  deriving DecidableEq

/-- One case of a generated dispatcher: the name whose tag is looked for, and the reader of the rest. Generated by
`#[program]`, `programs/lockup/src/lib.rs`, `programs/merkle_instant/src/lib.rs`. -/
structure Entry (α : Type) where
  name : String
  read : List UInt8 → Option (α × List UInt8)

/-- A case of the dispatcher generated by `#[program]`, `programs/lockup/src/lib.rs`,
`programs/merkle_instant/src/lib.rs`. -/
def entry {α β : Type} (name : String) (c : Codec β) (mk : β → α) : Entry α :=
  ⟨name, fun l => (c.dec l).map fun (x, r) => (mk x, r)⟩

/-- `instruction::CreateWithDurationsLl`, `programs/lockup/src/lib.rs:86-106`. -/
def durationsArgs := pair u128 (pair u64 (pair u64 (pair u64 (pair u64 (pair u64 bool)))))

/-- `instruction::CreateWithTimestampsLl`, `programs/lockup/src/lib.rs:148-170`. -/
def timestampsArgs := pair u128 (pair u64 (pair u64 (pair u64 (pair u64 (pair u64 (pair u64 bool))))))

/-- `instruction::CreateCampaign`, `programs/merkle_instant/src/lib.rs:127-148`. -/
def campaignArgs := pair key (pair u64 (pair u64 (pair string (pair string (pair u64 u32)))))

/-- The dispatcher of `sablier_lockup`, `programs/lockup/src/lib.rs:44-344`. -/
def lockupEntries : List (Entry LockupCall) :=
  [ entry "cancel" noArgs fun _ => .cancel,
    entry "collect_fees" noArgs fun _ => .collectFees,
    entry "create_with_durations_ll" durationsArgs fun (a, b, c, d, e, f, g) => .createWithDurations a b c d e f g,
    entry "create_with_timestamps_ll" timestampsArgs
      fun (a, b, c, d, e, f, g, h) => .createWithTimestamps a b c d e f g h,
    entry "initialize" (pair key (pair key key)) fun (a, b, c) => .initialize a b c,
    entry "renounce" noArgs fun _ => .renounce,
    entry "withdraw" u64 .withdraw,
    entry "withdraw_max" noArgs fun _ => .withdrawMax,
    entry "refundable_amount_of" noArgs fun _ => .refundableAmountOf,
    entry "status_of" noArgs fun _ => .statusOf,
    entry "stream_exists" (pair key u128) fun (a, b) => .streamExists a b,
    entry "streamed_amount_of" noArgs fun _ => .streamedAmountOf,
    entry "treasury_view" noArgs fun _ => .treasuryView,
    entry "withdrawable_amount_of" noArgs fun _ => .withdrawableAmountOf,
    entry "withdrawal_fee_in_lamports" noArgs fun _ => .withdrawalFeeInLamports ]

/-- The dispatcher of `sablier_merkle_instant`, `programs/merkle_instant/src/lib.rs:52-240`. -/
def merkleEntries : List (Entry MerkleCall) :=
  [ entry "claim" (pair u32 (pair u64 (vec key))) fun (a, b, c) => .claim a b c,
    entry "clawback" u64 .clawback,
    entry "collect_fees" noArgs fun _ => .collectFees,
    entry "create_campaign" campaignArgs fun (a, b, c, d, e, f, g) => .createCampaign a b c d e f g,
    entry "initialize" (pair key (pair key key)) fun (a, b, c) => .initialize a b c,
    entry "campaign_view" noArgs fun _ => .campaignView,
    entry "claim_fee_in_lamports" noArgs fun _ => .claimFeeInLamports,
    entry "has_claimed" u32 .hasClaimed,
    entry "has_expired" noArgs fun _ => .hasExpired,
    entry "has_grace_period_passed" noArgs fun _ => .hasGracePeriodPassed,
    entry "has_campaign_started" noArgs fun _ => .hasCampaignStarted,
    entry "treasury_view" noArgs fun _ => .treasuryView ]

/-- The two ways in which the generated entry point rejects data (`ErrorCode::InstructionFallbackNotFound` and
`ErrorCode::InstructionDidNotDeserialize`). Generated by `#[program]`, `programs/lockup/src/lib.rs`,
`programs/merkle_instant/src/lib.rs`. -/
inductive AbiErr
  | fallbackNotFound
  | didNotDeserialize
  deriving DecidableEq

/-- The generated dispatcher: the first case whose tag is a prefix of the data; bytes after the arguments are
ignored (`deserialize`, not `try_from_slice`). Generated by `#[program]`, `programs/lockup/src/lib.rs`,
`programs/merkle_instant/src/lib.rs`. -/
def dispatch {α : Type} (space : String) (es : List (Entry α)) (data : List UInt8) : Except AbiErr α :=
  match es.find? fun e => data.take 8 == tag space e.name with
  | .none => .error .fallbackNotFound
  | some e =>
    match e.read (data.drop 8) with
    | .none => .error .didNotDeserialize
    | some (x, _) => .ok x

/-- What a client sends to the lockup program (`InstructionData::data`). `programs/lockup/src/lib.rs:44-345`. -/
def encodeLockup : LockupCall → List UInt8
  | .cancel => tag "global" "cancel"
  | .collectFees => tag "global" "collect_fees"
  | .createWithDurations a b c d e f g => tag "global" "create_with_durations_ll" ++ durationsArgs.enc (a, b, c, d, e, f, g)
  | .createWithTimestamps a b c d e f g h =>
      tag "global" "create_with_timestamps_ll" ++ timestampsArgs.enc (a, b, c, d, e, f, g, h)
  | .initialize a b c => tag "global" "initialize" ++ (pair key (pair key key)).enc (a, b, c)
  | .renounce => tag "global" "renounce"
  | .withdraw a => tag "global" "withdraw" ++ u64.enc a
  | .withdrawMax => tag "global" "withdraw_max"
  | .refundableAmountOf => tag "global" "refundable_amount_of"
  | .statusOf => tag "global" "status_of"
  | .streamExists a b => tag "global" "stream_exists" ++ (pair key u128).enc (a, b)
  | .streamedAmountOf => tag "global" "streamed_amount_of"
  | .treasuryView => tag "global" "treasury_view"
  | .withdrawableAmountOf => tag "global" "withdrawable_amount_of"
  | .withdrawalFeeInLamports => tag "global" "withdrawal_fee_in_lamports"

/-- What a client sends to the merkle_instant program. `programs/merkle_instant/src/lib.rs:52-241`. -/
def encodeMerkle : MerkleCall → List UInt8
  | .claim a b c => tag "global" "claim" ++ (pair u32 (pair u64 (vec key))).enc (a, b, c)
  | .clawback a => tag "global" "clawback" ++ u64.enc a
  | .collectFees => tag "global" "collect_fees"
  | .createCampaign a b c d e f g => tag "global" "create_campaign" ++ campaignArgs.enc (a, b, c, d, e, f, g)
  | .initialize a b c => tag "global" "initialize" ++ (pair key (pair key key)).enc (a, b, c)
  | .campaignView => tag "global" "campaign_view"
  | .claimFeeInLamports => tag "global" "claim_fee_in_lamports"
  | .hasClaimed a => tag "global" "has_claimed" ++ u32.enc a
  | .hasExpired => tag "global" "has_expired"
  | .hasGracePeriodPassed => tag "global" "has_grace_period_passed"
  | .hasCampaignStarted => tag "global" "has_campaign_started"
  | .treasuryView => tag "global" "treasury_view"

/-! Account structs read a prefix of the same argument bytes (`#[instruction(...)]`). -/

/-- `programs/lockup/src/instructions/create_with_timestamps.rs:20`: `#[instruction(salt: u128)]`. -/
def createPrefix : Codec (Fin (2 ^ 128)) := u128
/-- `programs/lockup/src/instructions/view/stream_exists.rs:6`. -/
def streamExistsPrefix := pair key u128
/-- `programs/merkle_instant/src/instructions/create_campaign.rs:16-21`. -/
def campaignPrefix := pair key (pair u64 (pair u64 string))
/-- `programs/merkle_instant/src/instructions/claim.rs:22` and `view/has_claimed.rs:6`. -/
def claimPrefix : Codec UInt32 := u32

/-! ## Events -/

/-- Events of the lockup program, `programs/lockup/src/utils/events.rs`, in the order of the file. -/
inductive LockupEvent
  | cancelLockupStream (depositedTokenMint : Bytes32) (recipientAmount senderAmount : UInt64)
      (streamData streamNftMint : Bytes32)
  | createLockupLinearStream (depositTokenDecimals : UInt8) (depositTokenMint recipient : Bytes32)
      (salt : Fin (2 ^ 128)) (streamData streamNftMint : Bytes32)
  | feesCollected (feeAmount : UInt64) (feeCollector feeRecipient : Bytes32)
  | renounceLockupStream (depositedTokenMint streamData streamNftMint : Bytes32)
  | withdrawFromLockupStream (depositedTokenMint : Bytes32) (feeInLamports : UInt64)
      (streamData streamNftMint : Bytes32) (withdrawnAmount : UInt64)
  deriving DecidableEq

/-- Events of the merkle_instant program, `programs/merkle_instant/src/utils/events.rs`. -/
inductive MerkleEvent
  | claim (amount : UInt64) (campaign claimer claimReceipt : Bytes32) (feeInLamports : UInt64) (index : UInt32)
      (recipient : Bytes32)
  | clawback (amount : UInt64) (campaign campaignCreator clawbackRecipient : Bytes32)
  | createCampaign (aggregateAmount : UInt64) (campaign : Bytes32) (campaignName : List UInt8)
      (campaignStartTime : UInt64) (creator : Bytes32) (expirationTime : UInt64) (ipfsCid : List UInt8)
      (merkleRoot : Bytes32) (recipientCount : UInt32) (tokenDecimals : UInt8) (tokenMint : Bytes32)
  | feesCollected (feeAmount : UInt64) (feeCollector feeRecipient : Bytes32)
  deriving DecidableEq

/-- `programs/lockup/src/utils/events.rs:5-12`. -/
def cancelFields := pair key (pair u64 (pair u64 (pair key key)))
/-- `programs/lockup/src/utils/events.rs:15-23`. -/
def createFields := pair u8 (pair key (pair key (pair u128 (pair key key))))
/-- `programs/lockup/src/utils/events.rs:26-31`, `programs/merkle_instant/src/utils/events.rs:42-46`. -/
def feesFields := pair u64 (pair key key)
/-- `programs/lockup/src/utils/events.rs:34-39`. -/
def renounceFields := pair key (pair key key)
/-- `programs/lockup/src/utils/events.rs:42-48`. -/
def withdrawFields := pair key (pair u64 (pair key (pair key u64)))
/-- `programs/merkle_instant/src/utils/events.rs:5-14`. -/
def claimFields := pair u64 (pair key (pair key (pair key (pair u64 (pair u32 key)))))
/-- `programs/merkle_instant/src/utils/events.rs:17-23`. -/
def clawbackFields := pair u64 (pair key (pair key key))
/-- `programs/merkle_instant/src/utils/events.rs:26-39`. -/
def campaignFields := pair u64 (pair key (pair string (pair u64 (pair key (pair u64 (pair string (pair key
  (pair u32 (pair u8 key)))))))))

/-- What `emit!` writes to the log, `programs/lockup/src/utils/events.rs`. -/
def encodeLockupEvent : LockupEvent → List UInt8
  | .cancelLockupStream a b c d e => tag "event" "CancelLockupStream" ++ cancelFields.enc (a, b, c, d, e)
  | .createLockupLinearStream a b c d e f =>
      tag "event" "CreateLockupLinearStream" ++ createFields.enc (a, b, c, d, e, f)
  | .feesCollected a b c => tag "event" "FeesCollected" ++ feesFields.enc (a, b, c)
  | .renounceLockupStream a b c => tag "event" "RenounceLockupStream" ++ renounceFields.enc (a, b, c)
  | .withdrawFromLockupStream a b c d e =>
      tag "event" "WithdrawFromLockupStream" ++ withdrawFields.enc (a, b, c, d, e)

/-- What `emit!` writes to the log, `programs/merkle_instant/src/utils/events.rs`. -/
def encodeMerkleEvent : MerkleEvent → List UInt8
  | .claim a b c d e f g => tag "event" "Claim" ++ claimFields.enc (a, b, c, d, e, f, g)
  | .clawback a b c d => tag "event" "Clawback" ++ clawbackFields.enc (a, b, c, d)
  | .createCampaign a b c d e f g h i j k =>
      tag "event" "CreateCampaign" ++ campaignFields.enc (a, b, c, d, e, f, g, h, i, j, k)
  | .feesCollected a b c => tag "event" "FeesCollected" ++ feesFields.enc (a, b, c)

/-- How an indexer that has the IDL reads the log of the lockup program. -/
def lockupEventEntries : List (Entry LockupEvent) :=
  [ entry "CancelLockupStream" cancelFields fun (a, b, c, d, e) => .cancelLockupStream a b c d e,
    entry "CreateLockupLinearStream" createFields fun (a, b, c, d, e, f) => .createLockupLinearStream a b c d e f,
    entry "FeesCollected" feesFields fun (a, b, c) => .feesCollected a b c,
    entry "RenounceLockupStream" renounceFields fun (a, b, c) => .renounceLockupStream a b c,
    entry "WithdrawFromLockupStream" withdrawFields fun (a, b, c, d, e) => .withdrawFromLockupStream a b c d e ]

/-- How an indexer that has the IDL reads the log of the merkle_instant program. -/
def merkleEventEntries : List (Entry MerkleEvent) :=
  [ entry "Claim" claimFields fun (a, b, c, d, e, f, g) => .claim a b c d e f g,
    entry "Clawback" clawbackFields fun (a, b, c, d) => .clawback a b c d,
    entry "CreateCampaign" campaignFields
      fun (a, b, c, d, e, f, g, h, i, j, k) => .createCampaign a b c d e f g h i j k,
    entry "FeesCollected" feesFields fun (a, b, c) => .feesCollected a b c ]

/-- Which program emits an event of the model, and with which field values.
`programs/lockup/src/utils/events.rs:4-48`, `programs/merkle_instant/src/utils/events.rs:4-46`, and the `emit!` calls
of the handlers. -/
def rawEvent (rt : Runtime) : Event → LockupEvent ⊕ MerkleEvent
  | .cancelLockupStream m r s d n =>
      .inl (.cancelLockupStream (rt.keyBytes m) (.ofNat r) (.ofNat s) (rt.keyBytes d) (rt.keyBytes n))
  | .createLockupLinearStream dec m r salt d n =>
      .inl (.createLockupLinearStream (.ofNat dec) (rt.keyBytes m) (rt.keyBytes r) (Fin.ofNat (2 ^ 128) salt)
        (rt.keyBytes d) (rt.keyBytes n))
  | .feesCollected .lockup a c r => .inl (.feesCollected (.ofNat a) (rt.keyBytes c) (rt.keyBytes r))
  | .feesCollected .merkle a c r => .inr (.feesCollected (.ofNat a) (rt.keyBytes c) (rt.keyBytes r))
  | .renounceLockupStream m d n => .inl (.renounceLockupStream (rt.keyBytes m) (rt.keyBytes d) (rt.keyBytes n))
  | .withdrawFromLockupStream m f d n a =>
      .inl (.withdrawFromLockupStream (rt.keyBytes m) (.ofNat f) (rt.keyBytes d) (rt.keyBytes n) (.ofNat a))
  | .claim a x cl rc f i r =>
      .inr (.claim (.ofNat a) (rt.keyBytes x) (rt.keyBytes cl) (rt.keyBytes rc) (.ofNat f) (.ofNat i) (rt.keyBytes r))
  | .clawback a x cr r => .inr (.clawback (.ofNat a) (rt.keyBytes x) (rt.keyBytes cr) (rt.keyBytes r))
  | .createCampaign a x nm st cr ex cid root cnt dec m =>
      .inr (.createCampaign (.ofNat a) (rt.keyBytes x) nm (.ofNat st) (rt.keyBytes cr) (.ofNat ex) cid root
        (.ofNat cnt) (.ofNat dec) (rt.keyBytes m))

end Solsab.Abi
