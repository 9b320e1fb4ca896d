import Verif.Codegen
/-!
# The interface descriptions of the two programs

What `anchor build` writes to `target/idl` for the generators of `Verif/Codegen.lean`: the errors with their numbers, and the
account types, event types and the types inside them, in alphabetical order. Read off the Rust source; the description itself
is not in the repository.
-/

namespace Solsab.Idl

open Codegen

/-- Errors numbered from 6000 in the order of declaration (Anchor's `#[error_code]`); the names follow. -/
def numbered (names : List String) : List IdlError :=
  names.zipIdx.map fun p => ⟨p.1.toList, 6000 + p.2⟩

/-- `programs/lockup/src/utils/errors.rs:3-58`. -/
def lockupErrors : List IdlError := numbered
  ["StreamDepleted", "StreamCanceled", "StreamIsNotCancelable", "StreamSettled", "CantCollectZeroFees",
   "CliffTimeNotLessThanEndTime", "CliffTimeZeroUnlockAmountNotZero", "DepositAmountZero", "StartTimeNotLessThanCliffTime",
   "StartTimeNotLessThanEndTime", "StartTimeZero", "UnlockAmountsSumTooHigh", "StreamAlreadyNonCancelable", "Overdraw",
   "WithdrawAmountZero"]

/-- `programs/merkle_instant/src/utils/errors.rs:3-28`. -/
def merkleErrors : List IdlError := numbered
  ["CampaignExpired", "InvalidMerkleProof", "CampaignNotStarted", "ClawbackNotAllowed", "CantCollectZeroFees"]

/-- A field of a primitive type. Notation; no line of /repo. -/
def fld (name type : String) : IdlField := ⟨name.toList, .prim type.toList⟩
/-- A field of a type defined in the program. Notation; no line of /repo. -/
def ref (name type : String) : IdlField := ⟨name.toList, .defined type.toList⟩
/-- A field of type `[u8; 32]`. Notation; no line of /repo. -/
def hash (name : String) : IdlField := ⟨name.toList, .array (.prim "u8".toList) 32⟩
/-- A struct. Notation; no line of /repo. -/
def struct (name : String) (fields : List IdlField) : IdlType := ⟨name.toList, .struct (some fields)⟩

/-- `programs/lockup/src/state/treasury.rs:3-10`, `programs/merkle_instant/src/state/treasury.rs:3-10`. -/
def treasury : IdlType := struct "Treasury"
  [fld "bump" "u8", fld "fee_collector" "pubkey", fld "chainlink_program" "pubkey", fld "chainlink_sol_usd_feed" "pubkey"]

/-- `programs/lockup/src/utils/events.rs:25-30`, `programs/merkle_instant/src/utils/events.rs:41-46`. -/
def feesCollected : IdlType := struct "FeesCollected"
  [fld "fee_amount" "u64", fld "fee_collector" "pubkey", fld "fee_recipient" "pubkey"]

/-- `programs/lockup/src/state/lockup.rs:3-34`, `programs/lockup/src/state/nft_collection_data.rs:3-8`,
`programs/lockup/src/state/treasury.rs:3-10`, `programs/lockup/src/utils/events.rs:3-48`,
`programs/lockup/src/instructions/view/status_of.rs:40-47`. -/
def lockupTypes : List IdlType :=
  [ struct "Amounts" [fld "start_unlock" "u64", fld "cliff_unlock" "u64", fld "deposited" "u64", fld "refunded" "u64",
      fld "withdrawn" "u64"],
    struct "CancelLockupStream" [fld "deposited_token_mint" "pubkey", fld "recipient_amount" "u64",
      fld "sender_amount" "u64", fld "stream_data" "pubkey", fld "stream_nft_mint" "pubkey"],
    struct "CreateLockupLinearStream" [fld "deposit_token_decimals" "u8", fld "deposit_token_mint" "pubkey",
      fld "recipient" "pubkey", fld "salt" "u128", fld "stream_data" "pubkey", fld "stream_nft_mint" "pubkey"],
    feesCollected,
    struct "NftCollectionData" [fld "total_supply" "u64", fld "bump" "u8"],
    struct "RenounceLockupStream" [fld "deposited_token_mint" "pubkey", fld "stream_data" "pubkey",
      fld "stream_nft_mint" "pubkey"],
    struct "StreamData" [ref "amounts" "Amounts", fld "deposited_token_mint" "pubkey", fld "bump" "u8", fld "salt" "u128",
      fld "is_cancelable" "bool", fld "is_depleted" "bool", ref "timestamps" "Timestamps", fld "sender" "pubkey",
      fld "was_canceled" "bool"],
    ⟨"StreamStatus".toList, .enum (some (["Pending", "Streaming", "Settled", "Canceled", "Depleted"].map String.toList))⟩,
    struct "Timestamps" [fld "cliff" "u64", fld "end" "u64", fld "start" "u64"],
    treasury,
    struct "WithdrawFromLockupStream" [fld "deposited_token_mint" "pubkey", fld "fee_in_lamports" "u64",
      fld "stream_data" "pubkey", fld "stream_nft_mint" "pubkey", fld "withdrawn_amount" "u64"] ]

/-- `programs/merkle_instant/src/state/campaign.rs:6-20`, `programs/merkle_instant/src/state/claim_receipt.rs:3-6`,
`programs/merkle_instant/src/state/treasury.rs:3-10`, `programs/merkle_instant/src/utils/events.rs:3-46`. -/
def merkleTypes : List IdlType :=
  [ struct "Campaign" [fld "airdrop_token_mint" "pubkey", fld "bump" "u8", fld "campaign_start_time" "u64",
      fld "creator" "pubkey", fld "expiration_time" "u64", fld "first_claim_time" "u64", fld "ipfs_cid" "string",
      hash "merkle_root", fld "name" "string"],
    struct "Claim" [fld "amount" "u64", fld "campaign" "pubkey", fld "claimer" "pubkey", fld "claim_receipt" "pubkey",
      fld "fee_in_lamports" "u64", fld "index" "u32", fld "recipient" "pubkey"],
    struct "ClaimReceipt" [],
    struct "Clawback" [fld "amount" "u64", fld "campaign" "pubkey", fld "campaign_creator" "pubkey",
      fld "clawback_recipient" "pubkey"],
    struct "CreateCampaign" [fld "aggregate_amount" "u64", fld "campaign" "pubkey", fld "campaign_name" "string",
      fld "campaign_start_time" "u64", fld "creator" "pubkey", fld "expiration_time" "u64", fld "ipfs_cid" "string",
      hash "merkle_root", fld "recipient_count" "u32", fld "token_decimals" "u8", fld "token_mint" "pubkey"],
    feesCollected,
    treasury ]

/-- `target/idl`: the two descriptions; addresses from `programs/lockup/src/lib.rs:11`,
`programs/merkle_instant/src/lib.rs:11`. -/
def files (program : Str) : Option Codegen.Idl :=
  if program = LOCKUP then
    some ⟨"4EauRKrNErKfsR4XetEZJNmvACGHbHnHV4R5dvJuqupC".toList, LOCKUP, some lockupErrors, some lockupTypes⟩
  else if program = MERKLE_INSTANT then
    some ⟨"7XrxoQejBoGouW4V3aozTSwub7xSDjYqB4Go7YLjF9rV".toList, MERKLE_INSTANT, some merkleErrors, some merkleTypes⟩
  else none

end Solsab.Idl
