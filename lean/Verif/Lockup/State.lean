import Verif.Addr
/-!
# `programs/lockup/src/state/*.rs`

Mutation through `&mut self` becomes a function returning the new value.  `u64`/`u128`/`u8` fields are
`Nat`; their bounds are part of the invariant proved for all reachable states.
-/

namespace Solsab

/-- `programs/lockup/src/state/treasury.rs:5-10`, `programs/merkle_instant/src/state/treasury.rs:5-10`. -/
structure Treasury where
  bump : Nat
  feeCollector : Addr
  chainlinkProgram : Addr
  chainlinkSolUsdFeed : Addr
  deriving DecidableEq

/-- `Treasury::initialize`, `programs/lockup/src/state/treasury.rs:14-27` (identical in
`programs/merkle_instant/src/state/treasury.rs:14-27`). -/
def Treasury.initialize (bump : Nat) (feeCollector chainlinkProgram chainlinkSolUsdFeed : Addr) :
    Treasury :=
  { bump, feeCollector, chainlinkProgram, chainlinkSolUsdFeed }

namespace Lockup

/-- `programs/lockup/src/state/lockup.rs:4-10`. -/
structure Amounts where
  startUnlock : Nat
  cliffUnlock : Nat
  deposited : Nat
  refunded : Nat
  withdrawn : Nat
  deriving DecidableEq, Repr

/-- `programs/lockup/src/state/lockup.rs:28-32`. -/
structure Timestamps where
  cliff : Nat
  «end» : Nat
  start : Nat
  deriving DecidableEq, Repr

/-- `programs/lockup/src/state/lockup.rs:14-24`. -/
structure StreamData where
  amounts : Amounts
  depositedTokenMint : Addr
  bump : Nat
  salt : Nat
  isCancelable : Bool
  isDepleted : Bool
  timestamps : Timestamps
  sender : Addr
  wasCanceled : Bool
  deriving DecidableEq

namespace StreamData

/-- `programs/lockup/src/state/lockup.rs:36-45`. -/
def cancel (s : StreamData) (senderAmount recipientAmount : Nat) : StreamData :=
  { s with
    amounts := { s.amounts with refunded := senderAmount }
    isCancelable := false
    isDepleted := if recipientAmount = 0 then true else s.isDepleted
    wasCanceled := true }

/-- `programs/lockup/src/state/lockup.rs:49-84`.  (Every field is assigned, so the old value does not
matter.) -/
def create (depositedTokenMint : Addr) (bump cliffTime cliffUnlockAmount depositAmount endTime salt : Nat)
    (isCancelable : Bool) (sender : Addr) (startTime startUnlockAmount : Nat) : StreamData :=
  { bump
    amounts :=
      { cliffUnlock := cliffUnlockAmount
        deposited := depositAmount
        refunded := 0
        startUnlock := startUnlockAmount
        withdrawn := 0 }
    depositedTokenMint
    isCancelable
    isDepleted := false
    salt
    sender
    timestamps := { cliff := cliffTime, «end» := endTime, start := startTime }
    wasCanceled := false }

/-- `programs/lockup/src/state/lockup.rs:87-91`. -/
def renounce (s : StreamData) : StreamData := { s with isCancelable := false }

/-- `programs/lockup/src/state/lockup.rs:94-107`. -/
def withdraw (s : StreamData) (amount : Nat) : Res StreamData := do
  let withdrawn ← addU64 s.amounts.withdrawn amount
  let s := { s with amounts := { s.amounts with withdrawn := withdrawn } }
  let cap ← subU64 s.amounts.deposited s.amounts.refunded
  if s.amounts.withdrawn ≥ cap then
    pure { s with isCancelable := false, isDepleted := true }
  else
    pure s

end StreamData

/-- `programs/lockup/src/state/nft_collection_data.rs:5-8`. -/
structure NftCollectionData where
  totalSupply : Nat
  bump : Nat
  deriving DecidableEq, Repr

/-- `programs/lockup/src/state/nft_collection_data.rs:12-17`. -/
def NftCollectionData.create (d : NftCollectionData) : Res NftCollectionData := do
  let n ← addU64 d.totalSupply 1
  pure { d with totalSupply := n }

/-- `programs/lockup/src/state/nft_collection_data.rs:20-25`. -/
def NftCollectionData.initialize (bump : Nat) : NftCollectionData := { totalSupply := 0, bump }

/-- `ANCHOR_DISCRIMINATOR_SIZE + StreamData::INIT_SPACE`:
`programs/lockup/src/utils/constants.rs:1`, `state/lockup.rs:3-32` (`derive(InitSpace)`).
Proved to be the length of every encoding in `Verif/Props/Bytes.lean`. -/
def streamDataSpace : Nat := 8 + (5 * 8 + 32 + 1 + 16 + 1 + 1 + 3 * 8 + 32 + 1)

/-- `ANCHOR_DISCRIMINATOR_SIZE + Treasury::INIT_SPACE` (both programs).
`programs/lockup/src/instructions/initialize.rs:34`, `programs/merkle_instant/src/instructions/initialize.rs:25`. -/
def treasurySpace : Nat := 8 + (1 + 32 + 32 + 32)

/-- `ANCHOR_DISCRIMINATOR_SIZE + NftCollectionData::INIT_SPACE`. `programs/lockup/src/instructions/initialize.rs:47`.
-/
def nftCollectionDataSpace : Nat := 8 + (8 + 1)

end Lockup
end Solsab
