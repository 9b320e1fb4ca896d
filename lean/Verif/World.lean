import Verif.Bank
import Verif.Lockup.State
import Verif.Merkle.State
/-!
# The ledger

One `World` holds everything the two programs read or write, the token ledger, and the history of
emitted events.
-/

namespace Solsab

/-- What the programs take from the Solana runtime and from hash functions; arbitrary in every theorem. Used at
`programs/lockup/src/instructions/collect_fees.rs:59-77` (rent), the `bump` constraints,
`programs/lockup/src/utils/nft.rs:34` (key bytes), `programs/merkle_instant/src/utils/validations.rs:20-50` (keccak).
-/
structure Runtime where
  /-- `Rent::minimum_balance(data_len)`. -/
  rent : Nat → Nat
  /-- The canonical bump of a derived address. -/
  bump : Addr → Nat
  /-- `Pubkey::to_bytes`. -/
  keyBytes : Addr → Bytes32
  /-- Keccak-256 of the concatenation of the slices given to `keccak::hashv`. -/
  keccak : List UInt8 → Bytes32
  /-- Bytes that the extensions of a Token-2022 mint add to each token account of it. -/
  extensionSpace : Addr → Nat
  /-- Bytes of a Metaplex metadata account, and of a master-edition account (they differ between versions of Metaplex). -/
  metadataSpace : Nat
  editionSpace : Nat
  /-- Lamports that Metaplex charges, besides rent, for a new metadata account (left on that account). -/
  metaplexFee : Nat

/-- The two fields of `chainlink_solana::Round` that are used: `timestamp : u32`, `answer : i128`.
`programs/lockup/src/utils/fee_calculation.rs:23-36`. -/
structure Round where
  timestamp : Nat
  answer : Int
  deriving DecidableEq, Repr

/-- Result of `chainlink::latest_round_data` and `chainlink::decimals` for a feed (`none` = `Err`).
`programs/lockup/src/utils/fee_calculation.rs:23-56`. -/
structure OracleData where
  round : Option Round
  decimals : Option Nat
  deriving DecidableEq, Repr

/-- `Creator` of `mpl_token_metadata` (`programs/lockup/src/utils/nft.rs:169-173`). -/
structure NftCreator where
  address : Addr
  verified : Bool
  share : Nat
  deriving DecidableEq

/-- The fields of `DataV2` other than `name`, and the arguments of `create_metadata_accounts_v3`
(`programs/lockup/src/utils/nft.rs:55-80`, `151-186`).  `claimed` is an unverified `collection` entry;
`edition` says that the master edition exists. -/
structure NftInfo where
  symbol : List Char
  uri : List Char
  sellerFeeBasisPoints : Nat
  creators : List NftCreator
  claimed : Option Addr
  isMutable : Bool
  updateAuthority : Addr
  edition : Bool
  deriving DecidableEq

/-- Metaplex metadata of a mint (external program).  `collection` is the *verified* collection; `collectionSize` is
`CollectionDetails::V1 { size }`.  `uses` and `token_standard`, which the programs leave at their
defaults, are not represented. -/
structure Metadata where
  name : List Char
  collection : Option Addr
  collectionSize : Option Nat
  info : NftInfo
  deriving DecidableEq

/-- The effect of Metaplex `sign_metadata`: the creator's entry becomes verified. External, called at
`programs/lockup/src/utils/nft.rs:209-217`. -/
def NftInfo.sign (i : NftInfo) (creator : Addr) : NftInfo :=
  { i with creators := i.creators.map fun c => if c.address = creator then { c with verified := true } else c }

/-- `programs/lockup/src/utils/events.rs`, `programs/merkle_instant/src/utils/events.rs`.
Fields that repeat other data of the same transaction (`token_decimals`, ...) are kept when they are
observable facts about the effect. -/
inductive Event
  | cancelLockupStream (depositedTokenMint : Addr) (recipientAmount senderAmount : Nat)
      (streamData streamNftMint : Addr)
  | createLockupLinearStream (depositTokenDecimals : Nat) (depositTokenMint recipient : Addr)
      (salt : Nat) (streamData streamNftMint : Addr)
  | feesCollected (prog : Prog) (feeAmount : Nat) (feeCollector feeRecipient : Addr)
  | renounceLockupStream (depositedTokenMint streamData streamNftMint : Addr)
  | withdrawFromLockupStream (depositedTokenMint : Addr) (feeInLamports : Nat)
      (streamData streamNftMint : Addr) (withdrawnAmount : Nat)
  | claim (amount : Nat) (campaign claimer claimReceipt : Addr) (feeInLamports index : Nat)
      (recipient : Addr)
  | clawback (amount : Nat) (campaign campaignCreator clawbackRecipient : Addr)
  | createCampaign (aggregateAmount : Nat) (campaign : Addr) (campaignName : List UInt8)
      (campaignStartTime : Nat) (creator : Addr) (expirationTime : Nat) (ipfsCid : List UInt8)
      (merkleRoot : Bytes32) (recipientCount tokenDecimals : Nat) (tokenMint : Addr)
  deriving DecidableEq

/-- An emitted event with the block time of its transaction. `programs/lockup/src/utils/events.rs:4-48`,
`programs/merkle_instant/src/utils/events.rs:4-46`. -/
structure LogEntry where
  time : Nat
  event : Event
  deriving DecidableEq

/-- Accounts of the lockup program. `programs/lockup/src/state/lockup.rs:14`,
`programs/lockup/src/state/treasury.rs:5`, `programs/lockup/src/state/nft_collection_data.rs:5`. -/
structure LockupState where
  treasury : Option Treasury
  nftCollectionData : Option Lockup.NftCollectionData
  streams : Addr → Option Lockup.StreamData

/-- Accounts of the merkle_instant program.  A claim receipt has no content, so it is present or not.
`programs/merkle_instant/src/state/campaign.rs:8`, `programs/merkle_instant/src/state/treasury.rs:5`,
`programs/merkle_instant/src/state/claim_receipt.rs:6`. -/
structure MerkleState where
  treasury : Option Treasury
  campaigns : Addr → Option Merkle.Campaign
  receipts : Addr → Bool

/-- What the owner of a Token-2022 account has switched on for it (extensions `MemoTransfer` and `CpiGuard`): transfers to
it need a memo instruction before them; programs called by another program may not move its tokens in the owner's name.
External (Token-2022), no line of /repo. -/
structure Settings where
  memoRequired : Bool
  cpiGuard : Bool
  deriving DecidableEq

/-- The settings of a new account. External (Token-2022), no line of /repo. -/
def Settings.off : Settings := ⟨false, false⟩

/-- The part of the chain the two programs see: clock (`programs/lockup/src/utils/time.rs:4-6`), lamports, tokens,
Metaplex metadata, their own accounts, the oracle, and the events emitted so far. -/
structure World where
  /-- `Clock::unix_timestamp : i64`. -/
  clock : Int
  lamports : Addr → Nat
  bank : Bank
  metas : Addr → Option Metadata
  /-- Token accounts with an approved delegate: the delegate and what it may still move (`delegate` and
  `delegated_amount` of the token programs' accounts, which the two programs neither read nor write). -/
  approvals : Addr → Option (Addr × Nat)
  /-- Settings of the token accounts. -/
  settings : Addr → Settings
  lk : LockupState
  mi : MerkleState
  /-- oracle program → feed account → data. -/
  oracle : Addr → Addr → OracleData
  /-- newest first. -/
  log : List LogEntry

namespace World

/-- `get_current_time`, `programs/lockup/src/utils/time.rs:4-6` and
`programs/merkle_instant/src/utils/time.rs:4-6`: `Clock::get()?.unix_timestamp as u64`.
(`Clock::get()` itself does not fail on chain.) -/
def now (w : World) : Nat := intAsU64 w.clock

/-- `emit!(...)`. E.g. `programs/lockup/src/instructions/withdraw.rs:174`,
`programs/merkle_instant/src/instructions/claim.rs:166`. -/
def emit (w : World) (e : Event) : World := { w with log := ⟨w.now, e⟩ :: w.log }

/-- Rent for a new account of `space` bytes at `addr`, paid by `payer`: Anchor's `init` and the ATA
program both transfer `minimum_balance(space).max(1) - current lamports` (saturating). `init` with `payer`, e.g.
`programs/lockup/src/instructions/initialize.rs:30-50`, `programs/merkle_instant/src/instructions/claim.rs:75-86`. -/
def payRent (rt : Runtime) (w : World) (payer addr : Addr) (space : Nat) : Res World := do
  let need := max (rt.rent space) 1 - w.lamports addr
  require (need ≤ w.lamports payer) .insufficientLamports
  let l := upd w.lamports payer (w.lamports payer - need)
  pure { w with lamports := upd l addr (l addr + need) }

/-- What the extensions of a mint add to its token accounts; the NFT mints of the program have none
(`programs/lockup/src/instructions/create_with_timestamps.rs:100-114`). -/
def extensions (rt : Runtime) : Addr → Nat
  | .key n => rt.extensionSpace (.key n)
  | _ => 0

/-- Space of a token account of `mint` (SPL-Token: 165; Token-2022: 170, with the `ImmutableOwner` extension, and the
extensions of the mint). External, no line of /repo. -/
def tokenSpace (rt : Runtime) (mint : Addr) : TokenProgram → Nat
  | .token => 165
  | .token2022 => 170 + extensions rt mint

/-- Space of a mint (`Mint::LEN`). External, no line of /repo. -/
def mintSpace : Nat := 82

/-- Create the associated token account of `owner` (ATA program `Create`): permissionless, fails if it
exists. External; `init` with `associated_token`, e.g.
`programs/lockup/src/instructions/create_with_timestamps.rs:116-145`. -/
def createAta (rt : Runtime) (w : World) (payer addr owner : Addr) (tp : TokenProgram) (mint : Addr) :
    Res World := do
  require (addr = .ata owner tp mint) (.anchor .constraintAssociated)
  let b ← w.bank.openAccount addr owner mint tp
  let w ← { w with bank := b }.payRent rt payer addr (tokenSpace rt mint tp)
  pure w

/-- Anchor `init_if_needed` with `associated_token::*`: create if absent, else check mint, owner,
program and address of the existing account. `programs/lockup/src/instructions/withdraw.rs:48-55`,
`programs/lockup/src/instructions/cancel.rs:28-35`, `programs/merkle_instant/src/instructions/claim.rs:36-43`,
`programs/merkle_instant/src/instructions/clawback.rs:29-36`. -/
def ensureAta (rt : Runtime) (w : World) (payer addr owner : Addr) (tp : TokenProgram) (mint : Addr) :
    Res World :=
  match w.bank.tokens addr with
  | none => w.createAta rt payer addr owner tp mint
  | some t => do
    require (t.mint = mint ∧ t.owner = owner) (.anchor .constraintTokenOwner)
    require (t.program = tp) (.anchor .constraintTokenProgram)
    require (addr = .ata owner tp mint) (.anchor .constraintAssociated)
    pure w

/-- System-program transfer signed by `src` (`solana_program::system_instruction::transfer`).
`programs/lockup/src/instructions/withdraw.rs:195-200`, `programs/merkle_instant/src/instructions/claim.rs:188-193`.
-/
def systemTransfer (w : World) (src dst : Addr) (amount : Nat) : Res World := do
  require (amount ≤ w.lamports src) .insufficientLamports
  let l := upd w.lamports src (w.lamports src - amount)
  pure { w with lamports := upd l dst (l dst + amount) }

/-- CPI `transfer_checked` on the world. `programs/lockup/src/utils/transfer_helper.rs:6-30`,
`programs/merkle_instant/src/utils/transfer_helper.rs:6-30`: a call from a program, in the name of the owner and without a
memo before it, so Token-2022 refuses a guarded source and a destination that requires memos. -/
def transferTokens (w : World) (src dst authority mint : Addr) (tp : TokenProgram)
    (amount decimals : Nat) : Res World := do
  require ((w.settings src).cpiGuard = false) (.token .cpiGuard)
  require ((w.settings dst).memoRequired = false) (.token .noMemo)
  let b ← w.bank.transferChecked src dst authority mint tp amount decimals
  pure { w with bank := b }

end World
end Solsab
