import Verif.Fee
import Verif.Lockup.Math
import Verif.Lockup.Validations
import Verif.Bytes.Base58
/-!
# Instructions of the lockup program

Every account an instruction takes is a field of its `…Accts` structure and is chosen freely by the
caller; the Anchor constraints are the explicit checks.  Accounts that can only be one fixed program or
sysvar (`system_program`, `associated_token_program`, `token_metadata_program`, `rent`) and the Metaplex
PDAs (address forced by `seeds`, touched only by Metaplex) are not fields.  The order of the checks is
the field order of the structs; no theorem depends on which failing constraint is reported first.
-/

namespace Solsab.Lockup

/-- `WITHDRAWAL_FEE_USD`, `programs/lockup/src/utils/constants.rs:4`. -/
def WITHDRAWAL_FEE_USD : Nat := 0

/-- `COLLECTION_NAME`, `programs/lockup/src/utils/constants.rs:22`. -/
def COLLECTION_NAME : List Char := "Sablier LockupLinear Streams".toList

/-- The mint created by `init` with `mint::decimals = 0`, `mint::authority = nft_collection_mint`,
`mint::freeze_authority = nft_collection_mint` (`create_with_timestamps.rs:100-114`,
`initialize.rs:82-92`). -/
def freshNftMint (tp : TokenProgram) : MintData :=
  { program := tp, decimals := 0, authority := some .nftCollectionMint,
    freezeAuthority := some .nftCollectionMint, supply := 0, feeConfig := none,
    permanentDelegate := none, transferBlocked := false, startsFrozen := false }

/-- `COLLECTION_SYMBOL`, `programs/lockup/src/utils/constants.rs:23`. -/
def COLLECTION_SYMBOL : List Char := "LL_STREAMS".toList

/-- `programs/lockup/src/utils/constants.rs:20-21`. -/
def COLLECTION_METADATA_URI : List Char :=
  "https://ipfs.io/ipfs/bafkreiak467qbqncgpkmgqmu7hynjnqb5j33jjnkk6bcdda63m3lf7czca".toList

/-- `programs/lockup/src/utils/constants.rs:27`. -/
def NFT_SYMBOL : List Char := "LL_STREAM".toList

/-- `programs/lockup/src/utils/constants.rs:24-25`. -/
def NFT_METADATA_URI : List Char :=
  "https://ipfs.io/ipfs/bafkreiaidfetl2iedxjzbh2hof7dj3hdrs5l7sr643ggtjh7sb42jcj5nq".toList

/-- What `create_stream` passes to Metaplex besides the name (`nft.rs:55-80`): `update_authority` is the
collection mint, no creators, `is_mutable = true`. -/
def streamNftInfo (collectionMint : Addr) : NftInfo :=
  { symbol := NFT_SYMBOL, uri := NFT_METADATA_URI, sellerFeeBasisPoints := 0, creators := [], claimed := none,
    isMutable := true, updateAuthority := collectionMint, edition := true }

/-- What `initialize_collection` passes to Metaplex besides the name (`nft.rs:151-186`). -/
def collectionInfo (collectionMint : Addr) : NftInfo :=
  { symbol := COLLECTION_SYMBOL, uri := COLLECTION_METADATA_URI, sellerFeeBasisPoints := 0,
    creators := [⟨collectionMint, false, 100⟩], claimed := none, isMutable := true, updateAuthority := collectionMint,
    edition := true }

/-- What Metaplex makes `payer` pay for the metadata account of `mint` (its fee, left on the account, and the rent) and for
the master-edition account (the rent). External; `programs/lockup/src/utils/nft.rs:55-101, 151-207` (`payer`). -/
def payMetaplex (rt : Runtime) (w : World) (payer mint : Addr) : Res World := do
  let w ← w.systemTransfer payer (.metadata mint) rt.metaplexFee
  let w ← w.payRent rt payer (.metadata mint) rt.metadataSpace
  w.payRent rt payer (.edition mint) rt.editionSpace

/-- Metaplex `create_metadata_accounts_v3` + `create_master_edition_v3(max_supply = 0)` for a mint
(external): fails if the metadata exists, if the name, symbol or URI is longer than 32, 10 or 200 bytes
(`MAX_NAME_LENGTH`, `MAX_SYMBOL_LENGTH`, `MAX_URI_LENGTH`), if the royalty is above 10000 basis points or
the shares of the creators do not add up to 100; requires decimals 0 and supply 1, and moves mint and freeze authority to the master-edition PDA, so the NFT can never be minted again. `payer` pays for the
two accounts. -/
def metaplexCreate (rt : Runtime) (w : World) (payer mint authority : Addr) (name : List Char) (info : NftInfo) (size : Option Nat) :
    Res World := do
  require (w.metas mint = none) (.anchor .accountAlreadyInUse)
  require (name.length ≤ 32 ∧ info.symbol.length ≤ 10 ∧ info.uri.length ≤ 200) (.token .nameTooLong)
  require (info.sellerFeeBasisPoints ≤ 10000 ∧
    (info.creators = [] ∨ (info.creators.map (·.share)).sum = 100)) (.token .mintMismatch)
  let md ← fetch (w.bank.mints mint) (.anchor .accountNotInitialized)
  require (md.authority = some authority) (.token .badAuthority)
  require (md.decimals = 0 ∧ md.supply = 1) (.token .mintMismatch)
  let w ← payMetaplex rt w payer mint
  pure { w with
    bank := w.bank.setMint mint (some { md with authority := some (.edition mint),
                                                freezeAuthority := some (.edition mint) })
    metas := upd w.metas mint (some ⟨name, none, size, info⟩) }

/-- Metaplex `set_and_verify_sized_collection_item` signed by `authority` (external): the item must not be
verified in a collection yet, and `authority` must be the update authority of both the item and the
collection; marks the item as verified in the collection and increments the collection size. -/
def metaplexVerifyItem (w : World) (item collection authority : Addr) : Res World := do
  let im ← fetch (w.metas item) (.anchor .accountNotInitialized)
  let cm ← fetch (w.metas collection) (.anchor .accountNotInitialized)
  require (im.collection = none) (.token .mintMismatch)
  require (im.info.updateAuthority = authority ∧ cm.info.updateAuthority = authority) (.token .badAuthority)
  let k ← fetch cm.collectionSize (.token .mintMismatch)
  pure { w with
    metas := upd (upd w.metas item (some { im with collection := some collection }))
      collection (some { cm with collectionSize := some (k + 1) }) }

/-- Metaplex `sign_metadata` (external): the signing creator must be in the list. -/
def metaplexSign (w : World) (mint creator : Addr) : Res World := do
  let m ← fetch (w.metas mint) (.anchor .accountNotInitialized)
  require (creator ∈ m.info.creators.map (·.address)) (.token .badAuthority)
  pure { w with metas := upd w.metas mint (some { m with info := m.info.sign creator }) }

/-- `nft::create_stream`, `programs/lockup/src/utils/nft.rs:16-122`. -/
def nftCreateStream (rt : Runtime) (w : World) (creator streamNftMint collectionMint recipientStreamNftAta : Addr)
    (nftTokenProgram : TokenProgram) : Res World := do
  let name ← nftName (rt.keyBytes streamNftMint)
  let b ← w.bank.mintTo streamNftMint recipientStreamNftAta collectionMint nftTokenProgram 1
  let w ← metaplexCreate rt { w with bank := b } creator streamNftMint collectionMint name
    (streamNftInfo collectionMint) none
  metaplexVerifyItem w streamNftMint collectionMint collectionMint

/-- `nft::initialize_collection`, `programs/lockup/src/utils/nft.rs:126-220`. -/
def nftInitializeCollection (rt : Runtime) (w : World) (payer collectionMint nftCollectionAta : Addr)
    (nftTokenProgram : TokenProgram) : Res World := do
  let b ← w.bank.mintTo collectionMint nftCollectionAta collectionMint nftTokenProgram 1
  let w ← metaplexCreate rt { w with bank := b } payer collectionMint collectionMint COLLECTION_NAME
    (collectionInfo collectionMint) (some 0)
  metaplexSign w collectionMint collectionMint

/-! ## initialize -/

/-- `Initialize`, `programs/lockup/src/instructions/initialize.rs:18-124`. -/
structure InitializeAccts where
  initializer : Addr
  treasury : Addr
  nftCollectionData : Addr
  nftCollectionMint : Addr
  nftCollectionAta : Addr
  nftTokenProgram : TokenProgram
  deriving DecidableEq

/-- `programs/lockup/src/instructions/initialize.rs:17-150`. -/
def initializeProgram (rt : Runtime) (w : World) (c : InitializeAccts)
    (feeCollector chainlinkProgram chainlinkSolUsdFeed : Addr) : Res World := do
  require (c.initializer.canSign = true) (.anchor .accountNotSigner)
  -- treasury: init (30-37)
  require (c.treasury = .treasury .lockup) (.anchor .constraintSeeds)
  require (w.lk.treasury = none) (.anchor .accountAlreadyInUse)
  let w ← w.payRent rt c.initializer c.treasury treasurySpace
  -- nft_collection_data: init (43-50)
  require (c.nftCollectionData = .nftCollectionData) (.anchor .constraintSeeds)
  require (w.lk.nftCollectionData = none) (.anchor .accountAlreadyInUse)
  let w ← w.payRent rt c.initializer c.nftCollectionData nftCollectionDataSpace
  -- nft_collection_mint: init (82-92)
  require (c.nftCollectionMint = .nftCollectionMint) (.anchor .constraintSeeds)
  let b ← w.bank.openMint c.nftCollectionMint (freshNftMint c.nftTokenProgram)
  let w ← World.payRent rt { w with bank := b } c.initializer c.nftCollectionMint World.mintSpace
  -- nft_collection_ata: init (95-102)
  let w ← w.createAta rt c.initializer c.nftCollectionAta c.treasury c.nftTokenProgram c.nftCollectionMint
  -- handler (127-150)
  let tr := Treasury.initialize (rt.bump c.treasury) feeCollector chainlinkProgram chainlinkSolUsdFeed
  let nd := NftCollectionData.initialize (rt.bump c.nftCollectionData)
  let w := { w with lk := { w.lk with treasury := some tr, nftCollectionData := some nd } }
  nftInitializeCollection rt w c.initializer c.nftCollectionMint c.nftCollectionAta c.nftTokenProgram

/-! ## create -/

/-- `CreateWithTimestamps`, `programs/lockup/src/instructions/create_with_timestamps.rs:21-197`. -/
structure CreateAccts where
  creator : Addr
  creatorAta : Addr
  recipient : Addr
  sender : Addr
  nftCollectionData : Addr
  nftCollectionMint : Addr
  depositTokenMint : Addr
  streamNftMint : Addr
  recipientStreamNftAta : Addr
  streamData : Addr
  streamDataAta : Addr
  depositTokenProgram : TokenProgram
  nftTokenProgram : TokenProgram
  deriving DecidableEq

/-- The arguments of the timestamps handler, as numbers. `programs/lockup/src/lib.rs:148-170`. -/
structure CreateParams where
  salt : Nat
  depositAmount : Nat
  startTime : Nat
  cliffTime : Nat
  endTime : Nat
  startUnlockAmount : Nat
  cliffUnlockAmount : Nat
  isCancelable : Bool
  deriving DecidableEq

/-- `programs/lockup/src/instructions/create_with_timestamps.rs:19-277`. -/
def createWithTimestamps (rt : Runtime) (w : World) (c : CreateAccts) (p : CreateParams) : Res World := do
  -- creator (26-27), creator_ata (30-36)
  require (c.creator.canSign = true) (.anchor .accountNotSigner)
  let _ ← w.bank.checkAta c.creatorAta c.creator c.depositTokenProgram c.depositTokenMint
  -- nft_collection_data (50-55)
  require (c.nftCollectionData = .nftCollectionData) (.anchor .constraintSeeds)
  let nd ← fetch w.lk.nftCollectionData (.anchor .accountNotInitialized)
  require (nd.bump = rt.bump c.nftCollectionData) (.anchor .constraintSeeds)
  -- nft_collection_mint (86-90)
  require (c.nftCollectionMint = .nftCollectionMint) (.anchor .constraintSeeds)
  let _ ← fetch (w.bank.mints c.nftCollectionMint) (.anchor .accountNotInitialized)
  -- deposit_token_mint (96-97)
  let dm ← fetch (w.bank.mints c.depositTokenMint) (.anchor .accountNotInitialized)
  require (dm.program = c.depositTokenProgram) (.anchor .constraintTokenProgram)
  -- stream_nft_mint: init (100-114)
  require (c.streamNftMint = .streamNftMint c.sender p.salt) (.anchor .constraintSeeds)
  let b ← w.bank.openMint c.streamNftMint (freshNftMint c.nftTokenProgram)
  let w ← World.payRent rt { w with bank := b } c.creator c.streamNftMint World.mintSpace
  -- recipient_stream_nft_ata: init (117-124)
  let w ← w.createAta rt c.creator c.recipientStreamNftAta c.recipient c.nftTokenProgram c.streamNftMint
  -- stream_data: init (127-134)
  require (c.streamData = .streamData c.streamNftMint) (.anchor .constraintSeeds)
  require (w.lk.streams c.streamData = none) (.anchor .accountAlreadyInUse)
  let w ← w.payRent rt c.creator c.streamData streamDataSpace
  -- stream_data_ata: init (137-144)
  let w ← w.createAta rt c.creator c.streamDataAta c.streamData c.depositTokenProgram c.depositTokenMint
  -- handler (201-277)
  checkCreate p.depositAmount p.startTime p.cliffTime p.endTime p.startUnlockAmount p.cliffUnlockAmount
  let sd := StreamData.create c.depositTokenMint (rt.bump c.streamData) p.cliffTime p.cliffUnlockAmount
    p.depositAmount p.endTime p.salt p.isCancelable c.sender p.startTime p.startUnlockAmount
  let w ← nftCreateStream rt w c.creator c.streamNftMint c.nftCollectionMint c.recipientStreamNftAta
    c.nftTokenProgram
  let nd ← nd.create
  let w ← w.transferTokens c.creatorAta c.streamDataAta c.creator c.depositTokenMint c.depositTokenProgram
    p.depositAmount dm.decimals
  let w := { w with lk := { w.lk with
    streams := upd w.lk.streams c.streamData (some sd)
    nftCollectionData := some nd } }
  pure (w.emit (.createLockupLinearStream dm.decimals c.depositTokenMint c.recipient p.salt c.streamData
    c.streamNftMint))

/-- The arguments of the durations handler, as numbers. `programs/lockup/src/lib.rs:86-105`. -/
structure CreateDurationParams where
  salt : Nat
  depositAmount : Nat
  cliffDuration : Nat
  totalDuration : Nat
  startUnlockAmount : Nat
  cliffUnlockAmount : Nat
  isCancelable : Bool
  deriving DecidableEq

/-- `programs/lockup/src/instructions/create_with_durations.rs:7-42`.  (Anchor validates and creates the
accounts before the handler runs; since a failure of either discards everything, computing the times
first is equivalent.) -/
def createWithDurations (rt : Runtime) (w : World) (c : CreateAccts) (p : CreateDurationParams) :
    Res World := do
  let startTime := w.now
  let cliffTime ← (if p.cliffDuration > 0 then addU64 startTime p.cliffDuration else .ok 0)
  let endTime ← addU64 startTime p.totalDuration
  createWithTimestamps rt w c
    { salt := p.salt, depositAmount := p.depositAmount, startTime, cliffTime, endTime,
      startUnlockAmount := p.startUnlockAmount, cliffUnlockAmount := p.cliffUnlockAmount,
      isCancelable := p.isCancelable }

/-! ## withdraw -/

/-- `Withdraw`, `programs/lockup/src/instructions/withdraw.rs:22-134`. -/
structure WithdrawAccts where
  signer : Addr
  streamRecipient : Addr
  withdrawalRecipient : Addr
  withdrawalRecipientAta : Addr
  treasury : Addr
  depositedTokenMint : Addr
  recipientStreamNftAta : Addr
  streamData : Addr
  streamDataAta : Addr
  streamNftMint : Addr
  chainlinkProgram : Addr
  chainlinkSolUsdFeed : Addr
  depositedTokenProgram : TokenProgram
  nftTokenProgram : TokenProgram
  deriving DecidableEq

/-- Loading `stream_data` with `seeds = [STREAM_DATA, stream_nft_mint], bump = stream_data.bump`
(`withdraw.rs:88-93`, `cancel.rs:45-53`, `renounce.rs:25-33`, `view/stream_view.rs:13-20`) and
`stream_nft_mint` (any initialised mint). -/
def loadStream (rt : Runtime) (w : World) (streamData streamNftMint : Addr) : Res StreamData := do
  let sd ← fetch (w.lk.streams streamData) (.anchor .accountNotInitialized)
  require (streamData = .streamData streamNftMint) (.anchor .constraintSeeds)
  require (sd.bump = rt.bump streamData) (.anchor .constraintSeeds)
  let _ ← fetch (w.bank.mints streamNftMint) (.anchor .accountNotInitialized)
  pure sd

/-- Loading the treasury: `seeds = [TREASURY], bump = treasury.bump` (`withdraw.rs:61-66`).
(An account at any other address is not a treasury, so the address is compared first.) -/
def loadTreasury (rt : Runtime) (w : World) (treasury : Addr) : Res Treasury := do
  require (treasury = .treasury .lockup) (.anchor .constraintSeeds)
  let tr ← fetch w.lk.treasury (.anchor .accountNotInitialized)
  require (tr.bump = rt.bump treasury) (.anchor .constraintSeeds)
  pure tr

/-- The account-validation phase of `withdraw` (`withdraw.rs:22-134`): returns the world after the
possible creation of the destination account, the stream and the deposited mint. -/
def withdrawAccounts (rt : Runtime) (w : World) (c : WithdrawAccts) :
    Res (World × StreamData × MintData) := do
  require (c.signer.canSign = true) (.anchor .accountNotSigner)
  -- withdrawal_recipient (36-45)
  require (c.withdrawalRecipient = c.streamRecipient ∨
    (c.withdrawalRecipient ≠ c.streamRecipient ∧ c.signer = c.streamRecipient)) (.anchor .constraintRaw)
  -- treasury (61-66)
  let tr ← loadTreasury rt w c.treasury
  -- stream_data (88-93), stream_nft_mint (105)
  let sd ← loadStream rt w c.streamData c.streamNftMint
  -- deposited_token_mint (72-73)
  require (c.depositedTokenMint = sd.depositedTokenMint) (.anchor .constraintAddress)
  let dm ← fetch (w.bank.mints c.depositedTokenMint) (.anchor .accountNotInitialized)
  -- recipient_stream_nft_ata (77-85)
  let nft ← w.bank.checkAta c.recipientStreamNftAta c.streamRecipient c.nftTokenProgram c.streamNftMint
  require (nft.amount = 1) (.anchor .constraintRaw)
  -- stream_data_ata (96-102)
  let _ ← w.bank.checkAta c.streamDataAta c.streamData c.depositedTokenProgram c.depositedTokenMint
  -- chainlink_program (115-116), chainlink_sol_usd_feed (120-121)
  require (c.chainlinkProgram = tr.chainlinkProgram) (.anchor .constraintAddress)
  require (c.chainlinkSolUsdFeed = tr.chainlinkSolUsdFeed) (.anchor .constraintAddress)
  -- withdrawal_recipient_ata: init_if_needed (48-55)
  let w ← w.ensureAta rt c.signer c.withdrawalRecipientAta c.withdrawalRecipient c.depositedTokenProgram
    c.depositedTokenMint
  pure (w, sd, dm)

/-- `withdraw::handler`, `programs/lockup/src/instructions/withdraw.rs:137-183`, on validated accounts. -/
def withdrawHandler (w : World) (c : WithdrawAccts) (sd : StreamData) (dm : MintData) (amount : Nat) :
    Res World := do
  let withdrawable ← getWithdrawableAmount w.now sd.timestamps sd.amounts sd.isDepleted sd.wasCanceled
  checkWithdraw sd.isDepleted amount withdrawable
  let sd' ← sd.withdraw amount
  let (w, fee) ← chargeFee w WITHDRAWAL_FEE_USD c.chainlinkProgram c.chainlinkSolUsdFeed c.signer c.treasury
  let w ← w.transferTokens c.streamDataAta c.withdrawalRecipientAta c.streamData c.depositedTokenMint
    c.depositedTokenProgram amount dm.decimals
  let w := { w with lk := { w.lk with streams := upd w.lk.streams c.streamData (some sd') } }
  pure (w.emit (.withdrawFromLockupStream c.depositedTokenMint fee c.streamData c.streamNftMint amount))

/-- The `withdraw` instruction, `programs/lockup/src/lib.rs:236-238`. -/
def withdraw (rt : Runtime) (w : World) (c : WithdrawAccts) (amount : Nat) : Res World := do
  let (w, sd, dm) ← withdrawAccounts rt w c
  withdrawHandler w c sd dm amount

/-- `withdraw_max`, `programs/lockup/src/instructions/withdraw_max.rs:5-14`, `lib.rs:253-255`. -/
def withdrawMax (rt : Runtime) (w : World) (c : WithdrawAccts) : Res World := do
  let (w, sd, dm) ← withdrawAccounts rt w c
  let amount ← getWithdrawableAmount w.now sd.timestamps sd.amounts sd.isDepleted sd.wasCanceled
  withdrawHandler w c sd dm amount

/-! ## cancel -/

/-- `Cancel`, `programs/lockup/src/instructions/cancel.rs:16-81`. -/
structure CancelAccts where
  sender : Addr
  senderAta : Addr
  depositedTokenMint : Addr
  streamData : Addr
  streamDataAta : Addr
  streamNftMint : Addr
  depositedTokenProgram : TokenProgram
  deriving DecidableEq

/-- The account-validation phase of `cancel` (`cancel.rs:15-81`). -/
def cancelAccounts (rt : Runtime) (w : World) (c : CancelAccts) : Res (World × StreamData × MintData) := do
  -- sender (21-25)
  require (c.sender.canSign = true) (.anchor .accountNotSigner)
  -- stream_data (45-53), stream_nft_mint (65)
  let sd ← loadStream rt w c.streamData c.streamNftMint
  require (c.sender = sd.sender) (.anchor .constraintAddress)
  -- deposited_token_mint (41-42)
  require (c.depositedTokenMint = sd.depositedTokenMint) (.anchor .constraintAddress)
  let dm ← fetch (w.bank.mints c.depositedTokenMint) (.anchor .accountNotInitialized)
  -- stream_data_ata (56-62)
  let _ ← w.bank.checkAta c.streamDataAta c.streamData c.depositedTokenProgram c.depositedTokenMint
  -- sender_ata: init_if_needed (28-35)
  let w ← w.ensureAta rt c.sender c.senderAta c.sender c.depositedTokenProgram c.depositedTokenMint
  pure (w, sd, dm)

/-- `cancel::handler`, `programs/lockup/src/instructions/cancel.rs:84-136`, on validated accounts. -/
def cancelHandler (w : World) (c : CancelAccts) (sd : StreamData) (dm : MintData) : Res World := do
  let streamed ← getStreamedAmount w.now sd.timestamps sd.amounts sd.isDepleted sd.wasCanceled
  checkCancel sd.isCancelable sd.isDepleted sd.wasCanceled streamed sd.amounts.deposited
  let senderAmount ← subU64 sd.amounts.deposited streamed
  let recipientAmount ← subU64 streamed sd.amounts.withdrawn
  let sd' := sd.cancel senderAmount recipientAmount
  let w ← w.transferTokens c.streamDataAta c.senderAta c.streamData c.depositedTokenMint
    c.depositedTokenProgram senderAmount dm.decimals
  let w := { w with lk := { w.lk with streams := upd w.lk.streams c.streamData (some sd') } }
  pure (w.emit (.cancelLockupStream c.depositedTokenMint recipientAmount senderAmount c.streamData
    c.streamNftMint))

/-- The `cancel` instruction, `programs/lockup/src/lib.rs:44-46`. -/
def cancel (rt : Runtime) (w : World) (c : CancelAccts) : Res World := do
  let (w, sd, dm) ← cancelAccounts rt w c
  cancelHandler w c sd dm

/-! ## renounce -/

/-- `Renounce`, `programs/lockup/src/instructions/renounce.rs:13-37`. -/
structure RenounceAccts where
  sender : Addr
  streamData : Addr
  streamNftMint : Addr
  deriving DecidableEq

/-- The `renounce` instruction, `programs/lockup/src/instructions/renounce.rs:12-64`. -/
def renounce (rt : Runtime) (w : World) (c : RenounceAccts) : Res World := do
  require (c.sender.canSign = true) (.anchor .accountNotSigner)
  let sd ← loadStream rt w c.streamData c.streamNftMint
  require (c.sender = sd.sender) (.anchor .constraintAddress)
  let streamed ← getStreamedAmount w.now sd.timestamps sd.amounts sd.isDepleted sd.wasCanceled
  checkRenounce sd.isCancelable sd.amounts.deposited streamed
  let w := { w with lk := { w.lk with streams := upd w.lk.streams c.streamData (some sd.renounce) } }
  pure (w.emit (.renounceLockupStream sd.depositedTokenMint c.streamData c.streamNftMint))

/-! ## collect_fees -/

/-- `CollectFees`, `programs/lockup/src/instructions/collect_fees.rs:9-32`. -/
structure CollectFeesAccts where
  feeCollector : Addr
  feeRecipient : Addr
  treasury : Addr
  deriving DecidableEq

/-- The `collect_fees` instruction, `programs/lockup/src/instructions/collect_fees.rs:8-77`. -/
def collectFees (rt : Runtime) (w : World) (c : CollectFeesAccts) : Res World := do
  require (c.feeCollector.canSign = true) (.anchor .accountNotSigner)
  let tr ← loadTreasury rt w c.treasury
  require (c.feeCollector = tr.feeCollector) (.anchor .constraintAddress)
  let amount ← safeCollectibleAmount rt (w.lamports c.treasury) treasurySpace
  checkCollectFees amount
  -- `sub_lamports`, then `add_lamports` (43-44); both checked
  require (amount ≤ w.lamports c.treasury) .arithmeticOverflow
  let l := upd w.lamports c.treasury (w.lamports c.treasury - amount)
  require (l c.feeRecipient + amount < 2 ^ 64) .arithmeticOverflow
  let w := { w with lamports := upd l c.feeRecipient (l c.feeRecipient + amount) }
  pure (w.emit (.feesCollected .lockup amount c.feeCollector c.feeRecipient))

/-! ## Views -/

/-- `StreamView`, `programs/lockup/src/instructions/view/stream_view.rs:8-24`. -/
structure StreamViewAccts where
  streamData : Addr
  streamNftMint : Addr
  deriving DecidableEq

/-- `view/streamed_amount_of.rs:7-14`. -/
def streamedAmountOf (rt : Runtime) (w : World) (c : StreamViewAccts) : Res Nat := do
  let sd ← loadStream rt w c.streamData c.streamNftMint
  getStreamedAmount w.now sd.timestamps sd.amounts sd.isDepleted sd.wasCanceled

/-- `view/withdrawable_amount_of.rs:7-14`. -/
def withdrawableAmountOf (rt : Runtime) (w : World) (c : StreamViewAccts) : Res Nat := do
  let sd ← loadStream rt w c.streamData c.streamNftMint
  getWithdrawableAmount w.now sd.timestamps sd.amounts sd.isDepleted sd.wasCanceled

/-- `view/refundable_amount_of.rs:7-15`. -/
def refundableAmountOf (rt : Runtime) (w : World) (c : StreamViewAccts) : Res Nat := do
  let sd ← loadStream rt w c.streamData c.streamNftMint
  getRefundableAmount w.now sd.timestamps sd.amounts sd.isCancelable sd.isDepleted sd.wasCanceled

/-- `StreamStatus`, `view/status_of.rs:41-47`. -/
inductive StreamStatus
  | pending | streaming | settled | canceled | depleted
  deriving DecidableEq, Repr

/-- `view/status_of.rs:7-38`. -/
def statusOf (rt : Runtime) (w : World) (c : StreamViewAccts) : Res StreamStatus := do
  let sd ← loadStream rt w c.streamData c.streamNftMint
  if sd.isDepleted then .ok .depleted
  else if sd.wasCanceled then .ok .canceled
  else if w.now < sd.timestamps.start then .ok .pending
  else do
    let streamed ← getStreamedAmount w.now sd.timestamps sd.amounts sd.isDepleted sd.wasCanceled
    if streamed < sd.amounts.deposited then .ok .streaming else .ok .settled

/-- `stream_exists`, `lib.rs:294-296` and `view/stream_exists.rs:5-22`: is there data at the stream NFT
mint address of `(sender, salt)`? (The address argument is forced by `seeds`.) -/
def streamExists (w : World) (sender : Addr) (salt : Nat) : Bool :=
  (w.bank.mints (.streamNftMint sender salt)).isSome

/-- `treasury_view`, `lib.rs:318-320`, `view/treasury_view.rs:5-16`. -/
def treasuryView (rt : Runtime) (w : World) (treasury : Addr) : Res Treasury :=
  loadTreasury rt w treasury

/-- `withdrawal_fee_in_lamports`, `view/withdrawal_fee_in_lamports.rs:11-39`. -/
def withdrawalFeeInLamports (rt : Runtime) (w : World) (treasury chainlinkProgram feed : Addr) : Res Nat := do
  let tr ← loadTreasury rt w treasury
  require (chainlinkProgram = tr.chainlinkProgram) (.anchor .constraintAddress)
  require (feed = tr.chainlinkSolUsdFeed) (.anchor .constraintAddress)
  convertUsdFeeToLamports WITHDRAWAL_FEE_USD w.now (w.oracle chainlinkProgram feed)

end Solsab.Lockup
