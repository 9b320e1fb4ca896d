import Verif.Fee
import Verif.Merkle.Validations
/-!
# Instructions of the merkle_instant program

Same conventions as `Verif/Lockup/Instructions.lean`.
-/

namespace Solsab.Merkle

/-- `CLAIM_FEE_USD`, `programs/merkle_instant/src/utils/constants.rs:4`. -/
def CLAIM_FEE_USD : Nat := 0

/-- Loading the treasury: `seeds = [TREASURY], bump = treasury.bump` (`claim.rs:49-54`).
(An account at any other address is not a treasury, so the address is compared first.) -/
def loadTreasury (rt : Runtime) (w : World) (treasury : Addr) : Res Treasury := do
  require (treasury = .treasury .merkle) (.anchor .constraintSeeds)
  let tr ← fetch w.mi.treasury (.anchor .accountNotInitialized)
  require (tr.bump = rt.bump treasury) (.anchor .constraintSeeds)
  pure tr

/-- The address derived by the signer seeds of the vault transfers (`claim.rs:153-162`,
`clawback.rs:90-99`). -/
def Campaign.signerAddr (c : Campaign) : Addr :=
  .campaign c.creator c.merkleRoot c.campaignStartTime c.expirationTime c.name c.airdropTokenMint

/-! ## initialize -/

/-- `Initialize`, `programs/merkle_instant/src/instructions/initialize.rs:9-35`. -/
structure InitializeAccts where
  initializer : Addr
  treasury : Addr
  deriving DecidableEq

/-- `programs/merkle_instant/src/instructions/initialize.rs:8-47`. -/
def initializeProgram (rt : Runtime) (w : World) (c : InitializeAccts)
    (feeCollector chainlinkProgram chainlinkSolUsdFeed : Addr) : Res World := do
  require (c.initializer.canSign = true) (.anchor .accountNotSigner)
  require (c.treasury = .treasury .merkle) (.anchor .constraintSeeds)
  require (w.mi.treasury = none) (.anchor .accountAlreadyInUse)
  let w ← w.payRent rt c.initializer c.treasury treasurySpace
  let tr := Treasury.initialize (rt.bump c.treasury) feeCollector chainlinkProgram chainlinkSolUsdFeed
  pure { w with mi := { w.mi with treasury := some tr } }

/-! ## create_campaign -/

/-- `CreateCampaign`, `programs/merkle_instant/src/instructions/create_campaign.rs:22-79`. -/
structure CreateCampaignAccts where
  creator : Addr
  airdropTokenMint : Addr
  campaign : Addr
  campaignAta : Addr
  airdropTokenProgram : TokenProgram
  deriving DecidableEq

/-- Arguments of `create_campaign`, as numbers and UTF-8 bytes. `programs/merkle_instant/src/lib.rs:127-137`. -/
structure CampaignParams where
  merkleRoot : Bytes32
  campaignStartTime : Nat
  expirationTime : Nat
  name : List UInt8
  ipfsCid : List UInt8
  aggregateAmount : Nat
  recipientCount : Nat
  deriving DecidableEq

/-- `programs/merkle_instant/src/instructions/create_campaign.rs:15-121`.  A seed may have at most 32
bytes (`MAX_SEED_LEN`), else the address cannot be derived; on exit Anchor serialises the account into
the allocated `campaignSpace` bytes and fails if it does not fit. -/
def createCampaign (rt : Runtime) (w : World) (c : CreateCampaignAccts) (p : CampaignParams) :
    Res World := do
  -- creator (27-28)
  require (c.creator.canSign = true) (.anchor .accountNotSigner)
  -- airdrop_token_mint (34-35)
  let dm ← fetch (w.bank.mints c.airdropTokenMint) (.anchor .accountNotInitialized)
  require (dm.program = c.airdropTokenProgram) (.anchor .constraintTokenProgram)
  -- campaign: init (38-53)
  require (p.name.length ≤ 32) (.anchor .maxSeedLengthExceeded)
  require (c.campaign = .campaign c.creator p.merkleRoot p.campaignStartTime p.expirationTime p.name
    c.airdropTokenMint) (.anchor .constraintSeeds)
  require (w.mi.campaigns c.campaign = none) (.anchor .accountAlreadyInUse)
  let w ← w.payRent rt c.creator c.campaign campaignSpace
  -- campaign_ata: init (56-63)
  let w ← w.createAta rt c.creator c.campaignAta c.campaign c.airdropTokenProgram c.airdropTokenMint
  -- handler (83-121)
  let cd := Campaign.create c.airdropTokenMint (rt.bump c.campaign) p.campaignStartTime c.creator
    p.expirationTime p.ipfsCid p.merkleRoot p.name
  let w := w.emit (.createCampaign p.aggregateAmount c.campaign p.name p.campaignStartTime c.creator
    p.expirationTime p.ipfsCid p.merkleRoot p.recipientCount dm.decimals c.airdropTokenMint)
  -- exit: serialisation
  require (cd.encodedSize ≤ campaignSpace) (.anchor .didNotSerialize)
  pure { w with mi := { w.mi with campaigns := upd w.mi.campaigns c.campaign (some cd) } }

/-! ## claim -/

/-- `Claim`, `programs/merkle_instant/src/instructions/claim.rs:23-114`. -/
structure ClaimAccts where
  claimer : Addr
  recipient : Addr
  recipientAta : Addr
  treasury : Addr
  airdropTokenMint : Addr
  campaign : Addr
  campaignAta : Addr
  claimReceipt : Addr
  airdropTokenProgram : TokenProgram
  chainlinkProgram : Addr
  chainlinkSolUsdFeed : Addr
  deriving DecidableEq

/-- The account-validation phase of `claim` (`claim.rs:21-114`).  The campaign account has no `seeds`
constraint: any account of this program with the campaign discriminator is accepted. -/
def claimAccounts (rt : Runtime) (w : World) (c : ClaimAccts) (index : Nat) :
    Res (World × Campaign × MintData) := do
  require (c.claimer.canSign = true) (.anchor .accountNotSigner)
  -- treasury (49-54)
  let tr ← loadTreasury rt w c.treasury
  -- campaign (64-65), airdrop_token_mint (60-61)
  let cd ← fetch (w.mi.campaigns c.campaign) (.anchor .accountNotInitialized)
  require (c.airdropTokenMint = cd.airdropTokenMint) (.anchor .constraintAddress)
  let dm ← fetch (w.bank.mints c.airdropTokenMint) (.anchor .accountNotInitialized)
  -- campaign_ata (68-74)
  let _ ← w.bank.checkAta c.campaignAta c.campaign c.airdropTokenProgram c.airdropTokenMint
  -- chainlink_program, chainlink_sol_usd_feed (101-107)
  require (c.chainlinkProgram = tr.chainlinkProgram) (.anchor .constraintAddress)
  require (c.chainlinkSolUsdFeed = tr.chainlinkSolUsdFeed) (.anchor .constraintAddress)
  -- recipient_ata: init_if_needed (36-43)
  let w ← w.ensureAta rt c.claimer c.recipientAta c.recipient c.airdropTokenProgram c.airdropTokenMint
  -- claim_receipt: init (77-88)
  require (c.claimReceipt = .claimReceipt c.campaign index) (.anchor .constraintSeeds)
  require (w.mi.receipts c.claimReceipt = false) (.anchor .accountAlreadyInUse)
  let w ← w.payRent rt c.claimer c.claimReceipt claimReceiptSpace
  let w := { w with mi := { w.mi with receipts := upd w.mi.receipts c.claimReceipt true } }
  pure (w, cd, dm)

/-- The transfer out of the campaign vault, signed with the seeds stored in the campaign
(`claim.rs:145-163`, `clawback.rs:82-100`): the runtime grants the signature only if the seeds and the
stored bump derive the campaign account's address. -/
def campaignTransfer (rt : Runtime) (w : World) (cd : Campaign) (campaign campaignAta dst mint : Addr)
    (tp : TokenProgram) (amount decimals : Nat) : Res World := do
  require (campaign = cd.signerAddr ∧ cd.bump = rt.bump campaign) (.anchor .privilegeEscalation)
  w.transferTokens campaignAta dst campaign mint tp amount decimals

/-- `claim::handler`, `programs/merkle_instant/src/instructions/claim.rs:117-177`, on validated accounts. -/
def claimHandler (rt : Runtime) (w : World) (c : ClaimAccts) (cd : Campaign) (dm : MintData)
    (index amount : Nat) (proof : List Bytes32) : Res World := do
  checkClaim rt w.now amount cd.campaignStartTime cd.expirationTime index proof cd.merkleRoot c.recipient
  let cd' := cd.claim w.now
  let (w, fee) ← chargeFee w CLAIM_FEE_USD c.chainlinkProgram c.chainlinkSolUsdFeed c.claimer c.treasury
  let w ← campaignTransfer rt w cd c.campaign c.campaignAta c.recipientAta c.airdropTokenMint
    c.airdropTokenProgram amount dm.decimals
  let w := { w with mi := { w.mi with campaigns := upd w.mi.campaigns c.campaign (some cd') } }
  pure (w.emit (.claim amount c.campaign c.claimer c.claimReceipt fee index c.recipient))

/-- The `claim` instruction, `programs/merkle_instant/src/lib.rs:52-54`. -/
def claim (rt : Runtime) (w : World) (c : ClaimAccts) (index amount : Nat) (proof : List Bytes32) :
    Res World := do
  let (w, cd, dm) ← claimAccounts rt w c index
  claimHandler rt w c cd dm index amount proof

/-! ## clawback -/

/-- `Clawback`, `programs/merkle_instant/src/instructions/clawback.rs:13-71`. -/
structure ClawbackAccts where
  campaignCreator : Addr
  clawbackRecipient : Addr
  clawbackRecipientAta : Addr
  airdropTokenMint : Addr
  campaign : Addr
  campaignAta : Addr
  airdropTokenProgram : TokenProgram
  deriving DecidableEq

/-- The account-validation phase of `clawback` (`clawback.rs:12-71`). -/
def clawbackAccounts (rt : Runtime) (w : World) (c : ClawbackAccts) : Res (World × Campaign × MintData) := do
  -- campaign_creator (18-22), campaign (46)
  require (c.campaignCreator.canSign = true) (.anchor .accountNotSigner)
  let cd ← fetch (w.mi.campaigns c.campaign) (.anchor .accountNotInitialized)
  require (c.campaignCreator = cd.creator) (.anchor .constraintAddress)
  -- airdrop_token_mint (42-43)
  require (c.airdropTokenMint = cd.airdropTokenMint) (.anchor .constraintAddress)
  let dm ← fetch (w.bank.mints c.airdropTokenMint) (.anchor .accountNotInitialized)
  -- campaign_ata (49-55)
  let _ ← w.bank.checkAta c.campaignAta c.campaign c.airdropTokenProgram c.airdropTokenMint
  -- clawback_recipient_ata: init_if_needed (29-36)
  let w ← w.ensureAta rt c.campaignCreator c.clawbackRecipientAta c.clawbackRecipient
    c.airdropTokenProgram c.airdropTokenMint
  pure (w, cd, dm)

/-- `clawback::handler`, `programs/merkle_instant/src/instructions/clawback.rs:74-111`, on validated
accounts. -/
def clawbackHandler (rt : Runtime) (w : World) (c : ClawbackAccts) (cd : Campaign) (dm : MintData)
    (amount : Nat) : Res World := do
  checkClawback w.now cd.expirationTime cd.firstClaimTime
  let w ← campaignTransfer rt w cd c.campaign c.campaignAta c.clawbackRecipientAta c.airdropTokenMint
    c.airdropTokenProgram amount dm.decimals
  pure (w.emit (.clawback amount c.campaign c.campaignCreator c.clawbackRecipient))

/-- The `clawback` instruction, `programs/merkle_instant/src/lib.rs:78-80`. -/
def clawback (rt : Runtime) (w : World) (c : ClawbackAccts) (amount : Nat) : Res World := do
  let (w, cd, dm) ← clawbackAccounts rt w c
  clawbackHandler rt w c cd dm amount

/-! ## collect_fees -/

/-- `CollectFees`, `programs/merkle_instant/src/instructions/collect_fees.rs:9-32`. -/
structure CollectFeesAccts where
  feeCollector : Addr
  feeRecipient : Addr
  treasury : Addr
  deriving DecidableEq

/-- The `collect_fees` instruction, `programs/merkle_instant/src/instructions/collect_fees.rs:8-78`. -/
def collectFees (rt : Runtime) (w : World) (c : CollectFeesAccts) : Res World := do
  require (c.feeCollector.canSign = true) (.anchor .accountNotSigner)
  let tr ← loadTreasury rt w c.treasury
  require (c.feeCollector = tr.feeCollector) (.anchor .constraintAddress)
  let amount ← safeCollectibleAmount rt (w.lamports c.treasury) treasurySpace
  checkCollectFees amount
  -- `sub_lamports`, then `add_lamports` (43-44); both checked
  require (amount ≤ w.lamports c.treasury) .arithmeticOverflow
  let l := upd w.lamports c.treasury (w.lamports c.treasury - amount)
  require (l c.feeRecipient + amount < 2 ^ 64) .arithmeticOverflow
  let w := { w with lamports := upd l c.feeRecipient (l c.feeRecipient + amount) }
  pure (w.emit (.feesCollected .merkle amount c.feeCollector c.feeRecipient))

/-! ## Views -/

/-- `campaign_view`, `lib.rs:178-180`, `view/campaign_view.rs:6-13`. -/
def campaignView (w : World) (campaign : Addr) : Res Campaign :=
  fetch (w.mi.campaigns campaign) (.anchor .accountNotInitialized)

/-- `claim_fee_in_lamports`, `view/claim_fee_in_lamports.rs:11-39`. -/
def claimFeeInLamports (rt : Runtime) (w : World) (treasury chainlinkProgram feed : Addr) : Res Nat := do
  let tr ← loadTreasury rt w treasury
  require (chainlinkProgram = tr.chainlinkProgram) (.anchor .constraintAddress)
  require (feed = tr.chainlinkSolUsdFeed) (.anchor .constraintAddress)
  convertUsdFeeToLamports CLAIM_FEE_USD w.now (w.oracle chainlinkProgram feed)

/-- `has_claimed`, `lib.rs:201-203`, `view/has_claimed.rs:5-25`. (The receipt address is forced by
`seeds`.) -/
def hasClaimedView (w : World) (campaign : Addr) (index : Nat) : Res Bool := do
  let _ ← fetch (w.mi.campaigns campaign) (.anchor .accountNotInitialized)
  .ok (w.mi.receipts (.claimReceipt campaign index))

/-- `has_expired`, `view/has_expired.rs:7-9`. -/
def hasExpiredView (w : World) (campaign : Addr) : Res Bool := do
  let cd ← fetch (w.mi.campaigns campaign) (.anchor .accountNotInitialized)
  .ok (hasExpired w.now cd.expirationTime)

/-- `has_grace_period_passed`, `view/has_grace_period_passed.rs:7-9`.  The code passes
`expiration_time`, not `first_claim_time`. -/
def hasGracePeriodPassedView (w : World) (campaign : Addr) : Res Bool := do
  let cd ← fetch (w.mi.campaigns campaign) (.anchor .accountNotInitialized)
  hasGracePeriodPassed w.now cd.expirationTime

/-- `has_campaign_started`, `view/has_campaign_started.rs:7-9`. -/
def hasCampaignStartedView (w : World) (campaign : Addr) : Res Bool := do
  let cd ← fetch (w.mi.campaigns campaign) (.anchor .accountNotInitialized)
  .ok (hasCampaignStarted w.now cd.campaignStartTime)

/-- `treasury_view`, `lib.rs:238-240`, `view/treasury_view.rs:5-16`. -/
def treasuryView (rt : Runtime) (w : World) (treasury : Addr) : Res Treasury :=
  loadTreasury rt w treasury

end Solsab.Merkle
