import Verif.Bytes.Abi
/-!
# Messages: account lists, signatures and bytes

What reaches a program is not a typed instruction but a list of addresses, the privileges the transaction grants them
(who signed, what may be written) and a byte string.  This file models what Anchor's `#[program]` and
`#[derive(Accounts)]` macros (anchor-lang 0.31.1) generate from the account structs of the two programs: the data is
dispatched (`Verif/Bytes/Abi.lean`), the accounts are taken from the list in the order in which the struct declares
them, `Signer` fields must have signed, `mut`, `init` and `init_if_needed` fields must be writable, program fields
must be the program, and then the constraints and the handler run (`Verif/Machine.lean`).

Simplifications.  All privilege and program-id checks come before the constraints, whereas Anchor interleaves them field by
field: which of two simultaneous errors is reported can differ, not whether there is one.  Whether an account at the
address of a program is executable is not checked.  `remaining_accounts` are ignored by both programs, as here.
-/

namespace Solsab.Wire

open Abi Borsh

/-- The addresses fixed outside the two programs, and how a 32-byte argument is understood as an address.
`Program<'info, System>`, `Program<'info, AssociatedToken>`, `Program<'info, Metadata>`, `Sysvar<'info, Rent>`,
`Interface<'info, TokenInterface>` in `programs/lockup/src/instructions/create_with_timestamps.rs:176-194`. -/
structure Ids where
  system : Addr
  token : Addr
  token2022 : Addr
  associatedToken : Addr
  tokenMetadata : Addr
  rent : Addr
  addrOf : Bytes32 → Addr

/-- The type of a field of an account struct, as far as it is checked by the field's type alone. Anchor account types,
used throughout `programs/*/src/instructions`. -/
inductive Kind
  | unchecked
  | signer
  | program (id : Ids → Addr)
  | tokenInterface

/-- A field of a `#[derive(Accounts)]` struct: its name, whether it is writable (`mut`, `init`, `init_if_needed`), its
type. `programs/*/src/instructions`. -/
structure Slot where
  name : String
  writable : Bool
  kind : Kind

/-- A field that is only read. Anchor. E.g. `programs/lockup/src/instructions/renounce.rs:35-36`. -/
def ro (name : String) : Slot := ⟨name, false, .unchecked⟩
/-- A field with `mut`, `init` or `init_if_needed`. Anchor. E.g. `programs/lockup/src/instructions/renounce.rs:24-32`. -/
def rw (name : String) : Slot := ⟨name, true, .unchecked⟩
/-- A `Program` or `Sysvar` field. Anchor. E.g. `programs/lockup/src/instructions/cancel.rs:69-81`. -/
def prog (name : String) (id : Ids → Addr) : Slot := ⟨name, false, .program id⟩
/-- An `Interface<TokenInterface>` field. Anchor. E.g. `programs/lockup/src/instructions/cancel.rs:72-73`. -/
def tok (name : String) : Slot := ⟨name, false, .tokenInterface⟩

/-- `Cancel`, `programs/lockup/src/instructions/cancel.rs:16-81`. -/
def cancelSlots : List Slot :=
  [⟨"sender", true, .signer⟩, rw "sender_ata", ro "deposited_token_mint", rw "stream_data", rw "stream_data_ata",
   ro "stream_nft_mint", prog "associated_token_program" Ids.associatedToken, tok "deposited_token_program",
   prog "system_program" Ids.system]

/-- `CollectFees`, `programs/lockup/src/instructions/collect_fees.rs:9-32`,
`programs/merkle_instant/src/instructions/collect_fees.rs:9-32`. -/
def collectFeesSlots : List Slot := [⟨"fee_collector", false, .signer⟩, rw "fee_recipient", rw "treasury"]

/-- `CreateWithTimestamps`, `programs/lockup/src/instructions/create_with_timestamps.rs:19-197`. -/
def createSlots : List Slot :=
  [⟨"creator", true, .signer⟩, rw "creator_ata", ro "recipient", ro "sender", rw "nft_collection_data",
   ro "nft_collection_master_edition", rw "nft_collection_metadata", ro "nft_collection_mint", ro "deposit_token_mint",
   rw "stream_nft_mint", rw "recipient_stream_nft_ata", rw "stream_data", rw "stream_data_ata",
   rw "stream_nft_master_edition", rw "stream_nft_metadata", prog "associated_token_program" Ids.associatedToken,
   tok "deposit_token_program", tok "nft_token_program", prog "token_metadata_program" Ids.tokenMetadata,
   prog "system_program" Ids.system, prog "rent" Ids.rent]

/-- `Initialize`, `programs/lockup/src/instructions/initialize.rs:17-124`. -/
def lockupInitializeSlots : List Slot :=
  [⟨"initializer", true, .signer⟩, rw "treasury", rw "nft_collection_data", rw "nft_collection_master_edition",
   rw "nft_collection_metadata", rw "nft_collection_mint", rw "nft_collection_ata",
   prog "associated_token_program" Ids.associatedToken, tok "nft_token_program",
   prog "token_metadata_program" Ids.tokenMetadata, prog "rent" Ids.rent, prog "system_program" Ids.system]

/-- `Renounce`, `programs/lockup/src/instructions/renounce.rs:13-37`. -/
def renounceSlots : List Slot := [⟨"sender", false, .signer⟩, rw "stream_data", ro "stream_nft_mint"]

/-- `Withdraw`, `programs/lockup/src/instructions/withdraw.rs:22-134`. -/
def withdrawSlots : List Slot :=
  [⟨"signer", true, .signer⟩, ro "stream_recipient", ro "withdrawal_recipient", rw "withdrawal_recipient_ata",
   rw "treasury", ro "deposited_token_mint", ro "recipient_stream_nft_ata", rw "stream_data", rw "stream_data_ata",
   ro "stream_nft_mint", prog "associated_token_program" Ids.associatedToken, ro "chainlink_program",
   ro "chainlink_sol_usd_feed", tok "deposited_token_program", tok "nft_token_program",
   prog "system_program" Ids.system]

/-- `StreamView`, `programs/lockup/src/instructions/view/stream_view.rs:8-24`. -/
def streamViewSlots : List Slot := [ro "stream_data", ro "stream_nft_mint"]
/-- `StreamExists`, `programs/lockup/src/instructions/view/stream_exists.rs:5-18`. -/
def streamExistsSlots : List Slot := [ro "stream_nft_mint"]
/-- `TreasuryView`, `view/treasury_view.rs:5-12` of both programs. -/
def treasuryViewSlots : List Slot := [ro "treasury"]
/-- `WithdrawalFeeInLamports`, `programs/lockup/src/instructions/view/withdrawal_fee_in_lamports.rs:11-29`,
`ClaimFeeInLamports`, `programs/merkle_instant/src/instructions/view/claim_fee_in_lamports.rs:11-29`. -/
def feeViewSlots : List Slot := [ro "treasury", ro "chainlink_program", ro "chainlink_sol_usd_feed"]

/-- `Claim`, `programs/merkle_instant/src/instructions/claim.rs:23-114`. -/
def claimSlots : List Slot :=
  [⟨"claimer", true, .signer⟩, ro "recipient", rw "recipient_ata", rw "treasury", ro "airdrop_token_mint",
   rw "campaign", rw "campaign_ata", rw "claim_receipt", tok "airdrop_token_program",
   prog "associated_token_program" Ids.associatedToken, ro "chainlink_program", ro "chainlink_sol_usd_feed",
   prog "system_program" Ids.system]

/-- `Clawback`, `programs/merkle_instant/src/instructions/clawback.rs:13-71`. -/
def clawbackSlots : List Slot :=
  [⟨"campaign_creator", true, .signer⟩, ro "clawback_recipient", rw "clawback_recipient_ata", ro "airdrop_token_mint",
   ro "campaign", rw "campaign_ata", tok "airdrop_token_program",
   prog "associated_token_program" Ids.associatedToken, prog "system_program" Ids.system]

/-- `CreateCampaign`, `programs/merkle_instant/src/instructions/create_campaign.rs:15-79`. -/
def createCampaignSlots : List Slot :=
  [⟨"creator", true, .signer⟩, ro "airdrop_token_mint", rw "campaign", rw "campaign_ata", tok "airdrop_token_program",
   prog "associated_token_program" Ids.associatedToken, prog "system_program" Ids.system]

/-- `Initialize`, `programs/merkle_instant/src/instructions/initialize.rs:8-35`. -/
def merkleInitializeSlots : List Slot :=
  [⟨"initializer", true, .signer⟩, rw "treasury", prog "system_program" Ids.system]

/-- `CampaignView`, `programs/merkle_instant/src/instructions/view/campaign_view.rs:5-9`. -/
def campaignViewSlots : List Slot := [ro "campaign"]
/-- `HasClaimed`, `programs/merkle_instant/src/instructions/view/has_claimed.rs:5-20`. -/
def hasClaimedSlots : List Slot := [ro "campaign", ro "claim_receipt"]

/-- The account struct of each method, `Context<…>` in `programs/lockup/src/lib.rs:44-344`. -/
def lockupSlots : LockupCall → List Slot
  | .cancel => cancelSlots
  | .collectFees => collectFeesSlots
  | .createWithDurations .. => createSlots
  | .createWithTimestamps .. => createSlots
  | .initialize .. => lockupInitializeSlots
  | .renounce => renounceSlots
  | .withdraw _ => withdrawSlots
  | .withdrawMax => withdrawSlots
  | .refundableAmountOf => streamViewSlots
  | .statusOf => streamViewSlots
  | .streamExists .. => streamExistsSlots
  | .streamedAmountOf => streamViewSlots
  | .treasuryView => treasuryViewSlots
  | .withdrawableAmountOf => streamViewSlots
  | .withdrawalFeeInLamports => feeViewSlots

/-- The account struct of each method, `Context<…>` in `programs/merkle_instant/src/lib.rs:52-240`. -/
def merkleSlots : MerkleCall → List Slot
  | .claim .. => claimSlots
  | .clawback _ => clawbackSlots
  | .collectFees => collectFeesSlots
  | .createCampaign .. => createCampaignSlots
  | .initialize .. => merkleInitializeSlots
  | .campaignView => campaignViewSlots
  | .claimFeeInLamports => feeViewSlots
  | .hasClaimed _ => hasClaimedSlots
  | .hasExpired => campaignViewSlots
  | .hasGracePeriodPassed => campaignViewSlots
  | .hasCampaignStarted => campaignViewSlots
  | .treasuryView => treasuryViewSlots

/-- How a message is rejected: bad data, `AccountNotEnoughKeys`, `AccountNotSigner`, `ConstraintMut`,
`InvalidProgramId`, or an error of the constraints and handlers. Anchor, generated for `programs/lockup/src/lib.rs`,
`programs/merkle_instant/src/lib.rs`. -/
inductive WireErr
  | abi (e : AbiErr)
  | notEnoughKeys
  | notSigner
  | notWritable
  | invalidProgramId
  | program (e : Err)
  deriving DecidableEq

/-- The privileges granted by a transaction: who signed it, which accounts it may write. Solana runtime, no line of
/repo. -/
structure Header where
  signers : List Addr
  writable : List Addr

/-- One instruction of a transaction. Solana runtime, no line of /repo. -/
structure Message where
  program : Prog
  accounts : List Addr
  data : List UInt8

/-- `Interface<'info, TokenInterface>`: one of the two token programs. E.g.
`programs/lockup/src/instructions/withdraw.rs:124-127`. -/
def tokenProgram (ids : Ids) (a : Addr) : Except WireErr TokenProgram :=
  if a = ids.token then .ok .token
  else if a = ids.token2022 then .ok .token2022
  else .error .invalidProgramId

/-- The check of a field by its type. Anchor, generated by `#[derive(Accounts)]` in `programs/*/src/instructions`. -/
def Kind.check (ids : Ids) (h : Header) (a : Addr) : Kind → Except WireErr Unit
  | .unchecked => .ok ()
  | .signer => if a ∈ h.signers then .ok () else .error .notSigner
  | .program id => if a = id ids then .ok () else .error .invalidProgramId
  | .tokenInterface => do
      let _ ← tokenProgram ids a
      pure ()

/-- The accounts are taken from the front of the list, field by field; what is left over is ignored. Anchor,
`try_accounts`, generated by `#[derive(Accounts)]` in `programs/*/src/instructions`. -/
def checkSlots (ids : Ids) (h : Header) : List Slot → List Addr → Except WireErr Unit
  | [], _ => .ok ()
  | _ :: _, [] => .error .notEnoughKeys
  | s :: ss, a :: as => do
      s.kind.check ids h a
      if s.writable = true ∧ a ∉ h.writable then .error .notWritable
      else checkSlots ids h ss as

/-- A `seeds` constraint on an account that the handlers only pass on. E.g.
`programs/lockup/src/instructions/create_with_timestamps.rs:147-158`. -/
def seeds (b : Bool) : Except WireErr Unit :=
  if b then .ok () else .error (.program (.anchor .constraintSeeds))

/-- `programs/lockup/src/instructions/cancel.rs:16-81`. -/
def cancelAccts (ids : Ids) : List Addr → Except WireErr Lockup.CancelAccts
  | sender :: senderAta :: mint :: stream :: vault :: nft :: _ :: tp :: _ => do
      let tp ← tokenProgram ids tp
      pure { sender := sender, senderAta := senderAta, depositedTokenMint := mint, streamData := stream
             streamDataAta := vault, streamNftMint := nft, depositedTokenProgram := tp }
  | _ => .error .notEnoughKeys

/-- `programs/lockup/src/instructions/collect_fees.rs:9-32`. -/
def lockupCollectFeesAccts : List Addr → Except WireErr Lockup.CollectFeesAccts
  | collector :: recipient :: treasury :: _ =>
      .ok { feeCollector := collector, feeRecipient := recipient, treasury := treasury }
  | _ => .error .notEnoughKeys

/-- `programs/merkle_instant/src/instructions/collect_fees.rs:9-32`. -/
def merkleCollectFeesAccts : List Addr → Except WireErr Merkle.CollectFeesAccts
  | collector :: recipient :: treasury :: _ =>
      .ok { feeCollector := collector, feeRecipient := recipient, treasury := treasury }
  | _ => .error .notEnoughKeys

/-- `programs/lockup/src/instructions/create_with_timestamps.rs:19-197`. -/
def createAccts (ids : Ids) : List Addr → Except WireErr Lockup.CreateAccts
  | creator :: creatorAta :: recipient :: sender :: collData :: collEdition :: collMeta :: collMint :: mint :: nft ::
      nftAta :: stream :: vault :: nftEdition :: nftMeta :: _ :: tp :: ntp :: _ => do
      let tp ← tokenProgram ids tp
      let ntp ← tokenProgram ids ntp
      seeds (collEdition = .edition collMint)
      seeds (collMeta = .metadata collMint)
      seeds (nftEdition = .edition nft)
      seeds (nftMeta = .metadata nft)
      pure { creator := creator, creatorAta := creatorAta, recipient := recipient, sender := sender
             nftCollectionData := collData, nftCollectionMint := collMint, depositTokenMint := mint
             streamNftMint := nft, recipientStreamNftAta := nftAta, streamData := stream, streamDataAta := vault
             depositTokenProgram := tp, nftTokenProgram := ntp }
  | _ => .error .notEnoughKeys

/-- `programs/lockup/src/instructions/initialize.rs:17-124`. -/
def lockupInitializeAccts (ids : Ids) : List Addr → Except WireErr Lockup.InitializeAccts
  | initializer :: treasury :: collData :: collEdition :: collMeta :: collMint :: collAta :: _ :: tp :: _ => do
      let tp ← tokenProgram ids tp
      seeds (collEdition = .edition collMint)
      seeds (collMeta = .metadata collMint)
      pure { initializer := initializer, treasury := treasury, nftCollectionData := collData
             nftCollectionMint := collMint, nftCollectionAta := collAta, nftTokenProgram := tp }
  | _ => .error .notEnoughKeys

/-- `programs/lockup/src/instructions/renounce.rs:13-37`. -/
def renounceAccts : List Addr → Except WireErr Lockup.RenounceAccts
  | sender :: stream :: nft :: _ => .ok { sender := sender, streamData := stream, streamNftMint := nft }
  | _ => .error .notEnoughKeys

/-- `programs/lockup/src/instructions/withdraw.rs:22-134`. -/
def withdrawAccts (ids : Ids) : List Addr → Except WireErr Lockup.WithdrawAccts
  | signer :: holder :: recipient :: recipientAta :: treasury :: mint :: nftAta :: stream :: vault :: nft :: _ ::
      oracle :: feed :: tp :: ntp :: _ => do
      let tp ← tokenProgram ids tp
      let ntp ← tokenProgram ids ntp
      pure { signer := signer, streamRecipient := holder, withdrawalRecipient := recipient
             withdrawalRecipientAta := recipientAta, treasury := treasury, depositedTokenMint := mint
             recipientStreamNftAta := nftAta, streamData := stream, streamDataAta := vault, streamNftMint := nft
             chainlinkProgram := oracle, chainlinkSolUsdFeed := feed, depositedTokenProgram := tp
             nftTokenProgram := ntp }
  | _ => .error .notEnoughKeys

/-- `programs/merkle_instant/src/instructions/claim.rs:23-114`. -/
def claimAccts (ids : Ids) : List Addr → Except WireErr Merkle.ClaimAccts
  | claimer :: recipient :: recipientAta :: treasury :: mint :: campaign :: vault :: receipt :: tp :: _ :: oracle ::
      feed :: _ => do
      let tp ← tokenProgram ids tp
      pure { claimer := claimer, recipient := recipient, recipientAta := recipientAta, treasury := treasury
             airdropTokenMint := mint, campaign := campaign, campaignAta := vault, claimReceipt := receipt
             airdropTokenProgram := tp, chainlinkProgram := oracle, chainlinkSolUsdFeed := feed }
  | _ => .error .notEnoughKeys

/-- `programs/merkle_instant/src/instructions/clawback.rs:13-71`. -/
def clawbackAccts (ids : Ids) : List Addr → Except WireErr Merkle.ClawbackAccts
  | creator :: recipient :: recipientAta :: mint :: campaign :: vault :: tp :: _ => do
      let tp ← tokenProgram ids tp
      pure { campaignCreator := creator, clawbackRecipient := recipient, clawbackRecipientAta := recipientAta
             airdropTokenMint := mint, campaign := campaign, campaignAta := vault, airdropTokenProgram := tp }
  | _ => .error .notEnoughKeys

/-- `programs/merkle_instant/src/instructions/create_campaign.rs:15-79`. -/
def createCampaignAccts (ids : Ids) : List Addr → Except WireErr Merkle.CreateCampaignAccts
  | creator :: mint :: campaign :: vault :: tp :: _ => do
      let tp ← tokenProgram ids tp
      pure { creator := creator, airdropTokenMint := mint, campaign := campaign, campaignAta := vault
             airdropTokenProgram := tp }
  | _ => .error .notEnoughKeys

/-- `programs/merkle_instant/src/instructions/initialize.rs:8-35`. -/
def merkleInitializeAccts : List Addr → Except WireErr Merkle.InitializeAccts
  | initializer :: treasury :: _ => .ok { initializer := initializer, treasury := treasury }
  | _ => .error .notEnoughKeys

/-- Calls that only answer a question, with their accounts. `programs/lockup/src/lib.rs:271-344`,
`programs/merkle_instant/src/lib.rs:178-240`. -/
inductive View
  | refundableAmountOf (c : Lockup.StreamViewAccts)
  | statusOf (c : Lockup.StreamViewAccts)
  | streamExists (streamNftMint sender : Addr) (salt : Fin (2 ^ 128))
  | streamedAmountOf (c : Lockup.StreamViewAccts)
  | lockupTreasury (treasury : Addr)
  | withdrawableAmountOf (c : Lockup.StreamViewAccts)
  | withdrawalFee (treasury chainlinkProgram feed : Addr)
  | campaign (campaign : Addr)
  | claimFee (treasury chainlinkProgram feed : Addr)
  | hasClaimed (campaign claimReceipt : Addr) (index : UInt32)
  | hasExpired (campaign : Addr)
  | hasGracePeriodPassed (campaign : Addr)
  | hasCampaignStarted (campaign : Addr)
  | merkleTreasury (treasury : Addr)
  deriving DecidableEq

/-- What a message asks for. `programs/lockup/src/lib.rs:44-344`, `programs/merkle_instant/src/lib.rs:52-240`. -/
inductive Request
  | lockup (i : LockupIx)
  | merkle (i : MerkleIx)
  | view (v : View)

/-- `StreamView`, `programs/lockup/src/instructions/view/stream_view.rs:8-24`. -/
def streamViewAccts : List Addr → Except WireErr Lockup.StreamViewAccts
  | stream :: nft :: _ => .ok { streamData := stream, streamNftMint := nft }
  | _ => .error .notEnoughKeys

/-- The first account. `view/treasury_view.rs:5-12`, `view/campaign_view.rs:5-9`, `view/stream_exists.rs:5-18`. -/
def firstAcct : List Addr → Except WireErr Addr
  | a :: _ => .ok a
  | _ => .error .notEnoughKeys

/-- The accounts of the fee views. `programs/lockup/src/instructions/view/withdrawal_fee_in_lamports.rs:11-29`,
`programs/merkle_instant/src/instructions/view/claim_fee_in_lamports.rs:11-29`. -/
def feeViewAccts : List Addr → Except WireErr (Addr × Addr × Addr)
  | treasury :: oracle :: feed :: _ => .ok (treasury, oracle, feed)
  | _ => .error .notEnoughKeys

/-- `HasClaimed`, `programs/merkle_instant/src/instructions/view/has_claimed.rs:5-20`. -/
def hasClaimedAccts : List Addr → Except WireErr (Addr × Addr)
  | campaign :: receipt :: _ => .ok (campaign, receipt)
  | _ => .error .notEnoughKeys

/-- The instruction or view a call asks for on a list of accounts. `programs/lockup/src/lib.rs:44-344`. -/
def lockupRequest (ids : Ids) (as : List Addr) : LockupCall → Except WireErr Request
  | .cancel => do return .lockup (.cancel (← cancelAccts ids as))
  | .collectFees => do return .lockup (.collectFees (← lockupCollectFeesAccts as))
  | .createWithDurations salt dep cd td su cu ca => do
      return .lockup (.createWithDurations (← createAccts ids as) salt dep cd td su cu ca)
  | .createWithTimestamps salt dep st cl en su cu ca => do
      return .lockup (.createWithTimestamps (← createAccts ids as) salt dep st cl en su cu ca)
  | .initialize f p s => do
      return .lockup (.initialize (← lockupInitializeAccts ids as) (ids.addrOf f) (ids.addrOf p) (ids.addrOf s))
  | .renounce => do return .lockup (.renounce (← renounceAccts as))
  | .withdraw amount => do return .lockup (.withdraw (← withdrawAccts ids as) amount)
  | .withdrawMax => do return .lockup (.withdrawMax (← withdrawAccts ids as))
  | .refundableAmountOf => do return .view (.refundableAmountOf (← streamViewAccts as))
  | .statusOf => do return .view (.statusOf (← streamViewAccts as))
  | .streamExists sender salt => do return .view (.streamExists (← firstAcct as) (ids.addrOf sender) salt)
  | .streamedAmountOf => do return .view (.streamedAmountOf (← streamViewAccts as))
  | .treasuryView => do return .view (.lockupTreasury (← firstAcct as))
  | .withdrawableAmountOf => do return .view (.withdrawableAmountOf (← streamViewAccts as))
  | .withdrawalFeeInLamports => do
      let (t, p, f) ← feeViewAccts as
      return .view (.withdrawalFee t p f)

/-- The instruction or view a call asks for on a list of accounts. `programs/merkle_instant/src/lib.rs:52-240`. -/
def merkleRequest (ids : Ids) (as : List Addr) : MerkleCall → Except WireErr Request
  | .claim index amount proof => do return .merkle (.claim (← claimAccts ids as) index amount proof)
  | .clawback amount => do return .merkle (.clawback (← clawbackAccts ids as) amount)
  | .collectFees => do return .merkle (.collectFees (← merkleCollectFeesAccts as))
  | .createCampaign root st ex name cid agg cnt => do
      return .merkle (.createCampaign (← createCampaignAccts ids as) root st ex name cid agg cnt)
  | .initialize f p s => do
      return .merkle (.initialize (← merkleInitializeAccts as) (ids.addrOf f) (ids.addrOf p) (ids.addrOf s))
  | .campaignView => do return .view (.campaign (← firstAcct as))
  | .claimFeeInLamports => do
      let (t, p, f) ← feeViewAccts as
      return .view (.claimFee t p f)
  | .hasClaimed index => do
      let (x, r) ← hasClaimedAccts as
      return .view (.hasClaimed x r index)
  | .hasExpired => do return .view (.hasExpired (← firstAcct as))
  | .hasGracePeriodPassed => do return .view (.hasGracePeriodPassed (← firstAcct as))
  | .hasCampaignStarted => do return .view (.hasCampaignStarted (← firstAcct as))
  | .treasuryView => do return .view (.merkleTreasury (← firstAcct as))

/-- Errors of the dispatcher as errors of a message. Generated by `#[program]`, `programs/lockup/src/lib.rs`,
`programs/merkle_instant/src/lib.rs`. -/
def liftAbi {α : Type} : Except AbiErr α → Except WireErr α
  | .ok x => .ok x
  | .error e => .error (.abi e)

/-- Errors of constraints and handlers as errors of a message. Generated by `#[program]`,
`programs/lockup/src/lib.rs`, `programs/merkle_instant/src/lib.rs`. -/
def liftErr {α : Type} : Res α → Except WireErr α
  | .ok x => .ok x
  | .error e => .error (.program e)

/-- `String::from_utf8`, with which Borsh reads a `String`. `programs/merkle_instant/src/lib.rs:114-115`. -/
def utf8 (s : List UInt8) : Bool := (ByteArray.mk s.toArray).validateUTF8

/-- The `String` arguments of a call are UTF-8; otherwise the arguments are not deserialised. (The codec of
`Verif/Bytes/Borsh.lean` reads any bytes.) `programs/merkle_instant/src/lib.rs:114-115`. -/
def checkTexts : MerkleCall → Except WireErr Unit
  | .createCampaign _ _ _ name cid _ _ =>
      if utf8 name && utf8 cid then .ok () else .error (.abi .didNotDeserialize)
  | _ => .ok ()

/-- What a message asks for; `h` are the privileges of its transaction. The generated entry point of
`programs/lockup/src/lib.rs:44-344` and `programs/merkle_instant/src/lib.rs:52-240`. -/
def request (ids : Ids) (h : Header) (m : Message) : Except WireErr Request :=
  match m.program with
  | .lockup => do
      let call ← liftAbi (dispatch "global" lockupEntries m.data)
      checkSlots ids h (lockupSlots call) m.accounts
      lockupRequest ids m.accounts call
  | .merkle => do
      let call ← liftAbi (dispatch "global" merkleEntries m.data)
      checkTexts call
      checkSlots ids h (merkleSlots call) m.accounts
      merkleRequest ids m.accounts call

/-- What is stored for a treasury of the model. `programs/lockup/src/state/treasury.rs:5-10`. -/
def rawTreasury (rt : Runtime) (t : Treasury) : RawTreasury :=
  { bump := .ofNat t.bump, feeCollector := rt.keyBytes t.feeCollector, chainlinkProgram := rt.keyBytes t.chainlinkProgram
    chainlinkSolUsdFeed := rt.keyBytes t.chainlinkSolUsdFeed }

/-- Borsh of the enum: the number of the variant. `programs/lockup/src/instructions/view/status_of.rs:40-47`. -/
def statusByte : Lockup.StreamStatus → UInt8
  | .pending => 0
  | .streaming => 1
  | .settled => 2
  | .canceled => 3
  | .depleted => 4

/-- The answer of a view, as the return data of the instruction (`set_return_data` of the Borsh encoding; generated by
`#[program]`). `programs/lockup/src/lib.rs:271-344`, `programs/merkle_instant/src/lib.rs:178-240`. -/
def View.answer (rt : Runtime) (w : World) : View → Except WireErr (List UInt8)
  | .refundableAmountOf c => do return u64.enc (.ofNat (← liftErr (Lockup.refundableAmountOf rt w c)))
  | .statusOf c => do return u8.enc (statusByte (← liftErr (Lockup.statusOf rt w c)))
  | .streamExists mint sender salt => do
      seeds (mint = .streamNftMint sender salt.val)
      return bool.enc (Lockup.streamExists w sender salt.val)
  | .streamedAmountOf c => do return u64.enc (.ofNat (← liftErr (Lockup.streamedAmountOf rt w c)))
  | .lockupTreasury t => do return treasury.enc (rawTreasury rt (← liftErr (Lockup.treasuryView rt w t)))
  | .withdrawableAmountOf c => do return u64.enc (.ofNat (← liftErr (Lockup.withdrawableAmountOf rt w c)))
  | .withdrawalFee t p f => do return u64.enc (.ofNat (← liftErr (Lockup.withdrawalFeeInLamports rt w t p f)))
  | .campaign x => do return Borsh.campaign.enc (rawCampaign rt (← liftErr (Merkle.campaignView w x)))
  | .claimFee t p f => do return u64.enc (.ofNat (← liftErr (Merkle.claimFeeInLamports rt w t p f)))
  | .hasClaimed x receipt index => do
      let b ← liftErr (Merkle.hasClaimedView w x index.toNat)
      seeds (receipt = .claimReceipt x index.toNat)
      return bool.enc b
  | .hasExpired x => do return bool.enc (← liftErr (Merkle.hasExpiredView w x))
  | .hasGracePeriodPassed x => do return bool.enc (← liftErr (Merkle.hasGracePeriodPassedView w x))
  | .hasCampaignStarted x => do return bool.enc (← liftErr (Merkle.hasCampaignStartedView w x))
  | .merkleTreasury t => do return treasury.enc (rawTreasury rt (← liftErr (Merkle.treasuryView rt w t)))

/-- Executing a message: the new state and the return data. The generated entry point of
`programs/lockup/src/lib.rs:44-344` and `programs/merkle_instant/src/lib.rs:52-240`. -/
def exec (ids : Ids) (rt : Runtime) (w : World) (h : Header) (m : Message) : Except WireErr (World × List UInt8) := do
  match ← request ids h m with
  | .lockup i => return (← liftErr (i.run rt w), [])
  | .merkle i => return (← liftErr (i.run rt w), [])
  | .view v => return (w, ← v.answer rt w)

end Solsab.Wire
