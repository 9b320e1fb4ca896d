import Verif.Machine
/-!
# Specification vocabulary: the accounts of an instruction

On Solana an instruction can only see and change the accounts it is given.  `World` is one big record, so that
this is not automatic for the model; C68 proves it.
-/

namespace Solsab

/-- Everything the model stores at one address. -/
structure Account where
  lamports : Nat
  token : Option TokenData
  /-- Delegate and remaining allowance of a token account. -/
  approval : Option (Addr × Nat)
  /-- Memo requirement and CPI guard of a token account. -/
  settings : Settings
  mint : Option MintData
  /-- Metaplex metadata, at the metadata address of the mint. -/
  metadata : Option Metadata
  stream : Option Lockup.StreamData
  collection : Option Lockup.NftCollectionData
  treasury : Option Treasury
  campaign : Option Merkle.Campaign
  receipt : Bool

/-- The account at an address. -/
def World.account (w : World) (a : Addr) : Account where
  lamports := w.lamports a
  token := w.bank.tokens a
  approval := w.approvals a
  settings := w.settings a
  mint := w.bank.mints a
  metadata := match a with
    | .metadata m => w.metas m
    | _ => none
  stream := w.lk.streams a
  collection := match a with
    | .nftCollectionData => w.lk.nftCollectionData
    | _ => none
  treasury := match a with
    | .treasury .lockup => w.lk.treasury
    | .treasury .merkle => w.mi.treasury
    | _ => none
  campaign := w.mi.campaigns a
  receipt := w.mi.receipts a

/-- The accounts an instruction of the two programs may change.  (`treasury` of withdraw and claim is declared `mut`
because of the fee; it is not in this list because the fee is zero.)  The file and lines of each account list are
those of the `…Accts` structure. -/
def Ix.writes : Ix → List Addr
  | .lockup (.initialize c _ _ _) =>
      [c.initializer, c.treasury, c.nftCollectionData, c.nftCollectionMint, c.nftCollectionAta,
       .metadata c.nftCollectionMint, .edition c.nftCollectionMint]
  | .lockup (.createWithTimestamps c _ _ _ _ _ _ _ _) | .lockup (.createWithDurations c _ _ _ _ _ _ _) =>
      [c.creator, c.creatorAta, c.nftCollectionData, c.streamNftMint, c.recipientStreamNftAta, c.streamData,
       c.streamDataAta, .metadata c.streamNftMint, .edition c.streamNftMint, .metadata c.nftCollectionMint]
  | .lockup (.withdraw c _) | .lockup (.withdrawMax c) =>
      [c.signer, c.withdrawalRecipientAta, c.streamData, c.streamDataAta]
  | .lockup (.cancel c) => [c.sender, c.senderAta, c.streamData, c.streamDataAta]
  | .lockup (.renounce c) => [c.streamData]
  | .lockup (.collectFees c) => [c.treasury, c.feeRecipient]
  | .merkle (.initialize c _ _ _) => [c.initializer, c.treasury]
  | .merkle (.createCampaign c _ _ _ _ _ _ _) => [c.creator, c.campaign, c.campaignAta]
  | .merkle (.claim c _ _ _) => [c.claimer, c.recipientAta, c.campaign, c.campaignAta, c.claimReceipt]
  | .merkle (.clawback c _) => [c.campaignCreator, c.clawbackRecipientAta, c.campaignAta]
  | .merkle (.collectFees c) => [c.treasury, c.feeRecipient]
  | .env _ => []

/-- The further accounts it may read. -/
def Ix.reads : Ix → List Addr
  | .lockup (.createWithTimestamps c _ _ _ _ _ _ _ _) | .lockup (.createWithDurations c _ _ _ _ _ _ _) =>
      [c.nftCollectionMint, c.depositTokenMint]
  | .lockup (.withdraw c _) | .lockup (.withdrawMax c) =>
      [c.treasury, c.depositedTokenMint, c.recipientStreamNftAta, c.streamNftMint]
  | .lockup (.cancel c) => [c.depositedTokenMint, c.streamNftMint]
  | .lockup (.renounce c) => [c.streamNftMint]
  | .merkle (.createCampaign c _ _ _ _ _ _ _) => [c.airdropTokenMint]
  | .merkle (.claim c _ _ _) => [c.treasury, c.airdropTokenMint]
  | .merkle (.clawback c _) => [c.campaign, c.airdropTokenMint]
  | _ => []

/-- All accounts of an instruction. -/
def Ix.accounts (ix : Ix) : List Addr := ix.writes ++ ix.reads

/-- An instruction of one of the two programs. -/
def Ix.ofPrograms : Ix → Prop
  | .env _ => False
  | _ => True

/-- Neither instruction writes an account of the other. -/
def Independent (ix jx : Ix) : Prop :=
  (∀ a ∈ ix.writes, a ∉ jx.accounts) ∧ (∀ a ∈ jx.writes, a ∉ ix.accounts)

end Solsab
