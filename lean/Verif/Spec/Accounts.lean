import Verif.Spec.Api
/-!
# Specification vocabulary: the right accounts for a call

What a client has to pass for a call to get past Anchor's account validation, in terms of the ledger.
-/

namespace Solsab.Spec

open Lockup

/-- `payer` can fund the rent of a new account of `space` bytes at `a`. -/
def CanFund (rt : Runtime) (w : World) (payer a : Addr) (space : Nat) : Prop :=
  max (rt.rent space) 1 - w.lamports a ≤ w.lamports payer

/-- The associated token account `a` of `owner` either exists and still belongs to `owner`, or does not
exist and `payer` can fund it. -/
def AtaUsable (rt : Runtime) (w : World) (payer a owner : Addr) (tp : TokenProgram) (m : Addr) : Prop :=
  (∃ t, w.bank.tokens a = some t ∧ t.owner = owner) ∨
  (w.bank.tokens a = none ∧ CanFund rt w payer a (World.tokenSpace rt m tp))

/-- The accounts of a `withdraw` / `withdraw_max` of stream `(s, n)`, whose data is `sd` and whose
deposited token has mint data `md`. -/
structure WithdrawReady (rt : Runtime) (w : World) (c : WithdrawAccts) (s : Addr) (n : Nat)
    (sd : StreamData) (md : MintData) : Prop where
  stream : w.lk.streams (streamAddr s n) = some sd
  mint : w.bank.mints sd.depositedTokenMint = some md
  signer : c.signer.canSign = true
  dest : c.withdrawalRecipient = c.streamRecipient ∨ c.signer = c.streamRecipient
  treasury : ∃ tr, w.lk.treasury = some tr ∧ c.chainlinkProgram = tr.chainlinkProgram ∧
    c.chainlinkSolUsdFeed = tr.chainlinkSolUsdFeed
  a1 : c.treasury = .treasury .lockup
  a2 : c.streamData = streamAddr s n
  a3 : c.streamNftMint = .streamNftMint s n
  a4 : c.depositedTokenMint = sd.depositedTokenMint
  a5 : c.depositedTokenProgram = md.program
  a6 : c.recipientStreamNftAta = .ata c.streamRecipient c.nftTokenProgram (.streamNftMint s n)
  a7 : c.streamDataAta = .ata (streamAddr s n) md.program sd.depositedTokenMint
  a8 : c.withdrawalRecipientAta = .ata c.withdrawalRecipient md.program sd.depositedTokenMint
  nft : ∃ t, w.bank.tokens c.recipientStreamNftAta = some t ∧ t.owner = c.streamRecipient ∧ t.amount = 1
  usable : AtaUsable rt w c.signer c.withdrawalRecipientAta c.withdrawalRecipient md.program sd.depositedTokenMint

/-- The accounts of a `cancel` of stream `(s, n)`. -/
structure CancelReady (rt : Runtime) (w : World) (c : CancelAccts) (s : Addr) (n : Nat)
    (sd : StreamData) (md : MintData) : Prop where
  stream : w.lk.streams (streamAddr s n) = some sd
  mint : w.bank.mints sd.depositedTokenMint = some md
  signer : c.sender.canSign = true
  sender : c.sender = s
  a2 : c.streamData = streamAddr s n
  a3 : c.streamNftMint = .streamNftMint s n
  a4 : c.depositedTokenMint = sd.depositedTokenMint
  a5 : c.depositedTokenProgram = md.program
  a7 : c.streamDataAta = .ata (streamAddr s n) md.program sd.depositedTokenMint
  a8 : c.senderAta = .ata c.sender md.program sd.depositedTokenMint
  usable : AtaUsable rt w c.sender c.senderAta c.sender md.program sd.depositedTokenMint

/-- The accounts of a `renounce` of stream `(s, n)`. -/
structure RenounceReady (c : RenounceAccts) (s : Addr) (n : Nat) : Prop where
  signer : c.sender.canSign = true
  sender : c.sender = s
  a2 : c.streamData = streamAddr s n
  a3 : c.streamNftMint = .streamNftMint s n

/-- What the two Metaplex accounts of an NFT cost at most. -/
def metaplexRent (rt : Runtime) : Nat :=
  rt.metaplexFee + max (rt.rent rt.metadataSpace) 1 + max (rt.rent rt.editionSpace) 1

/-- What the six accounts of a new stream (NFT mint, NFT account, stream data, vault, metadata, master edition) cost at
most. (The accounts of all NFTs of the program have the same size.) -/
def createRent (rt : Runtime) (nftProgram : TokenProgram) (depositMint : Addr) (depositProgram : TokenProgram) : Nat :=
  max (rt.rent World.mintSpace) 1 + max (rt.rent (World.tokenSpace rt .nftCollectionMint nftProgram)) 1 +
    max (rt.rent streamDataSpace) 1 + max (rt.rent (World.tokenSpace rt depositMint depositProgram)) 1 + metaplexRent rt

/-- The accounts of a `create_with_timestamps_ll` / `create_with_durations_ll` with salt `n` in a token with
mint data `md`, on an initialised program whose collection data is `nd`. -/
structure CreateReady (rt : Runtime) (w : World) (c : CreateAccts) (n : Nat) (md : MintData)
    (nd : NftCollectionData) : Prop where
  collection : w.lk.nftCollectionData = some nd
  counter : nd.totalSupply + 1 < 2 ^ 64
  mint : w.bank.mints c.depositTokenMint = some md
  signer : c.creator.canSign = true
  creatorAta : ∃ t, w.bank.tokens c.creatorAta = some t ∧ t.owner = c.creator
  unused : streamExists w c.sender n = false
  vaultUnused : w.bank.tokens c.streamDataAta = none
  funds : createRent rt c.nftTokenProgram c.depositTokenMint c.depositTokenProgram ≤ w.lamports c.creator
  a1 : c.creatorAta = .ata c.creator md.program c.depositTokenMint
  a2 : c.nftCollectionData = .nftCollectionData
  a3 : c.nftCollectionMint = .nftCollectionMint
  a4 : c.depositTokenProgram = md.program
  a5 : c.streamNftMint = .streamNftMint c.sender n
  a6 : c.recipientStreamNftAta = .ata c.recipient c.nftTokenProgram (.streamNftMint c.sender n)
  a7 : c.streamData = streamAddr c.sender n
  a8 : c.streamDataAta = .ata (streamAddr c.sender n) md.program c.depositTokenMint

/-- The accounts of a `claim` from the campaign at `x` with data `cd` and token mint data `md`. -/
structure ClaimReady (rt : Runtime) (w : World) (c : Merkle.ClaimAccts) (x : Addr) (cd : Merkle.Campaign)
    (md : MintData) (index : Nat) : Prop where
  campaign : w.mi.campaigns x = some cd
  mint : w.bank.mints cd.airdropTokenMint = some md
  signer : c.claimer.canSign = true
  treasury : ∃ tr, w.mi.treasury = some tr ∧ c.chainlinkProgram = tr.chainlinkProgram ∧
    c.chainlinkSolUsdFeed = tr.chainlinkSolUsdFeed
  a1 : c.treasury = .treasury .merkle
  a2 : c.campaign = x
  a3 : c.airdropTokenMint = cd.airdropTokenMint
  a4 : c.airdropTokenProgram = md.program
  a5 : c.campaignAta = .ata x md.program cd.airdropTokenMint
  a6 : c.recipientAta = .ata c.recipient md.program cd.airdropTokenMint
  a7 : c.claimReceipt = .claimReceipt x index
  usable : AtaUsable rt w c.claimer c.recipientAta c.recipient md.program cd.airdropTokenMint

/-- The accounts of a `clawback` of the campaign at `x`. -/
structure ClawbackReady (rt : Runtime) (w : World) (c : Merkle.ClawbackAccts) (x : Addr)
    (cd : Merkle.Campaign) (md : MintData) : Prop where
  campaign : w.mi.campaigns x = some cd
  mint : w.bank.mints cd.airdropTokenMint = some md
  creator : c.campaignCreator = cd.creator
  a2 : c.campaign = x
  a3 : c.airdropTokenMint = cd.airdropTokenMint
  a4 : c.airdropTokenProgram = md.program
  a5 : c.campaignAta = .ata x md.program cd.airdropTokenMint
  a6 : c.clawbackRecipientAta = .ata c.clawbackRecipient md.program cd.airdropTokenMint
  usable : AtaUsable rt w c.campaignCreator c.clawbackRecipientAta c.clawbackRecipient md.program cd.airdropTokenMint

/-- Transfers of the token currently work between the two accounts: it is not paused, neither account
(when it exists) is frozen, the receiving account will not be frozen if it has to be created, and the owner of the receiving account has not made memos compulsory for it. -/
structure Transferable (w : World) (md : MintData) (src dst : Addr) : Prop where
  unblocked : md.transferBlocked = false
  srcThawed : ∀ t, w.bank.tokens src = some t → t.frozen = false
  dstThawed : ∀ t, w.bank.tokens dst = some t → t.frozen = false
  opensThawed : w.bank.tokens dst = none → md.startsFrozen = false
  noMemo : (w.settings dst).memoRequired = false

end Solsab.Spec
