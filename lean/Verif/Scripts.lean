import Verif.Machine
/-!
# The post-deployment scripts

`scripts/ts/init-lockup-and-create-streams.ts` and `scripts/ts/init-merkle-instant-and-create-campaign.ts`, with the
helpers of `scripts/ts/common/`: the instructions they send, in order. The accounts that the scripts do not name are
filled in by the Anchor client from the IDL (`Spec/Resolve.lean`, C91). The compute-budget instruction in front of each
of them has no effect on accounts and is left out.
-/

namespace Solsab.Script

/-- `sol(amount)` for an integer number, `lib/convertors.ts:21-31, 38-40` with `Decimals.SOL` = 9
(`lib/constants.ts`). -/
def sol (amount : Nat) : Nat := amount * 10 ^ 9

/-- What the scripts read from `lib/constants.ts` and the wallet: the admin (the signer on devnet, otherwise
`SABLIER_ADMIN`), the Chainlink program and the price feed. `scripts/ts/common/init-lockup-base.ts:24-28, 34`. -/
structure Config where
  admin : Addr
  chainlinkProgram : Addr
  feed : Addr

/-- `initSablierLockup`, `scripts/ts/common/init-lockup-base.ts:22-39`. -/
def initSablierLockup (signer : Addr) (k : Config) : Ix :=
  .lockup (.initialize ⟨signer, .treasury .lockup, .nftCollectionData, .nftCollectionMint,
    .ata (.treasury .lockup) .token .nftCollectionMint, .token⟩ k.admin k.chainlinkProgram k.feed)

/-- `initSablierMerkleInstant`, `scripts/ts/common/init-merkle-instant-base.ts:22-39`. -/
def initSablierMerkleInstant (signer : Addr) (k : Config) : Ix :=
  .merkle (.initialize ⟨signer, .treasury .merkle⟩ k.admin k.chainlinkProgram k.feed)

/-- `createTokenAndMintToSender`, `scripts/ts/init-lockup-and-create-streams.ts:115-146`: a classic mint at the new key
`key`, with the signer as mint authority, without freeze authority, nine decimals; the signer's associated account
(which cannot exist, as the mint is new); a million tokens. -/
def createTokenAndMintToSender (signer : Addr) (key : Nat) : List Ix :=
  [.env (.createMint key ⟨.token, 9, some signer, none, 0, none, none, false, false⟩),
   .env (.createAta signer (.ata signer .token (.key key)) signer .token (.key key)),
   .env (.mintTo (.key key) (.ata signer .token (.key key)) signer .token (sol 1000000))]

/-- `createStream`, `scripts/ts/init-lockup-and-create-streams.ts:76-113`: sender and recipient are the signer. -/
def createStream (signer : Addr) (key : Nat) (cliffDuration depositAmount : Nat) (isCancelable : Bool)
    (salt : Fin (2 ^ 128)) (totalDuration unlockCliffAmount unlockStartAmount : Nat) : Ix :=
  let nft := Addr.streamNftMint signer salt.val
  .lockup (.createWithDurations
    { creator := signer, creatorAta := .ata signer .token (.key key), recipient := signer, sender := signer
      nftCollectionData := .nftCollectionData, nftCollectionMint := .nftCollectionMint, depositTokenMint := .key key
      streamNftMint := nft, recipientStreamNftAta := .ata signer .token nft, streamData := .streamData nft
      streamDataAta := .ata (.streamData nft) .token (.key key), depositTokenProgram := .token, nftTokenProgram := .token }
    salt (.ofNat depositAmount) (.ofNat cliffDuration) (.ofNat totalDuration) (.ofNat unlockStartAmount)
    (.ofNat unlockCliffAmount) isCancelable)

/-- The whole script, `scripts/ts/init-lockup-and-create-streams.ts:22-61`. -/
def lockup (signer : Addr) (key : Nat) (k : Config) : List Ix :=
  initSablierLockup signer k :: createTokenAndMintToSender signer key ++
  [createStream signer key 0 (sol 1000) true 1 3600 0 0,
   createStream signer key 3600 (sol 10000) true 2 (3600 * 3) (sol 2000) 0,
   createStream signer key (3600 * 24) (sol 30000) false 3 (3 * 3600 * 24) (sol 10000) (sol 2000)]

/-- `Campaign.NAME`, `scripts/ts/init-merkle-instant-and-create-campaign.ts:28`. -/
def campaignName : List UInt8 := "HODL or Nothing".toUTF8.toList

/-- `Campaign.IPFS_CID`, `scripts/ts/init-merkle-instant-and-create-campaign.ts:24`. -/
def campaignCid : List UInt8 := "bafkreiecpwdhvkmw4y6iihfndk7jhwjas3m5htm7nczovt6m37mucwgsrq".toUTF8.toList

/-- `Campaign.START_TIME`, `scripts/ts/init-merkle-instant-and-create-campaign.ts:29`. -/
def campaignStart : UInt64 := 1754142441

/-- `createCampaign`, `scripts/ts/init-merkle-instant-and-create-campaign.ts:36-65`, in the classic token `mint`, with
the root and the expiration time of lines 23 and 25-27. -/
def createCampaign (signer mint : Addr) (root : Bytes32) (expiration : UInt64) : Ix :=
  let x := Addr.campaign signer root campaignStart.toNat expiration.toNat campaignName mint
  .merkle (.createCampaign ⟨signer, mint, x, .ata x .token mint, .token⟩ root campaignStart expiration campaignName
    campaignCid 10000 100)

/-- The whole script, `scripts/ts/init-merkle-instant-and-create-campaign.ts:12-20`. -/
def merkleInstant (signer mint : Addr) (k : Config) (root : Bytes32) (expiration : UInt64) : List Ix :=
  [initSablierMerkleInstant signer k, createCampaign signer mint root expiration]

/-- A script sends one transaction after the other (`await`): before the `k`-th it is `t k`. No line of /repo: time
passes. -/
def paced (t : Nat → Int) : Nat → List Ix → List Ix
  | _, [] => []
  | k, i :: is => .env (.tick (t k)) :: i :: paced t (k + 1) is

end Solsab.Script
