import Verif.Addr
/-!
# `programs/merkle_instant/src/state/*.rs`
-/

namespace Solsab.Merkle

/-- `programs/merkle_instant/src/state/campaign.rs:8-20`.  Strings are their UTF-8 bytes. -/
structure Campaign where
  airdropTokenMint : Addr
  bump : Nat
  campaignStartTime : Nat
  creator : Addr
  expirationTime : Nat
  firstClaimTime : Nat
  ipfsCid : List UInt8
  merkleRoot : Bytes32
  name : List UInt8
  deriving DecidableEq

/-- `Campaign::claim`, `programs/merkle_instant/src/state/campaign.rs:24-31`; `now` is the value of
`get_current_time()`. -/
def Campaign.claim (c : Campaign) (now : Nat) : Campaign :=
  if c.firstClaimTime = 0 then { c with firstClaimTime := now } else c

/-- `Campaign::create`, `programs/merkle_instant/src/state/campaign.rs:35-56`.  The account has just
been created by `init`, so all bytes, hence `first_claim_time`, are zero before. -/
def Campaign.create (airdropTokenMint : Addr) (bump campaignStartTime : Nat) (creator : Addr)
    (expirationTime : Nat) (ipfsCid : List UInt8) (merkleRoot : Bytes32) (name : List UInt8) : Campaign :=
  { airdropTokenMint, bump, campaignStartTime, creator, expirationTime, firstClaimTime := 0,
    ipfsCid, merkleRoot, name }

/-- `CAMPAIGN_IPFS_CID_SIZE`, `programs/merkle_instant/src/utils/constants.rs:6`. -/
def CAMPAIGN_IPFS_CID_SIZE : Nat := 59
/-- `CAMPAIGN_NAME_SIZE`, `programs/merkle_instant/src/utils/constants.rs:7`. -/
def CAMPAIGN_NAME_SIZE : Nat := 32

/-- `ANCHOR_DISCRIMINATOR_SIZE + Campaign::INIT_SPACE` (`state/campaign.rs:7-20`, `derive(InitSpace)`;
a `String` with `max_len(n)` counts `4 + n`). -/
def campaignSpace : Nat :=
  8 + (32 + 1 + 8 + 32 + 8 + 8 + (4 + CAMPAIGN_IPFS_CID_SIZE) + 32 + (4 + CAMPAIGN_NAME_SIZE))

/-- Number of bytes Anchor writes for a campaign on exit: discriminator plus Borsh encoding.
`Verif/Bytes/Borsh.lean` proves that this is the length of the encoding.
`programs/merkle_instant/src/state/campaign.rs:7-20`. -/
def Campaign.encodedSize (c : Campaign) : Nat :=
  8 + (32 + 1 + 8 + 32 + 8 + 8 + (4 + c.ipfsCid.length) + 32 + (4 + c.name.length))

/-- `ANCHOR_DISCRIMINATOR_SIZE + ClaimReceipt::INIT_SPACE` (`state/claim_receipt.rs:3-6`: empty). -/
def claimReceiptSpace : Nat := 8

/-- `ANCHOR_DISCRIMINATOR_SIZE + Treasury::INIT_SPACE`. `programs/merkle_instant/src/instructions/initialize.rs:25`.
-/
def treasurySpace : Nat := 8 + (1 + 32 + 32 + 32)

end Solsab.Merkle
