import Verif.Basic
/-!
# Addresses

Solana addresses are 32-byte values; program-derived addresses (PDAs) are SHA-256 hashes of a seed
list.  The model is symbolic: a derived address *is* its seed list (one constructor per seed
schema), so different seeds give different addresses and no derived address has a private key.
The byte-level fact that different logical accounts have different hash preimages is proved in
`Verif/Props/Bytes.lean` (C54); SHA-256 collision resistance is in the trusted base.
-/

namespace Solsab

/-- `[u8; 32]`. E.g. `merkle_root`, `programs/merkle_instant/src/state/campaign.rs:8-20`, and every `Pubkey`. -/
abbrev Bytes32 := { l : List UInt8 // l.length = 32 }

/-- The two programs accepted by `Interface<'info, TokenInterface>`. Used e.g. at
`programs/lockup/src/instructions/withdraw.rs:49-55`, `programs/merkle_instant/src/instructions/claim.rs:37-43`. -/
inductive TokenProgram
  | token | token2022
  deriving DecidableEq, Repr

/-- The two programs of this repository. `programs/lockup/src/lib.rs:11`, `programs/merkle_instant/src/lib.rs:11`. -/
inductive Prog
  | lockup | merkle
  deriving DecidableEq, Repr

/-- Symbolic addresses. The derived ones follow the `seeds` of the account structs:
`programs/lockup/src/instructions/initialize.rs:30-102`,
`programs/lockup/src/instructions/create_with_timestamps.rs:95-145`,
`programs/merkle_instant/src/instructions/create_campaign.rs:35-65`,
`programs/merkle_instant/src/instructions/claim.rs:75-86`. -/
inductive Addr
  /-- An address not derived by the two programs, the ATA program or Metaplex: wallets, token mints
  created from keypairs, other programs and their PDAs, oracle feeds, ... -/
  | key (n : Nat)
  /-- `seeds = [TREASURY]`: `programs/lockup/src/instructions/initialize.rs:30-37`,
  `programs/merkle_instant/src/instructions/initialize.rs:21-28`. -/
  | treasury (p : Prog)
  /-- `seeds = [NFT_COLLECTION_DATA]`: `programs/lockup/src/instructions/initialize.rs:43-50`. -/
  | nftCollectionData
  /-- `seeds = [NFT_COLLECTION_MINT]`: `programs/lockup/src/instructions/initialize.rs:82-92`. -/
  | nftCollectionMint
  /-- `seeds = [STREAM_NFT_MINT, sender, salt.to_le_bytes()]`:
  `programs/lockup/src/instructions/create_with_timestamps.rs:100-114`. -/
  | streamNftMint (sender : Addr) (salt : Nat)
  /-- `seeds = [STREAM_DATA, stream_nft_mint]`:
  `programs/lockup/src/instructions/create_with_timestamps.rs:127-134`. -/
  | streamData (streamNftMint : Addr)
  /-- `seeds = [CAMPAIGN, creator, merkle_root, campaign_start_time, expiration_time, name, mint]`:
  `programs/merkle_instant/src/instructions/create_campaign.rs:38-53`. -/
  | campaign (creator : Addr) (merkleRoot : Bytes32) (startTime expirationTime : Nat)
      (name : List UInt8) (mint : Addr)
  /-- `seeds = [CLAIM_RECEIPT, campaign, index.to_le_bytes()]`:
  `programs/merkle_instant/src/instructions/claim.rs:77-88`. -/
  | claimReceipt (campaign : Addr) (index : Nat)
  /-- Metaplex metadata PDA of a mint (`create_with_timestamps.rs:161-172`). -/
  | metadata (mint : Addr)
  /-- Metaplex master edition PDA of a mint (`create_with_timestamps.rs:147-158`). -/
  | edition (mint : Addr)
  /-- Associated token account of `owner` for `mint` under a token program. -/
  | ata (owner : Addr) (program : TokenProgram) (mint : Addr)
  deriving DecidableEq

/-- Can this address sign a transaction (or be signed for by a program outside the model)?
Derived addresses of the two programs sign only inside the programs' own CPIs. For `Signer<'info>` (e.g.
`programs/lockup/src/instructions/withdraw.rs:28-36`) and the `invoke_signed` seeds of the two programs
(`programs/lockup/src/utils/transfer_helper.rs:6-30`, `programs/merkle_instant/src/utils/transfer_helper.rs:6-30`). -/
def Addr.canSign : Addr → Bool
  | .key _ => true
  | _ => false

end Solsab
