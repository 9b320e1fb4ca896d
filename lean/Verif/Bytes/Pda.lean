import Verif.Merkle.Validations
import Verif.Bytes.Base58
import Verif.Bytes.Sha256
/-!
# Program-derived addresses, at the level of bytes

`Pubkey::create_program_address` hashes the concatenation of the seeds (including the bump), the program id
and the text `"ProgramDerivedAddress"`.  Here is that preimage for every kind of derived account of the two
programs, with keys as 32-byte strings.
-/

namespace Solsab.Pda

/-- The ids of the programs that derive the addresses. `programs/lockup/src/lib.rs:11`. -/
def lockupId : Bytes32 :=
  ⟨[48, 13, 242, 72, 255, 84, 65, 239, 177, 241, 157, 105, 47, 19, 186, 160, 232, 232, 33, 81, 3, 87, 174, 119, 206,
    220, 191, 167, 186, 71, 153, 161], rfl⟩
/-- `programs/merkle_instant/src/lib.rs:11`. -/
def merkleId : Bytes32 :=
  ⟨[97, 14, 9, 194, 134, 58, 124, 217, 237, 142, 69, 111, 67, 225, 230, 202, 106, 151, 156, 167, 9, 220, 25, 29, 217,
    129, 81, 54, 143, 177, 146, 198], rfl⟩
/-- External id (Metaplex Token Metadata). -/
def metaplexId : Bytes32 :=
  ⟨[11, 112, 101, 177, 227, 209, 124, 69, 56, 157, 82, 127, 107, 4, 195, 205, 88, 184, 108, 115, 26, 160, 253, 181, 73,
    182, 209, 188, 3, 248, 41, 70], rfl⟩
/-- External id (Associated Token program). -/
def ataId : Bytes32 :=
  ⟨[140, 151, 37, 143, 78, 36, 137, 241, 187, 61, 16, 41, 20, 142, 13, 131, 11, 90, 19, 153, 218, 255, 16, 132, 4, 142,
    123, 216, 219, 233, 248, 89], rfl⟩
/-- External id (Token program). -/
def tokenId : Bytes32 :=
  ⟨[6, 221, 246, 225, 215, 101, 161, 147, 217, 203, 225, 70, 206, 235, 121, 172, 28, 180, 133, 237, 95, 91, 55, 145, 58,
    140, 245, 133, 126, 255, 0, 169], rfl⟩
/-- External id (Token-2022 program). -/
def token2022Id : Bytes32 :=
  ⟨[6, 221, 246, 225, 238, 117, 143, 222, 24, 66, 93, 188, 228, 108, 205, 218, 182, 26, 252, 77, 131, 185, 13, 39, 254,
    189, 249, 40, 216, 161, 139, 252], rfl⟩

/-- `programs/lockup/src/lib.rs:11`. -/
example : String.ofList (Base58.encode lockupId.val) = "4EauRKrNErKfsR4XetEZJNmvACGHbHnHV4R5dvJuqupC" := by decide +kernel
/-- `programs/merkle_instant/src/lib.rs:11`. -/
example : String.ofList (Base58.encode merkleId.val) = "7XrxoQejBoGouW4V3aozTSwub7xSDjYqB4Go7YLjF9rV" := by decide +kernel
/-- The well-known ids of Metaplex Token Metadata, Associated Token, Token and Token-2022. -/
example : [metaplexId, ataId, tokenId, token2022Id].map (fun i => String.ofList (Base58.encode i.val)) =
    ["metaqbxxUerdq28cj1RbAWkYQm3ybzjb6a8bt518x1s", "ATokenGPvbdGVxr1b2hvZbsiqW5xWH25efTNsLJA8knL",
     "TokenkegQfeZyiNwAJbNbGKPFXCWuBvf9Ss623VQ5DA", "TokenzQdBNbLqP5VEhdkAS6EPFLC1PHnBqCXEpPxuEb"] := by decide +kernel

/-- The id of a token program. External ids. -/
def tokenProgramId : TokenProgram → Bytes32
  | .token => tokenId
  | .token2022 => token2022Id

/-- The id of one of the two programs. `programs/lockup/src/lib.rs:11`, `programs/merkle_instant/src/lib.rs:11`. -/
def progId : Prog → Bytes32
  | .lockup => lockupId
  | .merkle => merkleId

/-- What identifies a derived account. The `seeds` of `programs/lockup/src/instructions/initialize.rs:30-102`,
`programs/lockup/src/instructions/create_with_timestamps.rs:95-145`,
`programs/merkle_instant/src/instructions/create_campaign.rs:38-53`,
`programs/merkle_instant/src/instructions/claim.rs:77-84`. -/
inductive Seeds
  | treasury (p : Prog)
  | nftCollectionData
  | nftCollectionMint
  | streamNftMint (sender : Bytes32) (salt : Fin (2 ^ 128))
  | streamData (streamNftMint : Bytes32)
  | campaign (creator merkleRoot : Bytes32) (startTime expirationTime : UInt64) (name : List UInt8) (mint : Bytes32)
  | claimReceipt (campaign : Bytes32) (index : UInt32)
  | metadata (mint : Bytes32)
  | edition (mint : Bytes32)
  | ata (owner : Bytes32) (program : TokenProgram) (mint : Bytes32)
  deriving DecidableEq

namespace Seeds

open Merkle (leBytes)
open Sha256 (ascii)

/-- The program whose address space the account lives in. As for `Seeds`. -/
def program : Seeds → Bytes32
  | .treasury p => progId p
  | .nftCollectionData | .nftCollectionMint | .streamNftMint _ _ | .streamData _ => lockupId
  | .campaign _ _ _ _ _ _ | .claimReceipt _ _ => merkleId
  | .metadata _ | .edition _ => metaplexId
  | .ata _ _ _ => ataId

/-- The seeds.  `TREASURY`, `NFT_COLLECTION_DATA`, ...: `programs/lockup/src/utils/constants.rs:8-16`,
`programs/merkle_instant/src/utils/constants.rs:10-14`; the lists: `lockup/src/instructions/initialize.rs:30-92`,
`create_with_timestamps.rs:100-172`, `merkle_instant/src/instructions/create_campaign.rs:42-50`,
`claim.rs:81-85`; the last one is the associated token program's. -/
def seeds : Seeds → List (List UInt8)
  | .treasury _ => [ascii "treasury"]
  | .nftCollectionData => [ascii "nft_collection_data"]
  | .nftCollectionMint => [ascii "nft_collection_mint"]
  | .streamNftMint sender salt => [ascii "stream_nft_mint", sender.val, leBytes 16 salt.val]
  | .streamData nft => [ascii "stream_data", nft.val]
  | .campaign creator root st ex name mint =>
    [ascii "campaign", creator.val, root.val, leBytes 8 st.toNat, leBytes 8 ex.toNat, name, mint.val]
  | .claimReceipt x index => [ascii "claim_receipt", x.val, leBytes 4 index.toNat]
  | .metadata mint => [ascii "metadata", metaplexId.val, mint.val]
  | .edition mint => [ascii "metadata", metaplexId.val, mint.val, ascii "edition"]
  | .ata owner tp mint => [owner.val, (tokenProgramId tp).val, mint.val]

/-- The byte string that is hashed with SHA-256 (`Pubkey::create_program_address`). External rule, applied to the
`seeds` listed at `Seeds`. -/
def preimage (s : Seeds) (bump : UInt8) : List UInt8 :=
  s.seeds.flatten ++ [bump] ++ s.program.val ++ ascii "ProgramDerivedAddress"

end Seeds
end Solsab.Pda
