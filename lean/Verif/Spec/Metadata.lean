import Verif.World
/-!
# Specification: what wallets and marketplaces read about the NFTs

Written out as data, from the documentation of the NFT rather than from the program: the metadata of a stream
NFT and of the collection, and the name of a stream NFT.
-/

namespace Solsab.Spec

/-- A stream NFT: symbol `LL_STREAM`, the published image, no royalty, no creators, a verified member of the
Sablier collection, itself no collection, one of a kind (master edition); the only authority over it is the
collection mint, an address that no one but the program can sign for. -/
def nftData (name : List Char) : Metadata :=
  { name := name
    collection := some .nftCollectionMint
    collectionSize := none
    info :=
      { symbol := "LL_STREAM".toList
        uri := "https://ipfs.io/ipfs/bafkreiaidfetl2iedxjzbh2hof7dj3hdrs5l7sr643ggtjh7sb42jcj5nq".toList
        sellerFeeBasisPoints := 0
        creators := []
        claimed := none
        isMutable := true
        updateAuthority := .nftCollectionMint
        edition := true } }

/-- The Sablier collection with `size` members; its creator is verified. -/
def collectionData (size : Nat) : Metadata :=
  { name := "Sablier LockupLinear Streams".toList
    collection := none
    collectionSize := some size
    info :=
      { symbol := "LL_STREAMS".toList
        uri := "https://ipfs.io/ipfs/bafkreiak467qbqncgpkmgqmu7hynjnqb5j33jjnkk6bcdda63m3lf7czca".toList
        sellerFeeBasisPoints := 0
        creators := [⟨.nftCollectionMint, true, 100⟩]
        claimed := none
        isMutable := true
        updateAuthority := .nftCollectionMint
        edition := true } }

/-- The value of a base-58 numeral in the Bitcoin alphabet (no `0`, `O`, `I`, `l`); `none` if it has another
character. -/
def value58 (text : List Char) : Option Nat :=
  text.foldl (fun acc c => do
    let v ← acc
    let d ← "123456789ABCDEFGHJKLMNPQRSTUVWXYZabcdefghijkmnopqrstuvwxyz".toList.idxOf? c
    pure (58 * v + d)) (some 0)

/-- `text` is how an address is written: the base-58 numeral of the 32-byte big-endian number, with as many
leading `1`s as the address has leading zero bytes. -/
def IsAddressText (address : Bytes32) (text : List Char) : Prop :=
  value58 text = some (address.val.foldl (fun v b => 256 * v + b.toNat) 0) ∧
  (text.takeWhile (· = '1')).length = (address.val.takeWhile (· = 0)).length

/-- `Sablier LL Stream #` and the first and last five characters of the NFT's address. -/
def IsNftName (text name : List Char) : Prop :=
  name = "Sablier LL Stream #".toList ++ text.take 5 ++ "...".toList ++ text.drop (text.length - 5)

end Solsab.Spec
