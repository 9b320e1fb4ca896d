import Verif.Addr
/-!
# Base58 text of a key and the stream NFT name

`programs/lockup/src/utils/nft.rs:31-35`.  `Pubkey::to_string()` is Bitcoin base58 (external crate
`bs58`): one `'1'` per leading zero byte, then the base-58 digits of the big-endian number.
-/

namespace Solsab.Base58

/-- The Bitcoin base58 alphabet. External (`bs58`), used by `to_string` at `programs/lockup/src/utils/nft.rs:34`. -/
def alphabet : List Char :=
  "123456789ABCDEFGHJKLMNPQRSTUVWXYZabcdefghijkmnopqrstuvwxyz".toList

/-- Big-endian value of a byte string. External (`bs58`), used by `to_string` at
`programs/lockup/src/utils/nft.rs:34`. -/
def valueBE (l : List UInt8) : Nat := l.foldl (fun acc b => acc * 256 + b.toNat) 0

/-- Base-58 digits of `n`, least significant first, at most `fuel` of them. External (`bs58`), used by `to_string` at
`programs/lockup/src/utils/nft.rs:34`. -/
def digitsAux : Nat → Nat → List Nat
  | 0, _ => []
  | fuel + 1, n => if n = 0 then [] else (n % 58) :: digitsAux fuel (n / 58)

/-- Base-58 digits, least significant first; empty for 0.  (`n` digits are more than enough.) External (`bs58`), used
by `to_string` at `programs/lockup/src/utils/nft.rs:34`. -/
def digits (n : Nat) : List Nat := digitsAux n n

/-- `bs58::encode(bytes)`. External (`bs58`), used by `to_string` at `programs/lockup/src/utils/nft.rs:34`. -/
def encode (l : List UInt8) : List Char :=
  (l.takeWhile (· = 0)).map (fun _ => '1') ++
    (digits (valueBE l)).reverse.map (fun d => alphabet.getD d '?')

end Solsab.Base58

namespace Solsab

/-- `NFT_NAME_PREFIX`, `programs/lockup/src/utils/constants.rs:26`. -/
def NFT_NAME_PREFIX : List Char := "Sablier LL Stream #".toList

/-- `programs/lockup/src/utils/nft.rs:34-35`:
`format!("{NFT_NAME_PREFIX}{}...{}", &mint_key[..5], &mint_key[mint_key.len() - 5..])`.
`&s[..5]` panics when the text is shorter than 5, `len() - 5` panics on underflow.  All characters
are ASCII, so characters and bytes coincide. -/
def nftName (key : Bytes32) : Res (List Char) := do
  let s := Base58.encode key.val
  require (5 ≤ s.length) .panic
  let off ← subU64 s.length 5
  .ok (NFT_NAME_PREFIX ++ s.take 5 ++ "...".toList ++ s.drop off)

end Solsab
