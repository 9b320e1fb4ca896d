import Verif.Addr
/-!
# SHA-256 (FIPS 180-4)

External (Solana runtime, Anchor macros).  Used only to compute the account discriminators
`sha256("account:<Name>")[..8]` of Anchor's `#[account]` macro.
-/

namespace Solsab.Sha256

/-- First 32 bits of the fractional parts of the cube roots of the first 64 primes. External (FIPS 180-4), no line of
/repo. -/
def K : List Nat :=
  [1116352408, 1899447441, 3049323471, 3921009573, 961987163, 1508970993, 2453635748, 2870763221, 3624381080,
   310598401, 607225278, 1426881987, 1925078388, 2162078206, 2614888103, 3248222580, 3835390401, 4022224774,
   264347078, 604807628, 770255983, 1249150122, 1555081692, 1996064986, 2554220882, 2821834349, 2952996808,
   3210313671, 3336571891, 3584528711, 113926993, 338241895, 666307205, 773529912, 1294757372, 1396182291,
   1695183700, 1986661051, 2177026350, 2456956037, 2730485921, 2820302411, 3259730800, 3345764771, 3516065817,
   3600352804, 4094571909, 275423344, 430227734, 506948616, 659060556, 883997877, 958139571, 1322822218,
   1537002063, 1747873779, 1955562222, 2024104815, 2227730452, 2361852424, 2428436474, 2756734187, 3204031479,
   3329325298]

/-- First 32 bits of the fractional parts of the square roots of the first 8 primes. External (FIPS 180-4), no line of
/repo. -/
def H0 : List Nat :=
  [1779033703, 3144134277, 1013904242, 2773480762, 1359893119, 2600822924, 528734635, 1541459225]

/-- External (FIPS 180-4), no line of /repo. -/
def m32 (x : Nat) : Nat := x % 2 ^ 32
/-- Rotate right. External (FIPS 180-4), no line of /repo. -/
def rotr (x n : Nat) : Nat := m32 ((x >>> n) ||| (x <<< (32 - n)))
/-- External (FIPS 180-4), no line of /repo. -/
def inv (x : Nat) : Nat := 2 ^ 32 - 1 - x

/-- Big-endian 32-bit words. External (FIPS 180-4), no line of /repo. -/
def words : List UInt8 → List Nat
  | a :: b :: c :: d :: r => (((a.toNat * 256 + b.toNat) * 256 + c.toNat) * 256 + d.toNat) :: words r
  | _ => []

/-- External (FIPS 180-4), no line of /repo. -/
def be32 (x : Nat) : List UInt8 :=
  [.ofNat (x / 2 ^ 24), .ofNat (x / 2 ^ 16), .ofNat (x / 2 ^ 8), .ofNat x]

/-- Message padding. External (FIPS 180-4), no line of /repo. -/
def pad (l : List UInt8) : List UInt8 :=
  l ++ 128 :: List.replicate ((55 + 64 - l.length % 64) % 64) 0 ++ be32 (8 * l.length / 2 ^ 32) ++ be32 (8 * l.length)

/-- The message schedule, most recent word first. External (FIPS 180-4), no line of /repo. -/
def schedule : Nat → List Nat → List Nat
  | 0, w => w
  | n + 1, w =>
    let w2 := w.getD 1 0; let w7 := w.getD 6 0; let w15 := w.getD 14 0; let w16 := w.getD 15 0
    let s0 := (rotr w15 7) ^^^ (rotr w15 18) ^^^ (w15 >>> 3)
    let s1 := (rotr w2 17) ^^^ (rotr w2 19) ^^^ (w2 >>> 10)
    schedule n (m32 (w16 + s0 + w7 + s1) :: w)

/-- External (FIPS 180-4), no line of /repo. -/
def round (s : List Nat) (k w : Nat) : List Nat :=
  match s with
  | [a, b, c, d, e, f, g, h] =>
    let s1 := (rotr e 6) ^^^ (rotr e 11) ^^^ (rotr e 25)
    let ch := (e &&& f) ^^^ (inv e &&& g)
    let t1 := h + s1 + ch + k + w
    let s0 := (rotr a 2) ^^^ (rotr a 13) ^^^ (rotr a 22)
    let maj := (a &&& b) ^^^ (a &&& c) ^^^ (b &&& c)
    [m32 (t1 + s0 + maj), a, b, c, m32 (d + t1), e, f, g]
  | s => s

/-- External (FIPS 180-4), no line of /repo. -/
def block (h : List Nat) (ws : List Nat) : List Nat :=
  let w := (schedule 48 ws.reverse).reverse
  let s := (K.zip w).foldl (fun s (k, w) => round s k w) h
  List.zipWith (fun a b => m32 (a + b)) h s

/-- External (FIPS 180-4), no line of /repo. -/
def blocks : Nat → List Nat → List Nat → List Nat
  | 0, h, _ => h
  | n + 1, h, ws => blocks n (block h (ws.take 16)) (ws.drop 16)

/-- SHA-256. External (FIPS 180-4), no line of /repo. -/
def sha256 (l : List UInt8) : List UInt8 :=
  let ws := words (pad l)
  (blocks (ws.length / 16) H0 ws).flatMap be32

/-- ASCII bytes of a text. No line of /repo. -/
def ascii (s : String) : List UInt8 := s.toList.map fun c => UInt8.ofNat c.toNat

/-- FIPS test vector: `sha256("abc")`. -/
example : (sha256 (ascii "abc")).take 4 = [0xba, 0x78, 0x16, 0xbf] := by decide +kernel

/-- Anchor's account discriminator (macro `#[account]`). `#[account]` at `programs/lockup/src/state/lockup.rs:12`,
`programs/merkle_instant/src/state/campaign.rs:6` and the other state files. -/
def discriminator (name : String) : List UInt8 := (sha256 (ascii ("account:" ++ name))).take 8

end Solsab.Sha256
