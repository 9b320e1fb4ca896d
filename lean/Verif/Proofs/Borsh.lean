import Verif.Bytes.Borsh
import Verif.Proofs.Tree
/-!
# Borsh: reading back what was written
-/

namespace Solsab.Borsh

open Merkle

/-- Reading gives back the written value and leaves the rest. -/
def Reads {α : Type} (c : Codec α) (x : α) : Prop := ∀ rest, c.dec (c.enc x ++ rest) = some (x, rest)

theorem takeBytes_append {n : Nat} {a r : List UInt8} (h : a.length = n) : takeBytes n (a ++ r) = some (a, r) := by
  subst h
  unfold takeBytes
  rw [if_pos (by simp)]
  simp

theorem leBytes_length (n x : Nat) : (leBytes n x).length = n := by rw [leBytes_eq, littleEndian_length]

theorem fromLE_leBytes : ∀ n x, fromLE (leBytes n x) = x % 256 ^ n
  | 0, x => by simp [leBytes, fromLE, Nat.mod_one]
  | n + 1, x => by
    unfold leBytes fromLE
    rw [fromLE_leBytes n, Nat.pow_succ']
    simp only [UInt8.toNat_ofNat']
    rw [Nat.mod_mul]
    have : x % 256 % 2 ^ 8 = x % 256 := Nat.mod_eq_of_lt (by omega)
    rw [this]

theorem uint_reads {α : Type} {n : Nat} {toNat : α → Nat} {of : Nat → α} {x : α}
    (h1 : toNat x < 256 ^ n) (h2 : of (toNat x) = x) : Reads (uint n toNat of) x := by
  intro rest
  unfold uint
  simp only
  rw [takeBytes_append (leBytes_length _ _)]
  simp only [Option.map_some, fromLE_leBytes, Nat.mod_eq_of_lt h1, h2]

theorem u8_reads (x : UInt8) : Reads u8 x := uint_reads (by have := x.toNat_lt; omega) (by simp)
theorem u32_reads (x : UInt32) : Reads u32 x := uint_reads (by have := x.toNat_lt; omega) (by simp)
theorem u64_reads (x : UInt64) : Reads u64 x := uint_reads (by have := x.toNat_lt; omega) (by simp)
theorem u128_reads (x : Fin (2 ^ 128)) : Reads u128 x := uint_reads (by have := x.2; omega) (by
  apply Fin.ext; simp [Fin.ofNat])

theorem bool_reads (x : Bool) : Reads bool x := by intro rest; cases x <;> rfl

theorem key_reads (x : Bytes32) : Reads key x := by
  intro rest
  unfold key
  simp only
  have h : 32 ≤ (x.val ++ rest).length := by rw [List.length_append, x.2]; omega
  rw [dif_pos h]
  congr 1
  have e1 : (x.val ++ rest).take 32 = x.val := by rw [List.take_append_of_le_length (by rw [x.2]; omega), List.take_of_length_le (by rw [x.2]; omega)]
  have e2 : (x.val ++ rest).drop 32 = rest := by rw [List.drop_append_of_le_length (by rw [x.2]; omega), List.drop_of_length_le (by rw [x.2]; omega)]; rfl
  exact Prod.ext (Subtype.ext e1) e2

theorem string_reads {s : List UInt8} (h : s.length < 2 ^ 32) : Reads string s := by
  intro rest
  unfold string
  simp only
  have e : UInt32.toNat (UInt32.ofNat s.length) = s.length := by simp; omega
  have := u32_reads (UInt32.ofNat s.length) (s ++ rest)
  unfold u32 uint at this
  simp only [e] at this
  rw [List.append_assoc]
  show (do let (n, l) ← (uint 4 UInt32.toNat UInt32.ofNat).dec (leBytes 4 s.length ++ (s ++ rest)); takeBytes n.toNat l) = _
  unfold uint
  simp only [this]
  show takeBytes (UInt32.ofNat s.length).toNat (s ++ rest) = _
  rw [e]
  exact takeBytes_append rfl

theorem pair_reads {α β : Type} {a : Codec α} {b : Codec β} {x : α} {y : β} (h1 : Reads a x) (h2 : Reads b y) :
    Reads (pair a b) (x, y) := by
  intro rest
  unfold pair
  simp only [List.append_assoc]
  rw [h1, Option.bind_eq_bind, Option.bind_some]
  simp only
  rw [h2]
  rfl

theorem struct_reads {α β : Type} {c : Codec α} {mk : α → β} {fields : β → α} {x : β} (h : Reads c (fields x))
    (h2 : mk (fields x) = x) : Reads (struct c mk fields) x := by
  intro rest
  unfold struct
  simp only
  rw [h]
  simp only [Option.map_some, h2]

theorem stream_reads (x : RawStream) : Reads stream x :=
  struct_reads (pair_reads (u64_reads _) <| pair_reads (u64_reads _) <| pair_reads (u64_reads _) <|
    pair_reads (u64_reads _) <| pair_reads (u64_reads _) <| pair_reads (key_reads _) <| pair_reads (u8_reads _) <|
    pair_reads (u128_reads _) <| pair_reads (bool_reads _) <| pair_reads (bool_reads _) <| pair_reads (u64_reads _) <|
    pair_reads (u64_reads _) <| pair_reads (u64_reads _) <| pair_reads (key_reads _) (bool_reads _)) rfl

theorem treasury_reads (x : RawTreasury) : Reads treasury x :=
  struct_reads (pair_reads (u8_reads _) <| pair_reads (key_reads _) <| pair_reads (key_reads _) (key_reads _)) rfl

theorem collection_reads (x : RawCollection) : Reads collection x :=
  struct_reads (pair_reads (u64_reads _) (u8_reads _)) rfl

theorem campaign_reads {x : RawCampaign} (h1 : x.ipfsCid.length < 2 ^ 32) (h2 : x.name.length < 2 ^ 32) :
    Reads campaign x :=
  struct_reads (pair_reads (key_reads _) <| pair_reads (u8_reads _) <| pair_reads (u64_reads _) <|
    pair_reads (key_reads _) <| pair_reads (u64_reads _) <| pair_reads (u64_reads _) <| pair_reads (string_reads h1) <|
    pair_reads (key_reads _) (string_reads h2)) rfl

/-! ## Lengths -/

theorem u8_length (x : UInt8) : (u8.enc x).length = 1 := leBytes_length _ _
theorem u64_length (x : UInt64) : (u64.enc x).length = 8 := leBytes_length _ _
theorem u128_length (x : Fin (2 ^ 128)) : (u128.enc x).length = 16 := leBytes_length _ _
theorem bool_length (x : Bool) : (bool.enc x).length = 1 := rfl
theorem key_length (x : Bytes32) : (key.enc x).length = 32 := x.2
theorem string_length (s : List UInt8) : (string.enc s).length = 4 + s.length := by
  simp [string, leBytes_length]
theorem pair_length {α β : Type} (a : Codec α) (b : Codec β) (x : α × β) :
    ((pair a b).enc x).length = (a.enc x.1).length + (b.enc x.2).length := by simp [pair]
theorem struct_length {α β : Type} (c : Codec α) (mk : α → β) (fields : β → α) (x : β) :
    ((struct c mk fields).enc x).length = (c.enc (fields x)).length := rfl

theorem stream_length (x : RawStream) : (stream.enc x).length = 148 := by
  unfold stream
  simp only [struct_length, pair_length, u64_length, key_length, u8_length, u128_length, bool_length]

theorem treasury_length (x : RawTreasury) : (treasury.enc x).length = 97 := by
  unfold treasury
  simp only [struct_length, pair_length, key_length, u8_length]

theorem collection_length (x : RawCollection) : (collection.enc x).length = 9 := by
  unfold collection
  simp only [struct_length, pair_length, u64_length, u8_length]

theorem campaign_length (x : RawCampaign) : (campaign.enc x).length = 129 + x.ipfsCid.length + x.name.length := by
  unfold campaign
  simp only [struct_length, pair_length, u64_length, key_length, u8_length, string_length]
  omega

end Solsab.Borsh
