import Verif.Bytes.Abi
import Verif.Proofs.Borsh
/-!
# Codecs of instruction and event data: reading back, canonicity, dispatch
-/

namespace Solsab.Abi

open Borsh Merkle

theorem none_reads (x : Unit) : Reads noArgs x := fun _ => rfl

theorem decMany_reads {α : Type} {c : Codec α} (h : ∀ x, Reads c x) :
    ∀ (xs : List α) (rest : List UInt8), decMany c xs.length (xs.flatMap c.enc ++ rest) = some (xs, rest)
  | [], _ => rfl
  | x :: xs, rest => by
    simp only [List.length_cons, List.flatMap_cons, List.append_assoc, decMany]
    rw [h x, Option.bind_eq_bind, Option.bind_some]
    simp only
    rw [decMany_reads h xs]
    rfl

theorem vec_reads {α : Type} {c : Codec α} (h : ∀ x, Reads c x) {xs : List α} (hl : xs.length < 2 ^ 32) :
    Reads (vec c) xs := by
  intro rest
  unfold vec
  simp only
  have e : UInt32.toNat (UInt32.ofNat xs.length) = xs.length := by simp; omega
  have := u32_reads (UInt32.ofNat xs.length) (xs.flatMap c.enc ++ rest)
  have e2 : u32.enc (UInt32.ofNat xs.length) = leBytes 4 xs.length := by
    show leBytes 4 (UInt32.ofNat xs.length).toNat = _
    rw [e]
  rw [e2] at this
  rw [List.append_assoc, this, Option.bind_eq_bind, Option.bind_some]
  simp only [e]
  exact decMany_reads h xs rest

/-! ## Canonicity: what is read is what would have been written -/

/-- Whatever the reader accepts is the encoding of what it returns, followed by what it leaves. -/
def Canon {α : Type} (c : Codec α) : Prop := ∀ l x r, c.dec l = some (x, r) → l = c.enc x ++ r

theorem takeBytes_some {n : Nat} {l b r : List UInt8} (h : takeBytes n l = some (b, r)) :
    l = b ++ r ∧ b.length = n := by
  unfold takeBytes at h
  split at h
  · injection h with h
    injection h with h1 h2
    subst h1 h2
    refine ⟨(List.take_append_drop _ _).symm, ?_⟩
    rw [List.length_take]; omega
  · cases h

theorem leBytes_fromLE : ∀ (n : Nat) (b : List UInt8), b.length = n → leBytes n (fromLE b) = b
  | 0, b, h => by rw [List.length_eq_zero_iff.1 h]; rfl
  | n + 1, [], h => by cases h
  | n + 1, x :: b, h => by
    have hl : b.length = n := by simpa using h
    have hx := x.toNat_lt
    unfold fromLE leBytes
    have e1 : (x.toNat + 256 * fromLE b) % 256 = x.toNat := by omega
    have e2 : (x.toNat + 256 * fromLE b) / 256 = fromLE b := by omega
    rw [e1, e2, leBytes_fromLE n b hl]
    simp

theorem fromLE_lt : ∀ (b : List UInt8), fromLE b < 256 ^ b.length
  | [] => by simp [fromLE]
  | x :: b => by
    have := fromLE_lt b
    have hx := x.toNat_lt
    unfold fromLE
    rw [List.length_cons, Nat.pow_succ]
    omega

theorem uint_canon {α : Type} {n : Nat} {toNat : α → Nat} {of : Nat → α} (h : ∀ k, k < 256 ^ n → toNat (of k) = k) :
    Canon (uint n toNat of) := by
  intro l x r hd
  simp only [uint, Option.map_eq_some_iff] at hd
  obtain ⟨⟨b, r'⟩, h1, h2⟩ := hd
  injection h2 with h2 h3
  subst h2 h3
  obtain ⟨e, hl⟩ := takeBytes_some h1
  simp only [uint]
  rw [h _ (by rw [← hl]; exact fromLE_lt b), leBytes_fromLE n b hl]
  exact e

theorem u8_canon : Canon u8 := uint_canon fun k hk => by simp; omega
theorem u32_canon : Canon u32 := uint_canon fun k hk => by simp; omega
theorem u64_canon : Canon u64 := uint_canon fun k hk => by simp; omega
theorem u128_canon : Canon u128 := uint_canon fun k hk => by
  simp only [Fin.ofNat]
  exact Nat.mod_eq_of_lt (by have : (256 : Nat) ^ 16 = 2 ^ 128 := by decide
                             omega)

theorem bool_canon : Canon Borsh.bool := by
  intro l x r h
  unfold Borsh.bool at h
  simp only at h
  split at h
  · injection h with h; injection h with h1 h2; subst h1 h2; rfl
  · injection h with h; injection h with h1 h2; subst h1 h2; rfl
  · cases h

theorem key_canon : Canon key := by
  intro l x r h
  unfold key at h
  simp only at h
  split at h
  · injection h with h; injection h with h1 h2; subst h1 h2
    exact (List.take_append_drop 32 l).symm
  · cases h

theorem none_canon : Canon noArgs := by
  intro l x r h
  simp only [noArgs, Option.some.injEq, Prod.mk.injEq] at h
  simpa [noArgs] using h.2

theorem pair_canon {α β : Type} {a : Codec α} {b : Codec β} (h1 : Canon a) (h2 : Canon b) : Canon (pair a b) := by
  intro l x r h
  simp only [pair, Option.bind_eq_bind, Option.bind_eq_some_iff] at h
  obtain ⟨⟨x1, l1⟩, e1, ⟨x2, l2⟩, e2, e3⟩ := h
  injection e3 with e3; injection e3 with e3 e4
  subst e3 e4
  dsimp only at *
  rw [h1 _ _ _ e1, h2 _ _ _ e2]
  simp [pair]

theorem string_canon : Canon string := by
  intro l x r h
  simp only [string, Option.bind_eq_bind, Option.bind_eq_some_iff] at h
  obtain ⟨⟨n, l1⟩, e1, e2⟩ := h
  obtain ⟨e3, e4⟩ := takeBytes_some e2
  dsimp only at *
  rw [u32_canon _ _ _ e1, e3]
  simp only [string, u32, uint, e4, List.append_assoc]

theorem decMany_canon {α : Type} {c : Codec α} (h : Canon c) : ∀ (n : Nat) (l : List UInt8) (xs : List α) (r : List UInt8),
    decMany c n l = some (xs, r) → l = xs.flatMap c.enc ++ r ∧ xs.length = n
  | 0, l, xs, r, e => by
    simp only [decMany, Option.some.injEq, Prod.mk.injEq] at e
    obtain ⟨e1, e2⟩ := e
    subst e1 e2
    exact ⟨rfl, rfl⟩
  | n + 1, l, xs, r, e => by
    simp only [decMany, Option.bind_eq_bind, Option.bind_eq_some_iff] at e
    obtain ⟨⟨x, l1⟩, e1, ⟨xs', l2⟩, e2, e3⟩ := e
    injection e3 with e3; injection e3 with e3 e4
    subst e3 e4
    obtain ⟨f1, f2⟩ := decMany_canon h n _ _ _ e2
    dsimp only at *
    refine ⟨?_, by simp [f2]⟩
    rw [h _ _ _ e1, f1]
    simp

theorem vec_canon {α : Type} {c : Codec α} (h : Canon c) : Canon (vec c) := by
  intro l x r hd
  simp only [vec, Option.bind_eq_bind, Option.bind_eq_some_iff] at hd
  obtain ⟨⟨n, l1⟩, e1, e2⟩ := hd
  obtain ⟨e3, e4⟩ := decMany_canon h _ _ _ _ e2
  dsimp only at *
  rw [u32_canon _ _ _ e1, e3]
  simp only [vec, u32, uint, e4, List.append_assoc]

/-! ## Dispatch -/

theorem find?_of_pairwise {α β : Type} [BEq β] [LawfulBEq β] (f : α → β) : ∀ (es : List α), (es.map f).Nodup → ∀ e ∈ es,
    (es.find? fun x => f e == f x) = some e
  | [], _, e, h => by cases h
  | x :: es, hn, e, h => by
    rw [List.map_cons, List.nodup_cons] at hn
    rcases List.mem_cons.1 h with rfl | h
    · simp
    · have hne : f e ≠ f x := fun he => hn.1 (he ▸ List.mem_map.2 ⟨e, h, rfl⟩)
      rw [List.find?_cons_of_neg (by simpa using hne)]
      exact find?_of_pairwise f es hn.2 e h

/-- The tag selects its own case. -/
theorem dispatch_of_mem {α : Type} {space : String} {es : List (Entry α)}
    (hn : (es.map fun e => tag space e.name).Nodup) {e : Entry α} (he : e ∈ es)
    (hl : (tag space e.name).length = 8) {l rest : List UInt8} {x : α} (hr : e.read l = some (x, rest)) :
    dispatch space es (tag space e.name ++ l) = .ok x := by
  have e1 : (tag space e.name ++ l).take 8 = tag space e.name := by
    rw [List.take_append_of_le_length (by omega), List.take_of_length_le (by omega)]
  have e2 : (tag space e.name ++ l).drop 8 = l := by
    rw [List.drop_append_of_le_length (by omega), List.drop_of_length_le (by omega)]; rfl
  unfold dispatch
  rw [e1, e2, find?_of_pairwise (fun e : Entry α => tag space e.name) es hn e he]
  simp only [hr]

/-- An accepted call comes from one of the cases. -/
theorem dispatch_ok {α : Type} {space : String} {es : List (Entry α)} {data : List UInt8} {x : α}
    (h : dispatch space es data = .ok x) :
    ∃ e ∈ es, ∃ l rest, data = tag space e.name ++ l ∧ e.read l = some (x, rest) := by
  unfold dispatch at h
  split at h
  · cases h
  · rename_i e he
    have hm := List.mem_of_find?_eq_some he
    have ht := List.find?_some he
    simp only [beq_iff_eq] at ht
    split at h
    · cases h
    · rename_i y r hr
      cases h
      exact ⟨e, hm, _, r, by rw [← ht, List.take_append_drop], hr⟩

theorem entry_read {α β : Type} {name : String} {c : Codec β} {mk : β → α} {l rest : List UInt8} {y : α}
    (hc : Canon c) (h : (entry name c mk).read l = some (y, rest)) : ∃ x, y = mk x ∧ l = c.enc x ++ rest := by
  simp only [entry, Option.map_eq_some_iff] at h
  obtain ⟨⟨x, r⟩, h1, h2⟩ := h
  injection h2 with h2 h3
  subst h2 h3
  exact ⟨x, rfl, hc _ _ _ h1⟩

theorem read_entry {α β : Type} {name : String} {c : Codec β} {mk : β → α} {x : β} (hc : Reads c x)
    (rest : List UInt8) : (entry name c mk).read (c.enc x ++ rest) = some (mk x, rest) := by
  simp only [entry]
  rw [hc]
  rfl

end Solsab.Abi
