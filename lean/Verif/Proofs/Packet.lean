import Verif.Bytes.Packet
import Verif.Proofs.Abi
/-!
# Proofs about packets
-/

namespace Solsab.Packet

open Borsh Abi

theorem short_reads {n : Nat} (h : n < 65536) : Reads short n := by
  intro rest
  by_cases h1 : n < 128
  · have e : short.enc n = [UInt8.ofNat n] := if_pos h1
    have e1 : (UInt8.ofNat n).toNat = n := by simp; omega
    rw [e]
    simp only [short, List.cons_append, List.nil_append, e1, h1, if_true]
  by_cases h2 : n < 16384
  · have e : short.enc n = [UInt8.ofNat (n % 128 + 128), UInt8.ofNat (n / 128)] := (if_neg h1).trans (if_pos h2)
    have e1 : (UInt8.ofNat (n % 128 + 128)).toNat = n % 128 + 128 := by simp; omega
    have e2 : (UInt8.ofNat (n / 128)).toNat = n / 128 := by simp; omega
    rw [e]
    simp only [short, List.cons_append, List.nil_append, e1, e2]
    rw [if_neg (by omega), if_neg (by omega), if_pos (by omega)]
    simp only [Option.some.injEq, Prod.mk.injEq, and_true]
    omega
  · have e : short.enc n = [UInt8.ofNat (n % 128 + 128), UInt8.ofNat (n / 128 % 128 + 128), UInt8.ofNat (n / 16384)] :=
      (if_neg h1).trans (if_neg h2)
    have e1 : (UInt8.ofNat (n % 128 + 128)).toNat = n % 128 + 128 := by simp; omega
    have e2 : (UInt8.ofNat (n / 128 % 128 + 128)).toNat = n / 128 % 128 + 128 := by simp; omega
    have e3 : (UInt8.ofNat (n / 16384)).toNat = n / 16384 := by simp; omega
    rw [e]
    simp only [short, List.cons_append, List.nil_append, e1, e2, e3]
    rw [if_neg (by omega), if_neg (by omega), if_neg (by omega), if_neg (by omega)]
    simp only [Option.some.injEq, Prod.mk.injEq, and_true]
    omega

theorem short_length (n : Nat) : (short.enc n).length = if n < 128 then 1 else if n < 16384 then 2 else 3 := by
  unfold short
  simp only
  split
  · rfl
  · split <;> rfl

theorem decMany_reads' {α : Type} {c : Codec α} (xs : List α) (h : ∀ x ∈ xs, Reads c x) (rest : List UInt8) :
    decMany c xs.length (xs.flatMap c.enc ++ rest) = some (xs, rest) := by
  induction xs with
  | nil => rfl
  | cons x xs ih =>
    simp only [List.length_cons, List.flatMap_cons, List.append_assoc]
    unfold decMany
    rw [h x List.mem_cons_self, Option.bind_eq_bind, Option.bind_some]
    simp only [ih fun y hy => h y (List.mem_cons_of_mem _ hy), Option.bind_eq_bind, Option.bind_some]

theorem shortVec_reads {α : Type} {c : Codec α} {xs : List α} (h : ∀ x ∈ xs, Reads c x) (hl : xs.length < 65536) :
    Reads (shortVec c) xs := by
  intro rest
  show (do let (n, l) ← short.dec (short.enc xs.length ++ xs.flatMap c.enc ++ rest); decMany c n l) = _
  rw [List.append_assoc, short_reads hl, Option.bind_eq_bind, Option.bind_some]
  exact decMany_reads' xs h rest

theorem sig_reads (x : Sig) : Reads sig x := by
  intro rest
  unfold sig
  simp only
  have hx := x.2
  rw [dif_pos (by rw [List.length_append]; omega)]
  simp only [Option.some.injEq, Prod.mk.injEq]
  refine ⟨Subtype.ext ?_, ?_⟩
  · show (x.val ++ rest).take 64 = x.val
    exact List.take_left' hx
  · show (x.val ++ rest).drop 64 = rest
    exact List.drop_left' hx

theorem compiledIx_reads {x : CompiledIx} (h1 : x.accounts.length < 65536) (h2 : x.data.length < 65536) :
    Reads compiledIx x :=
  struct_reads (pair_reads (u8_reads _) (pair_reads (shortVec_reads (fun y _ => u8_reads y) h1)
    (shortVec_reads (fun y _ => u8_reads y) h2))) rfl

theorem compiled_reads {x : Compiled} (h1 : x.keys.length < 65536) (h2 : x.instructions.length < 65536)
    (h3 : ∀ i ∈ x.instructions, i.accounts.length < 65536 ∧ i.data.length < 65536) : Reads compiled x :=
  struct_reads (pair_reads (u8_reads _) (pair_reads (u8_reads _) (pair_reads (u8_reads _)
    (pair_reads (shortVec_reads (fun y _ => key_reads y) h1) (pair_reads (key_reads _)
      (shortVec_reads (fun i hi => compiledIx_reads (h3 i hi).1 (h3 i hi).2) h2)))))) rfl

/-! ## Lengths -/

theorem flatMap_length_const {α : Type} {c : Codec α} {k : Nat} (h : ∀ x, (c.enc x).length = k) (xs : List α) :
    (xs.flatMap c.enc).length = k * xs.length := by
  induction xs with
  | nil => rfl
  | cons x xs ih =>
    rw [List.flatMap_cons, List.length_append, ih, h, List.length_cons, Nat.mul_succ]
    omega

/-- Bytes of a length prefix. -/
def shortSize (n : Nat) : Nat := if n < 128 then 1 else if n < 16384 then 2 else 3

theorem shortVec_length {α : Type} {c : Codec α} {k : Nat} (h : ∀ x, (c.enc x).length = k) (xs : List α) :
    ((shortVec c).enc xs).length = shortSize xs.length + k * xs.length := by
  show (short.enc xs.length ++ xs.flatMap c.enc).length = _
  rw [List.length_append, short_length, flatMap_length_const h]
  rfl

theorem compiledIx_length (x : CompiledIx) : (compiledIx.enc x).length =
    1 + (shortSize x.accounts.length + x.accounts.length) + (shortSize x.data.length + x.data.length) := by
  unfold compiledIx
  rw [struct_length, pair_length, pair_length, u8_length, shortVec_length u8_length, shortVec_length u8_length]
  simp only
  omega

theorem flatMap_length_sum {α : Type} {c : Codec α} (xs : List α) :
    (xs.flatMap c.enc).length = (xs.map fun x => (c.enc x).length).sum := by
  rw [List.length_flatMap]

theorem compiled_length (x : Compiled) : (compiled.enc x).length =
    3 + (shortSize x.keys.length + 32 * x.keys.length) + 32 +
      (shortSize x.instructions.length + (x.instructions.map fun i => (compiledIx.enc i).length).sum) := by
  unfold compiled
  rw [struct_length, pair_length, pair_length, pair_length, pair_length, pair_length, u8_length, u8_length, u8_length,
    shortVec_length key_length, key_length]
  show _ + (_ + (_ + (_ + (_ + (short.enc _ ++ x.instructions.flatMap compiledIx.enc).length)))) = _
  rw [List.length_append, short_length, flatMap_length_sum]
  simp only [shortSize]
  omega

theorem sig_length (x : Sig) : (sig.enc x).length = 64 := x.2

/-! ## The client's message is understood as it was meant -/

theorem mem_asked {payer : Bytes32} {ixs : List Instruction} {m : Meta} : m ∈ asked payer ixs ↔
    m = ⟨payer, true, true⟩ ∨ (∃ i ∈ ixs, m ∈ i.accounts) ∨ ∃ i ∈ ixs, m = ⟨i.program, false, false⟩ := by
  unfold asked
  simp only [List.mem_cons, List.mem_flatMap, List.mem_append, List.not_mem_nil, or_false]
  refine or_congr Iff.rfl ⟨?_, ?_⟩
  · rintro ⟨i, hi, h | h⟩
    · exact .inl ⟨i, hi, h⟩
    · exact .inr ⟨i, hi, h⟩
  · rintro (⟨i, hi, h⟩ | ⟨i, hi, h⟩)
    · exact ⟨i, hi, .inl h⟩
    · exact ⟨i, hi, .inr h⟩

theorem signs_iff {ms : List Meta} {k : Bytes32} : signs ms k = true ↔ ∃ m ∈ ms, m.key = k ∧ m.isSigner = true := by
  unfold signs
  simp [List.any_eq_true]

theorem writes_iff {ms : List Meta} {k : Bytes32} : writes ms k = true ↔ ∃ m ∈ ms, m.key = k ∧ m.isWritable = true := by
  unfold writes
  simp [List.any_eq_true]

theorem mem_group {payer : Bytes32} {ms : List Meta} {s w : Bool} {k : Bytes32} : k ∈ group payer ms s w ↔
    (∃ m ∈ ms, m.key = k) ∧ k ≠ payer ∧ signs ms k = s ∧ writes ms k = w := by
  unfold group
  simp only [List.mem_filter, List.mem_dedup, List.mem_map, Bool.and_eq_true, decide_eq_true_eq, beq_iff_eq, ne_eq,
    and_assoc]

theorem group_nodup (payer : Bytes32) (ms : List Meta) (s w : Bool) : (group payer ms s w).Nodup :=
  (List.nodup_dedup _).filter _

theorem allKeys_eq (payer : Bytes32) (ixs : List Instruction) : allKeys payer ixs = payer ::
    (group payer (asked payer ixs) true true ++ (group payer (asked payer ixs) true false ++
      (group payer (asked payer ixs) false true ++ group payer (asked payer ixs) false false))) := by
  simp only [allKeys, signerKeys, List.cons_append, List.append_assoc]

theorem allKeys_nodup (payer : Bytes32) (ixs : List Instruction) : (allKeys payer ixs).Nodup := by
  rw [allKeys_eq, List.nodup_cons]
  constructor
  · simp only [List.mem_append, mem_group, not_or]
    exact ⟨fun h => h.2.1 rfl, fun h => h.2.1 rfl, fun h => h.2.1 rfl, fun h => h.2.1 rfl⟩
  · have key : ∀ {k : Bytes32} {s w s' w' : Bool}, k ∈ group payer (asked payer ixs) s w →
        k ∈ group payer (asked payer ixs) s' w' → s = s' ∧ w = w' := fun h1 h2 =>
      ⟨(mem_group.1 h1).2.2.1.symm.trans (mem_group.1 h2).2.2.1, (mem_group.1 h1).2.2.2.symm.trans (mem_group.1 h2).2.2.2⟩
    refine (group_nodup ..).append ((group_nodup ..).append ((group_nodup ..).append (group_nodup ..) ?_) ?_) ?_
    · intro k h1 h2; exact absurd (key h1 h2).2 (by decide)
    · intro k h1 h2
      rcases List.mem_append.1 h2 with h2 | h2
      · exact absurd (key h1 h2).1 (by decide)
      · exact absurd (key h1 h2).1 (by decide)
    · intro k h1 h2
      rcases List.mem_append.1 h2 with h2 | h2
      · exact absurd (key h1 h2).2 (by decide)
      rcases List.mem_append.1 h2 with h2 | h2
      · exact absurd (key h1 h2).1 (by decide)
      · exact absurd (key h1 h2).1 (by decide)

theorem mem_allKeys {payer : Bytes32} {ixs : List Instruction} {k : Bytes32} :
    k ∈ allKeys payer ixs ↔ ∃ m ∈ asked payer ixs, m.key = k := by
  rw [allKeys_eq]
  simp only [List.mem_cons, List.mem_append, mem_group]
  constructor
  · rintro (h | h | h | h | h)
    · exact ⟨_, mem_asked.2 (.inl rfl), h.symm⟩
    all_goals exact h.1
  · intro h
    by_cases hk : k = payer
    · exact .inl hk
    right
    cases hs : signs (asked payer ixs) k <;> cases hw : writes (asked payer ixs) k <;> simp [h, hk]

theorem mem_signerKeys {payer : Bytes32} {ixs : List Instruction} {k : Bytes32} :
    k ∈ signerKeys payer ixs ↔ k = payer ∨ ∃ i ∈ ixs, ∃ m ∈ i.accounts, m.key = k ∧ m.isSigner = true := by
  unfold signerKeys
  simp only [List.mem_cons, List.mem_append, mem_group]
  have e : signs (asked payer ixs) k = true ↔
      k = payer ∨ ∃ i ∈ ixs, ∃ m ∈ i.accounts, m.key = k ∧ m.isSigner = true := by
    rw [signs_iff]
    constructor
    · rintro ⟨m, hm, h1, h2⟩
      rcases mem_asked.1 hm with h | ⟨i, hi, h⟩ | ⟨i, hi, h⟩
      · subst h; exact .inl h1.symm
      · exact .inr ⟨i, hi, m, h, h1, h2⟩
      · subst h; cases h2
    · rintro (h | ⟨i, hi, m, hm, h1, h2⟩)
      · exact ⟨_, mem_asked.2 (.inl rfl), h.symm, rfl⟩
      · exact ⟨m, mem_asked.2 (.inr (.inl ⟨i, hi, hm⟩)), h1, h2⟩
  rw [← e]
  constructor
  · rintro (h | h | h)
    · exact e.2 (.inl h)
    · exact h.2.2.1
    · exact h.2.2.1
  · intro h
    by_cases hk : k = payer
    · exact .inl hk
    right
    obtain ⟨m, hm, h1, _⟩ := signs_iff.1 h
    cases hw : writes (asked payer ixs) k <;> simp [h, hk, show ∃ m ∈ asked payer ixs, m.key = k from ⟨m, hm, h1⟩]

/-- The writable addresses, as the validator computes them. -/
def writableKeys (payer : Bytes32) (ixs : List Instruction) : List Bytes32 :=
  payer :: (group payer (asked payer ixs) true true) ++ group payer (asked payer ixs) false true

theorem mem_writableKeys {payer : Bytes32} {ixs : List Instruction} {k : Bytes32} :
    k ∈ writableKeys payer ixs ↔ k = payer ∨ ∃ i ∈ ixs, ∃ m ∈ i.accounts, m.key = k ∧ m.isWritable = true := by
  unfold writableKeys
  simp only [List.cons_append, List.mem_cons, List.mem_append, mem_group]
  have e : writes (asked payer ixs) k = true ↔
      k = payer ∨ ∃ i ∈ ixs, ∃ m ∈ i.accounts, m.key = k ∧ m.isWritable = true := by
    rw [writes_iff]
    constructor
    · rintro ⟨m, hm, h1, h2⟩
      rcases mem_asked.1 hm with h | ⟨i, hi, h⟩ | ⟨i, hi, h⟩
      · subst h; exact .inl h1.symm
      · exact .inr ⟨i, hi, m, h, h1, h2⟩
      · subst h; cases h2
    · rintro (h | ⟨i, hi, m, hm, h1, h2⟩)
      · exact ⟨_, mem_asked.2 (.inl rfl), h.symm, rfl⟩
      · exact ⟨m, mem_asked.2 (.inr (.inl ⟨i, hi, hm⟩)), h1, h2⟩
  rw [← e]
  constructor
  · rintro (h | h | h)
    · exact e.2 (.inl h)
    · exact h.2.2.2
    · exact h.2.2.2
  · intro h
    by_cases hk : k = payer
    · exact .inl hk
    right
    obtain ⟨m, hm, h1, _⟩ := writes_iff.1 h
    cases hs : signs (asked payer ixs) k <;> simp [h, hk, show ∃ m ∈ asked payer ixs, m.key = k from ⟨m, hm, h1⟩]

theorem lookup_position {keys : List Bytes32} {k : Bytes32} (hk : k ∈ keys) (hl : keys.length ≤ 256) :
    lookup keys (position keys k) = some k := by
  unfold lookup position
  have h := List.idxOf_lt_length_iff.2 hk
  have e : (UInt8.ofNat (keys.idxOf k)).toNat = keys.idxOf k := by simp; omega
  rw [e, List.getElem?_eq_getElem h, List.getElem_idxOf h]

theorem mapM_lookup {keys : List Bytes32} (hl : keys.length ≤ 256) (ms : List Meta) (h : ∀ m ∈ ms, m.key ∈ keys) :
    (ms.map fun m => position keys m.key).mapM (lookup keys) = some (ms.map Meta.key) := by
  induction ms with
  | nil => rfl
  | cons m ms ih =>
    rw [List.map_cons, List.mapM_cons, lookup_position (h m List.mem_cons_self) hl,
      ih fun x hx => h x (List.mem_cons_of_mem _ hx)]
    rfl

/-- The call an instruction asks for. -/
def Instruction.call (i : Instruction) : Call := ⟨i.program, i.accounts.map Meta.key, i.data⟩

theorem mapM_resolve {payer blockhash : Bytes32} {ixs : List Instruction} (hl : (allKeys payer ixs).length ≤ 256)
    (hp : ∀ i ∈ ixs, i.program ≠ payer) : (compile payer ixs blockhash).instructions.mapM (resolve (allKeys payer ixs)) =
      some (ixs.map Instruction.call) := by
  show (ixs.map _).mapM _ = _
  have key : ∀ is : List Instruction, (∀ i ∈ is, i ∈ ixs) →
      (is.map fun i => CompiledIx.mk (position (allKeys payer ixs) i.program)
        (i.accounts.map fun m => position (allKeys payer ixs) m.key) i.data).mapM (resolve (allKeys payer ixs)) =
      some (is.map Instruction.call) := by
    intro is
    induction is with
    | nil => intro _; rfl
    | cons i is ih =>
      intro h
      have hi := h i List.mem_cons_self
      have hpk : i.program ∈ allKeys payer ixs := mem_allKeys.2 ⟨_, mem_asked.2 (.inr (.inr ⟨i, hi, rfl⟩)), rfl⟩
      have hne : position (allKeys payer ixs) i.program ≠ 0 := by
        intro hz
        have := lookup_position hpk hl
        rw [hz, allKeys_eq] at this
        exact hp i hi (Option.some.inj this).symm
      have e : resolve (allKeys payer ixs) (CompiledIx.mk (position (allKeys payer ixs) i.program)
          (i.accounts.map fun m => position (allKeys payer ixs) m.key) i.data) = some i.call := by
        unfold resolve
        simp only [hne, ne_eq, not_false_eq_true, guard, if_true, lookup_position hpk hl,
          mapM_lookup hl i.accounts fun m hm => mem_allKeys.2 ⟨m, mem_asked.2 (.inr (.inl ⟨i, hi, hm⟩)), rfl⟩]
        rfl
      rw [List.map_cons, List.mapM_cons, e, ih fun x hx => h x (List.mem_cons_of_mem _ hx)]
      rfl
  exact key ixs fun _ h => h

theorem understand_message {payer blockhash : Bytes32} {ixs : List Instruction} (hl : (allKeys payer ixs).length ≤ 255)
    (hi : ixs.length < 65536) (hx : ∀ i ∈ ixs, i.accounts.length < 65536 ∧ i.data.length < 65536)
    (hp : ∀ i ∈ ixs, i.program ≠ payer) :
    understand (messageBytes payer ixs blockhash) = some { feePayer := payer
                                                           blockhash := blockhash
                                                           signers := signerKeys payer ixs
                                                           writable := writableKeys payer ixs
                                                           calls := ixs.map Instruction.call } := by
  have hr : compiled.dec (messageBytes payer ixs blockhash) = some (compile payer ixs blockhash, []) := by
    have := compiled_reads (x := compile payer ixs blockhash) (by show (allKeys payer ixs).length < _; omega)
      (by show (ixs.map _).length < _; rw [List.length_map]; exact hi)
      (fun i h => by
        obtain ⟨j, hj, e⟩ := List.mem_map.1 h
        subst e
        simp only [List.length_map]
        exact hx j hj) []
    rw [List.append_nil] at this
    exact this
  have hlen := congrArg List.length (allKeys_eq payer ixs)
  simp only [List.length_cons, List.length_append] at hlen
  have hslen : (signerKeys payer ixs).length = (group payer (asked payer ixs) true true).length +
      (group payer (asked payer ixs) true false).length + 1 := by
    simp only [signerKeys, List.length_cons, List.length_append]
  have e1 : (compile payer ixs blockhash).signers.toNat = (signerKeys payer ixs).length := by
    show (UInt8.ofNat _).toNat = _
    simp; omega
  have e2 : (compile payer ixs blockhash).readonlySigners.toNat = (group payer (asked payer ixs) true false).length := by
    show (UInt8.ofNat _).toNat = _
    simp; omega
  have e3 : (compile payer ixs blockhash).readonlyOthers.toNat = (group payer (asked payer ixs) false false).length := by
    show (UInt8.ofNat _).toNat = _
    simp; omega
  have ek : (compile payer ixs blockhash).keys = allKeys payer ixs := rfl
  have t1 : (allKeys payer ixs).take (signerKeys payer ixs).length = signerKeys payer ixs := List.take_left
  have t2 : (allKeys payer ixs).take ((signerKeys payer ixs).length - (group payer (asked payer ixs) true false).length) =
      payer :: group payer (asked payer ixs) true true := by
    rw [allKeys_eq, ← List.cons_append]
    exact List.take_left' (by rw [List.length_cons]; omega)
  have t3 : ((allKeys payer ixs).take ((allKeys payer ixs).length -
      (group payer (asked payer ixs) false false).length)).drop (signerKeys payer ixs).length =
      group payer (asked payer ixs) false true := by
    have e : allKeys payer ixs = (signerKeys payer ixs ++ group payer (asked payer ixs) false true) ++
        group payer (asked payer ixs) false false := by rw [List.append_assoc]; rfl
    rw [e, List.take_left' (by simp only [List.length_append]; omega)]
    exact List.drop_left
  unfold understand
  simp only [hr, Option.bind_eq_bind, Option.bind_some, e1, e2, e3, ek, t1, t2, t3, mapM_resolve (by omega) hp, guard,
    if_true, allKeys_nodup]
  rw [if_pos (by omega), if_pos (by omega), allKeys_eq]
  rfl

theorem le_sum_of_mem {x : Nat} : ∀ {l : List Nat}, x ∈ l → x ≤ l.sum
  | [], h => by cases h
  | y :: l, h => by
    rw [List.sum_cons]
    rcases List.mem_cons.1 h with h | h
    · omega
    · have := le_sum_of_mem h
      omega

/-- Whatever fits into a packet is small enough for every length field. -/
theorem small_of_size {sign : Bytes32 → List UInt8 → Sig} {payer blockhash : Bytes32} {ixs : List Instruction}
    (h : (transaction sign payer ixs blockhash).length ≤ maxSize) :
    (allKeys payer ixs).length ≤ 38 ∧ ixs.length ≤ 1232 ∧ (signerKeys payer ixs).length ≤ 19 ∧
    ∀ i ∈ ixs, i.accounts.length ≤ 1232 ∧ i.data.length ≤ 1232 := by
  unfold transaction messageBytes at h
  rw [List.length_append, shortVec_length sig_length, compiled_length, List.length_map] at h
  have e1 : (compile payer ixs blockhash).keys = allKeys payer ixs := rfl
  rw [e1] at h
  simp only [maxSize] at h
  have hs : ∀ (l : List CompiledIx), l.length ≤ (l.map fun i => (compiledIx.enc i).length).sum := by
    intro l
    induction l with
    | nil => exact Nat.le_refl _
    | cons i l ih =>
      rw [List.map_cons, List.sum_cons, List.length_cons, compiledIx_length]
      omega
  have h1 := hs (compile payer ixs blockhash).instructions
  have h2 : (compile payer ixs blockhash).instructions.length = ixs.length := List.length_map _
  refine ⟨by omega, by omega, by omega, fun i hi => ?_⟩
  have hm : (compiledIx.enc (CompiledIx.mk (position (allKeys payer ixs) i.program)
      (i.accounts.map fun m => position (allKeys payer ixs) m.key) i.data)).length ∈
      (compile payer ixs blockhash).instructions.map fun i => (compiledIx.enc i).length :=
    List.mem_map.2 ⟨_, List.mem_map.2 ⟨i, hi, rfl⟩, rfl⟩
  have := le_sum_of_mem hm
  rw [compiledIx_length] at this
  simp only [List.length_map] at this
  omega

theorem zip_map_all {α β : Type} {f : α → β} {p : α → β → Bool} (l : List α) (h : ∀ x ∈ l, p x (f x) = true) :
    ((l.zip (l.map f)).all fun (x, y) => p x y) = true := by
  induction l with
  | nil => rfl
  | cons x l ih =>
    simp only [List.map_cons, List.zip_cons_cons, List.all_cons, h x List.mem_cons_self, Bool.true_and]
    exact ih fun y hy => h y (List.mem_cons_of_mem _ hy)

theorem receive_transaction {verify : Verify} {sign : Bytes32 → List UInt8 → Sig} {payer blockhash : Bytes32}
    {ixs : List Instruction} (hsize : (transaction sign payer ixs blockhash).length ≤ maxSize)
    (hp : ∀ i ∈ ixs, i.program ≠ payer)
    (hv : ∀ k ∈ signerKeys payer ixs,
      verify k (messageBytes payer ixs blockhash) (sign k (messageBytes payer ixs blockhash)) = true) :
    receive verify (transaction sign payer ixs blockhash) = some { feePayer := payer
                                                                   blockhash := blockhash
                                                                   signers := signerKeys payer ixs
                                                                   writable := writableKeys payer ixs
                                                                   calls := ixs.map Instruction.call } := by
  obtain ⟨h1, h2, h3, h4⟩ := small_of_size hsize
  have hu := understand_message (blockhash := blockhash) (by omega) (by omega)
    (fun i hi => ⟨by have := (h4 i hi).1; omega, by have := (h4 i hi).2; omega⟩) hp
  have hs := shortVec_reads (c := sig) (xs := (signerKeys payer ixs).map fun k => sign k (messageBytes payer ixs blockhash))
    (fun x _ => sig_reads x) (by rw [List.length_map]; omega) (messageBytes payer ixs blockhash)
  unfold receive
  rw [show guard ((transaction sign payer ixs blockhash).length ≤ maxSize) = some () from if_pos hsize]
  unfold transaction
  simp only [hs, hu, Option.bind_eq_bind, Option.bind_some, List.length_map, guard, if_true, zip_map_all _ hv]
  rfl

theorem sig_canon : Canon sig := by
  intro l x r h
  unfold sig at h
  simp only at h
  split at h
  · injection h with h; injection h with h1 h2; subst h1 h2
    exact (List.take_append_drop 64 l).symm
  · cases h

theorem short_suffix {l r : List UInt8} {n : Nat} (h : short.dec l = some (n, r)) : ∃ front, l = front ++ r := by
  unfold short at h
  simp only at h
  cases l with
  | nil => cases h
  | cons a l =>
    simp only at h
    split at h
    · cases h; exact ⟨[a], rfl⟩
    cases l with
    | nil => cases h
    | cons b l =>
      simp only at h
      split at h
      · cases h
      split at h
      · cases h; exact ⟨[a, b], rfl⟩
      cases l with
      | nil => cases h
      | cons c l =>
        simp only at h
        split at h
        · cases h
        · cases h; exact ⟨[a, b, c], rfl⟩

theorem decMany_suffix {α : Type} {c : Codec α} (hc : Canon c) : ∀ (n : Nat) {l r : List UInt8} {xs : List α},
    decMany c n l = some (xs, r) → ∃ front, l = front ++ r
  | 0, l, r, xs, h => by cases h; exact ⟨[], rfl⟩
  | n + 1, l, r, xs, h => by
    unfold decMany at h
    simp only [Option.bind_eq_bind, Option.bind_eq_some_iff] at h
    obtain ⟨⟨x, l₁⟩, h1, ⟨ys, l₂⟩, h2, h3⟩ := h
    cases h3
    obtain ⟨f, e⟩ := decMany_suffix hc n h2
    have e : l₁ = f ++ l₂ := e
    exact ⟨c.enc x ++ f, by rw [hc _ _ _ h1, e, List.append_assoc]⟩

theorem shortVec_suffix {bytes msg : List UInt8} {sigs : List Sig} (h : (shortVec sig).dec bytes = some (sigs, msg)) :
    ∃ front, bytes = front ++ msg := by
  unfold shortVec at h
  simp only [Option.bind_eq_bind, Option.bind_eq_some_iff] at h
  obtain ⟨⟨n, l⟩, h1, h2⟩ := h
  obtain ⟨f, e⟩ := short_suffix h1
  obtain ⟨g, e'⟩ := decMany_suffix sig_canon n h2
  have e' : l = g ++ msg := e'
  exact ⟨f ++ g, by rw [e, e', List.append_assoc]⟩

end Solsab.Packet
