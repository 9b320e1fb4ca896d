import Verif.Proofs.Abi
import Verif.Spec.Abi
import Verif.Demo
/-!
# C64, C65: instruction data and event data
-/

namespace Solsab.Props

open Spec Abi Borsh Demo

/-! ## Tags -/

theorem lockup_tags : lockupEntries.map (fun e => tag "global" e.name) =
    [[232, 219, 223, 41, 219, 236, 220, 190], [164, 152, 207, 99, 30, 186, 19, 182], [87, 17, 170, 167, 156, 152, 169, 61],
     [150, 165, 147, 28, 68, 41, 48, 41], [175, 175, 109, 31, 13, 152, 155, 237], [241, 157, 138, 210, 8, 235, 187, 123],
     [183, 18, 70, 156, 148, 109, 161, 34], [32, 71, 46, 98, 105, 76, 85, 96], [160, 136, 114, 120, 234, 178, 146, 58],
     [90, 214, 253, 237, 126, 236, 132, 237], [104, 209, 104, 97, 122, 35, 165, 195], [91, 69, 219, 48, 189, 26, 13, 33],
     [247, 160, 213, 237, 247, 121, 164, 82], [30, 195, 140, 141, 173, 123, 253, 60], [55, 255, 88, 224, 223, 23, 97, 140]] := by
  decide +kernel

theorem merkle_tags : merkleEntries.map (fun e => tag "global" e.name) =
    [[62, 198, 214, 193, 213, 159, 108, 210], [111, 92, 142, 79, 33, 234, 82, 27], [164, 152, 207, 99, 30, 186, 19, 182],
     [111, 131, 187, 98, 160, 193, 114, 244], [175, 175, 109, 31, 13, 152, 155, 237], [188, 126, 110, 5, 183, 113, 158, 3],
     [255, 199, 146, 222, 145, 180, 58, 231], [182, 195, 167, 56, 232, 3, 223, 102], [24, 138, 30, 86, 92, 38, 143, 129],
     [223, 150, 181, 32, 240, 136, 73, 236], [135, 101, 171, 220, 86, 97, 104, 199], [247, 160, 213, 237, 247, 121, 164, 82]] := by
  decide +kernel

theorem lockupEvent_tags : lockupEventEntries.map (fun e => tag "event" e.name) =
    [[82, 106, 117, 112, 153, 245, 190, 66], [234, 181, 19, 52, 67, 64, 151, 173], [233, 23, 117, 225, 107, 178, 254, 8],
     [28, 66, 144, 150, 118, 56, 81, 93], [232, 101, 27, 150, 85, 222, 243, 9]] := by
  decide +kernel

theorem merkleEvent_tags : merkleEventEntries.map (fun e => tag "event" e.name) =
    [[133, 98, 9, 238, 133, 207, 191, 113], [239, 144, 30, 69, 80, 59, 142, 64], [88, 178, 212, 72, 110, 4, 68, 143],
     [233, 23, 117, 225, 107, 178, 254, 8]] := by
  decide +kernel

/-- The model's encoders write the specified bytes. -/
theorem encodeLockup_eq (c : LockupCall) : encodeLockup c = lockupData c := by
  have h := lockup_tags
  simp only [lockupEntries, entry, List.map_cons, List.map_nil, List.cons.injEq, and_true] at h
  obtain ⟨h1, h2, h3, h4, h5, h6, h7, h8, h9, h10, h11, h12, h13, h14, h15⟩ := h
  cases c <;>
    simp only [encodeLockup, lockupData, h1, h2, h3, h4, h5, h6, h7, h8, h9, h10, h11, h12, h13, h14, h15, durationsArgs,
      timestampsArgs, pair, u64, u128, uint, Borsh.bool, key, Merkle.leBytes_eq, le8, le16, flag, List.append_assoc]

theorem encodeMerkle_eq (c : MerkleCall) : encodeMerkle c = merkleData c := by
  have h := merkle_tags
  simp only [merkleEntries, entry, List.map_cons, List.map_nil, List.cons.injEq, and_true] at h
  obtain ⟨h1, h2, h3, h4, h5, h6, h7, h8, h9, h10, h11, h12⟩ := h
  cases c <;>
    simp only [encodeMerkle, merkleData, h1, h2, h3, h4, h5, h6, h7, h8, h9, h10, h11, h12, campaignArgs, pair, u64, u32,
      uint, key, string, vec, Merkle.leBytes_eq, le8, le4, text, List.append_assoc]

theorem encodeLockupEvent_eq (e : LockupEvent) : encodeLockupEvent e = lockupEventData e := by
  have h := lockupEvent_tags
  simp only [lockupEventEntries, entry, List.map_cons, List.map_nil, List.cons.injEq, and_true] at h
  obtain ⟨h1, h2, h3, h4, h5⟩ := h
  cases e <;>
    simp only [encodeLockupEvent, lockupEventData, h1, h2, h3, h4, h5, cancelFields, createFields, feesFields,
      renounceFields, withdrawFields, pair, u8, u64, u128, uint, key, Merkle.leBytes_eq, le8, le16, List.append_assoc]

theorem encodeMerkleEvent_eq (e : MerkleEvent) : encodeMerkleEvent e = merkleEventData e := by
  have h := merkleEvent_tags
  simp only [merkleEventEntries, entry, List.map_cons, List.map_nil, List.cons.injEq, and_true] at h
  obtain ⟨h1, h2, h3, h4⟩ := h
  cases e <;>
    simp only [encodeMerkleEvent, merkleEventData, h1, h2, h3, h4, claimFields, clawbackFields, feesFields,
      campaignFields, pair, u8, u32, u64, uint, key, string, Merkle.leBytes_eq, le8, le4, text, List.append_assoc]

/-! ## C64 -/

theorem len_of_map {α : Type} {es : List (Entry α)} {space : String} (h : ∀ t ∈ es.map (fun e => tag space e.name), t.length = 8)
    {e : Entry α} (he : e ∈ es) : (tag space e.name).length = 8 := h _ (List.mem_map.2 ⟨e, he, rfl⟩)

theorem lockup_len : ∀ t ∈ lockupEntries.map (fun e => tag "global" e.name), t.length = 8 := by rw [lockup_tags]; decide
theorem merkle_len : ∀ t ∈ merkleEntries.map (fun e => tag "global" e.name), t.length = 8 := by rw [merkle_tags]; decide
theorem lockupEvent_len : ∀ t ∈ lockupEventEntries.map (fun e => tag "event" e.name), t.length = 8 := by
  rw [lockupEvent_tags]; decide
theorem merkleEvent_len : ∀ t ∈ merkleEventEntries.map (fun e => tag "event" e.name), t.length = 8 := by
  rw [merkleEvent_tags]; decide

theorem durationsArgs_reads (x) : Reads durationsArgs x :=
  pair_reads (u128_reads _) <| pair_reads (u64_reads _) <| pair_reads (u64_reads _) <| pair_reads (u64_reads _) <|
    pair_reads (u64_reads _) <| pair_reads (u64_reads _) (bool_reads _)

theorem timestampsArgs_reads (x) : Reads timestampsArgs x :=
  pair_reads (u128_reads _) <| pair_reads (u64_reads _) <| pair_reads (u64_reads _) <| pair_reads (u64_reads _) <|
    pair_reads (u64_reads _) <| pair_reads (u64_reads _) <| pair_reads (u64_reads _) (bool_reads _)

theorem keys_reads (x) : Reads (pair key (pair key key)) x :=
  pair_reads (key_reads _) <| pair_reads (key_reads _) (key_reads _)

/-- **C64**: the lockup program understands the data of every call as exactly that call, whatever bytes follow. -/
theorem C64_lockup (c : LockupCall) (rest : List UInt8) :
    dispatch "global" lockupEntries (lockupData c ++ rest) = .ok c := by
  have hn : (lockupEntries.map fun e => tag "global" e.name).Nodup := by rw [lockup_tags]; decide
  have go : ∀ {β : Type} {name : String} {cd : Codec β} {mk : β → LockupCall} {x : β}
      (_ : entry name cd mk ∈ lockupEntries), Reads cd x →
      dispatch "global" lockupEntries (tag "global" name ++ cd.enc x ++ rest) = .ok (mk x) := by
    intro β name cd mk x hm hr
    rw [List.append_assoc]
    exact dispatch_of_mem hn hm (len_of_map lockup_len hm) (read_entry hr rest)
  have go0 : ∀ {name : String} {y : LockupCall} (_ : entry name noArgs (fun _ => y) ∈ lockupEntries),
      dispatch "global" lockupEntries (tag "global" name ++ rest) = .ok y := by
    intro name y hm
    have := go (x := ()) hm (none_reads _)
    simpa [noArgs] using this
  rw [← encodeLockup_eq]
  cases c with
  | cancel => exact go0 (List.mem_of_getElem? (i := 0) rfl)
  | collectFees => exact go0 (List.mem_of_getElem? (i := 1) rfl)
  | createWithDurations a b c d e f g =>
    exact go (List.mem_of_getElem? (i := 2) rfl) (durationsArgs_reads (a, b, c, d, e, f, g))
  | createWithTimestamps a b c d e f g h =>
    exact go (List.mem_of_getElem? (i := 3) rfl) (timestampsArgs_reads (a, b, c, d, e, f, g, h))
  | «initialize» a b c => exact go (List.mem_of_getElem? (i := 4) rfl) (keys_reads (a, b, c))
  | renounce => exact go0 (List.mem_of_getElem? (i := 5) rfl)
  | withdraw a => exact go (List.mem_of_getElem? (i := 6) rfl) (u64_reads a)
  | withdrawMax => exact go0 (List.mem_of_getElem? (i := 7) rfl)
  | refundableAmountOf => exact go0 (List.mem_of_getElem? (i := 8) rfl)
  | statusOf => exact go0 (List.mem_of_getElem? (i := 9) rfl)
  | streamExists a b => exact go (List.mem_of_getElem? (i := 10) rfl) (pair_reads (key_reads a) (u128_reads b))
  | streamedAmountOf => exact go0 (List.mem_of_getElem? (i := 11) rfl)
  | treasuryView => exact go0 (List.mem_of_getElem? (i := 12) rfl)
  | withdrawableAmountOf => exact go0 (List.mem_of_getElem? (i := 13) rfl)
  | withdrawalFeeInLamports => exact go0 (List.mem_of_getElem? (i := 14) rfl)

example : dispatch "global" lockupEntries ([183, 18, 70, 156, 148, 109, 161, 34] ++ [0, 1, 0, 0, 0, 0, 0, 0] ++ [9, 9]) =
    .ok (.withdraw 256) := C64_lockup (.withdraw 256) [9, 9]

theorem campaignArgs_reads {x : Bytes32 × UInt64 × UInt64 × List UInt8 × List UInt8 × UInt64 × UInt32}
    (h1 : x.2.2.2.1.length < 2 ^ 32) (h2 : x.2.2.2.2.1.length < 2 ^ 32) : Reads campaignArgs x :=
  pair_reads (key_reads _) <| pair_reads (u64_reads _) <| pair_reads (u64_reads _) <| pair_reads (string_reads h1) <|
    pair_reads (string_reads h2) <| pair_reads (u64_reads _) (u32_reads _)

/-- **C64**: the merkle_instant program understands the data of every call as exactly that call, whatever bytes
follow. -/
theorem C64_merkle (c : MerkleCall) (hs : MerkleCall.Sized c) (rest : List UInt8) :
    dispatch "global" merkleEntries (merkleData c ++ rest) = .ok c := by
  have hn : (merkleEntries.map fun e => tag "global" e.name).Nodup := by rw [merkle_tags]; decide
  have go : ∀ {β : Type} {name : String} {cd : Codec β} {mk : β → MerkleCall} {x : β}
      (_ : entry name cd mk ∈ merkleEntries), Reads cd x →
      dispatch "global" merkleEntries (tag "global" name ++ cd.enc x ++ rest) = .ok (mk x) := by
    intro β name cd mk x hm hr
    rw [List.append_assoc]
    exact dispatch_of_mem hn hm (len_of_map merkle_len hm) (read_entry hr rest)
  have go0 : ∀ {name : String} {y : MerkleCall} (_ : entry name noArgs (fun _ => y) ∈ merkleEntries),
      dispatch "global" merkleEntries (tag "global" name ++ rest) = .ok y := by
    intro name y hm
    have := go (x := ()) hm (none_reads _)
    simpa [noArgs] using this
  rw [← encodeMerkle_eq]
  cases c with
  | claim a b c =>
    exact go (List.mem_of_getElem? (i := 0) rfl)
      (x := (a, b, c)) (pair_reads (u32_reads _) (pair_reads (u64_reads _) (vec_reads key_reads hs)))
  | clawback a => exact go (List.mem_of_getElem? (i := 1) rfl) (u64_reads a)
  | collectFees => exact go0 (List.mem_of_getElem? (i := 2) rfl)
  | createCampaign a b c d e f g =>
    exact go (List.mem_of_getElem? (i := 3) rfl) (campaignArgs_reads (x := (a, b, c, d, e, f, g)) hs.1 hs.2)
  | «initialize» a b c => exact go (List.mem_of_getElem? (i := 4) rfl) (keys_reads (a, b, c))
  | campaignView => exact go0 (List.mem_of_getElem? (i := 5) rfl)
  | claimFeeInLamports => exact go0 (List.mem_of_getElem? (i := 6) rfl)
  | hasClaimed a => exact go (List.mem_of_getElem? (i := 7) rfl) (u32_reads a)
  | hasExpired => exact go0 (List.mem_of_getElem? (i := 8) rfl)
  | hasGracePeriodPassed => exact go0 (List.mem_of_getElem? (i := 9) rfl)
  | hasCampaignStarted => exact go0 (List.mem_of_getElem? (i := 10) rfl)
  | treasuryView => exact go0 (List.mem_of_getElem? (i := 11) rfl)

example := C64_merkle (.claim 1 300 [leaf0]) (by show (1 : Nat) < _; decide) []

theorem durationsArgs_canon : Canon durationsArgs :=
  pair_canon u128_canon <| pair_canon u64_canon <| pair_canon u64_canon <| pair_canon u64_canon <|
    pair_canon u64_canon <| pair_canon u64_canon bool_canon
theorem timestampsArgs_canon : Canon timestampsArgs :=
  pair_canon u128_canon <| pair_canon u64_canon <| pair_canon u64_canon <| pair_canon u64_canon <|
    pair_canon u64_canon <| pair_canon u64_canon <| pair_canon u64_canon bool_canon
theorem keys_canon : Canon (pair key (pair key key)) := pair_canon key_canon (pair_canon key_canon key_canon)
theorem campaignArgs_canon : Canon campaignArgs :=
  pair_canon key_canon <| pair_canon u64_canon <| pair_canon u64_canon <| pair_canon string_canon <|
    pair_canon string_canon <| pair_canon u64_canon u32_canon

/-- **C64**, conversely: whatever data the lockup program accepts as a call is the data of that call, possibly with
bytes after it; in particular unknown or truncated data is rejected. -/
theorem C64_lockup_canonical {data : List UInt8} {c : LockupCall} (h : dispatch "global" lockupEntries data = .ok c) :
    ∃ rest, data = lockupData c ++ rest := by
  obtain ⟨e, he, l, rest, hd, hr⟩ := dispatch_ok h
  have key : ∀ {β : Type} {name : String} {cd : Codec β} {mk : β → LockupCall}, e = entry name cd mk → Canon cd →
      (∀ x, encodeLockup (mk x) = tag "global" name ++ cd.enc x) → ∃ rest, data = lockupData c ++ rest := by
    intro β name cd mk ee hc henc
    subst ee
    obtain ⟨x, rfl, rfl⟩ := entry_read hc hr
    refine ⟨rest, ?_⟩
    rw [← encodeLockup_eq, henc, hd, List.append_assoc]
    rfl
  have key0 : ∀ {name : String} {y : LockupCall}, e = entry name noArgs (fun _ => y) →
      encodeLockup y = tag "global" name → ∃ rest, data = lockupData c ++ rest := by
    intro name y ee henc
    exact key ee none_canon (fun _ => by rw [henc]; simp [noArgs])
  simp only [lockupEntries, List.mem_cons, List.not_mem_nil, or_false] at he
  rcases he with he | he | he | he | he | he | he | he | he | he | he | he | he | he | he
  · exact key0 he rfl
  · exact key0 he rfl
  · exact key he durationsArgs_canon (fun _ => rfl)
  · exact key he timestampsArgs_canon (fun _ => rfl)
  · exact key he keys_canon (fun _ => rfl)
  · exact key0 he rfl
  · exact key he u64_canon (fun _ => rfl)
  · exact key0 he rfl
  · exact key0 he rfl
  · exact key0 he rfl
  · exact key he (pair_canon key_canon u128_canon) (fun _ => rfl)
  · exact key0 he rfl
  · exact key0 he rfl
  · exact key0 he rfl
  · exact key0 he rfl

example := C64_lockup_canonical (C64_lockup (.createWithTimestamps 7 1000 10 0 20 1 2 true) [5])

/-- **C64**, conversely, for merkle_instant. -/
theorem C64_merkle_canonical {data : List UInt8} {c : MerkleCall} (h : dispatch "global" merkleEntries data = .ok c) :
    ∃ rest, data = merkleData c ++ rest := by
  obtain ⟨e, he, l, rest, hd, hr⟩ := dispatch_ok h
  have key : ∀ {β : Type} {name : String} {cd : Codec β} {mk : β → MerkleCall}, e = entry name cd mk → Canon cd →
      (∀ x, encodeMerkle (mk x) = tag "global" name ++ cd.enc x) → ∃ rest, data = merkleData c ++ rest := by
    intro β name cd mk ee hc henc
    subst ee
    obtain ⟨x, rfl, rfl⟩ := entry_read hc hr
    refine ⟨rest, ?_⟩
    rw [← encodeMerkle_eq, henc, hd, List.append_assoc]
    rfl
  have key0 : ∀ {name : String} {y : MerkleCall}, e = entry name noArgs (fun _ => y) →
      encodeMerkle y = tag "global" name → ∃ rest, data = merkleData c ++ rest := by
    intro name y ee henc
    exact key ee none_canon (fun _ => by rw [henc]; simp [noArgs])
  simp only [merkleEntries, List.mem_cons, List.not_mem_nil, or_false] at he
  rcases he with he | he | he | he | he | he | he | he | he | he | he | he
  · exact key he (pair_canon u32_canon (pair_canon u64_canon (vec_canon key_canon))) (fun _ => rfl)
  · exact key he u64_canon (fun _ => rfl)
  · exact key0 he rfl
  · exact key he campaignArgs_canon (fun _ => rfl)
  · exact key he keys_canon (fun _ => rfl)
  · exact key0 he rfl
  · exact key0 he rfl
  · exact key he u32_canon (fun _ => rfl)
  · exact key0 he rfl
  · exact key0 he rfl
  · exact key0 he rfl
  · exact key0 he rfl

example := C64_merkle_canonical (C64_merkle (.clawback 5) trivial [])

/-- **C64**: the account constraints, which read their own prefix of the argument bytes (`#[instruction(...)]`), see
the same values as the handler: the salt of a new stream, the campaign's root, times and name, the claimed index. -/
theorem C64_prefix (rest : List UInt8) :
    (∀ salt a b c d e f, ∃ r, createPrefix.dec ((lockupData (.createWithDurations salt a b c d e f) ++ rest).drop 8) =
      some (salt, r)) ∧
    (∀ salt a b c d e f g, ∃ r, createPrefix.dec ((lockupData (.createWithTimestamps salt a b c d e f g) ++ rest).drop 8) =
      some (salt, r)) ∧
    (∀ sender salt, ∃ r, streamExistsPrefix.dec ((lockupData (.streamExists sender salt) ++ rest).drop 8) =
      some ((sender, salt), r)) ∧
    (∀ root start expiration name cid agg cnt, name.length < 2 ^ 32 → ∃ r, campaignPrefix.dec
      ((merkleData (.createCampaign root start expiration name cid agg cnt) ++ rest).drop 8) =
      some ((root, start, expiration, name), r)) ∧
    (∀ index amount proof, ∃ r, claimPrefix.dec ((merkleData (.claim index amount proof) ++ rest).drop 8) =
      some (index, r)) ∧
    (∀ index, ∃ r, claimPrefix.dec ((merkleData (.hasClaimed index) ++ rest).drop 8) = some (index, r)) := by
  have e16 : ∀ x, le16 x = u128.enc x := fun x => (Merkle.leBytes_eq 16 x.val).symm
  have e8 : ∀ x, le8 x = u64.enc x := fun x => (Merkle.leBytes_eq 8 x.toNat).symm
  have e4 : ∀ x, le4 x = u32.enc x := fun x => (Merkle.leBytes_eq 4 x.toNat).symm
  have et : ∀ x, text x = string.enc x := fun x => by
    simp only [text, string, Merkle.leBytes_eq]
  refine ⟨fun salt a b c d e f => ?_, fun salt a b c d e f g => ?_, fun sender salt => ?_,
    fun root start expiration name cid agg cnt h => ?_, fun index amount proof => ?_, fun index => ?_⟩
  · simp only [lockupData, List.append_assoc, List.cons_append, List.nil_append, List.drop_succ_cons, List.drop_zero,
      e16]
    exact ⟨_, u128_reads salt _⟩
  · simp only [lockupData, List.append_assoc, List.cons_append, List.nil_append, List.drop_succ_cons, List.drop_zero,
      e16]
    exact ⟨_, u128_reads salt _⟩
  · simp only [lockupData, List.append_assoc, List.cons_append, List.nil_append, List.drop_succ_cons, List.drop_zero,
      e16]
    have e : sender.val ++ (u128.enc salt ++ rest) = streamExistsPrefix.enc (sender, salt) ++ rest := by
      simp only [streamExistsPrefix, pair, Borsh.key, List.append_assoc]
    rw [e]
    exact ⟨_, pair_reads (key_reads sender) (u128_reads salt) rest⟩
  · simp only [merkleData, List.append_assoc, List.cons_append, List.nil_append, List.drop_succ_cons, List.drop_zero,
      e8, et]
    have e : ∀ l, root.val ++ (u64.enc start ++ (u64.enc expiration ++ (string.enc name ++ l))) =
        campaignPrefix.enc (root, start, expiration, name) ++ l := fun l => by
      simp only [campaignPrefix, pair, Borsh.key, List.append_assoc]
    rw [e]
    exact ⟨_, pair_reads (key_reads root) (pair_reads (u64_reads start) (pair_reads (u64_reads expiration)
      (string_reads h))) _⟩
  · simp only [merkleData, List.append_assoc, List.cons_append, List.nil_append, List.drop_succ_cons, List.drop_zero,
      e4]
    exact ⟨_, u32_reads index _⟩
  · simp only [merkleData, List.append_assoc, List.cons_append, List.nil_append, List.drop_succ_cons, List.drop_zero,
      e4]
    exact ⟨_, u32_reads index _⟩

example := (C64_prefix [1, 2]).2.2.2.1 root 1500 800000 campaignName [81, 109] 800 2 (by decide)

/-! ## C65 -/

theorem campaignFields_reads {x : UInt64 × Bytes32 × List UInt8 × UInt64 × Bytes32 × UInt64 × List UInt8 × Bytes32 ×
      UInt32 × UInt8 × Bytes32}
    (h1 : x.2.2.1.length < 2 ^ 32) (h2 : x.2.2.2.2.2.2.1.length < 2 ^ 32) : Reads campaignFields x :=
  pair_reads (u64_reads _) <| pair_reads (key_reads _) <| pair_reads (string_reads h1) <| pair_reads (u64_reads _) <|
    pair_reads (key_reads _) <| pair_reads (u64_reads _) <| pair_reads (string_reads h2) <| pair_reads (key_reads _) <|
    pair_reads (u32_reads _) <| pair_reads (u8_reads _) (key_reads _)

/-- **C65**: every event of the lockup program is read back from the log as exactly that event. -/
theorem C65_lockup_events (e : LockupEvent) : dispatch "event" lockupEventEntries (lockupEventData e) = .ok e := by
  have hn : (lockupEventEntries.map fun e => tag "event" e.name).Nodup := by rw [lockupEvent_tags]; decide
  have go : ∀ {β : Type} {name : String} {cd : Codec β} {mk : β → LockupEvent} {x : β}
      (_ : entry name cd mk ∈ lockupEventEntries), Reads cd x →
      dispatch "event" lockupEventEntries (tag "event" name ++ cd.enc x) = .ok (mk x) := by
    intro β name cd mk x hm hr
    have := read_entry (name := name) (mk := mk) hr []
    rw [List.append_nil] at this
    exact dispatch_of_mem hn hm (len_of_map lockupEvent_len hm) this
  rw [← encodeLockupEvent_eq]
  cases e with
  | cancelLockupStream a b c d e =>
    exact go (List.mem_of_getElem? (i := 0) rfl) (x := (a, b, c, d, e)) (pair_reads (key_reads _) <|
      pair_reads (u64_reads _) <| pair_reads (u64_reads _) <| pair_reads (key_reads _) (key_reads _))
  | createLockupLinearStream a b c d e f =>
    exact go (List.mem_of_getElem? (i := 1) rfl) (x := (a, b, c, d, e, f)) (pair_reads (u8_reads _) <|
      pair_reads (key_reads _) <| pair_reads (key_reads _) <| pair_reads (u128_reads _) <|
      pair_reads (key_reads _) (key_reads _))
  | feesCollected a b c =>
    exact go (List.mem_of_getElem? (i := 2) rfl) (x := (a, b, c)) (pair_reads (u64_reads _) <|
      pair_reads (key_reads _) (key_reads _))
  | renounceLockupStream a b c => exact go (List.mem_of_getElem? (i := 3) rfl) (keys_reads (a, b, c))
  | withdrawFromLockupStream a b c d e =>
    exact go (List.mem_of_getElem? (i := 4) rfl) (x := (a, b, c, d, e)) (pair_reads (key_reads _) <|
      pair_reads (u64_reads _) <| pair_reads (key_reads _) <| pair_reads (key_reads _) (u64_reads _))

example := C65_lockup_events (.feesCollected 5 (rt.keyBytes alice) (rt.keyBytes bob))

/-- **C65**: every event of the merkle_instant program is read back from the log as exactly that event. -/
theorem C65_merkle_events (e : MerkleEvent) (hs : MerkleEvent.Sized e) :
    dispatch "event" merkleEventEntries (merkleEventData e) = .ok e := by
  have hn : (merkleEventEntries.map fun e => tag "event" e.name).Nodup := by rw [merkleEvent_tags]; decide
  have go : ∀ {β : Type} {name : String} {cd : Codec β} {mk : β → MerkleEvent} {x : β}
      (_ : entry name cd mk ∈ merkleEventEntries), Reads cd x →
      dispatch "event" merkleEventEntries (tag "event" name ++ cd.enc x) = .ok (mk x) := by
    intro β name cd mk x hm hr
    have := read_entry (name := name) (mk := mk) hr []
    rw [List.append_nil] at this
    exact dispatch_of_mem hn hm (len_of_map merkleEvent_len hm) this
  rw [← encodeMerkleEvent_eq]
  cases e with
  | claim a b c d e f g =>
    exact go (List.mem_of_getElem? (i := 0) rfl) (x := (a, b, c, d, e, f, g)) (pair_reads (u64_reads _) <|
      pair_reads (key_reads _) <| pair_reads (key_reads _) <| pair_reads (key_reads _) <| pair_reads (u64_reads _) <|
      pair_reads (u32_reads _) (key_reads _))
  | clawback a b c d =>
    exact go (List.mem_of_getElem? (i := 1) rfl) (x := (a, b, c, d)) (pair_reads (u64_reads _) <|
      pair_reads (key_reads _) <| pair_reads (key_reads _) (key_reads _))
  | createCampaign a b c d e f g h i j k =>
    exact go (List.mem_of_getElem? (i := 2) rfl)
      (campaignFields_reads (x := (a, b, c, d, e, f, g, h, i, j, k)) hs.1 hs.2)
  | feesCollected a b c =>
    exact go (List.mem_of_getElem? (i := 3) rfl) (x := (a, b, c)) (pair_reads (u64_reads _) <|
      pair_reads (key_reads _) (key_reads _))

example := C65_merkle_events (.clawback 5 (rt.keyBytes camp) (rt.keyBytes alice) (rt.keyBytes bob)) trivial

end Solsab.Props
