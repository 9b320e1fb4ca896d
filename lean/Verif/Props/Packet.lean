import Verif.Spec.Packet
import Verif.Proofs.Packet
import Verif.Props.Transactions
import Verif.Props.Campaign
import Mathlib.Data.Nat.Log
/-!
# C93: transactions as bytes
-/

namespace Solsab.Props

open Spec Wire Abi Packet

/-- **C93**: a transaction that fits into a packet and is signed by those it asks to sign is received, and is
understood exactly as it was meant: the privileges asked for and no others, the same calls in the same order. -/
theorem C93_faithful {verify : Verify} {sign : Bytes32 → List UInt8 → Sig} {payer blockhash : Bytes32}
    {ixs : List Instruction} (hsize : (transaction sign payer ixs blockhash).length ≤ 1232)
    (hp : ∀ i ∈ ixs, i.program ≠ payer)
    (hv : ∀ k, AsksSignature payer ixs k →
      verify k (messageBytes payer ixs blockhash) (sign k (messageBytes payer ixs blockhash)) = true) :
    ∃ r, receive verify (transaction sign payer ixs blockhash) = some r ∧ Says payer blockhash ixs r :=
  ⟨_, receive_transaction hsize hp fun k hk => hv k (mem_signerKeys.1 hk),
    { feePayer := rfl
      blockhash := rfl
      signers := fun _ => mem_signerKeys
      writable := fun _ => mem_writableKeys
      calls := rfl }⟩

theorem mem_of_mapM {α β : Type} {f : α → Option β} : ∀ {l : List α} {l' : List β}, l.mapM f = some l' →
    ∀ b ∈ l', ∃ a ∈ l, f a = some b
  | [], l', h, b, hb => by cases h; cases hb
  | a :: l, l', h, b, hb => by
    simp only [List.mapM_cons, Option.bind_eq_bind, Option.bind_eq_some_iff] at h
    obtain ⟨b', h1, bs, h2, h3⟩ := h
    cases h3
    rcases List.mem_cons.1 hb with rfl | hb
    · exact ⟨a, List.mem_cons_self, h1⟩
    · obtain ⟨x, hx, e⟩ := mem_of_mapM h2 b hb
      exact ⟨x, List.mem_cons_of_mem _ hx, e⟩

/-- What a validator understands is sane: the fee payer signs, may be written and is never called as a program, and no
address signs twice. -/
theorem understand_sane {msg : List UInt8} {r : Received} (h : understand msg = some r) :
    r.feePayer ∈ r.signers ∧ r.feePayer ∈ r.writable ∧ r.signers.Nodup ∧ ∀ c ∈ r.calls, c.program ≠ r.feePayer := by
  unfold understand at h
  simp only [Option.bind_eq_bind, Option.bind_eq_some_iff, guard] at h
  obtain ⟨⟨m, rest⟩, _, _, _, _, a3, _, _, _, a5, payer, a6, calls, a7, a8⟩ := h
  cases a8
  have hlt : m.readonlySigners.toNat < m.signers.toNat := by
    split at a3
    · assumption
    · cases a3
  have hnd : m.keys.Nodup := by
    split at a5
    · assumption
    · cases a5
  cases hk : m.keys with
  | nil => rw [hk] at a6; cases a6
  | cons k ks =>
    rw [hk] at a6 a7 hnd
    have e : k = payer := Option.some.inj a6
    subst e
    have hlt' : 0 < (m, rest).1.signers.toNat := by show 0 < m.signers.toNat; omega
    have hlt'' : 0 < (m, rest).1.signers.toNat - (m, rest).1.readonlySigners.toNat := by
      show 0 < m.signers.toNat - m.readonlySigners.toNat; omega
    have hmem : ∀ n, 0 < n → k ∈ (k :: ks).take n := by
      intro n hn
      obtain ⟨n', rfl⟩ : ∃ n', n = n' + 1 := ⟨n - 1, by omega⟩
      rw [List.take_succ_cons]
      exact List.mem_cons_self
    refine ⟨hmem _ hlt', List.mem_append_left _ (hmem _ hlt''), hnd.sublist (List.take_sublist _ _), ?_⟩
    intro c hc
    obtain ⟨i, _, hi⟩ := mem_of_mapM a7 c hc
    unfold resolve at hi
    simp only [Option.bind_eq_bind, Option.bind_eq_some_iff, guard] at hi
    obtain ⟨_, b1, p, b2, as, _, b4⟩ := hi
    cases b4
    have hne : i.program ≠ 0 := by
      split at b1
      · assumption
      · cases b1
    have hpos : 0 < i.program.toNat := by
      rcases Nat.eq_zero_or_pos i.program.toNat with h0 | h0
      · exact absurd (UInt8.toNat_inj.1 h0) hne
      · exact h0
    unfold lookup at b2
    obtain ⟨n, hn⟩ : ∃ n, i.program.toNat = n + 1 := ⟨i.program.toNat - 1, by omega⟩
    rw [hn, List.getElem?_cons_succ] at b2
    rintro rfl
    exact (List.nodup_cons.1 hnd).1 (List.mem_of_getElem? b2)

/-- **C93**: whatever bytes a validator accepts, every signer has signed a message that has this one meaning; the fee
payer is one of them, may be written, and is never the program called. -/
theorem C93_signed {verify : Verify} {bytes : List UInt8} {r : Received} (h : receive verify bytes = some r) :
    bytes.length ≤ 1232 ∧ r.feePayer ∈ r.signers ∧ r.feePayer ∈ r.writable ∧ r.signers.Nodup ∧
    (∀ c ∈ r.calls, c.program ≠ r.feePayer) ∧
    ∃ msg, understand msg = some r ∧ (∃ front, bytes = front ++ msg) ∧
      ∀ k ∈ r.signers, ∃ s, verify k msg s = true := by
  unfold receive at h
  simp only [Option.bind_eq_bind, Option.bind_eq_some_iff, guard] at h
  obtain ⟨_, h1, ⟨sigs, msg⟩, h2, r', h3, _, h4, _, h5, h6⟩ := h
  cases h6
  have g1 : bytes.length ≤ maxSize := by
    split at h1
    · assumption
    · cases h1
  have g4 : sigs.length = r.signers.length := by
    split at h4
    · assumption
    · cases h4
  have g5 : ((r.signers.zip sigs).all fun (k, s) => verify k msg s) = true := by
    split at h5
    · assumption
    · cases h5
  obtain ⟨s1, s2, s3, s4⟩ := understand_sane h3
  refine ⟨g1, s1, s2, s3, s4, msg, h3, ?_, ?_⟩
  · exact shortVec_suffix h2
  · intro k hk
    obtain ⟨i, hi, e⟩ := List.getElem_of_mem hk
    refine ⟨sigs[i]'(by omega), ?_⟩
    rw [List.all_eq_true] at g5
    have := g5 (k, sigs[i]'(by omega)) (by
      rw [← e]
      exact List.mem_iff_getElem.2 ⟨i, by rw [List.length_zip]; omega, by rw [List.getElem_zip]⟩)
    exact this

theorem count_eq {l : List Bytes32} {l' : List Bytes32} (h : l.Nodup) (h' : ∀ k, k ∈ l ↔ k ∈ l') :
    l.length = l'.dedup.length :=
  ((List.perm_ext_iff_of_nodup h (List.nodup_dedup _)).2 fun k => by rw [List.mem_dedup]; exact h' k).length_eq

theorem allKeys_length (payer : Bytes32) (ixs : List Instruction) :
    (allKeys payer ixs).length = addressCount payer ixs := by
  refine count_eq (allKeys_nodup payer ixs) fun k => ?_
  rw [mem_allKeys]
  simp only [List.mem_cons, List.mem_flatMap, List.mem_map]
  constructor
  · rintro ⟨m, hm, rfl⟩
    rcases mem_asked.1 hm with rfl | ⟨i, hi, h⟩ | ⟨i, hi, rfl⟩
    · exact .inl rfl
    · exact .inr ⟨i, hi, .inr ⟨m, h, rfl⟩⟩
    · exact .inr ⟨i, hi, .inl rfl⟩
  · rintro (rfl | ⟨i, hi, rfl | ⟨m, hm, rfl⟩⟩)
    · exact ⟨_, mem_asked.2 (.inl rfl), rfl⟩
    · exact ⟨_, mem_asked.2 (.inr (.inr ⟨i, hi, rfl⟩)), rfl⟩
    · exact ⟨_, mem_asked.2 (.inr (.inl ⟨i, hi, hm⟩)), rfl⟩

theorem signerKeys_length (payer : Bytes32) (ixs : List Instruction) :
    (signerKeys payer ixs).length = signatureCount payer ixs := by
  have hn : (signerKeys payer ixs).Nodup := (allKeys_nodup payer ixs).sublist (List.sublist_append_left _ _)
  refine count_eq hn fun k => ?_
  rw [mem_signerKeys]
  simp only [List.mem_cons, List.mem_flatMap, List.mem_map, List.mem_filter]
  refine or_congr Iff.rfl ⟨?_, ?_⟩
  · rintro ⟨i, hi, m, hm, h1, h2⟩; exact ⟨i, hi, m, ⟨hm, h2⟩, h1⟩
  · rintro ⟨i, hi, m, ⟨hm, h2⟩, h1⟩; exact ⟨i, hi, m, hm, h1, h2⟩

theorem shortSize_eq (n : Nat) : shortSize n = lengthBytes n := by
  unfold shortSize lengthBytes
  simp only [show n < 128 ↔ n ≤ 127 by omega, show n < 16384 ↔ n ≤ 16383 by omega]

/-- **C93**: the exact size of a transaction. -/
theorem C93_size (sign : Bytes32 → List UInt8 → Sig) (payer : Bytes32) (ixs : List Instruction) (blockhash : Bytes32) :
    (transaction sign payer ixs blockhash).length =
      lengthBytes (signatureCount payer ixs) + 64 * signatureCount payer ixs + 3 +
      lengthBytes (addressCount payer ixs) + 32 * addressCount payer ixs + 32 +
      lengthBytes ixs.length + (ixs.map instructionSize).sum := by
  unfold transaction messageBytes
  rw [List.length_append, shortVec_length sig_length, compiled_length, List.length_map,
    show (compile payer ixs blockhash).keys = allKeys payer ixs from rfl, allKeys_length, signerKeys_length,
    show (compile payer ixs blockhash).instructions.length = ixs.length from List.length_map _]
  have e : ((compile payer ixs blockhash).instructions.map fun i => (compiledIx.enc i).length) =
      ixs.map instructionSize := by
    show (ixs.map _).map _ = _
    rw [List.map_map]
    refine List.map_congr_left fun i _ => ?_
    simp only [Function.comp, compiledIx_length, List.length_map, instructionSize, shortSize_eq]
    omega
  rw [e]
  simp only [shortSize_eq]
  omega

theorem dedup_length_le (l : List Bytes32) : l.dedup.length ≤ l.length := (List.dedup_sublist l).length_le

/-- The size of one instruction of the two programs, alone or after a compute budget instruction. -/
theorem size_with_budget (sign : Bytes32 → List UInt8 → Sig) (payer blockhash : Bytes32) (units : Nat)
    (i : Instruction) (ha : i.accounts.length ≤ 21) (hs : (i.accounts.filter Meta.isSigner).length ≤ 1)
    (hd : i.data.length ≤ 16383) :
    (transaction sign payer [setComputeUnitLimit units, i] blockhash).length ≤
      129 + 3 + 1 + 32 * (i.accounts.length + 3) + 32 + 1 + 8 + (4 + i.accounts.length + i.data.length) := by
  rw [C93_size]
  have h1 : signatureCount payer [setComputeUnitLimit units, i] ≤ 2 := by
    refine Nat.le_trans (dedup_length_le _) ?_
    simp only [List.flatMap_cons, List.flatMap_nil, List.append_nil, List.length_cons, List.length_append, List.length_map,
      setComputeUnitLimit, List.filter_nil, List.map_nil, List.length_nil]
    omega
  have h2 : addressCount payer [setComputeUnitLimit units, i] ≤ i.accounts.length + 3 := by
    refine Nat.le_trans (dedup_length_le _) ?_
    simp only [List.flatMap_cons, List.flatMap_nil, List.append_nil, List.length_cons, List.length_append, List.length_map,
      setComputeUnitLimit, List.map_nil, List.length_nil]
    omega
  have e1 : lengthBytes (signatureCount payer [setComputeUnitLimit units, i]) = 1 := by
    unfold lengthBytes; rw [if_pos (by omega)]
  have e2 : lengthBytes (addressCount payer [setComputeUnitLimit units, i]) = 1 := by
    unfold lengthBytes; rw [if_pos (by omega)]
  have e3 : instructionSize (setComputeUnitLimit units) = 8 := by
    have : (setComputeUnitLimit units).data.length = 5 := by
      show (2 :: Merkle.leBytes 4 units).length = 5
      rw [List.length_cons, Borsh.leBytes_length]
    unfold instructionSize
    simp only [this]
    rfl
  have e4 : instructionSize i ≤ 4 + i.accounts.length + i.data.length := by
    unfold instructionSize lengthBytes
    rw [if_pos (by omega)]
    split
    · omega
    · omega
  rw [e1, e2]
  simp only [List.map_cons, List.map_nil, List.sum_cons, List.sum_nil, e3, List.length_cons, List.length_nil]
  have : lengthBytes (0 + 1 + 1) = 1 := rfl
  rw [this]
  omega

theorem key32 (x : Bytes32) : x.val.length = 32 := x.2

theorem lockupData_length (call : LockupCall) : (lockupData call).length ≤ 104 := by
  cases call <;> simp [lockupData, le8, le16, flag, Merkle.littleEndian_length, key32]

theorem metas_signers (ids : Ids) (rt : Runtime) (p : Planned) :
    ((p.toInstruction ids rt).accounts.filter Meta.isSigner).length = 1 := by
  show (((metasOf ids p.ix).map _).filter Meta.isSigner).length = 1
  rcases p with ⟨i, _⟩ | ⟨i, _⟩ <;> cases i <;> rfl

theorem metas_length (ids : Ids) (rt : Runtime) (p : Planned) : (p.toInstruction ids rt).accounts.length ≤ 21 := by
  show ((metasOf ids p.ix).map _).length ≤ 21
  rcases p with ⟨i, _⟩ | ⟨i, _⟩ <;> cases i <;> exact Nat.le_of_ble_eq_true rfl

/-- **C93**: every instruction of the two programs that can succeed, other than a claim, fits into one packet, together
with a compute budget instruction and paid for by somebody else. -/
theorem C93_fits {ids : Ids} {rt : Runtime} {w w' : World} {p : Planned} (hs : Planned.Sound ids p)
    (h : step rt w p.ix = .ok w') (hc : ∀ c index amount proof, p.ix ≠ .merkle (.claim c index amount proof))
    (sign : Bytes32 → List UInt8 → Sig) (payer blockhash : Bytes32) (units : Nat) :
    (transaction sign payer [setComputeUnitLimit units, p.toInstruction ids rt] blockhash).length ≤ 1232 := by
  have ha := metas_length ids rt p
  have hb := metas_signers ids rt p
  cases p with
  | lockup i call =>
    have hl := lockupData_length call
    have hd : ((Planned.lockup i call).toInstruction ids rt).data.length ≤ 104 := hl
    have := size_with_budget sign payer blockhash units ((Planned.lockup i call).toInstruction ids rt) ha (by omega)
      (by omega)
    omega
  | merkle i call =>
    have hd : ((Planned.merkle i call).toInstruction ids rt).data.length ≤ 167 := by
      show (merkleData call).length ≤ 167
      obtain ⟨h1, h2, h3⟩ := hs
      cases i with
      | createCampaign c root st ex name cid agg cnt =>
        cases h1
        obtain ⟨md, _, h4, h5⟩ := C58_create_effect h
        simp [merkleData, le8, le4, text, Merkle.littleEndian_length, key32]
        omega
      | claim c index amount proof => exact absurd rfl (hc c index amount proof)
      | «initialize» c f q s =>
        cases call <;> first | exact h1.elim | simp [merkleData, key32]
      | clawback c amount => cases h1; simp [merkleData, le8, Merkle.littleEndian_length]
      | collectFees c => cases h1; simp [merkleData]
    have := size_with_budget sign payer blockhash units ((Planned.merkle i call).toInstruction ids rt) ha (by omega)
      (by omega)
    omega

theorem claimData_length (index : UInt32) (amount : UInt64) (proof : List Bytes32) :
    (merkleData (.claim index amount proof)).length = 24 + 32 * proof.length := by
  have : (proof.flatMap fun h : Bytes32 => h.val).length = 32 * proof.length := flatMap_length_const (c := Borsh.key) key32 proof
  simp only [merkleData, le8, le4, List.length_append, Merkle.littleEndian_length, this, List.length_cons, List.length_nil]

/-- **C93**: a claim paid for by the claimer fits with a proof of up to twenty hashes; when its fourteen addresses are
different, with no longer one.  After a compute budget instruction and with a separate fee payer, fifteen hashes
always fit. -/
theorem C93_claim (ids : Ids) (rt : Runtime) (c : Merkle.ClaimAccts) (index : UInt32) (amount : UInt64)
    (proof : List Bytes32) (sign : Bytes32 → List UInt8 → Sig) (blockhash : Bytes32) :
    (proof.length ≤ 20 → (transaction sign (rt.keyBytes c.claimer) [claimInstruction ids rt c index amount proof]
      blockhash).length ≤ 1232) ∧
    ((claimAddresses ids rt c).Nodup →
      (transaction sign (rt.keyBytes c.claimer) [claimInstruction ids rt c index amount proof]
        blockhash).length ≤ 1232 → proof.length ≤ 20) ∧
    ∀ payer units, proof.length ≤ 15 → (transaction sign payer
      [setComputeUnitLimit units, claimInstruction ids rt c index amount proof] blockhash).length ≤ 1232 := by
  have hd : (claimInstruction ids rt c index amount proof).data.length = 24 + 32 * proof.length :=
    claimData_length index amount proof
  have ha : (claimInstruction ids rt c index amount proof).accounts.length = 13 := rfl
  have hsig : signatureCount (rt.keyBytes c.claimer) [claimInstruction ids rt c index amount proof] = 1 := by
    show ([rt.keyBytes c.claimer, rt.keyBytes c.claimer] : List Bytes32).dedup.length = 1
    rw [List.dedup_cons_of_mem List.mem_cons_self]
    rfl
  have hkeys : addressCount (rt.keyBytes c.claimer) [claimInstruction ids rt c index amount proof] =
      (claimAddresses ids rt c).dedup.length := by
    have e : ([claimInstruction ids rt c index amount proof].flatMap fun i => i.program :: i.accounts.map Meta.key) =
        claimAddresses ids rt c := rfl
    unfold addressCount
    rw [e, List.dedup_cons_of_mem (show rt.keyBytes c.claimer ∈ claimAddresses ids rt c from
      List.mem_cons_of_mem _ List.mem_cons_self)]
  have hlen : (claimAddresses ids rt c).length = 14 := rfl
  have hsize := C93_size sign (rt.keyBytes c.claimer) [claimInstruction ids rt c index amount proof] blockhash
  rw [hsig, hkeys] at hsize
  simp only [List.map_cons, List.map_nil, List.sum_cons, List.sum_nil, List.length_cons, List.length_nil, instructionSize,
    hd, ha, show lengthBytes 1 = 1 from rfl, show lengthBytes 13 = 1 from rfl] at hsize
  refine ⟨fun hp => ?_, fun hn hle => ?_, fun payer units hp => ?_⟩
  · have h1 := dedup_length_le (claimAddresses ids rt c)
    rw [hlen] at h1
    have h2 : lengthBytes (24 + 32 * proof.length) ≤ 2 := by
      unfold lengthBytes; split
      · omega
      · rw [if_pos (by omega)]
    have h3 : lengthBytes (claimAddresses ids rt c).dedup.length = 1 := by
      unfold lengthBytes; rw [if_pos (by omega)]
    omega
  · rw [hn.dedup, hlen] at hsize
    have h2 : 1 ≤ lengthBytes (24 + 32 * proof.length) := by
      unfold lengthBytes; split
      · omega
      · split <;> omega
    have h3 : lengthBytes 14 = 1 := rfl
    omega
  · have := size_with_budget sign payer blockhash units (claimInstruction ids rt c index amount proof) (by omega)
      (by rw [show (claimInstruction ids rt c index amount proof).accounts.filter Meta.isSigner =
          [⟨rt.keyBytes c.claimer, true, true⟩] from rfl]; exact Nat.le_refl _) (by omega)
    omega

theorem jsProof_length (rt : Runtime) : ∀ (n : Nat) (l : List Bytes32), l.length = n → ∀ k,
    (Merkle.jsProof rt l k).length ≤ Nat.clog 2 n := by
  intro n
  induction n using Nat.strongRecOn with
  | _ n ih =>
    intro l hl k
    match l, hl with
    | [], _ => unfold Merkle.jsProof; exact Nat.zero_le _
    | [_], _ => unfold Merkle.jsProof; exact Nat.zero_le _
    | x :: y :: rest, hl =>
      unfold Merkle.jsProof
      have hn : 2 ≤ n := by simp only [List.length_cons] at hl; omega
      have hlayer := Merkle.jsLayer_length rt (x :: y :: rest)
      rw [hl] at hlayer
      have h := ih ((n + 1) / 2) (by omega) _ hlayer (k / 2)
      have hc : Nat.clog 2 n = Nat.clog 2 ((n + 1) / 2) + 1 := Nat.clog_of_two_le (by omega) hn
      rw [List.length_append, hc]
      split <;> simp only [List.length_cons, List.length_nil] <;> omega

/-- **C93**: the proofs of the project's tree builder have at most logarithmic length. -/
theorem C93_proofs (rt : Runtime) (l : List Allocation) (a : Allocation) (d : Nat) (h : l.length ≤ 2 ^ d) :
    (Merkle.getProof rt l a).length ≤ d := by
  have hc : Nat.clog 2 l.length ≤ d := Nat.clog_le_of_le_pow h
  unfold Merkle.getProof
  split
  · exact Nat.le_trans (jsProof_length rt _ _ (List.length_map _) _) hc
  · exact Nat.zero_le _

/-- **C93**: in an airdrop of up to a million recipients everybody's claim fits into one packet, and of up to 32768 even
with a compute budget instruction and somebody else paying the fee. -/
theorem C93_airdrop (ids : Ids) (rt : Runtime) (c : Merkle.ClaimAccts) (l : List Allocation) (a : Allocation)
    (sign : Bytes32 → List UInt8 → Sig) (blockhash : Bytes32) :
    (l.length ≤ 1048576 → (transaction sign (rt.keyBytes c.claimer)
      [claimInstruction ids rt c a.index a.amount (Merkle.getProof rt l a)] blockhash).length ≤ 1232) ∧
    (l.length ≤ 32768 → ∀ payer units, (transaction sign payer
      [setComputeUnitLimit units, claimInstruction ids rt c a.index a.amount (Merkle.getProof rt l a)]
      blockhash).length ≤ 1232) :=
  ⟨fun h => (C93_claim ids rt c a.index a.amount _ sign blockhash).1 (C93_proofs rt l a 20 h),
    fun h payer units => (C93_claim ids rt c a.index a.amount _ sign blockhash).2.2 payer units (C93_proofs rt l a 15 h)⟩

theorem receivedItems_budget (ids : Ids) (units : List Nat) (cs : List Call) :
    receivedItems ids ((units.map setComputeUnitLimit).map Instruction.call ++ cs) = receivedItems ids cs := by
  induction units with
  | nil => rfl
  | cons u us ih =>
    have e : callItems ids (setComputeUnitLimit u).call = some [] := by
      exact (if_neg (show computeBudgetId ≠ Pda.lockupId by decide)).trans
        ((if_neg (show computeBudgetId ≠ Pda.merkleId by decide)).trans (if_pos rfl))
    simp only [List.map_cons, List.cons_append, receivedItems, e, ih, Option.bind_eq_bind, Option.bind_some, List.nil_append]
    cases receivedItems ids cs <;> rfl

theorem callItems_planned {ids : Ids} {rt : Runtime} {p : Planned}
    (hk : ∀ m ∈ metasOf ids p.ix, ids.addrOf (rt.keyBytes m.addr) = m.addr) :
    callItems ids (p.toInstruction ids rt).call = some [.message (p.toMessage ids)] := by
  have e : ((p.toInstruction ids rt).accounts.map Meta.key).map ids.addrOf = (metasOf ids p.ix).map AccountMeta.addr := by
    show (((metasOf ids p.ix).map _).map Meta.key).map ids.addrOf = _
    rw [List.map_map, List.map_map]
    exact List.map_congr_left hk
  unfold callItems Instruction.call
  simp only [e]
  cases p with
  | lockup i call => exact if_pos rfl
  | merkle i call => exact (if_neg (show Pda.merkleId ≠ Pda.lockupId by decide)).trans (if_pos rfl)

theorem receivedItems_planned {ids : Ids} {rt : Runtime} {ps : List Planned}
    (hk : ∀ p ∈ ps, ∀ m ∈ metasOf ids p.ix, ids.addrOf (rt.keyBytes m.addr) = m.addr) :
    receivedItems ids ((ps.map fun p => p.toInstruction ids rt).map Instruction.call) =
      some (ps.map fun p => .message (p.toMessage ids)) := by
  induction ps with
  | nil => rfl
  | cons p ps ih =>
    simp only [List.map_cons, receivedItems, callItems_planned (hk p List.mem_cons_self),
      ih fun q hq => hk q (List.mem_cons_of_mem _ hq), Option.bind_eq_bind, Option.bind_some]
    rfl

/-- **C93**: from the client's plan to its effect: any bundle of instructions of the two programs, after any compute
budget instructions, sent as bytes that fit and are signed by those whom the instructions want, does exactly what the
instructions do one after the other, or nothing. -/
theorem C93_runs {ids : Ids} (hd : ids.token ≠ ids.token2022) {rt : Runtime} {verify : Verify}
    {sign : Bytes32 → List UInt8 → Sig} {payer blockhash : Bytes32} (w : World) {units : List Nat} {ps : List Planned}
    {ixs : List Instruction} (hx : ixs = units.map setComputeUnitLimit ++ ps.map fun p => p.toInstruction ids rt)
    (hs : ∀ p ∈ ps, Planned.Sound ids p)
    (hk : ∀ p ∈ ps, ∀ m ∈ metasOf ids p.ix, ids.addrOf (rt.keyBytes m.addr) = m.addr)
    (hsize : (transaction sign payer ixs blockhash).length ≤ 1232)
    (hp : payer ∉ [Pda.lockupId, Pda.merkleId, computeBudgetId])
    (hv : ∀ k, AsksSignature payer ixs k →
      verify k (messageBytes payer ixs blockhash) (sign k (messageBytes payer ixs blockhash)) = true) :
    ∃ r items, receive verify (transaction sign payer ixs blockhash) = some r ∧
      receivedItems ids r.calls = some items ∧
      transact ids rt (receivedHeader ids r) w items = execTx rt w (ps.map Planned.ix) := by
  simp only [List.mem_cons, List.not_mem_nil, or_false, not_or] at hp
  obtain ⟨r, h1, h2⟩ := C93_faithful hsize (fun i hi => by
    rw [hx] at hi
    rcases List.mem_append.1 hi with hi | hi
    · obtain ⟨u, _, rfl⟩ := List.mem_map.1 hi
      exact fun e => hp.2.2 e.symm
    · obtain ⟨p, _, rfl⟩ := List.mem_map.1 hi
      cases p with
      | lockup i call => exact fun e => hp.1 e.symm
      | merkle i call => exact fun e => hp.2.1 e.symm) hv
  refine ⟨r, ps.map fun p => .message (p.toMessage ids), h1, ?_, ?_⟩
  · rw [h2.calls, hx, List.map_append]
    show receivedItems ids ((units.map setComputeUnitLimit).map Instruction.call ++
      (ps.map fun p => p.toInstruction ids rt).map Instruction.call) = _
    rw [receivedItems_budget, receivedItems_planned hk]
  · refine transact_planned hd rt w ps hs fun p hq m hm => ?_
    have hi : p.toInstruction ids rt ∈ ixs := by
      rw [hx]; exact List.mem_append_right _ (List.mem_map.2 ⟨p, hq, rfl⟩)
    have hmeta : (⟨rt.keyBytes m.addr, m.isSigner, m.isWritable⟩ : Meta) ∈ (p.toInstruction ids rt).accounts :=
      List.mem_map.2 ⟨m, hm, rfl⟩
    refine ⟨fun e => ?_, fun e => ?_⟩
    · exact List.mem_map.2 ⟨rt.keyBytes m.addr, (h2.signers _).2 (.inr ⟨_, hi, _, hmeta, rfl, e⟩), hk p hq m hm⟩
    · exact List.mem_map.2 ⟨rt.keyBytes m.addr, (h2.writable _).2 (.inr ⟨_, hi, _, hmeta, rfl, e⟩), hk p hq m hm⟩

/-! ## Example: bob's withdrawal as bytes -/

/-- The accounts of bob's withdrawal that are not plain keys. -/
def demoDerived : List Addr :=
  [Demo.ataOf Demo.bob, .treasury .lockup, .ata Demo.bob .token (Demo.nft 1), Demo.str 1, Demo.vault 1, Demo.nft 1]

/-- A runtime in which the addresses of the example have different bytes, and the way back. -/
def packetRt : Runtime where
  rent := Demo.rt.rent
  bump := Demo.rt.bump
  keyBytes a := if a ∈ demoDerived then Demo.bytes32 (1000 + demoDerived.idxOf a) else Demo.rt.keyBytes a
  keccak := Demo.rt.keccak
  extensionSpace := Demo.rt.extensionSpace
  metadataSpace := Demo.rt.metadataSpace
  editionSpace := Demo.rt.editionSpace
  metaplexFee := Demo.rt.metaplexFee

def packetIds : Ids := { demoIds with
  addrOf := fun b => if 1000 ≤ Borsh.fromLE b.val then demoDerived.getD (Borsh.fromLE b.val - 1000) Demo.bob
    else .key (Borsh.fromLE b.val - 1) }

def demoWithdrawal : Planned := .lockup (.withdraw (Demo.withdrawAccts Demo.bob 1) 200) (.withdraw 200)

/-- A toy signature scheme. -/
def demoSign (k : Bytes32) (_ : List UInt8) : Sig := ⟨k.val ++ k.val, by rw [List.length_append, key32]⟩
def demoVerify : Verify := fun k _ s => s.val = k.val ++ k.val

def demoBlockhash : Bytes32 := Demo.bytes32 77

theorem demo_step : ∃ w', step packetRt Demo.world2 demoWithdrawal.ix = .ok w' := by
  have h : (step packetRt Demo.world2 demoWithdrawal.ix).isOk = true := by decide +kernel
  cases hs : step packetRt Demo.world2 demoWithdrawal.ix with
  | ok w' => exact ⟨w', rfl⟩
  | error e => rw [hs] at h; cases h

/-- What is sent. -/
def demoIxs : List Instruction := [setComputeUnitLimit 200000, demoWithdrawal.toInstruction packetIds packetRt]

/-- Bob's withdrawal, with a compute budget instruction, fits; carol pays. -/
theorem demo_fits : (transaction demoSign (packetRt.keyBytes Demo.carol) demoIxs demoBlockhash).length ≤ 1232 := by
  obtain ⟨w', h⟩ := demo_step
  exact C93_fits (ids := packetIds) (p := demoWithdrawal) rfl h (by intro _ _ _ _ h; cases h) demoSign _ _ 200000

theorem demo_back : ∀ p ∈ [demoWithdrawal], ∀ m ∈ metasOf packetIds p.ix,
    packetIds.addrOf (packetRt.keyBytes m.addr) = m.addr := by
  decide +kernel

theorem demo_verifies : ∀ k, AsksSignature (packetRt.keyBytes Demo.carol) demoIxs k →
    demoVerify k (messageBytes (packetRt.keyBytes Demo.carol) demoIxs demoBlockhash)
      (demoSign k (messageBytes (packetRt.keyBytes Demo.carol) demoIxs demoBlockhash)) = true :=
  fun _ _ => decide_eq_true rfl

example := C93_runs (ids := packetIds) demo_ids (rt := packetRt) (verify := demoVerify) Demo.world2
  (units := [200000]) (ps := [demoWithdrawal]) (ixs := demoIxs) rfl
  (by intro p hp; rw [List.mem_singleton.1 hp]; rfl) demo_back demo_fits (by decide +kernel) demo_verifies

theorem demo_programs : ∀ i ∈ demoIxs, i.program ≠ packetRt.keyBytes Demo.carol := by decide +kernel

example := C93_signed (C93_faithful demo_fits demo_programs demo_verifies).choose_spec.1

/-- The claim of the demo airdrop fits: its proof has one hash. -/
example := (C93_claim demoIds Demo.rt (Demo.claimAccts Demo.bob 0) 0 500 [Demo.leaf1] demoSign demoBlockhash).1 (by decide)

/-- Two recipients: one hash. -/
example := C93_proofs Demo.rt [⟨0, Demo.rt.keyBytes Demo.bob, 500⟩, ⟨1, Demo.rt.keyBytes Demo.carol, 300⟩]
  ⟨0, Demo.rt.keyBytes Demo.bob, 500⟩ 1 (by decide)

/-- Different addresses are possible: with twenty-one hashes the claim does not fit. -/
def wideRt : Runtime := { packetRt with keyBytes := fun a => Demo.bytes32 (match a with
  | .key n => n + 1
  | .treasury _ => 1001
  | .campaign .. => 1002
  | .claimReceipt .. => 1003
  | .ata o .. => if o = Demo.bob then 1004 else 1005
  | _ => 1006) }

def wideAccts : Merkle.ClaimAccts := { Demo.claimAccts Demo.bob 0 with claimer := Demo.carol }

example (sign : Bytes32 → List UInt8 → Sig) (blockhash : Bytes32) (proof : List Bytes32) (h : proof.length = 21) :
    ¬ (transaction sign (wideRt.keyBytes Demo.carol) [claimInstruction demoIds wideRt wideAccts 0 500 proof]
      blockhash).length ≤ 1232 := fun hle => by
  have := (C93_claim demoIds wideRt wideAccts 0 500 proof sign blockhash).2.1 (by decide +kernel) hle
  omega

end Solsab.Props
