import Verif.Proofs.Wire
import Verif.Props.Abi
import Verif.Props.Locality
import Verif.Props.Custody
import Verif.Props.Flows
/-!
# C88: messages
-/

namespace Solsab.Props

open Abi Borsh Spec Wire

theorem ebind {ε α β : Type} {x : Except ε α} {f : α → Except ε β} {b : β} (h : (x >>= f) = .ok b) :
    ∃ a, x = .ok a ∧ f a = .ok b := by
  cases x with
  | error e => cases h
  | ok a => exact ⟨a, rfl, h⟩

theorem liftAbi_ok {α : Type} {x : Except AbiErr α} {a : α} (h : liftAbi x = .ok a) : x = .ok a := by
  cases x with
  | error e => cases h
  | ok b => cases h; rfl

theorem liftErr_ok {α : Type} {x : Res α} {a : α} (h : liftErr x = .ok a) : x = .ok a := by
  cases x with
  | error e => cases h
  | ok b => cases h; rfl

theorem string_short {l : List UInt8} {x : List UInt8} {r : List UInt8} (h : string.dec l = some (x, r)) :
    x.length < 2 ^ 32 := by
  simp only [string, Option.bind_eq_bind, Option.bind_eq_some_iff] at h
  obtain ⟨⟨n, l1⟩, e1, e2⟩ := h
  have := (takeBytes_some e2).2
  have := n.toNat_lt
  dsimp only at *
  omega

theorem vec_short {α : Type} {c : Codec α} (hc : Canon c) {l : List UInt8} {x : List α} {r : List UInt8}
    (h : (vec c).dec l = some (x, r)) : x.length < 2 ^ 32 := by
  simp only [vec, Option.bind_eq_bind, Option.bind_eq_some_iff] at h
  obtain ⟨⟨n, l1⟩, e1, e2⟩ := h
  have := (decMany_canon hc _ _ _ _ e2).2
  have := n.toNat_lt
  dsimp only at *
  omega

theorem pair_parts {α β : Type} {a : Codec α} {b : Codec β} {l r : List UInt8} {x : α × β}
    (h : (pair a b).dec l = some (x, r)) : ∃ l', a.dec l = some (x.1, l') ∧ b.dec l' = some (x.2, r) := by
  simp only [pair, Option.bind_eq_bind, Option.bind_eq_some_iff] at h
  obtain ⟨⟨x1, l1⟩, e1, ⟨x2, l2⟩, e2, e3⟩ := h
  injection e3 with e3; injection e3 with e3 e4
  subst e3 e4
  exact ⟨_, e1, e2⟩

/-- Lengths that were read from four bytes fit four bytes. -/
theorem merkle_sized {data : List UInt8} {c : MerkleCall} (h : dispatch "global" merkleEntries data = .ok c) :
    MerkleCall.Sized c := by
  obtain ⟨e, he, l, rest, hd, hr⟩ := dispatch_ok h
  simp only [merkleEntries, List.mem_cons, List.not_mem_nil, or_false] at he
  rcases he with rfl | rfl | rfl | rfl | rfl | rfl | rfl | rfl | rfl | rfl | rfl | rfl <;>
    (simp only [entry, Option.map_eq_some_iff] at hr
     obtain ⟨⟨x, r⟩, h1, h2⟩ := hr
     injection h2 with h2 h3
     subst h2 h3)
  · obtain ⟨_, _, h1⟩ := pair_parts h1
    obtain ⟨_, _, h1⟩ := pair_parts h1
    exact vec_short key_canon h1
  · trivial
  · trivial
  · obtain ⟨_, _, h1⟩ := pair_parts h1
    obtain ⟨_, _, h1⟩ := pair_parts h1
    obtain ⟨_, _, h1⟩ := pair_parts h1
    obtain ⟨_, h2, h1⟩ := pair_parts h1
    obtain ⟨_, h3, h1⟩ := pair_parts h1
    exact ⟨string_short h2, string_short h3⟩
  all_goals trivial

theorem utf8_iff (s : List UInt8) : utf8 s = true ↔ IsText s := by
  unfold utf8
  rw [ByteArray.validateUTF8_eq_true_iff]
  constructor
  · rintro ⟨cs, h⟩
    refine ⟨cs, ?_⟩
    have := congrArg (fun b => b.data.toList) h
    simpa [List.utf8Encode] using this
  · rintro ⟨cs, rfl⟩
    refine ⟨cs, ?_⟩
    apply ByteArray.ext
    simp [List.utf8Encode]

theorem checkTexts_ok (c : MerkleCall) : checkTexts c = .ok () ↔ MerkleCall.Texts c := by
  cases c with
  | createCampaign =>
    simp only [checkTexts, MerkleCall.Texts, ← utf8_iff, ← Bool.and_eq_true]
    split
    · simp [*]
    · rename_i h; simp [h]
  | _ => exact ⟨fun _ => trivial, fun _ => rfl⟩

/-- **C88**, lockup: which messages ask for which instruction, exactly.  The program takes a message for instruction `i`
if and only if its account list begins with the accounts of `i` in the published order, its data begins with the
encoding of `i`, and the transaction grants every signature and every write privilege the interface asks for. -/
theorem C88_lockup_exact {ids : Ids} (hd : ids.token ≠ ids.token2022) (h : Header) (m : Message) (i : LockupIx) :
    request ids h m = .ok (.lockup i) ↔ AsksLockup ids m i ∧ Header.Grants h (lockupMetas ids i) := by
  constructor
  · intro hq
    unfold request at hq
    split at hq
    · rename_i hp
      obtain ⟨call, h1, hq⟩ := ebind hq
      obtain ⟨u, h2, hq⟩ := ebind hq
      have h1 := liftAbi_ok h1
      obtain ⟨rest, hdata⟩ := C64_lockup_canonical h1
      have fin : LockupCarries ids i call → ((∃ more, m.accounts = (lockupMetas ids i).map AccountMeta.addr ++ more) ∧
          Header.Grants h (lockupMetas ids i)) → AsksLockup ids m i ∧ Header.Grants h (lockupMetas ids i) :=
        fun hc hx => ⟨⟨hp, hx.1, call, rest, hc, hdata⟩, hx.2⟩
      cases call <;> simp only [lockupRequest] at hq <;> obtain ⟨c, h3, hq⟩ := ebind hq <;> cases hq
      · exact fin rfl ((cancel_accts hd).1 ⟨h2, h3⟩)
      · exact fin rfl (lockupCollectFees_accts.1 ⟨h2, h3⟩)
      · exact fin rfl ((create_accts hd).1 ⟨h2, h3⟩)
      · exact fin rfl ((create_accts hd).1 ⟨h2, h3⟩)
      · exact fin ⟨rfl, rfl, rfl⟩ ((lockupInitialize_accts hd).1 ⟨h2, h3⟩)
      · exact fin rfl (renounce_accts.1 ⟨h2, h3⟩)
      · exact fin rfl ((withdraw_accts hd).1 ⟨h2, h3⟩)
      · exact fin rfl ((withdraw_accts hd).1 ⟨h2, h3⟩)
    · obtain ⟨call, h1, hq⟩ := ebind hq
      obtain ⟨_, _, hq⟩ := ebind hq
      obtain ⟨u, h2, hq⟩ := ebind hq
      cases call <;> simp only [merkleRequest] at hq <;> obtain ⟨c, h3, hq⟩ := ebind hq <;> cases hq
  · rintro ⟨⟨hp, hm, call, rest, hc, hdata⟩, hg⟩
    have hx := C64_lockup call rest
    rw [← hdata] at hx
    have red : request ids h m = (checkSlots ids h (lockupSlots call) m.accounts >>= fun _ =>
        lockupRequest ids m.accounts call) := by
      unfold request
      rw [hp]
      simp only [hx]
      rfl
    rw [red]
    cases i with
    | «initialize» c f p s =>
      cases call <;> first | exact False.elim hc | skip
      rename_i f' p' s'
      obtain ⟨rfl, rfl, rfl⟩ := hc
      obtain ⟨e1, e2⟩ := (lockupInitialize_accts hd).2 ⟨hm, hg⟩
      simp only [lockupSlots, lockupRequest, e1, e2]
      rfl
    | createWithTimestamps c =>
      cases hc
      obtain ⟨e1, e2⟩ := (create_accts hd).2 ⟨hm, hg⟩
      simp only [lockupSlots, lockupRequest, e1, e2]
      rfl
    | createWithDurations c =>
      cases hc
      obtain ⟨e1, e2⟩ := (create_accts hd).2 ⟨hm, hg⟩
      simp only [lockupSlots, lockupRequest, e1, e2]
      rfl
    | withdraw c =>
      cases hc
      obtain ⟨e1, e2⟩ := (withdraw_accts hd).2 ⟨hm, hg⟩
      simp only [lockupSlots, lockupRequest, e1, e2]
      rfl
    | withdrawMax c =>
      cases hc
      obtain ⟨e1, e2⟩ := (withdraw_accts hd).2 ⟨hm, hg⟩
      simp only [lockupSlots, lockupRequest, e1, e2]
      rfl
    | cancel c =>
      cases hc
      obtain ⟨e1, e2⟩ := (cancel_accts hd).2 ⟨hm, hg⟩
      simp only [lockupSlots, lockupRequest, e1, e2]
      rfl
    | renounce c =>
      cases hc
      obtain ⟨e1, e2⟩ := renounce_accts.2 ⟨hm, hg⟩
      simp only [lockupSlots, lockupRequest, e1, e2]
      rfl
    | collectFees c =>
      cases hc
      obtain ⟨e1, e2⟩ := lockupCollectFees_accts.2 ⟨hm, hg⟩
      simp only [lockupSlots, lockupRequest, e1, e2]
      rfl

/-- **C88**, merkle_instant: which messages ask for which instruction, exactly. -/
theorem C88_merkle_exact {ids : Ids} (hd : ids.token ≠ ids.token2022) (h : Header) (m : Message) (i : MerkleIx) :
    request ids h m = .ok (.merkle i) ↔ AsksMerkle ids m i ∧ Header.Grants h (merkleMetas ids i) := by
  constructor
  · intro hq
    unfold request at hq
    split at hq
    · obtain ⟨call, h1, hq⟩ := ebind hq
      obtain ⟨u, h2, hq⟩ := ebind hq
      cases call <;> simp only [lockupRequest] at hq <;> obtain ⟨c, h3, hq⟩ := ebind hq <;> cases hq
    · rename_i hp
      obtain ⟨call, h1, hq⟩ := ebind hq
      obtain ⟨_, ht, hq⟩ := ebind hq
      obtain ⟨u, h2, hq⟩ := ebind hq
      have ht := (checkTexts_ok call).1 ht
      have h1 := liftAbi_ok h1
      obtain ⟨rest, hdata⟩ := C64_merkle_canonical h1
      have fin : MerkleCarries ids i call → ((∃ more, m.accounts = (merkleMetas ids i).map AccountMeta.addr ++ more) ∧
          Header.Grants h (merkleMetas ids i)) → AsksMerkle ids m i ∧ Header.Grants h (merkleMetas ids i) :=
        fun hc hx => ⟨⟨hp, hx.1, call, rest, hc, merkle_sized h1, ht, hdata⟩, hx.2⟩
      cases call <;> simp only [merkleRequest] at hq <;> obtain ⟨c, h3, hq⟩ := ebind hq <;> cases hq
      · exact fin rfl ((claim_accts hd).1 ⟨h2, h3⟩)
      · exact fin rfl ((clawback_accts hd).1 ⟨h2, h3⟩)
      · exact fin rfl (merkleCollectFees_accts.1 ⟨h2, h3⟩)
      · exact fin rfl ((createCampaign_accts hd).1 ⟨h2, h3⟩)
      · exact fin ⟨rfl, rfl, rfl⟩ (merkleInitialize_accts.1 ⟨h2, h3⟩)
  · rintro ⟨⟨hp, hm, call, rest, hc, hsz, ht, hdata⟩, hg⟩
    have hx := C64_merkle call hsz rest
    rw [← hdata] at hx
    have red : request ids h m = (checkSlots ids h (merkleSlots call) m.accounts >>= fun _ =>
        merkleRequest ids m.accounts call) := by
      unfold request
      rw [hp]
      simp only [hx, liftAbi]
      show (checkTexts call >>= _) = _
      rw [(checkTexts_ok call).2 ht]
      rfl
    rw [red]
    cases i with
    | «initialize» c f p s =>
      cases call <;> first | exact False.elim hc | skip
      rename_i f' p' s'
      obtain ⟨rfl, rfl, rfl⟩ := hc
      obtain ⟨e1, e2⟩ := merkleInitialize_accts.2 ⟨hm, hg⟩
      simp only [merkleSlots, merkleRequest, e1, e2]
      rfl
    | createCampaign c =>
      cases hc
      obtain ⟨e1, e2⟩ := (createCampaign_accts hd).2 ⟨hm, hg⟩
      simp only [merkleSlots, merkleRequest, e1, e2]
      rfl
    | claim c =>
      cases hc
      obtain ⟨e1, e2⟩ := (claim_accts hd).2 ⟨hm, hg⟩
      simp only [merkleSlots, merkleRequest, e1, e2]
      rfl
    | clawback c =>
      cases hc
      obtain ⟨e1, e2⟩ := (clawback_accts hd).2 ⟨hm, hg⟩
      simp only [merkleSlots, merkleRequest, e1, e2]
      rfl
    | collectFees c =>
      cases hc
      obtain ⟨e1, e2⟩ := merkleCollectFees_accts.2 ⟨hm, hg⟩
      simp only [merkleSlots, merkleRequest, e1, e2]
      rfl

/-- **C88**: a message that asks for an instruction, in a transaction that grants its privileges, does exactly what the
instruction does. -/
theorem C88_runs {ids : Ids} (hd : ids.token ≠ ids.token2022) {rt : Runtime} {w : World} {h : Header} {m : Message} :
    (∀ i, AsksLockup ids m i → Header.Grants h (lockupMetas ids i) →
      exec ids rt w h m = asMessage (step rt w (.lockup i))) ∧
    (∀ i, AsksMerkle ids m i → Header.Grants h (merkleMetas ids i) →
      exec ids rt w h m = asMessage (step rt w (.merkle i))) := by
  constructor
  · intro i ha hg
    have hq := (C88_lockup_exact hd h m i).2 ⟨ha, hg⟩
    unfold exec
    simp only [hq, bind, Except.bind, step]
    cases i.run rt w <;> rfl
  · intro i ha hg
    have hq := (C88_merkle_exact hd h m i).2 ⟨ha, hg⟩
    unfold exec
    simp only [hq, bind, Except.bind, step]
    cases i.run rt w <;> rfl

theorem exec_cases {ids : Ids} {rt : Runtime} {w w' : World} {h : Header} {m : Message} {ret : List UInt8}
    (hx : exec ids rt w h m = .ok (w', ret)) :
    (w' = w ∧ ∃ v, request ids h m = .ok (.view v) ∧ v.answer rt w = .ok ret) ∨
    (ret = [] ∧ ∃ i, request ids h m = .ok (.lockup i) ∧ step rt w (.lockup i) = .ok w') ∨
    (ret = [] ∧ ∃ i, request ids h m = .ok (.merkle i) ∧ step rt w (.merkle i) = .ok w') := by
  unfold exec at hx
  obtain ⟨q, hq, hx⟩ := ebind hx
  cases q with
  | view v =>
    obtain ⟨a, h1, hx⟩ := ebind hx
    cases hx
    exact .inl ⟨rfl, v, hq, h1⟩
  | lockup i =>
    obtain ⟨a, h1, hx⟩ := ebind hx
    cases hx
    exact .inr (.inl ⟨rfl, i, hq, liftErr_ok h1⟩)
  | merkle i =>
    obtain ⟨a, h1, hx⟩ := ebind hx
    cases hx
    exact .inr (.inr ⟨rfl, i, hq, liftErr_ok h1⟩)

/-- **C88**: a message that succeeds either is a question and changes nothing, or is exactly one instruction of the
program it is sent to, of which all theorems about instructions speak; its transaction is signed by the signer of that
instruction. -/
theorem C88_accepted {ids : Ids} (hd : ids.token ≠ ids.token2022) {rt : Runtime} {w w' : World} {h : Header}
    {m : Message} {ret : List UInt8} (hx : exec ids rt w h m = .ok (w', ret)) :
    w' = w ∨ ∃ ix, step rt w ix = .ok w' ∧ ret = [] ∧ Header.Grants h (metasOf ids ix) ∧
      (∃ p, signerOf ix = some p ∧ p ∈ h.signers) ∧
      ((∃ i, ix = .lockup i ∧ AsksLockup ids m i) ∨ ∃ i, ix = .merkle i ∧ AsksMerkle ids m i) := by
  rcases exec_cases hx with h1 | ⟨h1, i, h2, h3⟩ | ⟨h1, i, h2, h3⟩
  · exact .inl h1.1
  · obtain ⟨ha, hg⟩ := (C88_lockup_exact hd h m i).1 h2
    refine .inr ⟨_, h3, h1, hg, ?_, .inl ⟨i, rfl, ha⟩⟩
    cases i <;> exact ⟨_, rfl, (hg _ List.mem_cons_self).1 rfl⟩
  · obtain ⟨ha, hg⟩ := (C88_merkle_exact hd h m i).1 h2
    refine .inr ⟨_, h3, h1, hg, ?_, .inr ⟨i, rfl, ha⟩⟩
    cases i <;> exact ⟨_, rfl, (hg _ List.mem_cons_self).1 rfl⟩

theorem writes_granted (ids : Ids) (ix : Ix) : ∀ a ∈ ix.writes, ∃ m ∈ metasOf ids ix, m.addr = a ∧ m.isWritable = true := by
  intro a ha
  cases ix with
  | env i => cases ha
  | lockup i =>
    cases i <;>
      simp [Ix.writes, metasOf, lockupMetas, createMetas, withdrawMetas, payer, authority, writable, readonly] at ha ⊢ <;>
      simp [ha, eq_comm] <;> tauto
  | merkle i =>
    cases i <;>
      simp [Ix.writes, metasOf, merkleMetas, payer, authority, writable, readonly] at ha ⊢ <;>
      simp [ha, eq_comm] <;> tauto

/-- **C88**: a message changes no account that its transaction does not declare writable, nor any it does not list, nor
the clock, nor the oracle. -/
theorem C88_writable {ids : Ids} (hd : ids.token ≠ ids.token2022) {rt : Runtime} {w w' : World} {h : Header}
    {m : Message} {ret : List UInt8} (hx : exec ids rt w h m = .ok (w', ret)) :
    (∀ a, w'.account a ≠ w.account a → a ∈ h.writable ∧ a ∈ m.accounts) ∧ w'.clock = w.clock ∧ w'.oracle = w.oracle := by
  rcases C88_accepted hd hx with rfl | ⟨ix, h1, _, hg, _, h2⟩
  · exact ⟨fun a ha => absurd rfl ha, rfl, rfl⟩
  · have hp : ix.ofPrograms := by rcases h2 with ⟨i, rfl, _⟩ | ⟨i, rfl, _⟩ <;> trivial
    obtain ⟨k1, k2, k3⟩ := C68_writes hp h1
    refine ⟨fun a ha => ?_, k2, k3⟩
    have hw : a ∈ ix.writes := Classical.byContradiction fun hn => ha (k1 a hn)
    obtain ⟨x, x1, rfl, x3⟩ := writes_granted ids ix a hw
    refine ⟨(hg x x1).2 x3, ?_⟩
    rcases h2 with ⟨i, rfl, _, ⟨more, he⟩, _⟩ | ⟨i, rfl, _, ⟨more, he⟩, _⟩ <;>
      (rw [he]; exact List.mem_append_left _ (List.mem_map_of_mem x1))

theorem grants_self (ms : List AccountMeta) : Header.Grants (headerOf ms) ms := fun m hm =>
  ⟨fun h => List.mem_map_of_mem (List.mem_filter.2 ⟨hm, h⟩), fun h => List.mem_map_of_mem (List.mem_filter.2 ⟨hm, h⟩)⟩

/-- **C88**: every instruction can be sent: the message a client builds from the published interface, with exactly the
privileges of the interface, does what the instruction does. -/
theorem C88_client {ids : Ids} (hd : ids.token ≠ ids.token2022) (rt : Runtime) (w : World) :
    (∀ i call, LockupCarries ids i call →
      exec ids rt w (headerOf (lockupMetas ids i)) (lockupMessage ids i call) = asMessage (step rt w (.lockup i))) ∧
    (∀ i call, MerkleCarries ids i call → MerkleCall.Sized call → MerkleCall.Texts call →
      exec ids rt w (headerOf (merkleMetas ids i)) (merkleMessage ids i call) = asMessage (step rt w (.merkle i))) :=
  ⟨fun i call hc => (C88_runs hd).1 i ⟨rfl, ⟨[], (List.append_nil _).symm⟩, call, [], hc, (List.append_nil _).symm⟩
      (grants_self _),
   fun i call hc hz ht => (C88_runs hd).2 i ⟨rfl, ⟨[], (List.append_nil _).symm⟩, call, [], hc, hz, ht, (List.append_nil _).symm⟩
      (grants_self _)⟩

/-- **C88**: if the transaction withholds a signature or a write privilege that the interface asks for, the message is
rejected, in every state. -/
theorem C88_missing {ids : Ids} (hd : ids.token ≠ ids.token2022) (rt : Runtime) (w : World) {h : Header} {m : Message}
    {ix : Ix} (ha : (∃ i, ix = .lockup i ∧ AsksLockup ids m i) ∨ ∃ i, ix = .merkle i ∧ AsksMerkle ids m i)
    {a : AccountMeta} (hm : a ∈ metasOf ids ix)
    (hn : a.isSigner = true ∧ a.addr ∉ h.signers ∨ a.isWritable = true ∧ a.addr ∉ h.writable) :
    ∃ e, exec ids rt w h m = .error e := by
  have bad : ¬ Header.Grants h (metasOf ids ix) := fun hg => by
    rcases hn with ⟨h1, h2⟩ | ⟨h1, h2⟩
    · exact h2 ((hg a hm).1 h1)
    · exact h2 ((hg a hm).2 h1)
  have key : ∃ e, request ids h m = .error e := by
    cases hq : request ids h m with
    | error e => exact ⟨e, rfl⟩
    | ok q =>
      exfalso
      rcases ha with ⟨i, rfl, ha⟩ | ⟨i, rfl, ha⟩
      · have hfull := (C88_lockup_exact hd (headerOf (lockupMetas ids i)) m i).2 ⟨ha, grants_self _⟩
        have : q = .lockup i := by
          obtain ⟨hp, -⟩ := ha
          unfold request at hq hfull
          simp only [hp] at hq hfull
          obtain ⟨c1, h1, hq⟩ := ebind hq
          obtain ⟨_, _, hq⟩ := ebind hq
          obtain ⟨c2, h2, hf⟩ := ebind hfull
          obtain ⟨_, _, hf⟩ := ebind hf
          cases h1.symm.trans h2
          cases hq.symm.trans hf
          rfl
        subst this
        exact bad ((C88_lockup_exact hd h m i).1 hq).2
      · have hfull := (C88_merkle_exact hd (headerOf (merkleMetas ids i)) m i).2 ⟨ha, grants_self _⟩
        have : q = .merkle i := by
          obtain ⟨hp, -⟩ := ha
          unfold request at hq hfull
          simp only [hp] at hq hfull
          obtain ⟨c1, h1, hq⟩ := ebind hq
          obtain ⟨_, _, hq⟩ := ebind hq
          obtain ⟨_, _, hq⟩ := ebind hq
          obtain ⟨c2, h2, hf⟩ := ebind hfull
          obtain ⟨_, _, hf⟩ := ebind hf
          obtain ⟨_, _, hf⟩ := ebind hf
          cases h1.symm.trans h2
          cases hq.symm.trans hf
          rfl
        subst this
        exact bad ((C88_merkle_exact hd h m i).1 hq).2
  obtain ⟨e, he⟩ := key
  exact ⟨e, by unfold exec; rw [he]; rfl⟩

/-- **C88**: a message costs nobody who has not signed its transaction anything: no token account of theirs is closed,
reassigned or reduced, and they lose no lamports. -/
theorem C88_signed {ids : Ids} (hd : ids.token ≠ ids.token2022) {rt : Runtime} {w w' : World} {h : Header}
    {m : Message} {ret : List UInt8} (hr : Reachable rt w) (hx : exec ids rt w h m = .ok (w', ret)) {p : Addr}
    (hp : p.canSign = true) (hn : p ∉ h.signers) :
    (∀ a t, w.bank.tokens a = some t → t.owner = p → ∃ t', w'.bank.tokens a = some t' ∧ t'.program = t.program ∧
      t'.mint = t.mint ∧ t'.owner = p ∧ t.amount ≤ t'.amount) ∧
    w.lamports p ≤ w'.lamports p := by
  rcases C88_accepted hd hx with rfl | ⟨ix, h1, _, hg, ⟨q, hq, hqs⟩, h2⟩
  · exact ⟨fun a t ha ho => ⟨t, ha, rfl, rfl, ho, Nat.le_refl _⟩, Nat.le_refl _⟩
  · have hne : signerOf ix ≠ some p := fun he => hn (by rw [hq] at he; cases he; exact hqs)
    have hix : isSablier ix = true := by rcases h2 with ⟨i, rfl, _⟩ | ⟨i, rfl, _⟩ <;> rfl
    refine ⟨fun a t ha ho => ?_, ?_⟩
    · obtain ⟨t', k1, k2, k3, k4, k5⟩ := C79_sablier hr h1 hix ha (by rw [ho]; exact hp)
      refine ⟨t', k1, k2, k3, k4.trans ho, Nat.le_of_not_lt fun hlt => ?_⟩
      obtain ⟨dep, _, k6, _⟩ := k5 hlt
      rw [ho] at k6
      exact hne k6
    · have hpay : ix.payer = some q := by
        rcases h2 with ⟨i, rfl, _⟩ | ⟨i, rfl, _⟩ <;> cases i <;> exact hq
      have := (C60_conserved hpay h1).2 p
      have hpq : p ≠ q := fun he => hn (by rw [he]; exact hqs)
      revert this
      cases ix.collects with
      | none => exact fun this => this hpq
      | some pr => exact fun this => this (by rintro rfl; cases hp)

/-- **C88**: a history of messages is a history of instructions, so everything proved of all histories holds of what
can be sent to the programs. -/
theorem C88_histories {ids : Ids} (hd : ids.token ≠ ids.token2022) {rt : Runtime} {w w' : World}
    (hs : Messages ids rt w w') : Steps rt w w' := by
  induction hs with
  | refl => exact .refl _
  | message h m ret _ hx ih =>
    rcases C88_accepted hd hx with rfl | ⟨ix, h1, _⟩
    · exact ih
    · exact .tail ix ih h1
  | env e _ hx ih => exact .tail _ ih hx

/-- **C88**: without the signature of its owner on any transaction of the history, no account of a token without
permanent delegate is closed or reassigned, and it is reduced only by what the owner had approved before. -/
theorem C88_unsigned {ids : Ids} (hd : ids.token ≠ ids.token2022) {rt : Runtime} {w w' : World} {p : Addr}
    (hr : Reachable rt w) (hs : MessagesUnsignedBy ids rt p w w') (hp : p.canSign = true) {a : Addr} {t : TokenData}
    (ha : w.bank.tokens a = some t) (ho : t.owner = p) {md : MintData} (hm : w.bank.mints t.mint = some md)
    (hpd : md.permanentDelegate = none) :
    ∃ t', w'.bank.tokens a = some t' ∧ t'.owner = p ∧ t'.mint = t.mint ∧ t'.program = t.program ∧
      t.amount + allowance w' a ≤ t'.amount + allowance w a ∧ allowance w' a ≤ allowance w a := by
  refine C79_history hr ?_ hp ha ho hm hpd
  clear hr ha hm
  induction hs with
  | refl => exact .refl _
  | message h m ret _ hx hn ih =>
    rcases C88_accepted hd hx with rfl | ⟨ix, h1, _, _, ⟨q, hq, hqs⟩, _⟩
    · exact ih
    · exact .tail ix ih h1 fun he => hn (by rw [hq] at he; cases he; exact hqs)
  | env e _ hx hn ih => exact .tail _ ih hx hn

/-- **C88**: in every history of messages the names and CIDs of all campaigns are texts, so that reading a campaign
account (which checks it again) never fails on them. -/
theorem C88_texts {ids : Ids} (hd : ids.token ≠ ids.token2022) {rt : Runtime} {w₀ w : World} (hg : Genesis w₀)
    (hs : Messages ids rt w₀ w) : ∀ x cd, Merkle.campaignView w x = .ok cd → IsText cd.name ∧ IsText cd.ipfsCid := by
  have keep : ∀ {w w' : World} {ix : Ix}, step rt w ix = .ok w' →
      (∀ c r s e n i a k, ix = .merkle (.createCampaign c r s e n i a k) → IsText n ∧ IsText i) →
      (∀ x cd, Merkle.campaignView w x = .ok cd → IsText cd.name ∧ IsText cd.ipfsCid) →
      ∀ x cd, Merkle.campaignView w' x = .ok cd → IsText cd.name ∧ IsText cd.ipfsCid := by
    intro w w' ix h ht ih x cd hx
    have hx := fetch_ok.1 hx
    cases hw : w.mi.campaigns x with
    | some cd₀ =>
      obtain ⟨t, h1, _⟩ := (Steps.tail ix (.refl w) h).campaign hw
      rw [h1] at hx
      cases hx
      exact ih x cd₀ (fetch_ok.2 hw)
    | none =>
      rcases (step_did h).campaign_cases x with ⟨hq, _⟩ | ⟨c, p, dm, b, l, rfl, _, _, ⟨r, s, e, n, i, a, k, rfl⟩, _⟩ |
          ⟨c, index, amount, proof, cd', dm, b₁, b₂, l, rfl, _, hok⟩ | ⟨c, amount, cd', dm, b₁, b₂, l, rfl, _, hok⟩
      · rw [hq.data, hw] at hx; cases hx
      · obtain ⟨dm, b, l, hc⟩ := createCampaign_step h
        rw [hc.result] at hx
        simp only [upd_same, Option.some.injEq] at hx
        subst hx
        exact ht _ _ _ _ _ _ _ _ rfl
      · have := hok.accts.campaign; rw [hw] at this; cases this
      · have := hok.accts.campaign; rw [hw] at this; cases this
  induction hs with
  | refl => intro x cd hx; have := fetch_ok.1 hx; rw [hg.no_campaigns] at this; cases this
  | message h m ret _ hx ih =>
    rcases C88_accepted hd hx with rfl | ⟨ix, h1, _, _, _, h2⟩
    · exact ih
    · refine keep h1 ?_ ih
      rintro c r s e n i a k rfl
      rcases h2 with ⟨j, hj, _⟩ | ⟨j, hj, _, _, call, rest, hc, _, ht, _⟩
      · cases hj
      · cases hj; cases hc; exact ht
  | env e _ hx ih => exact keep hx (by rintro _ _ _ _ _ _ _ _ ⟨⟩) ih

/-- Addresses for the examples. -/
def demoIds : Ids where
  system := .key 100
  token := .key 101
  token2022 := .key 102
  associatedToken := .key 103
  tokenMetadata := .key 104
  rent := .key 105
  addrOf b := .key (fromLE b.val - 1)

theorem demo_ids : demoIds.token ≠ demoIds.token2022 := by decide

/-- Bob's withdrawal of 200 from stream 1, as it is sent: accounts, data; followed by bytes and accounts that are
ignored. -/
def demoMessage : Message where
  program := .lockup
  accounts := [Demo.bob, Demo.bob, Demo.bob, Demo.ataOf Demo.bob, .treasury .lockup, Demo.mint,
    .ata Demo.bob .token (Demo.nft 1), Demo.str 1, Demo.vault 1, Demo.nft 1, .key 103, Demo.oracleProgram, Demo.feed,
    .key 101, .key 101, .key 100, .key 55]
  data := [183, 18, 70, 156, 148, 109, 161, 34, 200, 0, 0, 0, 0, 0, 0, 0, 77]

/-- Bob signs; only the four accounts that change and the treasury are writable. -/
def demoHeader : Header where
  signers := [Demo.bob]
  writable := [Demo.bob, Demo.ataOf Demo.bob, .treasury .lockup, Demo.str 1, Demo.vault 1]

theorem demo_asks_withdraw : AsksLockup demoIds demoMessage (.withdraw (Demo.withdrawAccts Demo.bob 1) 200) :=
  ⟨rfl, ⟨[.key 55], rfl⟩, .withdraw 200, [77], rfl, by decide⟩

theorem demo_grants : Header.Grants demoHeader (lockupMetas demoIds (.withdraw (Demo.withdrawAccts Demo.bob 1) 200)) := by
  unfold Header.Grants
  decide +kernel

example := (C88_lockup_exact demo_ids demoHeader demoMessage _).2 ⟨demo_asks_withdraw, demo_grants⟩

/-- It succeeds in `world2`. -/
theorem demo_exec : exec demoIds Demo.rt Demo.world2 demoHeader demoMessage =
    .ok (Demo.after Demo.world2 [Demo.ixWithdraw], []) := by
  rw [(C88_runs demo_ids).1 _ demo_asks_withdraw demo_grants,
    show step Demo.rt Demo.world2 (.lockup (.withdraw (Demo.withdrawAccts Demo.bob 1) 200)) =
      .ok (Demo.after Demo.world2 [Demo.ixWithdraw]) from
      Demo.step_after (w := Demo.world2) (ix := Demo.ixWithdraw) (by decide +kernel)]
  rfl

example := C88_accepted demo_ids demo_exec
example := C88_writable demo_ids demo_exec
example := C88_signed demo_ids Demo.reach2 demo_exec (p := Demo.alice) rfl (by decide)
example := C88_histories demo_ids (.message _ _ _ (.refl Demo.world2) demo_exec)
example := C88_unsigned demo_ids Demo.reach2 (p := Demo.alice) (.message _ _ _ (.refl Demo.world2) demo_exec (by decide)) rfl
  (a := Demo.ataOf Demo.alice) (t := ⟨.token, Demo.mint, Demo.alice, 997500, false⟩) (by decide +kernel) rfl
  (md := { Demo.plainMint with supply := 1000000 }) (by decide +kernel) rfl

/-- Without Bob's signature: rejected. -/
example := C88_missing demo_ids Demo.rt Demo.world2 (h := ⟨[], demoHeader.writable⟩) (m := demoMessage)
  (ix := .lockup (.withdraw (Demo.withdrawAccts Demo.bob 1) 200)) (.inl ⟨_, rfl, demo_asks_withdraw⟩)
  (a := payer Demo.bob) List.mem_cons_self (.inl ⟨rfl, by decide⟩)

/-- Claims, with a proof of one hash; creation of the campaign; initialisation with addresses as bytes. -/
example := (C88_client demo_ids Demo.rt Demo.world2).2 (.claim (Demo.claimAccts Demo.bob 0) 0 500 [Demo.leaf1])
  (.claim 0 500 [Demo.leaf1]) rfl (by show ([Demo.leaf1].length < 2 ^ 32); decide) trivial
example := (C88_client demo_ids Demo.rt Demo.world0).2 (.initialize ⟨Demo.alice, .treasury .merkle⟩ Demo.collector
  Demo.oracleProgram Demo.feed) (.initialize (Demo.rt.keyBytes Demo.collector) (Demo.rt.keyBytes Demo.oracleProgram)
  (Demo.rt.keyBytes Demo.feed)) ⟨by decide +kernel, by decide +kernel, by decide +kernel⟩ trivial trivial
example := (C88_merkle_exact demo_ids (headerOf (merkleMetas demoIds (.claim (Demo.claimAccts Demo.bob 0) 0 500 [Demo.leaf1])))
  (merkleMessage demoIds (.claim (Demo.claimAccts Demo.bob 0) 0 500 [Demo.leaf1]) (.claim 0 500 [Demo.leaf1])) _).2
  ⟨⟨rfl, ⟨[], (List.append_nil _).symm⟩, _, [], rfl, by show ([Demo.leaf1].length < 2 ^ 32); decide, trivial,
    (List.append_nil _).symm⟩, grants_self _⟩

/-- The campaign "abc" with CID "Qm" on a chain with nothing but a token: a history of one message. -/
def demoOpen : MerkleIx := .createCampaign ⟨Demo.alice, Demo.mint, Demo.camp, Demo.campVault, Demo.tok⟩ Demo.root 1500 800000
  Demo.campaignName [81, 109] 800 2
def demoOpenCall : MerkleCall := .createCampaign Demo.root 1500 800000 Demo.campaignName [81, 109] 800 2
def worldT0 : World := Demo.after Demo.world0 [.env (.createMint 3 Demo.plainMint)]
def worldT1 : World := Demo.after worldT0 [.merkle demoOpen]

theorem demo_texts : MerkleCall.Texts demoOpenCall := ⟨⟨['a', 'b', 'c'], by decide +kernel⟩, ⟨['Q', 'm'], by decide +kernel⟩⟩

theorem demo_opened : exec demoIds Demo.rt worldT0 (headerOf (merkleMetas demoIds demoOpen))
    (merkleMessage demoIds demoOpen demoOpenCall) = .ok (worldT1, []) := by
  rw [(C88_client demo_ids Demo.rt worldT0).2 demoOpen demoOpenCall rfl (by constructor <;> decide) demo_texts,
    show step Demo.rt worldT0 (.merkle demoOpen) = .ok worldT1 from Demo.step_after (by decide +kernel)]
  rfl

theorem demo_messages : Messages demoIds Demo.rt Demo.world0 worldT1 :=
  .message _ _ _ (.env (.createMint 3 Demo.plainMint) (.refl _) (Demo.step_after (by decide +kernel))) demo_opened

example := C88_texts demo_ids Demo.genesis0 demo_messages Demo.camp
  ⟨Demo.mint, 255, 1500, Demo.alice, 800000, 0, [81, 109], Demo.root, Demo.campaignName⟩ (by decide +kernel)

/-- A name that is not UTF-8 is rejected. -/
example : checkTexts (.createCampaign Demo.root 1500 800000 [97, 255] [81, 109] 800 2) = .error (.abi .didNotDeserialize) := by
  decide +kernel

end Solsab.Props
