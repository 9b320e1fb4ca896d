import Verif.Spec.Wire
/-!
# Account lists

For each account struct: a list passes the field checks and is read as `c` exactly if it begins with the addresses of
the published metas of `c` and the transaction grants what they ask for.
-/

set_option linter.unusedSimpArgs false

namespace Solsab.Wire
open Abi Borsh Spec

theorem tokenProgram_ok {ids : Ids} {a : Addr} {tp : TokenProgram} (h : tokenProgram ids a = .ok tp) :
    a = tokenProgramId ids tp := by
  unfold tokenProgram at h
  split at h
  · cases h; assumption
  · split at h
    · cases h; assumption
    · cases h

theorem tokenProgram_of {ids : Ids} (hd : ids.token ≠ ids.token2022) (tp : TokenProgram) :
    tokenProgram ids (tokenProgramId ids tp) = .ok tp := by
  cases tp
  · simp [tokenProgram, tokenProgramId]
  · simp [tokenProgram, tokenProgramId, Ne.symm hd]

/-- What the checks of the fields say about the accounts. -/
def Fits (ids : Ids) (h : Header) : List Slot → List Addr → Prop
  | [], _ => True
  | _ :: _, [] => False
  | s :: ss, a :: as =>
    (match s.kind with
      | .unchecked => True
      | .signer => a ∈ h.signers
      | .program id => a = id ids
      | .tokenInterface => ∃ tp, tokenProgram ids a = .ok tp) ∧
    (s.writable = true → a ∈ h.writable) ∧ Fits ids h ss as

theorem checkSlots_ok {ids : Ids} {h : Header} : ∀ {ss : List Slot} {as : List Addr},
    checkSlots ids h ss as = .ok () ↔ Fits ids h ss as
  | [], as => by simp [checkSlots, Fits]
  | _ :: _, [] => by simp [checkSlots, Fits]
  | s :: ss, a :: as => by
    have ih := checkSlots_ok (ids := ids) (h := h) (ss := ss) (as := as)
    have hk : s.kind.check ids h a = .ok () ↔ (match s.kind with
      | .unchecked => True
      | .signer => a ∈ h.signers
      | .program id => a = id ids
      | .tokenInterface => ∃ tp, tokenProgram ids a = .ok tp) := by
      cases s.kind with
      | unchecked => simp [Kind.check]
      | signer => simp only [Kind.check]; split <;> simp_all
      | program id => simp only [Kind.check]; split <;> simp_all
      | tokenInterface =>
        simp only [Kind.check]
        cases tokenProgram ids a with
        | error e => simp [bind, Except.bind]
        | ok tp => simp [bind, Except.bind, pure, Except.pure]
    simp only [checkSlots, Fits, ← hk, ← ih]
    cases s.kind.check ids h a with
    | error e => simp [bind, Except.bind]
    | ok u =>
      simp only [bind, Except.bind, true_and]
      by_cases hw : s.writable = true ∧ a ∉ h.writable
      · simp only [hw, not_false_eq_true, and_self, if_true]
        constructor
        · intro e; cases e
        · intro e; exact False.elim (e.1 trivial)
      · rw [if_neg hw]
        constructor
        · exact fun e => ⟨fun h1 => Classical.byContradiction fun h2 => hw ⟨h1, h2⟩, e⟩
        · exact fun e => e.2

theorem seeds_ok {b : Bool} {u : Unit} (h : seeds b = .ok u) : b = true := by
  unfold seeds at h
  split at h
  · assumption
  · cases h

theorem cancel_accts {ids : Ids} (hd : ids.token ≠ ids.token2022) {h : Header} {as : List Addr} {c : Lockup.CancelAccts} :
    checkSlots ids h cancelSlots as = .ok () ∧ cancelAccts ids as = .ok c ↔
      (∃ more, as = (lockupMetas ids (.cancel c)).map AccountMeta.addr ++ more) ∧ Header.Grants h (lockupMetas ids (.cancel c)) := by
  rw [checkSlots_ok]
  constructor
  · rintro ⟨h1, h2⟩
    iterate 9 (rcases as with _ | ⟨a, as⟩; · simp [Fits, cancelSlots, rw, ro, prog, tok] at h1)
    simp only [cancelAccts, bind, Except.bind, pure, Except.pure] at h2
    split at h2
    · cases h2
    rename_i tp0 htp0
    cases h2
    cases tokenProgram_ok htp0
    simp only [Fits, cancelSlots, rw, ro, prog, tok] at h1
    simp_all [lockupMetas, merkleMetas, createMetas, withdrawMetas, Header.Grants, payer, authority, writable, readonly]
  · rintro ⟨⟨more, rfl⟩, hg⟩
    simp only [lockupMetas, merkleMetas, createMetas, withdrawMetas, Header.Grants, payer, authority, writable, readonly, List.mem_cons,
      List.not_mem_nil, or_false, forall_eq_or_imp, forall_eq] at hg
    simp [Fits, cancelSlots, rw, ro, prog, tok, cancelAccts, bind, Except.bind, lockupMetas, merkleMetas, createMetas, withdrawMetas, payer, authority,
      writable, readonly, tokenProgram_of hd, seeds, pure, Except.pure, hg]

theorem create_accts {ids : Ids} (hd : ids.token ≠ ids.token2022) {h : Header} {as : List Addr} {c : Lockup.CreateAccts} :
    checkSlots ids h createSlots as = .ok () ∧ createAccts ids as = .ok c ↔
      (∃ more, as = (createMetas ids c).map AccountMeta.addr ++ more) ∧ Header.Grants h (createMetas ids c) := by
  rw [checkSlots_ok]
  constructor
  · rintro ⟨h1, h2⟩
    iterate 21 (rcases as with _ | ⟨a, as⟩; · simp [Fits, createSlots, rw, ro, prog, tok] at h1)
    simp only [createAccts, bind, Except.bind, pure, Except.pure] at h2
    split at h2
    · cases h2
    rename_i tp0 htp0
    split at h2
    · cases h2
    rename_i tp1 htp1
    split at h2
    · cases h2
    rename_i u0 hs0
    have hs0 := seeds_ok hs0
    split at h2
    · cases h2
    rename_i u1 hs1
    have hs1 := seeds_ok hs1
    split at h2
    · cases h2
    rename_i u2 hs2
    have hs2 := seeds_ok hs2
    split at h2
    · cases h2
    rename_i u3 hs3
    have hs3 := seeds_ok hs3
    cases h2
    cases tokenProgram_ok htp0
    cases tokenProgram_ok htp1
    simp only [Fits, createSlots, rw, ro, prog, tok] at h1
    simp_all [lockupMetas, merkleMetas, createMetas, withdrawMetas, Header.Grants, payer, authority, writable, readonly]
  · rintro ⟨⟨more, rfl⟩, hg⟩
    simp only [lockupMetas, merkleMetas, createMetas, withdrawMetas, Header.Grants, payer, authority, writable, readonly, List.mem_cons,
      List.not_mem_nil, or_false, forall_eq_or_imp, forall_eq] at hg
    simp [Fits, createSlots, rw, ro, prog, tok, createAccts, bind, Except.bind, lockupMetas, merkleMetas, createMetas, withdrawMetas, payer, authority,
      writable, readonly, tokenProgram_of hd, seeds, pure, Except.pure, hg]

theorem withdraw_accts {ids : Ids} (hd : ids.token ≠ ids.token2022) {h : Header} {as : List Addr} {c : Lockup.WithdrawAccts} :
    checkSlots ids h withdrawSlots as = .ok () ∧ withdrawAccts ids as = .ok c ↔
      (∃ more, as = (withdrawMetas ids c).map AccountMeta.addr ++ more) ∧ Header.Grants h (withdrawMetas ids c) := by
  rw [checkSlots_ok]
  constructor
  · rintro ⟨h1, h2⟩
    iterate 16 (rcases as with _ | ⟨a, as⟩; · simp [Fits, withdrawSlots, rw, ro, prog, tok] at h1)
    simp only [withdrawAccts, bind, Except.bind, pure, Except.pure] at h2
    split at h2
    · cases h2
    rename_i tp0 htp0
    split at h2
    · cases h2
    rename_i tp1 htp1
    cases h2
    cases tokenProgram_ok htp0
    cases tokenProgram_ok htp1
    simp only [Fits, withdrawSlots, rw, ro, prog, tok] at h1
    simp_all [lockupMetas, merkleMetas, createMetas, withdrawMetas, Header.Grants, payer, authority, writable, readonly]
  · rintro ⟨⟨more, rfl⟩, hg⟩
    simp only [lockupMetas, merkleMetas, createMetas, withdrawMetas, Header.Grants, payer, authority, writable, readonly, List.mem_cons,
      List.not_mem_nil, or_false, forall_eq_or_imp, forall_eq] at hg
    simp [Fits, withdrawSlots, rw, ro, prog, tok, withdrawAccts, bind, Except.bind, lockupMetas, merkleMetas, createMetas, withdrawMetas, payer, authority,
      writable, readonly, tokenProgram_of hd, seeds, pure, Except.pure, hg]

theorem claim_accts {ids : Ids} (hd : ids.token ≠ ids.token2022) {h : Header} {as : List Addr} {c : Merkle.ClaimAccts}
    {index : UInt32} {amount : UInt64} {proof : List Bytes32} :
    checkSlots ids h claimSlots as = .ok () ∧ claimAccts ids as = .ok c ↔
      (∃ more, as = (merkleMetas ids (.claim c index amount proof)).map AccountMeta.addr ++ more) ∧ Header.Grants h (merkleMetas ids (.claim c index amount proof)) := by
  rw [checkSlots_ok]
  constructor
  · rintro ⟨h1, h2⟩
    iterate 13 (rcases as with _ | ⟨a, as⟩; · simp [Fits, claimSlots, rw, ro, prog, tok] at h1)
    simp only [claimAccts, bind, Except.bind, pure, Except.pure] at h2
    split at h2
    · cases h2
    rename_i tp0 htp0
    cases h2
    cases tokenProgram_ok htp0
    simp only [Fits, claimSlots, rw, ro, prog, tok] at h1
    simp_all [lockupMetas, merkleMetas, createMetas, withdrawMetas, Header.Grants, payer, authority, writable, readonly]
  · rintro ⟨⟨more, rfl⟩, hg⟩
    simp only [lockupMetas, merkleMetas, createMetas, withdrawMetas, Header.Grants, payer, authority, writable, readonly, List.mem_cons,
      List.not_mem_nil, or_false, forall_eq_or_imp, forall_eq] at hg
    simp [Fits, claimSlots, rw, ro, prog, tok, claimAccts, bind, Except.bind, lockupMetas, merkleMetas, createMetas, withdrawMetas, payer, authority,
      writable, readonly, tokenProgram_of hd, seeds, pure, Except.pure, hg]

theorem clawback_accts {ids : Ids} (hd : ids.token ≠ ids.token2022) {h : Header} {as : List Addr} {c : Merkle.ClawbackAccts}
    {amount : UInt64} :
    checkSlots ids h clawbackSlots as = .ok () ∧ clawbackAccts ids as = .ok c ↔
      (∃ more, as = (merkleMetas ids (.clawback c amount)).map AccountMeta.addr ++ more) ∧ Header.Grants h (merkleMetas ids (.clawback c amount)) := by
  rw [checkSlots_ok]
  constructor
  · rintro ⟨h1, h2⟩
    iterate 9 (rcases as with _ | ⟨a, as⟩; · simp [Fits, clawbackSlots, rw, ro, prog, tok] at h1)
    simp only [clawbackAccts, bind, Except.bind, pure, Except.pure] at h2
    split at h2
    · cases h2
    rename_i tp0 htp0
    cases h2
    cases tokenProgram_ok htp0
    simp only [Fits, clawbackSlots, rw, ro, prog, tok] at h1
    simp_all [lockupMetas, merkleMetas, createMetas, withdrawMetas, Header.Grants, payer, authority, writable, readonly]
  · rintro ⟨⟨more, rfl⟩, hg⟩
    simp only [lockupMetas, merkleMetas, createMetas, withdrawMetas, Header.Grants, payer, authority, writable, readonly, List.mem_cons,
      List.not_mem_nil, or_false, forall_eq_or_imp, forall_eq] at hg
    simp [Fits, clawbackSlots, rw, ro, prog, tok, clawbackAccts, bind, Except.bind, lockupMetas, merkleMetas, createMetas, withdrawMetas, payer, authority,
      writable, readonly, tokenProgram_of hd, seeds, pure, Except.pure, hg]

theorem createCampaign_accts {ids : Ids} (hd : ids.token ≠ ids.token2022) {h : Header} {as : List Addr} {c : Merkle.CreateCampaignAccts}
    {root : Bytes32} {st ex : UInt64} {name cid : List UInt8} {agg : UInt64} {cnt : UInt32} :
    checkSlots ids h createCampaignSlots as = .ok () ∧ createCampaignAccts ids as = .ok c ↔
      (∃ more, as = (merkleMetas ids (.createCampaign c root st ex name cid agg cnt)).map AccountMeta.addr ++ more) ∧ Header.Grants h (merkleMetas ids (.createCampaign c root st ex name cid agg cnt)) := by
  rw [checkSlots_ok]
  constructor
  · rintro ⟨h1, h2⟩
    iterate 7 (rcases as with _ | ⟨a, as⟩; · simp [Fits, createCampaignSlots, rw, ro, prog, tok] at h1)
    simp only [createCampaignAccts, bind, Except.bind, pure, Except.pure] at h2
    split at h2
    · cases h2
    rename_i tp0 htp0
    cases h2
    cases tokenProgram_ok htp0
    simp only [Fits, createCampaignSlots, rw, ro, prog, tok] at h1
    simp_all [lockupMetas, merkleMetas, createMetas, withdrawMetas, Header.Grants, payer, authority, writable, readonly]
  · rintro ⟨⟨more, rfl⟩, hg⟩
    simp only [lockupMetas, merkleMetas, createMetas, withdrawMetas, Header.Grants, payer, authority, writable, readonly, List.mem_cons,
      List.not_mem_nil, or_false, forall_eq_or_imp, forall_eq] at hg
    simp [Fits, createCampaignSlots, rw, ro, prog, tok, createCampaignAccts, bind, Except.bind, lockupMetas, merkleMetas, createMetas, withdrawMetas, payer, authority,
      writable, readonly, tokenProgram_of hd, seeds, pure, Except.pure, hg]

theorem lockupInitialize_accts {ids : Ids} (hd : ids.token ≠ ids.token2022) {h : Header} {as : List Addr} {c : Lockup.InitializeAccts}
    {x y z : Addr} :
    checkSlots ids h lockupInitializeSlots as = .ok () ∧ lockupInitializeAccts ids as = .ok c ↔
      (∃ more, as = (lockupMetas ids (.initialize c x y z)).map AccountMeta.addr ++ more) ∧ Header.Grants h (lockupMetas ids (.initialize c x y z)) := by
  rw [checkSlots_ok]
  constructor
  · rintro ⟨h1, h2⟩
    iterate 12 (rcases as with _ | ⟨a, as⟩; · simp [Fits, lockupInitializeSlots, rw, ro, prog, tok] at h1)
    simp only [lockupInitializeAccts, bind, Except.bind, pure, Except.pure] at h2
    split at h2
    · cases h2
    rename_i tp0 htp0
    split at h2
    · cases h2
    rename_i u0 hs0
    have hs0 := seeds_ok hs0
    split at h2
    · cases h2
    rename_i u1 hs1
    have hs1 := seeds_ok hs1
    cases h2
    cases tokenProgram_ok htp0
    simp only [Fits, lockupInitializeSlots, rw, ro, prog, tok] at h1
    simp_all [lockupMetas, merkleMetas, createMetas, withdrawMetas, Header.Grants, payer, authority, writable, readonly]
  · rintro ⟨⟨more, rfl⟩, hg⟩
    simp only [lockupMetas, merkleMetas, createMetas, withdrawMetas, Header.Grants, payer, authority, writable, readonly, List.mem_cons,
      List.not_mem_nil, or_false, forall_eq_or_imp, forall_eq] at hg
    simp [Fits, lockupInitializeSlots, rw, ro, prog, tok, lockupInitializeAccts, bind, Except.bind, lockupMetas, merkleMetas, createMetas, withdrawMetas, payer, authority,
      writable, readonly, tokenProgram_of hd, seeds, pure, Except.pure, hg]

theorem merkleInitialize_accts {ids : Ids} {h : Header} {as : List Addr} {c : Merkle.InitializeAccts}
    {x y z : Addr} :
    checkSlots ids h merkleInitializeSlots as = .ok () ∧ merkleInitializeAccts as = .ok c ↔
      (∃ more, as = (merkleMetas ids (.initialize c x y z)).map AccountMeta.addr ++ more) ∧ Header.Grants h (merkleMetas ids (.initialize c x y z)) := by
  rw [checkSlots_ok]
  constructor
  · rintro ⟨h1, h2⟩
    iterate 3 (rcases as with _ | ⟨a, as⟩; · simp [Fits, merkleInitializeSlots, rw, ro, prog, tok] at h1)
    simp only [merkleInitializeAccts, bind, Except.bind, pure, Except.pure] at h2
    cases h2
    simp only [Fits, merkleInitializeSlots, rw, ro, prog, tok] at h1
    simp_all [lockupMetas, merkleMetas, createMetas, withdrawMetas, Header.Grants, payer, authority, writable, readonly]
  · rintro ⟨⟨more, rfl⟩, hg⟩
    simp only [lockupMetas, merkleMetas, createMetas, withdrawMetas, Header.Grants, payer, authority, writable, readonly, List.mem_cons,
      List.not_mem_nil, or_false, forall_eq_or_imp, forall_eq] at hg
    simp [Fits, merkleInitializeSlots, rw, ro, prog, tok, merkleInitializeAccts, bind, Except.bind, lockupMetas, merkleMetas, createMetas, withdrawMetas, payer, authority,
      writable, readonly, seeds, pure, Except.pure, hg]

theorem renounce_accts {ids : Ids} {h : Header} {as : List Addr} {c : Lockup.RenounceAccts} :
    checkSlots ids h renounceSlots as = .ok () ∧ renounceAccts as = .ok c ↔
      (∃ more, as = (lockupMetas ids (.renounce c)).map AccountMeta.addr ++ more) ∧ Header.Grants h (lockupMetas ids (.renounce c)) := by
  rw [checkSlots_ok]
  constructor
  · rintro ⟨h1, h2⟩
    iterate 3 (rcases as with _ | ⟨a, as⟩; · simp [Fits, renounceSlots, rw, ro, prog, tok] at h1)
    simp only [renounceAccts, bind, Except.bind, pure, Except.pure] at h2
    cases h2
    simp only [Fits, renounceSlots, rw, ro, prog, tok] at h1
    simp_all [lockupMetas, merkleMetas, createMetas, withdrawMetas, Header.Grants, payer, authority, writable, readonly]
  · rintro ⟨⟨more, rfl⟩, hg⟩
    simp only [lockupMetas, merkleMetas, createMetas, withdrawMetas, Header.Grants, payer, authority, writable, readonly, List.mem_cons,
      List.not_mem_nil, or_false, forall_eq_or_imp, forall_eq] at hg
    simp [Fits, renounceSlots, rw, ro, prog, tok, renounceAccts, bind, Except.bind, lockupMetas, merkleMetas, createMetas, withdrawMetas, payer, authority,
      writable, readonly, seeds, pure, Except.pure, hg]

theorem lockupCollectFees_accts {ids : Ids} {h : Header} {as : List Addr} {c : Lockup.CollectFeesAccts} :
    checkSlots ids h collectFeesSlots as = .ok () ∧ lockupCollectFeesAccts as = .ok c ↔
      (∃ more, as = (lockupMetas ids (.collectFees c)).map AccountMeta.addr ++ more) ∧ Header.Grants h (lockupMetas ids (.collectFees c)) := by
  rw [checkSlots_ok]
  constructor
  · rintro ⟨h1, h2⟩
    iterate 3 (rcases as with _ | ⟨a, as⟩; · simp [Fits, collectFeesSlots, rw, ro, prog, tok] at h1)
    simp only [lockupCollectFeesAccts, bind, Except.bind, pure, Except.pure] at h2
    cases h2
    simp only [Fits, collectFeesSlots, rw, ro, prog, tok] at h1
    simp_all [lockupMetas, merkleMetas, createMetas, withdrawMetas, Header.Grants, payer, authority, writable, readonly]
  · rintro ⟨⟨more, rfl⟩, hg⟩
    simp only [lockupMetas, merkleMetas, createMetas, withdrawMetas, Header.Grants, payer, authority, writable, readonly, List.mem_cons,
      List.not_mem_nil, or_false, forall_eq_or_imp, forall_eq] at hg
    simp [Fits, collectFeesSlots, rw, ro, prog, tok, lockupCollectFeesAccts, bind, Except.bind, lockupMetas, merkleMetas, createMetas, withdrawMetas, payer, authority,
      writable, readonly, seeds, pure, Except.pure, hg]

theorem merkleCollectFees_accts {ids : Ids} {h : Header} {as : List Addr} {c : Merkle.CollectFeesAccts} :
    checkSlots ids h collectFeesSlots as = .ok () ∧ merkleCollectFeesAccts as = .ok c ↔
      (∃ more, as = (merkleMetas ids (.collectFees c)).map AccountMeta.addr ++ more) ∧ Header.Grants h (merkleMetas ids (.collectFees c)) := by
  rw [checkSlots_ok]
  constructor
  · rintro ⟨h1, h2⟩
    iterate 3 (rcases as with _ | ⟨a, as⟩; · simp [Fits, collectFeesSlots, rw, ro, prog, tok] at h1)
    simp only [merkleCollectFeesAccts, bind, Except.bind, pure, Except.pure] at h2
    cases h2
    simp only [Fits, collectFeesSlots, rw, ro, prog, tok] at h1
    simp_all [lockupMetas, merkleMetas, createMetas, withdrawMetas, Header.Grants, payer, authority, writable, readonly]
  · rintro ⟨⟨more, rfl⟩, hg⟩
    simp only [lockupMetas, merkleMetas, createMetas, withdrawMetas, Header.Grants, payer, authority, writable, readonly, List.mem_cons,
      List.not_mem_nil, or_false, forall_eq_or_imp, forall_eq] at hg
    simp [Fits, collectFeesSlots, rw, ro, prog, tok, merkleCollectFeesAccts, bind, Except.bind, lockupMetas, merkleMetas, createMetas, withdrawMetas, payer, authority,
      writable, readonly, seeds, pure, Except.pure, hg]

end Solsab.Wire
