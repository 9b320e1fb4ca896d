import Verif.Bytes.Pda
import Verif.Proofs.Tree
import Verif.Proofs.Borsh
/-!
# Preimages of derived addresses are unambiguous
-/

namespace Solsab.Pda

open Merkle Sha256 Borsh

theorem prog_ne : lockupId ≠ merkleId ∧ lockupId ≠ metaplexId ∧ lockupId ≠ ataId ∧ merkleId ≠ metaplexId ∧
    merkleId ≠ ataId ∧ metaplexId ≠ ataId ∧ tokenId ≠ token2022Id := by decide +kernel

theorem tokenProgramId_inj {a b : TokenProgram} (h : tokenProgramId a = tokenProgramId b) : a = b := by
  cases a <;> cases b <;> first | rfl | exact absurd h (by decide +kernel)

theorem strip {s s' : Seeds} {b b' : UInt8} (h : s.preimage b = s'.preimage b') :
    s.seeds.flatten = s'.seeds.flatten ∧ b = b' ∧ s.program = s'.program := by
  unfold Seeds.preimage at h
  obtain ⟨h1, _⟩ := List.append_inj' h rfl
  obtain ⟨h2, h3⟩ := List.append_inj' h1 (by rw [s.program.2, s'.program.2])
  obtain ⟨h4, h5⟩ := List.append_inj' h2 rfl
  injection h5 with h5
  exact ⟨h4, h5, Subtype.ext h3⟩

/-- The length of the seeds; with the program it determines the kind (up to the two 19-byte ones). -/
def seedLen : Seeds → Nat
  | .treasury _ => 8
  | .nftCollectionData => 19
  | .nftCollectionMint => 19
  | .streamNftMint _ _ => 63
  | .streamData _ => 43
  | .campaign _ _ _ _ name _ => 120 + name.length
  | .claimReceipt _ _ => 49
  | .metadata _ => 72
  | .edition _ => 79
  | .ata _ _ _ => 96

theorem seeds_length (s : Seeds) : s.seeds.flatten.length = seedLen s := by
  cases s with
  | streamNftMint a n => simp [Seeds.seeds, a.2, leBytes_length, seedLen, ascii]
  | streamData a => simp [Seeds.seeds, a.2, seedLen, ascii]
  | campaign a b c d e f => simp [Seeds.seeds, a.2, b.2, f.2, leBytes_length, seedLen, ascii]; omega
  | claimReceipt a n => simp [Seeds.seeds, a.2, leBytes_length, seedLen, ascii]
  | metadata a => simp [Seeds.seeds, a.2, metaplexId.2, seedLen, ascii]
  | edition a => simp [Seeds.seeds, a.2, metaplexId.2, seedLen, ascii]
  | ata a p b => simp [Seeds.seeds, a.2, b.2, (tokenProgramId p).2, seedLen]
  | _ => simp [Seeds.seeds, seedLen, ascii]

theorem preimage_inj {s s' : Seeds} {b b' : UInt8} (h : s.preimage b = s'.preimage b') : s = s' ∧ b = b' := by
  obtain ⟨h1, h2, h3⟩ := strip h
  refine ⟨?_, h2⟩
  have hl := congrArg List.length h1
  rw [seeds_length, seeds_length] at hl
  have p := prog_ne
  cases s <;> cases s' <;> simp only [seedLen, Seeds.program, progId] at hl h3 <;>
    first
    | rfl
    | omega
    | exact absurd h3 p.1
    | exact absurd h3 p.2.1
    | exact absurd h3 p.2.2.1
    | exact absurd h3 p.2.2.2.1
    | exact absurd h3 p.2.2.2.2.1
    | exact absurd h3 p.2.2.2.2.2.1
    | exact absurd h3.symm p.1
    | exact absurd h3.symm p.2.1
    | exact absurd h3.symm p.2.2.1
    | exact absurd h3.symm p.2.2.2.1
    | exact absurd h3.symm p.2.2.2.2.1
    | exact absurd h3.symm p.2.2.2.2.2.1
    | skip
  case treasury.treasury p q =>
    cases p <;> cases q <;> first | rfl | exact absurd h3 p.1 | (exfalso; revert h3; decide +kernel)
  case nftCollectionData.nftCollectionMint => exact absurd h1 (by decide +kernel)
  case nftCollectionMint.nftCollectionData => exact absurd h1 (by decide +kernel)
  case streamNftMint.streamNftMint a n c m =>
    simp only [Seeds.seeds, List.flatten_cons, List.flatten_nil, List.append_nil] at h1
    obtain ⟨_, h1⟩ := List.append_inj h1 rfl
    obtain ⟨e1, h1⟩ := List.append_inj h1 (by rw [a.2, c.2])
    have e2 := leBytes_inj 16 _ _ (by have := n.2; omega) (by have := m.2; omega) h1
    rw [Subtype.ext e1, Fin.ext e2]
  case streamData.streamData a c =>
    simp only [Seeds.seeds, List.flatten_cons, List.flatten_nil, List.append_nil] at h1
    obtain ⟨_, h1⟩ := List.append_inj h1 rfl
    rw [Subtype.ext h1]
  case campaign.campaign a r st ex nm m a' r' st' ex' nm' m' =>
    simp only [Seeds.seeds, List.flatten_cons, List.flatten_nil, List.append_nil] at h1
    obtain ⟨_, h1⟩ := List.append_inj h1 rfl
    obtain ⟨e1, h1⟩ := List.append_inj h1 (by rw [a.2, a'.2])
    obtain ⟨e2, h1⟩ := List.append_inj h1 (by rw [r.2, r'.2])
    obtain ⟨e3, h1⟩ := List.append_inj h1 (by rw [leBytes_length, leBytes_length])
    obtain ⟨e4, h1⟩ := List.append_inj h1 (by rw [leBytes_length, leBytes_length])
    obtain ⟨e5, h1⟩ := List.append_inj h1 (by omega)
    have e3 := leBytes_inj 8 _ _ (by have := st.toNat_lt; omega) (by have := st'.toNat_lt; omega) e3
    have e4 := leBytes_inj 8 _ _ (by have := ex.toNat_lt; omega) (by have := ex'.toNat_lt; omega) e4
    rw [Subtype.ext e1, Subtype.ext e2, UInt64.toNat.inj e3, UInt64.toNat.inj e4, e5, Subtype.ext h1]
  case claimReceipt.claimReceipt a n c m =>
    simp only [Seeds.seeds, List.flatten_cons, List.flatten_nil, List.append_nil] at h1
    obtain ⟨_, h1⟩ := List.append_inj h1 rfl
    obtain ⟨e1, h1⟩ := List.append_inj h1 (by rw [a.2, c.2])
    have e2 := leBytes_inj 4 _ _ (by have := n.toNat_lt; omega) (by have := m.toNat_lt; omega) h1
    rw [Subtype.ext e1, UInt32.toNat.inj e2]
  case metadata.metadata a c =>
    simp only [Seeds.seeds, List.flatten_cons, List.flatten_nil, List.append_nil] at h1
    obtain ⟨_, h1⟩ := List.append_inj h1 rfl
    obtain ⟨_, h1⟩ := List.append_inj h1 rfl
    rw [Subtype.ext h1]
  case edition.edition a c =>
    simp only [Seeds.seeds, List.flatten_cons, List.flatten_nil, List.append_nil] at h1
    obtain ⟨_, h1⟩ := List.append_inj h1 rfl
    obtain ⟨_, h1⟩ := List.append_inj h1 rfl
    obtain ⟨e1, _⟩ := List.append_inj h1 (by rw [a.2, c.2])
    rw [Subtype.ext e1]
  case ata.ata o tp m o' tp' m' =>
    simp only [Seeds.seeds, List.flatten_cons, List.flatten_nil, List.append_nil] at h1
    obtain ⟨e1, h1⟩ := List.append_inj h1 (by rw [o.2, o'.2])
    obtain ⟨e2, h1⟩ := List.append_inj h1 (by rw [(tokenProgramId tp).2, (tokenProgramId tp').2])
    rw [Subtype.ext e1, tokenProgramId_inj (Subtype.ext e2), Subtype.ext h1]

end Solsab.Pda
