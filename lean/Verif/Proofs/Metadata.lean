import Verif.Proofs.Base58
import Verif.Spec.Metadata
/-!
# The text of an address satisfies its specification
-/

namespace Solsab

open Spec Base58

theorem addressText (key : Bytes32) : IsAddressText key (encode key.val) := by
  obtain ⟨h1, _, h3, _, _⟩ := digitsAux_spec (valueBE key.val) (valueBE key.val) (Nat.le_refl _)
  have hh := digitsAux_head (valueBE key.val) (valueBE key.val) (Nat.le_refl _)
  constructor
  · show (encode key.val).foldl (fun acc c => do
      let v ← acc
      let d ← alphabet.idxOf? c
      pure (58 * v + d)) (some 0) = _
    rw [value_comm, encode, value_ones, digits, value_map _ h3, h1]
    simp [valueBE]
  · rw [encode, takeWhile_ones]
    intro c cs he
    cases hr : (digitsAux (valueBE key.val) (valueBE key.val)).reverse with
    | nil => simp only [digits, hr] at he; cases he
    | cons d ds =>
      simp only [digits, hr, List.map_cons, List.cons.injEq] at he
      have hd : d < 58 := h3 d (by rw [← List.mem_reverse, hr]; exact List.mem_cons_self ..)
      rw [← he.1]
      intro h
      exact hh d ds hr ((alphabet_one ⟨d, hd⟩).1 h)

theorem addressText_inj {k k' : Bytes32} {text : List Char} (h : IsAddressText k text) (h' : IsAddressText k' text) :
    k = k' := by
  have := h.1.symm.trans h'.1
  injection this with this
  rw [value_comm, value_comm] at this
  exact Subtype.ext (valueBE_inj (by rw [k.2, k'.2]) this)

theorem nftName_spec {key : Bytes32} {name : List Char} (h : nftName key = .ok name) :
    IsNftName (encode key.val) name := by
  simp only [nftName, bind_ok, require_ok, subU64_ok] at h
  obtain ⟨_, _, off, ⟨_, rfl⟩, h1⟩ := h
  cases h1
  rfl

end Solsab
