import Verif.Bytes.Base58
import Mathlib.Tactic.Ring
/-!
# Length of the base58 text of a key
-/

namespace Solsab.Base58

theorem valueBE_append (l : List UInt8) (b : UInt8) : valueBE (l ++ [b]) = valueBE l * 256 + b.toNat := by
  simp [valueBE, List.foldl_append]

theorem foldl_value (l : List UInt8) (a : Nat) :
    l.foldl (fun acc b => acc * 256 + b.toNat) a = a * 256 ^ l.length + valueBE l := by
  induction l generalizing a with
  | nil => simp [valueBE]
  | cons b l ih =>
    have h1 := ih (a * 256 + b.toNat)
    have h2 := ih (0 * 256 + b.toNat)
    simp only [valueBE, List.foldl_cons, List.length_cons] at *
    rw [h1, h2]
    ring

theorem valueBE_cons (b : UInt8) (l : List UInt8) : valueBE (b :: l) = b.toNat * 256 ^ l.length + valueBE l := by
  have := foldl_value l (0 * 256 + b.toNat)
  simp only [valueBE, List.foldl_cons] at *
  rw [this]; simp

theorem valueBE_lt (l : List UInt8) : valueBE l < 256 ^ l.length := by
  induction l with
  | nil => simp [valueBE]
  | cons b l ih =>
    rw [valueBE_cons, List.length_cons, Nat.pow_succ]
    have hb : b.toNat < 256 := b.toNat_lt
    have : b.toNat * 256 ^ l.length ≤ 255 * 256 ^ l.length := Nat.mul_le_mul_right _ (by omega)
    omega

/-- The value of a key with `z` leading zero bytes. -/
theorem valueBE_zeros (l : List UInt8) :
    valueBE l < 256 ^ (l.length - (l.takeWhile (· = 0)).length) ∧
    (l.takeWhile (· = 0)).length ≤ l.length ∧
    ((l.takeWhile (· = 0)).length < l.length →
      256 ^ (l.length - (l.takeWhile (· = 0)).length - 1) ≤ valueBE l) := by
  induction l with
  | nil => simp [valueBE]
  | cons b l ih =>
    obtain ⟨h1, h2, h3⟩ := ih
    by_cases hb : b = 0
    · subst hb
      have hv : valueBE ((0 : UInt8) :: l) = valueBE l := by rw [valueBE_cons]; simp
      have ht : (((0 : UInt8) :: l).takeWhile (· = 0)).length = (l.takeWhile (· = 0)).length + 1 := by simp
      rw [hv, ht, List.length_cons]
      refine ⟨by rw [Nat.add_sub_add_right]; exact h1, by omega, fun h => ?_⟩
      rw [Nat.add_sub_add_right]; exact h3 (by omega)
    · have ht : (b :: l).takeWhile (· = 0) = [] := by simp [hb]
      rw [ht]
      refine ⟨by simpa using valueBE_lt (b :: l), by simp, fun _ => ?_⟩
      have hb' : 0 < b.toNat := by
        rcases Nat.eq_zero_or_pos b.toNat with h | h
        · exact absurd (UInt8.toNat_inj.1 (by simpa using h)) hb
        · exact h
      rw [valueBE_cons]
      have : 1 * 256 ^ l.length ≤ b.toNat * 256 ^ l.length := Nat.mul_le_mul_right _ hb'
      simp only [List.length_nil, List.length_cons, Nat.sub_zero, Nat.add_sub_cancel]
      omega

/-- The value written by base-58 digits, least significant first. -/
def ofDigits : List Nat → Nat
  | [] => 0
  | d :: ds => d + 58 * ofDigits ds

theorem digitsAux_spec (fuel n : Nat) (h : n ≤ fuel) :
    ofDigits (digitsAux fuel n) = n ∧ n < 58 ^ (digitsAux fuel n).length ∧
    (∀ d ∈ digitsAux fuel n, d < 58) ∧ (0 < n → 58 ^ ((digitsAux fuel n).length - 1) ≤ n) ∧
    (n = 0 → (digitsAux fuel n).length = 0) := by
  induction fuel generalizing n with
  | zero =>
    have : n = 0 := by omega
    subst this
    simp [digitsAux, ofDigits]
  | succ fuel ih =>
    unfold digitsAux
    by_cases hn : n = 0
    · subst hn; simp [ofDigits]
    rw [if_neg hn]
    have hlt : n / 58 < n := Nat.div_lt_self (by omega) (by omega)
    obtain ⟨h1, h2, h3, h4, _⟩ := ih (n / 58) (by omega)
    refine ⟨?_, ?_, ?_, ?_, fun h => absurd h hn⟩
    · simp only [ofDigits, h1]; omega
    · rw [List.length_cons, Nat.pow_succ]; omega
    · intro d hd
      rcases List.mem_cons.1 hd with rfl | hd
      · exact Nat.mod_lt _ (by omega)
      · exact h3 d hd
    · intro _
      simp only [List.length_cons, Nat.add_sub_cancel]
      rcases Nat.eq_zero_or_pos (n / 58) with h0 | h0
      · rw [h0]
        have : digitsAux fuel 0 = [] := by cases fuel <;> simp [digitsAux]
        rw [this]; simp; omega
      · have h5 := h4 h0
        have h6 : 0 < (digitsAux fuel (n / 58)).length := by
          rcases Nat.eq_zero_or_pos (digitsAux fuel (n / 58)).length with h | h
          · rw [h] at h2; simp at h2; omega
          · exact h
        obtain ⟨k, hk⟩ : ∃ k, (digitsAux fuel (n / 58)).length = k + 1 :=
          ⟨(digitsAux fuel (n / 58)).length - 1, by omega⟩
        rw [hk] at h5 ⊢
        simp only [Nat.add_sub_cancel] at h5
        rw [Nat.pow_succ]; omega

/-- The text of a 32-byte key has between 32 and 44 characters. -/
theorem encode_length (key : Bytes32) : 32 ≤ (encode key.val).length ∧ (encode key.val).length ≤ 44 := by
  obtain ⟨l, hl⟩ := key
  obtain ⟨h1, h2, h3⟩ := valueBE_zeros l
  obtain ⟨_, d1, _, d2, d3⟩ := digitsAux_spec (valueBE l) (valueBE l) (Nat.le_refl _)
  simp only [encode, List.length_append, List.length_map, List.length_reverse, digits]
  generalize (l.takeWhile (· = 0)).length = z at *
  generalize (digitsAux (valueBE l) (valueBE l)).length = k at *
  generalize valueBE l = v at *
  rw [hl] at *
  constructor
  · rcases Nat.lt_or_ge z 32 with hz | hz
    · have h4 := h3 hz
      have h5 : 58 ^ (32 - z - 1) ≤ 256 ^ (32 - z - 1) := Nat.pow_le_pow_left (by omega) _
      have h6 : 58 ^ (32 - z - 1) < 58 ^ k := by omega
      have := (Nat.pow_lt_pow_iff_right (by omega : 1 < 58)).1 h6
      omega
    · omega
  · rcases Nat.eq_zero_or_pos v with hv | hv
    · have := d3 hv; omega
    · have h4 := d2 hv
      by_contra hc
      have h5 : 58 ^ (44 - z) ≤ 58 ^ (k - 1) := Nat.pow_le_pow_right (by omega) (by omega)
      have h6 : 58 ^ (44 - z) < 256 ^ (32 - z) := by omega
      have h7 : 58 ^ (44 - z) * 58 ^ z < 256 ^ (32 - z) * 256 ^ z :=
        Nat.mul_lt_mul_of_lt_of_le h6 (Nat.pow_le_pow_left (by omega) _) (Nat.pow_pos (by omega))
      rw [← Nat.pow_add, ← Nat.pow_add, Nat.sub_add_cancel (by omega), Nat.sub_add_cancel h2] at h7
      revert h7; decide

/-! ## The text determines the key -/

theorem alphabet_idx : ∀ d : Fin 58, alphabet.idxOf? (alphabet.getD d.val '?') = some d.val := by decide +kernel

theorem alphabet_one : ∀ d : Fin 58, alphabet.getD d.val '?' = '1' ↔ d.val = 0 := by decide +kernel

theorem value_map (ds : List Nat) (h : ∀ d ∈ ds, d < 58) (a : Nat) :
    (ds.reverse.map (fun d => alphabet.getD d '?')).foldl (fun acc c => do
      let v ← acc
      let d ← alphabet.idxOf? c
      pure (58 * v + d)) (some a) = some (a * 58 ^ ds.length + ofDigits ds) := by
  induction ds generalizing a with
  | nil => simp [ofDigits]
  | cons d ds ih =>
    rw [List.reverse_cons, List.map_append, List.foldl_append, ih (fun d hd => h d (List.mem_cons_of_mem _ hd))]
    have hd := alphabet_idx ⟨d, h d (List.mem_cons_self ..)⟩
    simp only [List.map_cons, List.map_nil, List.foldl_cons, List.foldl_nil, hd, Option.bind_eq_bind,
      Option.bind_some, Option.pure_def, ofDigits, List.length_cons]
    congr 1
    ring

theorem value_ones (l : List UInt8) (rest : List Char) :
    ((l.map (fun _ => '1')) ++ rest).foldl (fun acc c => do
      let v ← acc
      let d ← alphabet.idxOf? c
      pure (58 * v + d)) (some 0) = rest.foldl (fun acc c => do
      let v ← acc
      let d ← alphabet.idxOf? c
      pure (58 * v + d)) (some 0) := by
  induction l with
  | nil => rfl
  | cons b l ih =>
    rw [List.map_cons, List.cons_append, List.foldl_cons]
    exact ih

/-- The most significant digit is not zero. -/
theorem digitsAux_head (fuel n : Nat) (h : n ≤ fuel) : ∀ d ds, (digitsAux fuel n).reverse = d :: ds → d ≠ 0 := by
  induction fuel generalizing n with
  | zero => intro d ds he; simp [digitsAux] at he
  | succ fuel ih =>
    intro d ds he
    unfold digitsAux at he
    by_cases hn : n = 0
    · rw [if_pos hn] at he; cases he
    rw [if_neg hn, List.reverse_cons] at he
    cases hr : (digitsAux fuel (n / 58)).reverse with
    | nil =>
      rw [hr] at he
      have h1 := (digitsAux_spec fuel (n / 58) (by omega)).1
      have h2 : digitsAux fuel (n / 58) = [] := by simpa using hr
      rw [h2] at h1
      simp only [ofDigits] at h1
      simp only [List.nil_append, List.cons.injEq] at he
      omega
    | cons d' ds' =>
      rw [hr] at he
      simp only [List.cons_append, List.cons.injEq] at he
      rw [← he.1]
      exact ih (n / 58) (by omega) _ _ hr

theorem takeWhile_ones (l : List UInt8) (rest : List Char) (h : ∀ c cs, rest = c :: cs → c ≠ '1') :
    (((l.map (fun _ => '1')) ++ rest).takeWhile (· = '1')).length = l.length := by
  induction l with
  | nil =>
    cases rest with
    | nil => rfl
    | cons c cs => simp [h c cs rfl]
  | cons b l ih =>
    rw [List.map_cons, List.cons_append, List.takeWhile_cons_of_pos (by simp), List.length_cons, ih, List.length_cons]

theorem value_comm (l : List UInt8) (a : Nat) :
    l.foldl (fun v b => 256 * v + b.toNat) a = l.foldl (fun acc b => acc * 256 + b.toNat) a := by
  induction l generalizing a with
  | nil => rfl
  | cons b l ih => simp only [List.foldl_cons]; rw [ih, Nat.mul_comm]

theorem valueBE_inj {l l' : List UInt8} (hl : l.length = l'.length) (h : valueBE l = valueBE l') : l = l' := by
  induction l generalizing l' with
  | nil => cases l' with
    | nil => rfl
    | cons => cases hl
  | cons b l ih =>
    cases l' with
    | nil => cases hl
    | cons b' l' =>
      simp only [List.length_cons, Nat.add_right_cancel_iff] at hl
      rw [valueBE_cons, valueBE_cons, ← hl] at h
      have h1 := valueBE_lt l
      have h2 := valueBE_lt l'
      rw [← hl] at h2
      have hp : 0 < 256 ^ l.length := Nat.pow_pos (by omega)
      have e1 : (b.toNat * 256 ^ l.length + valueBE l) / 256 ^ l.length = b.toNat := by
        rw [Nat.mul_comm, Nat.mul_add_div hp, Nat.div_eq_of_lt h1, Nat.add_zero]
      have e2 : (b'.toNat * 256 ^ l.length + valueBE l') / 256 ^ l.length = b'.toNat := by
        rw [Nat.mul_comm, Nat.mul_add_div hp, Nat.div_eq_of_lt h2, Nat.add_zero]
      have e3 : b.toNat = b'.toNat := by rw [← e1, ← e2, h]
      rw [e3] at h
      rw [UInt8.toNat_inj.1 e3, ih hl (by omega)]

end Solsab.Base58
