import Mathlib.Algebra.Order.Field.Rat
import Mathlib.Data.List.DropRight
import Mathlib.Data.List.TakeWhile
import Mathlib.Tactic.FieldSimp
import Mathlib.Tactic.Linarith
import Mathlib.Tactic.Positivity
import Mathlib.Tactic.Ring
import Mathlib.Tactic.IntervalCases
import Verif.Convertors
import Verif.Scripts
import Verif.Spec.Convert
/-!
# C97: amounts as clients write them
-/

namespace Solsab.Props

open Spec Convert

/-! ## Rows of digits -/

theorem bigInt_eq (s : List Char) : bigInt s = Nat.ofDigitChars 10 s 0 := by
  rw [Nat.ofDigitChars_eq_foldl]; rfl

theorem bigInt_append (a b : List Char) : bigInt (a ++ b) = bigInt a * 10 ^ b.length + bigInt b := by
  rw [bigInt_eq, bigInt_eq, bigInt_eq, Nat.ofDigitChars_append, Nat.ofDigitChars_eq_ofDigitChars_zero, Nat.mul_comm]

theorem bigInt_zeros (k : Nat) : bigInt (List.replicate k '0') = 0 := by
  rw [bigInt_eq, Nat.ofDigitChars_replicate_zero, Nat.mul_zero]

theorem bigInt_toDigits (n : Nat) : bigInt (Nat.toDigits 10 n) = n := by
  rw [bigInt_eq, Nat.ofDigitChars_ten_toDigits]

theorem bigInt_digit (d : Fin 10) : bigInt [digit d] = d.val := by
  revert d; decide

theorem digit_isDigit (d : Fin 10) : (digit d).isDigit = true := by
  revert d; decide

theorem digit_ne_minus (d : Fin 10) : digit d ≠ '-' := by
  revert d; decide

theorem digit_zero (d : Fin 10) : digit d = '0' ↔ d = 0 := by
  revert d; decide

theorem ge5 {d : Fin 10} : 5 ≤ d → '5' ≤ digit d := by
  revert d; decide

theorem le3 {d : Fin 10} : d ≤ 3 → digit d ≤ '3' := by
  revert d; decide

theorem numeral_nil : numeral [] = 0 := rfl

theorem numeral_append (a b : List (Fin 10)) : numeral (a ++ b) = numeral a * 10 ^ b.length + numeral b := by
  simp only [numeral, List.reverse_append, List.map_append, Nat.ofDigits_append, List.length_map, List.length_reverse]
  ring

theorem bigInt_map (ds : List (Fin 10)) : bigInt (ds.map digit) = numeral ds := by
  induction ds with
  | nil => rfl
  | cons d ds ih =>
    have h1 := bigInt_append [digit d] (ds.map digit)
    have h2 := numeral_append [d] ds
    have h3 : numeral [d] = d.val := by simp [numeral]
    rw [List.singleton_append] at h1 h2
    rw [List.map_cons, h1, h2, ih, bigInt_digit, h3, List.length_map]

theorem numeral_lt (ds : List (Fin 10)) : numeral ds < 10 ^ ds.length := by
  have := Nat.ofDigits_lt_base_pow_length (b := 10) (l := ds.reverse.map Fin.val) (by decide) (by
    intro x hx
    obtain ⟨d, -, rfl⟩ := List.mem_map.mp hx
    exact d.isLt)
  simpa [numeral] using this

/-- A character that is a digit is the character of one. -/
theorem isDigit_digit {c : Char} (h : c.isDigit = true) : ∃ d, digit d = c := by
  have h1 : 48 ≤ c.toNat ∧ c.toNat ≤ 57 := by
    simp only [Char.isDigit, Bool.and_eq_true, decide_eq_true_eq] at h
    exact ⟨h.1, h.2⟩
  have hc : Char.ofNat c.toNat = c := Char.ofNat_toNat c
  have key : ∀ n, 48 ≤ n ∧ n ≤ 57 → ∃ d, digit d = Char.ofNat n := by
    rintro n ⟨h1, h2⟩
    refine ⟨⟨n - 48, by omega⟩, ?_⟩
    interval_cases n <;> rfl
  rw [← hc]
  exact key _ h1

theorem all_digits {s : List Char} (h : ∀ c ∈ s, c.isDigit = true) : ∃ ds : List (Fin 10), ds.map digit = s := by
  induction s with
  | nil => exact ⟨[], rfl⟩
  | cons c s ih =>
    obtain ⟨d, hd⟩ := isDigit_digit (h c (List.mem_cons_self ..))
    obtain ⟨ds, hds⟩ := ih fun c hc => h c (List.mem_cons_of_mem _ hc)
    exact ⟨d :: ds, by rw [List.map_cons, hd, hds]⟩

/-! ## Taking a text apart -/

theorem takeWhile_digits (ds : List (Fin 10)) {r : List Char} (h : ∀ c ∈ r.head?, c.isDigit = false) :
    (ds.map digit ++ r).takeWhile Char.isDigit = ds.map digit ∧ (ds.map digit ++ r).dropWhile Char.isDigit = r := by
  induction ds with
  | nil =>
    cases r with
    | nil => exact ⟨rfl, rfl⟩
    | cons c r =>
      have hc := h c rfl
      simp [hc]
  | cons d ds ih => simp [digit_isDigit, ih.1, ih.2]

/-- The characters after the point; `"0"` if there is none. -/
def fracText (x : Decimal) : List Char := (x.frac.map (·.map digit)).getD ['0']

/-- The point and what follows it. -/
def tail : Option (List (Fin 10)) → List Char
  | none => []
  | some f => '.' :: f.map digit

theorem write_eq (x : Decimal) : x.write = (if x.neg then ['-'] else []) ++ (x.int.map digit ++ tail x.frac) := by
  obtain ⟨neg, int, frac⟩ := x
  cases frac <;> simp [Decimal.write, tail]

theorem split_write (x : Decimal) : split x.write = some (x.neg, x.int.map digit, fracText x) := by
  obtain ⟨neg, int, frac⟩ := x
  have hbody : ∀ neg : Bool,
      (match (int.map digit ++ tail frac).dropWhile Char.isDigit with
      | [] => some (neg, (int.map digit ++ tail frac).takeWhile Char.isDigit, ['0'])
      | '.' :: frac' => if frac'.all Char.isDigit then
          some (neg, (int.map digit ++ tail frac).takeWhile Char.isDigit, frac')
          else none
      | _ => none) = some (neg, int.map digit, fracText ⟨neg, int, frac⟩) := by
    intro neg
    have h := takeWhile_digits int (r := tail frac) (by
      cases frac with
      | none => intro c hc; cases hc
      | some f => intro c hc; cases hc; decide)
    rw [h.1, h.2]
    cases frac with
    | none => rfl
    | some f =>
      have : (f.map digit).all Char.isDigit = true := by
        rw [List.all_eq_true]; intro c hc
        obtain ⟨d, -, rfl⟩ := List.mem_map.mp hc
        exact digit_isDigit d
      show (if (f.map digit).all Char.isDigit = true then some (neg, int.map digit, f.map digit) else none) = _
      rw [if_pos this]; rfl
  rw [write_eq]
  cases neg with
  | true => exact hbody true
  | false =>
    have h0 : ∀ s, (int.map digit ++ tail frac) ≠ '-' :: s := by
      intro s hs
      cases int with
      | nil =>
        cases frac with
        | none => cases hs
        | some f => simp [tail] at hs
      | cons d int => simp [digit_ne_minus] at hs
    have h1 := hbody false
    show split (int.map digit ++ tail frac) = _
    generalize int.map digit ++ tail frac = t at h0 h1 ⊢
    cases t with
    | nil => exact h1
    | cons c t =>
      have : c ≠ '-' := fun e => h0 t (by rw [e])
      unfold split
      split
      rename_i heq
      split at heq
      · rename_i e; cases e; exact absurd rfl this
      · cases heq; exact h1

theorem split_some {s : List Char} {neg int frac} (h : split s = some (neg, int, frac)) :
    ∃ x : Decimal, s = x.write ∧ x.neg = neg ∧ x.int.map digit = int ∧ fracText x = frac := by
  have hbody : ∀ t : List Char, (match t.dropWhile Char.isDigit with
      | [] => some (neg, t.takeWhile Char.isDigit, ['0'])
      | '.' :: frac' => if frac'.all Char.isDigit then some (neg, t.takeWhile Char.isDigit, frac') else none
      | _ => none) = some (neg, int, frac) →
      ∃ x : Decimal, (if neg then ['-'] else []) ++ t = x.write ∧ x.neg = neg ∧ x.int.map digit = int ∧ fracText x = frac := by
    intro t ht
    obtain ⟨ds, hds⟩ := all_digits (s := t.takeWhile Char.isDigit) fun c hc => List.mem_takeWhile_imp hc
    have hd := List.takeWhile_append_dropWhile (p := Char.isDigit) (l := t)
    split at ht
    · rename_i he
      cases ht
      refine ⟨⟨neg, ds, none⟩, ?_, rfl, hds, rfl⟩
      rw [he, List.append_nil] at hd
      simp [Decimal.write, hds, hd]
    · rename_i f he
      split at ht
      · rename_i hf
        cases ht
        obtain ⟨fs, hfs⟩ := all_digits (s := frac) fun c hc => List.all_eq_true.mp hf c hc
        refine ⟨⟨neg, ds, some fs⟩, ?_, rfl, hds, hfs⟩
        rw [he] at hd
        simp [Decimal.write, hds, hfs, hd]
      · cases ht
    · cases ht
  unfold split at h
  split at h
  rename_i neg' t heq
  split at heq
  · cases heq
    have hn : neg = true := by
      revert h; split <;> (try split) <;> intro h <;> cases h <;> rfl
    subst hn
    exact hbody _ h
  · cases heq
    have hn : neg = false := by
      revert h; split <;> (try split) <;> intro h <;> cases h <;> rfl
    subst hn
    exact hbody _ h

/-! ## The trailing zeros -/

/-- The places without their trailing zeros. -/
def kept (x : Decimal) : List (Fin 10) := (x.places.reverse.dropWhile (· = 0)).reverse

theorem trim_map (ds : List (Fin 10)) : trim (ds.map digit) = ((ds.reverse.dropWhile (· = 0)).reverse).map digit := by
  unfold trim
  rw [← List.map_reverse, List.dropWhile_map, ← List.map_reverse]
  congr 3
  funext d
  simp [digit_zero]

theorem trim_frac (x : Decimal) : trim (fracText x) = (kept x).map digit := by
  obtain ⟨neg, int, frac⟩ := x
  cases frac with
  | none => rfl
  | some f => exact trim_map f

theorem kept_zeros (x : Decimal) : ∃ k, x.places = kept x ++ List.replicate k 0 := by
  refine ⟨(x.places.reverse.takeWhile (· = 0)).length, ?_⟩
  have h : x.places.reverse.takeWhile (· = 0) = List.replicate (x.places.reverse.takeWhile (· = 0)).length 0 := by
    rw [List.eq_replicate_iff]
    exact ⟨rfl, fun b hb => by simpa using List.mem_takeWhile_imp hb⟩
  have h2 := congrArg List.reverse (List.takeWhile_append_dropWhile (p := (· = (0 : Fin 10))) (l := x.places.reverse))
  rw [List.reverse_append, List.reverse_reverse] at h2
  rw [← List.reverse_replicate, ← h]
  exact h2.symm

theorem numeral_zeros (k : Nat) : numeral (List.replicate k 0) = 0 := by
  rw [← bigInt_map, List.map_replicate]; exact bigInt_zeros k

/-- The value is that of the places kept. -/
theorem value_kept (x : Decimal) :
    x.value = (if x.neg then -1 else 1) * (numeral x.int + numeral (kept x) / 10 ^ (kept x).length) := by
  obtain ⟨k, hk⟩ := kept_zeros x
  unfold Decimal.value
  congr 2
  rw [hk, numeral_append, numeral_zeros, List.length_append, List.length_replicate]
  push_cast
  field_simp
  ring

/-! ## Scaling -/

theorem toDigits_pow (d : Nat) : Nat.toDigits 10 (10 ^ d) = '1' :: List.replicate d '0' := by
  induction d with
  | zero => rfl
  | succ d ih =>
    have hp : 0 < 10 ^ d := Nat.pow_pos (by decide)
    rw [Nat.pow_succ, Nat.toDigits_of_base_le (by decide) (by omega), Nat.mul_div_cancel _ (by decide), ih,
      Nat.mul_mod_left]
    show '1' :: (List.replicate d '0' ++ ['0']) = _
    rw [← List.replicate_succ']

theorem length_toDigits {n k : Nat} (hk : 0 < k) (h : n < 10 ^ k) : (Nat.toDigits 10 n).length ≤ k :=
  (Nat.length_toDigits_le_iff (by decide) hk).mpr h

theorem bigInt_padStart (k n : Nat) : bigInt (padStart k n) = n := by
  show bigInt (List.replicate _ '0' ++ _) = n
  rw [bigInt_append, bigInt_zeros, bigInt_toDigits, Nat.zero_mul, Nat.zero_add]

theorem length_padStart {k n : Nat} (hk : 0 < k) (h : n < 10 ^ k) : (padStart k n).length = k := by
  have := length_toDigits hk h
  show (List.replicate _ '0' ++ _).length = k
  rw [List.length_append, List.length_replicate]
  omega

/-- The number read: exact if the places kept fit, and rounded at the last place otherwise. -/
theorem scale_eq (j : Rounding) (int t : List (Fin 10)) (d : Nat) :
    let p := scale j (int.map digit) (t.map digit) d
    (t.length ≤ d → bigInt (p.1 ++ p.2) = numeral int * 10 ^ d + numeral t * 10 ^ (d - t.length)) ∧
    (0 < d → d < t.length → ∃ (p' : List (Fin 10)) (c : Fin 10) (r : List (Fin 10)), t = p' ++ c :: r ∧ p'.length = d ∧
      ∃ up : Nat, bigInt (p.1 ++ p.2) = numeral int * 10 ^ d + numeral p' + up ∧ (up = 0 ∨ up = 1) ∧
        (5 ≤ c → up = 1) ∧ (c ≤ 3 → up = 0)) := by
  intro p
  refine ⟨fun hd => ?_, fun h0 h1 => ?_⟩
  · have hp : p = (int.map digit, t.map digit ++ List.replicate (d - t.length) '0') := by
      show scale .. = _
      unfold scale
      rw [List.length_map, if_neg (by omega)]
    rw [hp, bigInt_append, bigInt_append, bigInt_zeros, bigInt_map, bigInt_map, List.length_append, List.length_map,
      List.length_replicate, Nat.add_sub_cancel' hd, Nat.add_zero]
  · obtain ⟨e, rfl⟩ : ∃ e, d = e + 1 := ⟨d - 1, by omega⟩
    have ht : t = t.take e ++ t[e] :: t[e + 1] :: t.drop (e + 2) := by
      rw [List.getElem_cons_drop, List.getElem_cons_drop, List.take_append_drop]
    have hl : (t.take e).length = e := by rw [List.length_take]; omega
    generalize t.take e = l at ht hl
    generalize t[e] = u at ht
    generalize t[e + 1] = c at ht
    generalize t.drop (e + 2) = r at ht
    subst ht
    refine ⟨l ++ [u], c, r, by simp, by simp [hl], j.round u (digit c :: r.map digit) - u, ?_⟩
    have hn := j.near u (digit c :: r.map digit)
    have hu := j.up u (digit c) (r.map digit)
    have hdn := j.down u (digit c) (r.map digit)
    have hp : p = scale j (int.map digit) ((l ++ u :: c :: r).map digit) (e + 1) := rfl
    unfold scale at hp
    rw [if_pos (by simp [hl])] at hp
    have e1 : ((l ++ u :: c :: r).map digit).take (e + 1 - 1) = l.map digit := by
      rw [List.map_append]; exact List.take_left' (by simp [hl])
    have e2 : (((l ++ u :: c :: r).map digit).drop (e + 1 - 1)).take 1 = [digit u] := by
      rw [List.map_append, List.drop_left' (by simp [hl])]; rfl
    have e3 : ((l ++ u :: c :: r).map digit).drop (e + 1) = digit c :: r.map digit := by
      rw [show l ++ u :: c :: r = (l ++ [u]) ++ c :: r by simp, List.map_append, List.drop_left' (by simp [hl])]; rfl
    simp only [e1, e2, e3, bigInt_digit, bigInt_map] at hp
    generalize j.round u (digit c :: r.map digit) = k at hn hu hdn hp
    refine ⟨?_, by omega, fun h => by
      have := hu (ge5 h); omega, fun h => by
      have := hdn (le3 h); omega⟩
    have hun : u.val < 10 := u.isLt
    have hln : numeral l < 10 ^ e := hl ▸ numeral_lt l
    have hlu : numeral (l ++ [u]) = 10 * numeral l + u.val := by
      rw [numeral_append]; simp [numeral, Nat.mul_comm]
    have hpow : 10 ^ (e + 1) = 10 * 10 ^ e := by rw [Nat.pow_succ, Nat.mul_comm]
    by_cases hk : k > 9
    · rw [if_pos hk, List.length_map, hl] at hp
      by_cases hlt : 10 * (numeral l + 1) < 10 ^ (e + 1)
      · have hlen := length_padStart (k := e + 1) (by omega) hlt
        rw [if_neg (by omega), List.take_of_length_le (by omega)] at hp
        rw [hp, bigInt_append, hlen, bigInt_padStart, bigInt_map]
        omega
      · have he : 10 * (numeral l + 1) = 10 ^ (e + 1) := by omega
        have hps : padStart (e + 1) (10 ^ (e + 1)) = '1' :: List.replicate (e + 1) '0' := by
          show List.replicate _ '0' ++ Nat.toDigits 10 _ = _
          rw [toDigits_pow, List.length_cons, List.length_replicate, Nat.sub_eq_zero_of_le (by omega)]; rfl
        rw [he, hps, if_pos (by simp), List.drop_succ_cons, List.drop_zero, List.take_of_length_le (by simp)] at hp
        rw [hp, bigInt_append, bigInt_zeros, List.length_replicate, bigInt_toDigits, Nat.add_mul]
        omega
    · rw [if_neg hk] at hp
      have hlen : (l.map digit ++ padStart 1 k).length = e + 1 := by
        rw [List.length_append, List.length_map, hl, length_padStart (by decide) (by omega)]
      rw [if_neg (by omega), List.take_of_length_le (by omega)] at hp
      rw [hp, bigInt_append, hlen, bigInt_append, bigInt_padStart, length_padStart (by decide) (by omega), bigInt_map,
        bigInt_map]
      omega

theorem parse_eq (j : Rounding) (x : Decimal) (d : Nat) :
    let p := scale j (x.int.map digit) ((kept x).map digit) d
    parseUnits j x.write d = .ok (if x.neg then -(bigInt (p.1 ++ p.2) : Int) else bigInt (p.1 ++ p.2)) := by
  intro p
  unfold parseUnits
  rw [split_write]
  simp only [trim_frac]
  rfl

/-! ## Any number of decimals -/

/-- A number is an amount of whole tokens: it is accepted exactly if it is an integer below 2^53 in magnitude, and comes to
that many tokens exactly. -/
theorem conv_number (j : Rounding) (a : Amount) (d : Nat) (r : Int) (ha : ∀ s, a ≠ .text s) :
    convertTokenAmount j a d = .ok r ↔ ∃ n : Int, a = .integer n ∧ |n| < 2 ^ 53 ∧ r = n * 10 ^ d := by
  cases a with
  | nonInteger => exact ⟨nofun, fun ⟨_, h, _⟩ => nomatch h⟩
  | text s => exact absurd rfl (ha s)
  | integer n =>
    have hn : n.natAbs < 2 ^ 53 ↔ |n| < 2 ^ 53 := by rw [Int.abs_eq_natAbs]; omega
    unfold convertTokenAmount
    constructor
    · intro h
      by_cases hl : n.natAbs < 2 ^ 53
      · simp only [hl, if_true] at h
        exact ⟨n, rfl, hn.mp hl, (Except.ok.inj h).symm⟩
      · simp only [hl, if_false] at h; cases h
    · rintro ⟨m, hm, hl, rfl⟩
      cases hm
      simp only [hn.mpr hl, if_true]

/-- A text is accepted exactly if it is a decimal number, written with an optional minus sign, digits and at most one
point. -/
theorem conv_text_accepted (j : Rounding) (s : List Char) (d : Nat) :
    (∃ r, convertTokenAmount j (.text s) d = .ok r) ↔ ∃ x : Decimal, s = x.write := by
  constructor
  · rintro ⟨r, h⟩
    unfold convertTokenAmount parseUnits at h
    simp only at h
    cases hs : split s with
    | none => rw [hs] at h; cases h
    | some q =>
      obtain ⟨neg, int, frac⟩ := q
      obtain ⟨x, hx, -⟩ := split_some hs
      exact ⟨x, hx⟩
  · rintro ⟨x, rfl⟩
    exact ⟨_, parse_eq j x d⟩

theorem exact_of_kept (j : Rounding) (x : Decimal) (d : Nat) (hk : (kept x).length ≤ d) :
    ∃ r : Int, convertTokenAmount j (.text x.write) d = .ok r ∧ (r : ℚ) = x.value * 10 ^ d := by
  refine ⟨_, parse_eq j x d, ?_⟩
  rw [(scale_eq j x.int (kept x) d).1 hk, value_kept]
  have h1 : (10 : ℚ) ^ d = 10 ^ (d - (kept x).length) * 10 ^ (kept x).length := by
    rw [← pow_add, Nat.sub_add_cancel hk]
  cases x.neg <;> simp only [Bool.false_eq_true, if_false, if_true] <;> push_cast <;> rw [h1] <;> field_simp

/-- A decimal number whose places after the `d`-th are zeros comes to exactly its value in base units. -/
theorem conv_text_exact (j : Rounding) (x : Decimal) (d : Nat) (hx : ∀ c ∈ x.places.drop d, c = 0) :
    ∃ r : Int, convertTokenAmount j (.text x.write) d = .ok r ∧ (r : ℚ) = x.value * 10 ^ d := by
  refine exact_of_kept j x d ?_
  by_contra hk
  have hne : kept x ≠ [] := fun e => hk (by rw [e]; exact Nat.zero_le d)
  have hl := List.rdropWhile_last_not (p := fun d : Fin 10 => decide (d = 0)) x.places hne
  have hlast : (kept x).getLast hne ∈ (kept x).drop d := by
    have := List.getLast_drop (l := kept x) (i := d) (by simp; omega)
    rw [← this]
    exact List.getLast_mem _
  obtain ⟨k, hz⟩ := kept_zeros x
  have hz' : x.places.drop d = (kept x).drop d ++ (List.replicate k 0).drop (d - (kept x).length) := by
    conv_lhs => rw [hz, List.drop_append]
  refine hl (decide_eq_true (hx _ ?_))
  rw [hz']
  exact List.mem_append_left _ hlast

/-- Any other decimal number comes to its value in base units, rounded: the result is off by three fifths of a base unit at
most. -/
theorem conv_text_close (j : Rounding) (x : Decimal) (d : Nat) (hd : 0 < d) :
    ∃ r : Int, convertTokenAmount j (.text x.write) d = .ok r ∧ |(r : ℚ) - x.value * 10 ^ d| ≤ 3 / 5 := by
  by_cases hk : (kept x).length ≤ d
  · obtain ⟨r, hr, he⟩ := exact_of_kept j x d hk
    exact ⟨r, hr, by rw [he, sub_self, abs_zero]; norm_num⟩
  refine ⟨_, parse_eq j x d, ?_⟩
  obtain ⟨p, c, r, hkp, hp, up, hup, h01, h5, h3⟩ := (scale_eq j x.int (kept x) d).2 hd (by omega)
  rw [hup, value_kept, hkp]
  have hv : (numeral (p ++ c :: r) : ℚ) / 10 ^ (p ++ c :: r).length * 10 ^ d
      = numeral p + (c.val + (numeral r : ℚ) / 10 ^ r.length) / 10 := by
    have hc : numeral (c :: r) = c.val * 10 ^ r.length + numeral r := by
      have := numeral_append [c] r
      rw [List.singleton_append] at this
      rw [this]; simp [numeral]
    rw [numeral_append, hc, List.length_append, List.length_cons, hp]
    push_cast
    field_simp
    ring
  have hr : 0 ≤ (numeral r : ℚ) / 10 ^ r.length ∧ (numeral r : ℚ) / 10 ^ r.length ≤ 1 := by
    refine ⟨by positivity, (div_le_one (by positivity)).mpr ?_⟩
    exact_mod_cast (numeral_lt r).le
  generalize (numeral r : ℚ) / 10 ^ r.length = ρ at hv hr
  have key : |(up : ℚ) - (c.val + ρ) / 10| ≤ 3 / 5 := by
    have h5' : (5 : ℕ) ≤ c.val → up = 1 := fun h => h5 h
    have h3' : c.val ≤ 3 → up = 0 := fun h => h3 h
    have hc := c.isLt
    generalize c.val = m at h5' h3' hc
    rw [abs_le]
    obtain ⟨hr0, hr1⟩ := hr
    rcases h01 with rfl | rfl <;> interval_cases m <;> simp at h5' h3' <;> push_cast <;> constructor <;> linarith
  have e1 : ∀ q : ℚ, (numeral x.int + (numeral (p ++ c :: r) : ℚ) / 10 ^ (p ++ c :: r).length) * 10 ^ d
      = numeral x.int * 10 ^ d + numeral p + (c.val + ρ) / 10 := by
    intro q
    rw [add_mul, hv]; ring
  cases x.neg
  · simp only [Bool.false_eq_true, if_false, one_mul]
    rw [e1 0]
    push_cast
    convert key using 2
    ring
  · simp only [if_true]
    rw [show ∀ a b : ℚ, -1 * a * b = -(a * b) from fun a b => by ring, e1 0]
    push_cast
    rw [← abs_neg]
    convert key using 2
    ring

/-! ## The property -/

theorem converters_eq {j : Rounding} {f : Amount → Except Convert.Err Int} {d : Nat} (hf : (f, d) ∈ converters j) :
    f = (fun a => convertTokenAmount j a d) ∧ 0 < d := by
  simp only [converters, List.mem_cons, Prod.mk.injEq, List.not_mem_nil, or_false] at hf
  rcases hf with ⟨rfl, rfl⟩ | ⟨rfl, rfl⟩ | ⟨rfl, rfl⟩ <;> exact ⟨rfl, by decide⟩

/-- A number is an amount of whole tokens: it is accepted exactly if it is an integer below 2^53 in magnitude, and comes to
that many tokens exactly. -/
theorem C97_number {j : Rounding} {f : Amount → Except Convert.Err Int} {d : Nat} (hf : (f, d) ∈ converters j)
    (a : Amount) (r : Int) (ha : ∀ s, a ≠ .text s) :
    f a = .ok r ↔ ∃ n : Int, a = .integer n ∧ |n| < 2 ^ 53 ∧ r = n * 10 ^ d := by
  rw [(converters_eq hf).1]; exact conv_number j a d r ha

/-- A text is accepted exactly if it is a decimal number, written with an optional minus sign, digits and at most one
point. -/
theorem C97_text_accepted {j : Rounding} {f : Amount → Except Convert.Err Int} {d : Nat} (hf : (f, d) ∈ converters j)
    (s : List Char) : (∃ r, f (.text s) = .ok r) ↔ ∃ x : Decimal, s = x.write := by
  rw [(converters_eq hf).1]; exact conv_text_accepted j s d

/-- A decimal number whose places after the `d`-th are zeros comes to exactly its value in base units. -/
theorem C97_text_exact {j : Rounding} {f : Amount → Except Convert.Err Int} {d : Nat} (hf : (f, d) ∈ converters j)
    (x : Decimal) (hx : ∀ c ∈ x.places.drop d, c = 0) :
    ∃ r : Int, f (.text x.write) = .ok r ∧ (r : ℚ) = x.value * 10 ^ d := by
  rw [(converters_eq hf).1]; exact conv_text_exact j x d hx

/-- Any decimal number comes to its value in base units, rounded: the result is off by three fifths of a base unit at
most. -/
theorem C97_text_close {j : Rounding} {f : Amount → Except Convert.Err Int} {d : Nat} (hf : (f, d) ∈ converters j)
    (x : Decimal) :
    ∃ r : Int, f (.text x.write) = .ok r ∧ |(r : ℚ) - x.value * 10 ^ d| ≤ 3 / 5 := by
  rw [(converters_eq hf).1]; exact conv_text_close j x d (converters_eq hf).2

/-- The amounts of the post-deployment script (C95) are what `sol` makes of its numbers. -/
theorem C97_script (j : Rounding) (n : Nat) (h : n < 2 ^ 53) : sol j (.integer n) = .ok (Script.sol n) := by
  refine (C97_number (j := j) (f := sol j) (d := 9) (by simp [converters]) (.integer n) _ (fun s h => by cases h)).mpr ⟨n, rfl, ?_, ?_⟩
  · rw [Int.abs_eq_natAbs]; omega
  · simp [Script.sol]

/-! ## Cases -/

/-- Rounding half up by the first digit dropped: one the hypotheses allow. -/
def halfUp : Rounding where
  round u r := match r with
    | [] => u
    | c :: _ => if '5' ≤ c then u + 1 else u
  near u r := by
    cases r with
    | nil => exact .inl rfl
    | cons c r => simp only; split <;> simp
  up u c r h := by simp only [h, if_true]
  down u c r h := by
    have h' : ¬ '5' ≤ c := fun h5 => absurd (Char.le_trans h5 h) (by decide)
    simp only [h', if_false]

/-- 1.02 -/
def oneTwo : Decimal := ⟨false, [1], some [0, 2]⟩

example : oneTwo.write = ['1', '.', '0', '2'] := by decide
example : (sol halfUp, 9) ∈ converters halfUp := by simp [converters]
example : ∀ c ∈ oneTwo.places.drop 9, c = 0 := by decide
/-- The header's own cases, `lib/convertors.ts:8-12`. -/
example : sol halfUp (.text ['1', '.', '0', '2']) = .ok 1020000000 := by rfl
example : sol halfUp (.integer 10000) = .ok 10000000000000 := by rfl
example : usdc halfUp (.text ['1', '0', '0', '.', '5']) = .ok 100500000 := by rfl
/-- A carry through every digit. -/
example : usdc halfUp (.text ['9', '.', '9', '9', '9', '9', '9', '9', '5']) = .ok 10000000 := by rfl
example : usdc halfUp (.text ['-', '.', '1']) = .ok (-100000) := by rfl
/-- Scientific notation is not read (the file's own note, `lib/convertors.ts:14`). -/
example : usdc halfUp (.text ['1', 'e', '3']) = .error .notDecimal := by rfl
example : usdc halfUp .nonInteger = .error .notInteger := by rfl
example : usdc halfUp (.integer (2 ^ 53)) = .error .unsafeNumber := by rfl

end Solsab.Props
