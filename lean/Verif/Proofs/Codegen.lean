import Verif.Spec.Codegen
import Mathlib.Data.List.Basic
/-!
# Reading back what the generators write
-/

namespace Solsab.Spec.Ts

open Codegen

theorem linesOf_ne (s : Str) : linesOf s ≠ [] := by
  cases s with
  | nil => simp [linesOf]
  | cons c cs =>
    unfold linesOf
    split
    · simp
    · split <;> simp

theorem linesOf_clean {l : Str} (h : '\n' ∉ l) : linesOf l = [l] := by
  induction l with
  | nil => rfl
  | cons c cs ih =>
    simp only [List.mem_cons, not_or] at h
    simp only [linesOf, if_neg (Ne.symm h.1), ih h.2]

theorem linesOf_append (a b : Str) : linesOf (a ++ '\n' :: b) = linesOf a ++ linesOf b := by
  induction a with
  | nil => simp [linesOf]
  | cons c cs ih =>
    simp only [List.cons_append, linesOf]
    by_cases hc : c = '\n'
    · simp [hc, ih]
    · simp only [if_neg hc, ih]
      cases h : linesOf cs with
      | nil => exact absurd h (linesOf_ne cs)
      | cons l ls => simp

theorem linesOf_joinLines {ls : List Str} (h : ls ≠ []) : linesOf (joinLines ls) = (ls.map linesOf).flatten := by
  induction ls with
  | nil => exact absurd rfl h
  | cons l ls ih =>
    cases ls with
    | nil => simp [joinLines]
    | cons l' ls' =>
      rw [joinLines, linesOf_append, ih (by simp)]
      · simp
      · simp

theorem after?_append (p s : Str) : after? p (p ++ s) = some s := by
  induction p with
  | nil => rfl
  | cons c cs ih => simp [after?, ih]

theorem cut?_append {c : Char} {a : Str} (h : c ∉ a) (b : Str) : cut? c (a ++ c :: b) = some (a, b) := by
  induction a with
  | nil => simp [cut?]
  | cons x xs ih =>
    simp only [List.mem_cons, not_or] at h
    simp [cut?, Ne.symm h.1, ih h.2]

theorem cut?_none {c : Char} {a : Str} (h : c ∉ a) : cut? c a = none := by
  induction a with
  | nil => rfl
  | cons x xs ih =>
    simp only [List.mem_cons, not_or] at h
    simp [cut?, Ne.symm h.1, ih h.2]

theorem property?_line {stop : Char} {name text : Str} (hn : ':' ∉ name) (ht : stop ∉ text) :
    property? stop ("  ".toList ++ name ++ ": ".toList ++ text ++ [stop]) = some (name, text) := by
  have e : "  ".toList ++ name ++ ": ".toList ++ text ++ [stop] =
      "  ".toList ++ (name ++ ':' :: (" ".toList ++ (text ++ stop :: []))) := by
    show [' ', ' '] ++ name ++ [':', ' '] ++ text ++ [stop] = [' ', ' '] ++ (name ++ ':' :: ([' '] ++ (text ++ [stop])))
    simp
  rw [e, property?, after?_append]
  simp only [Option.bind_eq_bind, Option.bind_some, cut?_append hn]
  rw [after?_append]
  simp [cut?_append ht]

/-! ## Numbers -/

theorem number?_fold (s : Str) (h : ∀ c ∈ s, c.isDigit = true) (n : Nat) :
    s.foldl (fun acc c => do
      let n ← acc
      if c.isDigit then some (10 * n + (c.toNat - '0'.toNat)) else none) (some n) = some (Nat.ofDigitChars 10 s n) := by
  induction s generalizing n with
  | nil => simp
  | cons c cs ih =>
    simp only [List.foldl_cons, Option.bind_eq_bind, Option.bind_some, h c (by simp), if_true,
      Nat.ofDigitChars_cons]
    exact ih (fun x hx => h x (by simp [hx])) _

theorem number?_decimal (n : Nat) : number? (decimal n) = some n := by
  unfold number? decimal
  rw [if_neg Nat.toDigits_ne_nil, number?_fold _ (fun c hc => Nat.isDigit_of_mem_toDigits (by decide) (by decide) hc),
    Nat.ofDigitChars_toDigits (by decide) (by decide)]

theorem decimal_clean {c : Char} (n : Nat) (h : c.isDigit = false) : c ∉ decimal n := by
  intro hc
  have := Nat.isDigit_of_mem_toDigits (b := 10) (by decide) (by decide) hc
  rw [h] at this; cases this

theorem Ident.clean {s : Str} (h : Ident s) {c : Char} (hc : c.isAlphanum = false) (hu : c ≠ '_') : c ∉ s := by
  intro hm
  rcases h.2 c hm with h' | h'
  · rw [hc] at h'; cases h'
  · exact hu h'

/-! ## Errors -/

theorem errorEntry_lines {e : IdlError} (h : Ident e.name) : linesOf (errorEntry e) = [errorEntry e] := by
  refine linesOf_clean ?_
  unfold errorEntry
  have h1 := h.clean (c := '\n') (by decide) (by decide)
  have h2 := decimal_clean (c := '\n') e.code (by decide)
  simp [h1, h2]

theorem errorEntry_members {e : IdlError} (h : Ident e.name) (ls : List Str) :
    members? (errorEntry e :: ls) = (members? ls).map ((e.name, e.code) :: ·) := by
  have hp : property? ',' (errorEntry e) = some (e.name, decimal e.code) :=
    property?_line (h.clean (by decide) (by decide)) (decimal_clean _ (by decide))
  have hne : errorEntry e ≠ "} as const;".toList := by
    intro hh
    have : (errorEntry e).head? = some '}' := by rw [hh]; rfl
    simp [errorEntry] at this
  rw [members?, if_neg hne, hp]
  simp only [Option.bind_eq_bind, Option.bind_some, number?_decimal]
  cases members? ls <;> rfl

theorem members?_entries {errs : List IdlError} (h : ∀ e ∈ errs, Ident e.name) (rest : List Str) :
    members? (errs.map errorEntry ++ "} as const;".toList :: rest) = some (errs.map fun e => (e.name, e.code)) := by
  induction errs with
  | nil => simp [members?]
  | cons e es ih =>
    rw [List.map_cons, List.cons_append, errorEntry_members (h e (by simp)), ih (fun x hx => h x (by simp [hx]))]
    rfl

theorem errorLines {errs : List IdlError} (h : ∀ e ∈ errs, Ident e.name) :
    linesOf (generateErrorCode errs) =
      ["// THIS IS AN AUTOGENERATED FILE. DO NOT EDIT THIS FILE DIRECTLY.".toList,
       "export const ProgramErrorCode = {".toList] ++ (errs.map errorEntry ++ ["} as const;".toList, [],
       "export type ProgramErrorName = keyof typeof ProgramErrorCode;".toList]) := by
  unfold generateErrorCode
  rw [linesOf_joinLines (by simp [fileHeader])]
  have e1 : ((errs.map errorEntry).map linesOf).flatten = errs.map errorEntry := by
    induction errs with
    | nil => rfl
    | cons e es ih =>
      simp only [List.map_cons, List.flatten_cons, errorEntry_lines (h e (by simp))]
      rw [ih (fun x hx => h x (by simp [hx]))]
      rfl
  simp only [List.map_append, List.flatten_append, e1]
  simp only [fileHeader, List.append_nil, List.length_nil, gt_iff_lt, Nat.lt_irrefl, if_false, List.map_cons,
    List.map_nil, List.flatten_cons, List.flatten_nil]
  rw [linesOf_clean (l := "// THIS IS AN AUTOGENERATED FILE. DO NOT EDIT THIS FILE DIRECTLY.".toList) (by decide +kernel),
    linesOf_clean (l := "export const ProgramErrorCode = {".toList) (by decide +kernel),
    linesOf_clean (l := "} as const;".toList) (by decide +kernel), linesOf_clean (l := []) (by decide +kernel),
    linesOf_clean (l := "export type ProgramErrorName = keyof typeof ProgramErrorCode;".toList) (by decide +kernel)]
  simp only [List.cons_append, List.nil_append]

theorem errorTable {errs : List IdlError} (h : ∀ e ∈ errs, Ident e.name) :
    errorTable? (linesOf (generateErrorCode errs)) = some (errs.map fun e => (e.name, e.code)) := by
  rw [errorLines h, List.cons_append, errorTable?, if_neg (by decide +kernel), List.cons_append, errorTable?,
    if_pos rfl, List.nil_append, members?_entries h]

/-! ## Names -/

theorem lower_ne {c : Char} (h : lower c = true) : c ≠ '_' := by
  rintro rfl; revert h; decide

theorem toCamel_letter {c : Char} (h : c ≠ '_') (cs : Str) : toCamel (c :: cs) = c :: toCamel cs := by
  cases cs <;> simp [toCamel, h]

theorem snakeRest_letter {c : Char} (h : c ≠ '_') (cs : Str) : snakeRest (c :: cs) = (lower c && snakeRest cs) := by
  cases cs <;> simp [snakeRest, h]

theorem words_snake {c : Char} {cs : Str} (hc : lower c = true) (h : snakeRest cs = true) :
    ∃ w ws, words (c :: cs) = (c :: w) :: ws ∧ w ++ (ws.map capitalize).flatten = toCamel cs := by
  induction hn : cs.length using Nat.strongRecOn generalizing c cs with
  | _ n ih =>
    have hne := lower_ne hc
    cases cs with
    | nil => exact ⟨[], [], by simp [words, hne], by simp [toCamel]⟩
    | cons d ds =>
      by_cases hd : d = '_'
      · subst hd
        cases ds with
        | nil => simp [snakeRest] at h
        | cons e es =>
          simp only [snakeRest, if_true, Bool.and_eq_true] at h
          obtain ⟨w, ws, h1, h2⟩ := ih es.length (by simp at hn; omega) h.1 h.2 rfl
          refine ⟨[], (e :: w) :: ws, ?_, ?_⟩
          · rw [words, if_neg hne]
            simp only [if_true]
            rw [words, if_pos rfl, h1]
          · simp only [List.nil_append, List.map_cons, capitalize, List.flatten_cons, List.cons_append, h2, toCamel,
              if_true]
      · simp only [snakeRest_letter hd, Bool.and_eq_true] at h
        obtain ⟨w, ws, h1, h2⟩ := ih ds.length (by simp at hn; omega) h.1 h.2 rfl
        refine ⟨d :: w, ws, ?_, ?_⟩
        · rw [words, if_neg hne]
          simp only [if_neg hd, h1]
        · simp only [List.cons_append, h2, toCamel_letter hd]

theorem camelCase_snake {s : Str} (h : Snake s = true) : camelCase s = toCamel s := by
  cases s with
  | nil => cases h
  | cons c cs =>
    simp only [Snake, Bool.and_eq_true] at h
    obtain ⟨w, ws, h1, h2⟩ := words_snake h.1 h.2
    unfold camelCase
    rw [h1]
    simp only [List.cons_append, h2, toCamel_letter (lower_ne h.1)]

theorem lower_upper {c : Char} (h : lower c = true) : c.toUpper.toNat + 32 = c.toNat ∧ 97 ≤ c.toNat ∧ c.toNat ≤ 122 := by
  have h' : 'a' ≤ c ∧ c ≤ 'z' := by simpa [lower] using h
  have h1 : 97 ≤ c.toNat := h'.1
  have h2 : c.toNat ≤ 122 := h'.2
  refine ⟨?_, h1, h2⟩
  have : ∀ n : Nat, 97 ≤ n → n ≤ 122 → (Char.ofNat n).toUpper.toNat + 32 = n := by
    intro n h1 h2
    have : ∀ k : Fin 26, (Char.ofNat (97 + k)).toUpper.toNat + 32 = 97 + k := by decide +kernel
    have := this ⟨n - 97, by omega⟩
    simp only at this
    rwa [show 97 + (n - 97) = n by omega] at this
  have h3 := this c.toNat h1 h2
  rwa [Char.ofNat_toNat] at h3

/-- Back from camel case: a capital is an underscore and the small letter. -/
def fromCamel : Str → Str
  | [] => []
  | c :: cs => if c.toNat < 97 then '_' :: Char.ofNat (c.toNat + 32) :: fromCamel cs else c :: fromCamel cs

theorem fromCamel_rest {s : Str} (h : snakeRest s = true) : fromCamel (toCamel s) = s := by
  induction hn : s.length using Nat.strongRecOn generalizing s with
  | _ n ih =>
    cases s with
    | nil => rfl
    | cons c cs =>
      by_cases hc : c = '_'
      · subst hc
        cases cs with
        | nil => simp [snakeRest] at h
        | cons d ds =>
          simp only [snakeRest, if_true, Bool.and_eq_true] at h
          have hu := lower_upper h.1
          have e := ih ds.length (by simp at hn; omega) h.2 rfl
          simp only [toCamel, if_true, fromCamel]
          rw [if_pos (by omega), hu.1, Char.ofNat_toNat, e]
      · simp only [snakeRest_letter hc, Bool.and_eq_true] at h
        have hu := lower_upper h.1
        have e := ih cs.length (by simp at hn; omega) h.2 rfl
        simp only [toCamel_letter hc, fromCamel]
        rw [if_neg (by omega), e]

theorem fromCamel_snake {s : Str} (h : Snake s = true) : fromCamel (toCamel s) = s := by
  cases s with
  | nil => cases h
  | cons c cs =>
    simp only [Snake, Bool.and_eq_true] at h
    have hu := lower_upper h.1
    simp only [toCamel_letter (lower_ne h.1), fromCamel]
    rw [if_neg (by omega), fromCamel_rest h.2]

theorem toCamel_rest_chars {s : Str} (h : snakeRest s = true) {c : Char} (hc : c ∈ toCamel s) :
    65 ≤ c.toNat ∧ c.toNat ≤ 122 ∧ (c.toNat ≤ 90 ∨ 97 ≤ c.toNat) := by
  induction hn : s.length using Nat.strongRecOn generalizing s with
  | _ n ih =>
    cases s with
    | nil => simp [toCamel] at hc
    | cons d ds =>
      by_cases hd : d = '_'
      · subst hd
        cases ds with
        | nil => simp [toCamel] at hc
        | cons e es =>
          simp only [snakeRest, if_true, Bool.and_eq_true] at h
          simp only [toCamel, if_true, List.mem_cons] at hc
          rcases hc with rfl | hc
          · have := lower_upper h.1; omega
          · exact ih es.length (by simp at hn; omega) h.2 hc rfl
      · simp only [snakeRest_letter hd, Bool.and_eq_true] at h
        simp only [toCamel_letter hd, List.mem_cons] at hc
        rcases hc with rfl | hc
        · have := lower_upper h.1; omega
        · exact ih ds.length (by simp at hn; omega) h.2 hc rfl

theorem toCamel_clean {s : Str} (h : Snake s = true) {c : Char} (hc : c.toNat < 65) : c ∉ toCamel s := by
  cases s with
  | nil => cases h
  | cons d ds =>
    simp only [Snake, Bool.and_eq_true] at h
    simp only [toCamel_letter (lower_ne h.1), List.mem_cons, not_or]
    refine ⟨?_, fun hm => ?_⟩
    · rintro rfl
      have := lower_upper h.1; omega
    · have := toCamel_rest_chars h.2 hm; omega

/-! ## Types -/

/-- The brackets. -/
def brackets (d : Nat) : Str := (List.replicate d "[]".toList).flatten

theorem dims?_brackets (d : Nat) : dims? (brackets d) = some d := by
  induction d with
  | zero => rfl
  | succ d ih =>
    have : brackets (d + 1) = '[' :: ']' :: brackets d := by
      simp [brackets, List.replicate_succ]
    rw [this, dims?, ih]; rfl

theorem type?_brackets {b : Str} (h : '[' ∉ b) (d : Nat) : type? (b ++ brackets d) = some ⟨b, d⟩ := by
  cases d with
  | zero => simp [type?, brackets, cut?_none h]
  | succ d =>
    have e : brackets (d + 1) = '[' :: (']' :: brackets d) := by simp [brackets, List.replicate_succ]
    unfold type?
    rw [e, cut?_append h]
    simp only
    rw [← e, dims?_brackets]
    rfl

theorem lookup_eq (s : Str) : (RUST_TYPES.lookup s).getD s =
    if s = "u64".toList ∨ s = "u128".toList ∨ s = "i64".toList then "BN".toList
      else if s = "u8".toList ∨ s = "u32".toList then "number".toList
      else if s = "bool".toList then "boolean".toList
      else if s = "pubkey".toList then "PublicKey".toList
      else s := by
  by_cases h1 : s = "bool".toList
  · subst h1; decide +kernel
  by_cases h2 : s = "i64".toList
  · subst h2; decide +kernel
  by_cases h3 : s = "pubkey".toList
  · subst h3; decide +kernel
  by_cases h4 : s = "u8".toList
  · subst h4; decide +kernel
  by_cases h5 : s = "u32".toList
  · subst h5; decide +kernel
  by_cases h6 : s = "u64".toList
  · subst h6; decide +kernel
  by_cases h7 : s = "u128".toList
  · subst h7; decide +kernel
  simp only [h1, h2, h3, h4, h5, h6, h7, or_self, if_false]
  have hb : ∀ a : Str, s ≠ a → (s == a) = false := fun a h => by simpa using h
  simp only [RUST_TYPES, List.lookup, hb _ h1, hb _ h2, hb _ h3, hb _ h4, hb _ h5, hb _ h6, hb _ h7, Option.getD_none]

theorem mapType_eq {t : IdlTy} (h : namesOk t) :
    mapType t = (typeFor t).map fun ty => ty.base ++ brackets ty.dims := by
  induction t with
  | prim s =>
    simp only [mapType, typeFor, Option.map_some]
    rw [lookup_eq]
    simp only [brackets, List.replicate_zero, List.flatten_nil, List.append_nil]
  | defined n => simp [mapType, typeFor, brackets]
  | array e k ih =>
    simp only [mapType, typeFor, ih h]
    cases typeFor e with
    | none => rfl
    | some ty => simp [brackets, List.replicate_succ', List.flatten_append]
  | other => rfl

theorem typeFor_ident {t : IdlTy} (h : namesOk t) {ty : TsType} (ht : typeFor t = some ty) : Ident ty.base := by
  induction t generalizing ty with
  | prim s =>
    simp only [typeFor, Option.some.injEq] at ht
    subst ht
    simp only
    split
    · decide +kernel
    · split
      · decide +kernel
      · split
        · decide +kernel
        · split
          · decide +kernel
          · exact h
  | defined n => cases ht; exact h
  | array e k ih =>
    simp only [typeFor] at ht
    cases he : typeFor e with
    | none => rw [he] at ht; cases ht
    | some ty' =>
      rw [he] at ht
      simp only [Option.map_some, Option.some.injEq] at ht
      subst ht
      have h' : Ident ty'.base := ih h he
      exact h'
  | other => cases ht

theorem brackets_clean {c : Char} (h1 : c ≠ '[') (h2 : c ≠ ']') (d : Nat) : c ∉ brackets d := by
  simp only [brackets, List.mem_flatten, List.mem_replicate, not_exists, not_and, and_imp]
  rintro l - rfl hm
  have : c = '[' ∨ c = ']' := by simpa using hm
  rcases this with h | h
  · exact h1 h
  · exact h2 h

/-! ## Declarations -/

theorem fieldLine_eq {f : IdlField} (hs : Snake f.name = true) (hn : namesOk f.type) :
    fieldLine f = (typeFor f.type).map fun ty =>
      "  ".toList ++ toCamel f.name ++ ": ".toList ++ (ty.base ++ brackets ty.dims) ++ [';'] := by
  unfold fieldLine
  rw [mapType_eq hn, camelCase_snake hs]
  cases typeFor f.type <;> rfl

theorem fieldLine_clean {n : Str} {ty : TsType} (hs : Snake n = true) (hi : Ident ty.base) :
    '\n' ∉ "  ".toList ++ toCamel n ++ ": ".toList ++ (ty.base ++ brackets ty.dims) ++ [';'] := by
  have h1 := toCamel_clean hs (c := '\n') (by decide)
  have h2 := hi.clean (c := '\n') (by decide) (by decide)
  have h3 := brackets_clean (c := '\n') (by decide) (by decide) ty.dims
  simp [h1, h2, h3]

theorem fields?_line {n : Str} {ty : TsType} (hs : Snake n = true) (hi : Ident ty.base) (ls : List Str) :
    fields? (("  ".toList ++ toCamel n ++ ": ".toList ++ (ty.base ++ brackets ty.dims) ++ [';']) :: ls) =
      (fields? ls).map fun r => ((toCamel n, ty) :: r.1, r.2) := by
  have hp := property?_line (stop := ';') (toCamel_clean hs (c := ':') (by decide))
    (text := ty.base ++ brackets ty.dims) (by
      have h2 := hi.clean (c := ';') (by decide) (by decide)
      have h3 := brackets_clean (c := ';') (by decide) (by decide) ty.dims
      simp [h2, h3])
  rw [fields?, if_neg (by
    intro hh
    have := congrArg List.head? hh
    simp at this), hp]
  simp only [Option.bind_eq_bind, Option.bind_some, type?_brackets (hi.clean (by decide) (by decide))]
  cases fields? ls <;> rfl

/-- The lines of the fields and what they read as. -/
theorem fields_read {fs : List IdlField} (h : ∀ f ∈ fs, Snake f.name = true ∧ namesOk f.type) {ls : List Str}
    (hl : fs.mapM fieldLine = some ls) :
    (∀ l ∈ ls, '\n' ∉ l) ∧ ∃ ds, (fs.mapM fun x => (typeFor x.type).map fun ty => (toCamel x.name, ty)) = some ds ∧
      ∀ rest, fields? (ls ++ "};".toList :: rest) = some (ds, rest) := by
  induction fs generalizing ls with
  | nil =>
    simp only [List.mapM_nil, Option.pure_def, Option.some.injEq] at hl
    subst hl
    exact ⟨by simp, [], rfl, fun rest => by simp [fields?]⟩
  | cons f fs ih =>
    have hf := h f (by simp)
    rw [List.mapM_cons, fieldLine_eq hf.1 hf.2] at hl
    cases ht : typeFor f.type with
    | none => rw [ht] at hl; cases hl
    | some ty =>
      rw [ht] at hl
      simp only [Option.map_some, Option.bind_eq_bind, Option.bind_some] at hl
      cases hm : fs.mapM fieldLine with
      | none => rw [hm] at hl; cases hl
      | some ls' =>
        rw [hm] at hl
        simp only [Option.bind_some, Option.pure_def, Option.some.injEq] at hl
        subst hl
        have hi := typeFor_ident hf.2 ht
        obtain ⟨hc, ds, h1, h2⟩ := ih (fun x hx => h x (by simp [hx])) hm
        refine ⟨?_, (toCamel f.name, ty) :: ds, ?_, fun rest => ?_⟩
        · intro l hl
          rcases List.mem_cons.1 hl with rfl | hl
          · exact fieldLine_clean hf.1 hi
          · exact hc l hl
        · rw [List.mapM_cons, ht, h1]; rfl
        · rw [List.cons_append, fields?_line hf.1 hi, h2]; rfl

theorem literals?_join {vs : List Str} (hne : vs ≠ []) (h : ∀ v ∈ vs, Ident v) :
    ∀ fuel, vs.length ≤ fuel → ∃ rest, join " | ".toList (vs.map fun v => "\"".toList ++ v ++ "\"".toList) ++ ";".toList =
      '"' :: rest ∧ vs.length ≤ rest.length ∧ literals? fuel rest = some vs := by
  induction vs with
  | nil => exact absurd rfl hne
  | cons v vs ih =>
    intro fuel hf
    have hv := (h v (by simp)).clean (c := '"') (by decide) (by decide)
    cases fuel with
    | zero => simp at hf
    | succ fuel =>
      cases vs with
      | nil =>
        refine ⟨v ++ '"' :: ";".toList, by simp [join], by simp, ?_⟩
        rw [literals?, cut?_append hv]
        simp
      | cons v' vs' =>
        obtain ⟨rest, h1, h2, h3⟩ := ih (by simp) (fun x hx => h x (by simp [hx])) fuel (by simpa using hf)
        refine ⟨v ++ '"' :: (" | \"".toList ++ rest), ?_, ?_, ?_⟩
        · have : join " | ".toList ((v :: v' :: vs').map fun v => "\"".toList ++ v ++ "\"".toList) ++ ";".toList =
              "\"".toList ++ v ++ "\"".toList ++ " | ".toList ++
                (join " | ".toList ((v' :: vs').map fun v => "\"".toList ++ v ++ "\"".toList) ++ ";".toList) := by
            simp [join]
          rw [this, h1]
          simp
        · simp at h2 ⊢; omega
        · rw [literals?, cut?_append hv]
          simp only [Option.bind_eq_bind, Option.bind_some]
          rw [if_neg (by simp), after?_append]
          simp only [Option.bind_some, h3]

theorem join_clean {vs : List Str} (hv : ∀ v ∈ vs, Ident v) :
    '\n' ∉ join " | ".toList (vs.map fun v => "\"".toList ++ v ++ "\"".toList) := by
  induction vs with
  | nil => simp [join]
  | cons v vs ih =>
    have hv1 := (hv v (by simp)).clean (c := '\n') (by decide) (by decide)
    have ih' := ih (fun x hx => hv x (by simp [hx]))
    cases vs with
    | nil => simp [join, hv1]
    | cons v' vs' =>
      rw [List.map_cons, List.map_cons, join]
      · rw [List.map_cons] at ih'
        simp [hv1]
        simpa using ih'
      · simp

/-- The lines of one declaration, and how it reads in a file. -/
theorem decl_read {t : IdlType} (h : WellNamed t) {text : Str} (hg : generateStructType t = some text) :
    (text = [] ∧ declFor t = none) ∨ (text ≠ [] ∧ ∃ d, declFor t = some d ∧ ∀ fuel rest,
      (linesOf text ++ rest).length ≤ fuel → ∃ fuel', rest.length ≤ fuel' ∧
        decls? fuel (linesOf text ++ rest) = (decls? fuel' rest).map (d :: ·)) := by
  obtain ⟨name, body⟩ := t
  obtain ⟨hi, hb⟩ := h
  have hsp := Ident.clean hi (c := ' ') (by decide) (by decide)
  have hnl := Ident.clean hi (c := '\n') (by decide) (by decide)
  have hskip : ∀ fuel rest, decls? (fuel + 1) ([] :: rest) = decls? fuel rest := fun fuel rest => rfl
  cases body with
  | other => cases hg; exact .inl ⟨rfl, rfl⟩
  | struct fields =>
    cases fields with
    | none => cases hg; exact .inl ⟨rfl, rfl⟩
    | some fs =>
      cases fs with
      | nil => cases hg; exact .inl ⟨rfl, rfl⟩
      | cons f fs =>
        simp only [generateStructType, Option.bind_eq_bind] at hg
        cases hm : (f :: fs).mapM fieldLine with
        | none => rw [hm] at hg; cases hg
        | some ls =>
          rw [hm] at hg
          simp only [Option.bind_some, Option.pure_def, Option.some.injEq] at hg
          subst hg
          obtain ⟨hc, ds, h1, h2⟩ := fields_read hb hm
          refine .inr ⟨by simp, .object name ds, ?_, ?_⟩
          · simp only [declFor, h1, Option.map_some]
          · have hls : ls ≠ [] := by
              rintro rfl
              rw [List.mapM_cons] at hm
              cases h3 : fieldLine f <;> rw [h3] at hm
              · cases hm
              · simp only [Option.bind_eq_bind, Option.bind_some] at hm
                cases h4 : fs.mapM fieldLine <;> rw [h4] at hm <;> cases hm
            have hlines : linesOf ("export type ".toList ++ name ++ " = {\n".toList ++ joinLines ls ++ "\n};\n".toList) =
                ("export type ".toList ++ (name ++ ' ' :: ("= ".toList ++ "{".toList))) ::
                  (ls ++ ["};".toList, []]) := by
              have e : "export type ".toList ++ name ++ " = {\n".toList ++ joinLines ls ++ "\n};\n".toList =
                  ("export type ".toList ++ (name ++ ' ' :: ("= ".toList ++ "{".toList))) ++ '\n' ::
                    (joinLines ls ++ '\n' :: ("};".toList ++ '\n' :: [])) := by simp
              rw [e, linesOf_append, linesOf_append, linesOf_append, linesOf_joinLines hls,
                linesOf_clean (l := "};".toList) (by decide +kernel),
                linesOf_clean (l := "export type ".toList ++ (name ++ ' ' :: ("= ".toList ++ "{".toList))) (by simp [hnl])]
              have : (ls.map linesOf).flatten = ls := by
                clear hm h2 hls e
                induction ls with
                | nil => rfl
                | cons l ls ih =>
                  rw [List.map_cons, List.flatten_cons, linesOf_clean (hc l (by simp)), ih (fun x hx => hc x (by simp [hx]))]
                  rfl
              rw [this]
              simp [linesOf]
            intro fuel rest hf
            rw [hlines] at hf ⊢
            simp only [List.cons_append, List.append_assoc, List.length_cons, List.length_append, List.nil_append] at hf ⊢
            obtain ⟨k, rfl⟩ : ∃ k, fuel = k + 1 + 1 := ⟨fuel - 2, by omega⟩
            refine ⟨k, by omega, ?_⟩
            rw [decls?, after?_append]
            simp only [cut?_append hsp, Option.bind_eq_bind, Option.bind_some, after?_append, if_true]
            rw [h2]
            simp only [Option.bind_some, hskip]
            cases decls? k rest <;> rfl
  | enum variants =>
    cases variants with
    | none => exact hb.elim
    | some vs =>
      obtain ⟨hne, hv⟩ := hb
      cases hg
      obtain ⟨rest₀, h1, h2, h3⟩ := literals?_join hne hv vs.length (Nat.le_refl _)
      obtain ⟨rest₁, h1', h2', h3'⟩ := literals?_join hne hv rest₀.length h2
      have : rest₁ = rest₀ := by rw [h1] at h1'; exact (List.cons.inj h1').2.symm
      subst this
      refine .inr ⟨by simp, .union name vs, ?_, ?_⟩
      · cases vs with
        | nil => exact absurd rfl hne
        | cons v vs => rfl
      · have hjn := join_clean hv
        have hlines : linesOf ("export type ".toList ++ name ++ " = ".toList ++
            join " | ".toList (vs.map fun v => "\"".toList ++ v ++ "\"".toList) ++ ";\n".toList) =
            ["export type ".toList ++ (name ++ ' ' :: ("= ".toList ++ ("\"".toList ++ rest₁))), []] := by
          have e : "export type ".toList ++ name ++ " = ".toList ++
              join " | ".toList (vs.map fun v => "\"".toList ++ v ++ "\"".toList) ++ ";\n".toList =
              ("export type ".toList ++ (name ++ ' ' :: ("= ".toList ++
                (join " | ".toList (vs.map fun v => "\"".toList ++ v ++ "\"".toList) ++ ";".toList)))) ++ '\n' :: [] := by simp
          rw [e, linesOf_append, linesOf_clean (by simp [hnl]; simpa using hjn), h1]
          rfl
        intro fuel rest hf
        rw [hlines] at hf ⊢
        simp only [List.cons_append, List.nil_append, List.length_cons] at hf ⊢
        obtain ⟨k, rfl⟩ : ∃ k, fuel = k + 1 + 1 := ⟨fuel - 2, by omega⟩
        refine ⟨k, by omega, ?_⟩
        rw [decls?, after?_append]
        simp only [cut?_append hsp, Option.bind_eq_bind, Option.bind_some, after?_append]
        rw [if_neg (by simp), h3', Option.bind_some, hskip]
        cases decls? k rest <;> rfl

/-! ## Files -/

theorem decls?_skip {l : Str} (h : after? "export type ".toList l = none) (fuel : Nat) (rest : List Str) :
    decls? (fuel + 1) (l :: rest) = decls? fuel rest := by rw [decls?, h]

theorem defs_read {types : List IdlType} (h : ∀ t ∈ types, WellNamed t) {texts : List Str}
    (hg : types.mapM generateStructType = some texts) :
    ∀ fuel, (((texts.filter (· ≠ [])).map linesOf).flatten).length ≤ fuel →
      decls? fuel (((texts.filter (· ≠ [])).map linesOf).flatten) = some (types.filterMap declFor) := by
  induction types generalizing texts with
  | nil =>
    simp only [List.mapM_nil, Option.pure_def, Option.some.injEq] at hg
    subst hg
    intro fuel _
    cases fuel <;> rfl
  | cons t ts ih =>
    rw [List.mapM_cons] at hg
    cases ht : generateStructType t with
    | none => rw [ht] at hg; cases hg
    | some text =>
      rw [ht] at hg
      simp only [Option.bind_eq_bind, Option.bind_some] at hg
      cases hm : ts.mapM generateStructType with
      | none => rw [hm] at hg; cases hg
      | some texts' =>
        rw [hm] at hg
        simp only [Option.bind_some, Option.pure_def, Option.some.injEq] at hg
        subst hg
        have ih' := ih (fun x hx => h x (by simp [hx])) hm
        rcases decl_read (h t (by simp)) ht with ⟨rfl, hd⟩ | ⟨hne, d, hd, hr⟩
        · intro fuel hf
          simp only [ne_eq, not_true_eq_false, decide_false, Bool.false_eq_true, not_false_eq_true, List.filter_cons_of_neg,
            List.filterMap_cons, hd] at hf ⊢
          exact ih' fuel hf
        · intro fuel hf
          have e : ((text :: texts').filter (· ≠ [])) = text :: texts'.filter (· ≠ []) := by
            rw [List.filter_cons_of_pos]; simpa using hne
          rw [e, List.map_cons, List.flatten_cons] at hf ⊢
          obtain ⟨fuel', hf', hr'⟩ := hr fuel _ hf
          rw [hr', ih' fuel' hf', List.filterMap_cons, hd]
          rfl

/-- The possible import lists. -/
theorem imports_cases {types : List IdlType} {imports : List Str} (h : generateImports types = some imports) :
    imports = [] ∨ imports = [importBN] ∨ imports = [importPublicKey] ∨ imports = [importBN, importPublicKey] := by
  unfold generateImports at h
  cases hn : types.foldlM scanType (false, false) with
  | none => rw [hn] at h; cases h
  | some needs =>
    rw [hn] at h
    simp only [Option.bind_eq_bind, Option.bind_some, Option.pure_def, Option.some.injEq] at h
    subst h
    obtain ⟨a, b⟩ := needs
    cases a <;> cases b <;> simp

theorem header_lines {imports : List Str}
    (h : imports = [] ∨ imports = [importBN] ∨ imports = [importPublicKey] ∨ imports = [importBN, importPublicKey]) :
    ((fileHeader imports).map linesOf).flatten = fileHeader imports ∧
      ∀ l ∈ fileHeader imports, after? "export type ".toList l = none := by
  rcases h with rfl | rfl | rfl | rfl <;> exact ⟨by decide +kernel, by decide +kernel⟩

theorem skip_all {ls : List Str} (h : ∀ l ∈ ls, after? "export type ".toList l = none) (rest : List Str) (fuel : Nat) :
    decls? (ls.length + fuel) (ls ++ rest) = decls? fuel rest := by
  induction ls with
  | nil => simp
  | cons l ls ih =>
    rw [List.length_cons, List.cons_append, show ls.length + 1 + fuel = (ls.length + fuel) + 1 by omega,
      decls?_skip (h l (by simp)), ih (fun x hx => h x (by simp [hx]))]

theorem structs_lines {types : List IdlType} {content : Str} (hg : generateStructs types = some content) :
    ∃ imports texts, generateImports types = some imports ∧ types.mapM generateStructType = some texts ∧
      linesOf content = fileHeader imports ++ ((texts.filter (· ≠ [])).map linesOf).flatten := by
  unfold generateStructs at hg
  cases hi : generateImports types with
  | none => rw [hi] at hg; cases hg
  | some imports =>
    rw [hi] at hg
    simp only [Option.bind_eq_bind, Option.bind_some] at hg
    cases hm : types.mapM generateStructType with
    | none => rw [hm] at hg; cases hg
    | some texts =>
      rw [hm] at hg
      simp only [Option.bind_some, Option.pure_def, Option.some.injEq] at hg
      subst hg
      refine ⟨imports, texts, rfl, rfl, ?_⟩
      rw [linesOf_joinLines (by simp [fileHeader]), List.map_append, List.flatten_append,
        (header_lines (imports_cases hi)).1]

theorem structs_read {types : List IdlType} (h : ∀ t ∈ types, WellNamed t) {content : Str}
    (hg : generateStructs types = some content) : declarations? content = some (types.filterMap declFor) := by
  obtain ⟨imports, texts, hi, hm, hl⟩ := structs_lines hg
  unfold declarations?
  rw [hl, List.length_append, skip_all (header_lines (imports_cases hi)).2]
  exact defs_read h hm _ (Nat.le_refl _)

/-! ## Imports -/

theorem scanField_mono {needs needs' : Bool × Bool} {f : IdlField} (h : scanField needs f = some needs') :
    (needs.1 = true → needs'.1 = true) ∧ (needs.2 = true → needs'.2 = true) := by
  unfold scanField at h
  cases hm : mapType f.type with
  | none => rw [hm] at h; cases h
  | some m =>
    rw [hm] at h
    simp only [Option.bind_eq_bind, Option.bind_some] at h
    split at h
    · cases h; simp
    · split at h <;> cases h <;> simp

theorem scanField_base {needs needs' : Bool × Bool} {f : IdlField} (hn : namesOk f.type)
    (h : scanField needs f = some needs') {ty : TsType} (ht : typeFor f.type = some ty) :
    (ty.base = "BN".toList → needs'.1 = true) ∧ (ty.base = "PublicKey".toList → needs'.2 = true) := by
  unfold scanField at h
  rw [mapType_eq hn, ht] at h
  simp only [Option.map_some, Option.bind_eq_bind, Option.bind_some] at h
  have hin : ∀ b : Str, includes (b ++ brackets ty.dims) b = true := by
    intro b; simp only [includes, decide_eq_true_eq]; exact ⟨[], brackets ty.dims, by simp⟩
  constructor
  · intro hb
    rw [hb, if_pos (hin _)] at h
    cases h; rfl
  · intro hb
    rw [hb] at h
    rw [if_neg, if_pos (hin _)] at h
    · cases h; rfl
    · intro hc
      simp only [includes, decide_eq_true_eq] at hc
      have : 'N' ∈ "PublicKey".toList ++ brackets ty.dims := hc.subset (by decide)
      rw [List.mem_append] at this
      rcases this with h | h
      · revert h; decide +kernel
      · exact brackets_clean (by decide) (by decide) _ h

theorem foldlM_mono {α : Type} {g : Bool × Bool → α → Option (Bool × Bool)}
    (hg : ∀ n n' a, g n a = some n' → (n.1 = true → n'.1 = true) ∧ (n.2 = true → n'.2 = true))
    {l : List α} {n n' : Bool × Bool} (h : l.foldlM g n = some n') :
    (n.1 = true → n'.1 = true) ∧ (n.2 = true → n'.2 = true) := by
  induction l generalizing n with
  | nil =>
    simp only [List.foldlM_nil, Option.pure_def, Option.some.injEq] at h
    subst h; exact ⟨id, id⟩
  | cons a l ih =>
    rw [List.foldlM_cons] at h
    cases h1 : g n a with
    | none => rw [h1] at h; cases h
    | some n₁ =>
      rw [h1] at h
      have := hg _ _ _ h1
      have h2 := ih h
      exact ⟨fun x => h2.1 (this.1 x), fun x => h2.2 (this.2 x)⟩

theorem foldlM_mem {α : Type} {g : Bool × Bool → α → Option (Bool × Bool)}
    (hg : ∀ n n' a, g n a = some n' → (n.1 = true → n'.1 = true) ∧ (n.2 = true → n'.2 = true))
    {l : List α} {n n' : Bool × Bool} (h : l.foldlM g n = some n') {a : α} (ha : a ∈ l) :
    ∃ m m', g m a = some m' ∧ (m'.1 = true → n'.1 = true) ∧ (m'.2 = true → n'.2 = true) := by
  induction l generalizing n with
  | nil => cases ha
  | cons b l ih =>
    rw [List.foldlM_cons] at h
    cases h1 : g n b with
    | none => rw [h1] at h; cases h
    | some n₁ =>
      rw [h1] at h
      rcases List.mem_cons.1 ha with rfl | ha
      · exact ⟨n, n₁, h1, foldlM_mono hg h⟩
      · exact ih h ha

theorem scanType_mono {needs needs' : Bool × Bool} {t : IdlType} (h : scanType needs t = some needs') :
    (needs.1 = true → needs'.1 = true) ∧ (needs.2 = true → needs'.2 = true) := by
  unfold scanType at h
  split at h
  · exact foldlM_mono (fun _ _ _ h => scanField_mono h) h
  · cases h; exact ⟨id, id⟩

theorem imports_needed {types : List IdlType} {content : Str} (hg : generateStructs types = some content) {t : IdlType}
    (ht : t ∈ types) {fs : List IdlField} (hb : t.body = .struct (some fs)) {f : IdlField} (hf : f ∈ fs)
    (hn : namesOk f.type) {ty : TsType} (hty : typeFor f.type = some ty) :
    (ty.base = "BN".toList → importsBN content) ∧ (ty.base = "PublicKey".toList → importsPublicKey content) := by
  obtain ⟨imports, texts, hi, hm, hl⟩ := structs_lines hg
  unfold generateImports at hi
  cases hs : types.foldlM scanType (false, false) with
  | none => rw [hs] at hi; cases hi
  | some needs =>
    rw [hs] at hi
    simp only [Option.bind_eq_bind, Option.bind_some, Option.pure_def, Option.some.injEq] at hi
    obtain ⟨m, m', h1, h2, h3⟩ := foldlM_mem (fun _ _ _ h => scanType_mono h) hs ht
    unfold scanType at h1
    rw [hb] at h1
    obtain ⟨k, k', h4, h5, h6⟩ := foldlM_mem (fun _ _ _ h => scanField_mono h) h1 hf
    have h7 := scanField_base hn h4 hty
    constructor
    · intro hB
      have : needs.1 = true := h2 (h5 (h7.1 hB))
      unfold importsBN
      rw [hl, ← hi, this]
      exact List.mem_append_left _ (List.mem_append_left _ (List.mem_append_right _ (List.mem_append_left _ (List.mem_singleton.2 rfl))))
    · intro hP
      have : needs.2 = true := h3 (h6 (h7.2 hP))
      unfold importsPublicKey
      rw [hl, ← hi, this]
      exact List.mem_append_left _ (List.mem_append_left _ (List.mem_append_right _ (List.mem_append_right _ (List.mem_singleton.2 rfl))))

/-! ## When generation fails -/

theorem mapType_none {t : IdlTy} : mapType t = none ↔ unknown t = true := by
  induction t with
  | prim s => simp [mapType, unknown]
  | defined n => simp [mapType, unknown]
  | array e k ih => simp [mapType, unknown, ih]
  | other => simp [mapType, unknown]

theorem mapM_isSome {α β : Type} {g : α → Option β} (l : List α) : (l.mapM g).isSome = true ↔ ∀ a ∈ l, (g a).isSome = true := by
  induction l with
  | nil => simp
  | cons a l ih =>
    rw [List.mapM_cons]
    cases h : g a with
    | none => simp [h]
    | some b =>
      cases h2 : l.mapM g with
      | none => rw [h2] at ih; simp at ih ⊢; obtain ⟨x, hx, hx'⟩ := ih; simp [h]; exact ⟨x, hx, hx'⟩
      | some bs => rw [h2] at ih; simp [h] at ih ⊢; exact ih

theorem scanField_isSome (n : Bool × Bool) (f : IdlField) : (scanField n f).isSome = true ↔ unknown f.type = false := by
  unfold scanField
  cases hm : mapType f.type with
  | none =>
    rw [mapType_none.1 hm]
    simp only [Option.bind_eq_bind, Option.bind_none, Option.isSome_none, Bool.false_eq_true, Bool.true_eq_false]
  | some m =>
    have : unknown f.type = false := by
      cases h : unknown f.type with
      | false => rfl
      | true => rw [mapType_none.2 h] at hm; cases hm
    simp only [Option.bind_eq_bind, Option.bind_some, this, iff_true]
    cases includes m "BN".toList
    · cases includes m "PublicKey".toList
      · exact rfl
      · exact rfl
    · exact rfl

theorem foldlM_isSome {α : Type} {g : Bool × Bool → α → Option (Bool × Bool)} {P : α → Prop}
    (hg : ∀ n a, (g n a).isSome = true ↔ P a) (l : List α) (n : Bool × Bool) :
    (l.foldlM g n).isSome = true ↔ ∀ a ∈ l, P a := by
  induction l generalizing n with
  | nil => simp
  | cons a l ih =>
    rw [List.foldlM_cons]
    cases h : g n a with
    | none =>
      have : ¬ P a := fun hp => by have := (hg n a).2 hp; rw [h] at this; cases this
      simp [this]
    | some m =>
      have : P a := (hg n a).1 (by rw [h]; rfl)
      simp only [Option.bind_eq_bind, Option.bind_some, ih, List.mem_cons, forall_eq_or_imp, this, true_and]

theorem fieldLine_isSome (f : IdlField) : (fieldLine f).isSome = true ↔ unknown f.type = false := by
  unfold fieldLine
  cases hm : mapType f.type with
  | none => simp [mapType_none.1 hm]
  | some m =>
    have : unknown f.type = false := by
      cases h : unknown f.type with
      | false => rfl
      | true => rw [mapType_none.2 h] at hm; cases hm
    simp [this]

theorem generateStructType_isSome (t : IdlType) : (generateStructType t).isSome = true ↔ Known t := by
  obtain ⟨name, body⟩ := t
  unfold Known
  cases body with
  | other => simp [generateStructType]
  | enum v => cases v <;> simp [generateStructType]
  | struct fields =>
    cases fields with
    | none => simp [generateStructType]
    | some fs =>
      cases fs with
      | nil => simp [generateStructType]
      | cons f fs =>
        have h := mapM_isSome (g := fieldLine) (f :: fs)
        simp only [fieldLine_isSome] at h
        simp only [generateStructType, Option.bind_eq_bind, IdlBody.struct.injEq, Option.some.injEq, forall_eq']
        cases hm : (f :: fs).mapM fieldLine with
        | none => rw [hm] at h; simpa using h
        | some ls => rw [hm] at h; simpa using h

theorem structs_isSome (types : List IdlType) : (generateStructs types).isSome = true ↔ ∀ t ∈ types, Known t := by
  have h1 := mapM_isSome (g := generateStructType) types
  simp only [generateStructType_isSome] at h1
  have h2 : (types.foldlM scanType (false, false)).isSome = true ↔ ∀ t ∈ types, Known t := by
    refine foldlM_isSome (fun n t => ?_) types _
    unfold scanType Known
    split
    · rename_i fs hb
      rw [foldlM_isSome (P := fun f : IdlField => unknown f.type = false) scanField_isSome]
      constructor
      · intro h fs' hfs; rw [hb] at hfs; cases hfs; exact h
      · intro h; exact h _ hb
    · rename_i hb
      simp only [Option.isSome_some, true_iff]
      intro fs hfs
      exact absurd hfs (hb fs)
  unfold generateStructs generateImports
  cases hs : types.foldlM scanType (false, false) with
  | none => rw [hs] at h2; simpa using h2
  | some needs =>
    cases hm : types.mapM generateStructType with
    | none => rw [hm] at h1; simpa using h1
    | some texts => rw [hm] at h1; simpa using h1

end Solsab.Spec.Ts
