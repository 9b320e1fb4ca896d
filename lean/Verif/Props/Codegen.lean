import Verif.Spec.Codegen
import Verif.Idl
import Verif.Proofs.Codegen
/-!
# C102: the TypeScript bindings say what the programs say
-/

namespace Solsab.Props

open Codegen Spec Spec.Ts

/-- The error file, for every list of errors with proper names: a reader of TypeScript finds exactly the errors of the
interface, each with its number, in order. -/
theorem C102_errors {errors : List IdlError} (names : ∀ e ∈ errors, Ident e.name) :
    errorTable? (linesOf (generateErrorCode errors)) = some (errors.map fun e => (e.name, e.code)) :=
  errorTable names

/-- The type file, for every list of types with proper names: when one is written, a reader of TypeScript finds exactly
one declaration per type with content, in order, with the fields in order under their JavaScript names and with the right
types. -/
theorem C102_structs {types : List IdlType} (names : ∀ t ∈ types, WellNamed t) {content : Str}
    (written : generateStructs types = some content) : declarations? content = some (types.filterMap declFor) :=
  structs_read names written

/-- A type file is written exactly if every field has a type the generator knows; otherwise it stops with an error. -/
theorem C102_complete (types : List IdlType) : (generateStructs types).isSome = true ↔ ∀ t ∈ types, Known t :=
  structs_isSome types

/-- Field names are converted as JavaScript expects, and no two fields fall together. -/
theorem C102_names {a b : Str} (ha : Snake a = true) (hb : Snake b = true) :
    camelCase a = toCamel a ∧ (camelCase a = camelCase b → a = b) := by
  refine ⟨camelCase_snake ha, fun h => ?_⟩
  rw [camelCase_snake ha, camelCase_snake hb] at h
  rw [← fromCamel_snake ha, ← fromCamel_snake hb, h]

theorem mapM_mem {α β : Type} {g : α → Option β} : ∀ {l : List α} {r : List β}, l.mapM g = some r →
    ∀ b ∈ r, ∃ a ∈ l, g a = some b := by
  intro l
  induction l with
  | nil => intro r h b hb; simp at h; subst h; cases hb
  | cons x xs ih =>
    intro r h b hb
    rw [List.mapM_cons] at h
    cases hx : g x with
    | none => rw [hx] at h; cases h
    | some y =>
      cases hxs : xs.mapM g with
      | none => rw [hx, hxs] at h; cases h
      | some ys =>
        rw [hx, hxs] at h
        cases h
        rcases List.mem_cons.mp hb with rfl | hb
        · exact ⟨x, List.mem_cons_self .., hx⟩
        · obtain ⟨a, ha, hg⟩ := ih hxs b hb
          exact ⟨a, List.mem_cons_of_mem _ ha, hg⟩

theorem mapM_all {α β : Type} {g : α → Option β} {l : List α} (h : ∀ a ∈ l, (g a).isSome = true) :
    ∃ r, l.mapM g = some r := by
  have := (mapM_isSome (g := g) l).mpr h
  exact Option.isSome_iff_exists.mp this

theorem typeFor_isSome {types : List IdlType} : ∀ {t : IdlTy}, Resolved types t → (typeFor t).isSome = true
  | .prim _, _ => rfl
  | .defined _, _ => rfl
  | .array e _, h => by
    have := typeFor_isSome (t := e) h
    rw [typeFor, Option.isSome_map]; exact this
  | .other, h => h.elim

theorem declFor_isSome {types : List IdlType} {t : IdlType}
    (res : ∀ fs, t.body = .struct (some fs) → ∀ f ∈ fs, Resolved types f.type) (h : hasContent t = true) :
    ∃ d, declFor t = some d ∧ d.name = t.name := by
  obtain ⟨n, b⟩ := t
  unfold declFor
  match b with
  | .struct none => cases h
  | .struct (some []) => cases h
  | .struct (some (f :: fs)) =>
    obtain ⟨r, hr⟩ := mapM_all (l := f :: fs)
      (g := fun x => (typeFor x.type).map fun ty => (toCamel x.name, ty))
      (fun a ha => by rw [Option.isSome_map]; exact typeFor_isSome (res _ rfl a ha))
    exact ⟨.object n r, by dsimp only; rw [hr]; rfl, rfl⟩
  | .enum none => cases h
  | .enum (some []) => cases h
  | .enum (some (v :: vs)) => exact ⟨_, rfl, rfl⟩
  | .other => cases h

theorem base_cases {types : List IdlType} : ∀ {t : IdlTy}, Resolved types t → ∀ {ty : TsType}, typeFor t = some ty →
    builtin ty.base ∨ ty.base = "BN".toList ∨ ty.base = "PublicKey".toList ∨
    ∃ u ∈ types, u.name = ty.base ∧ hasContent u = true
  | .prim s, h, ty, hty => by
    have hs : s = "bool".toList ∨ s = "i64".toList ∨ s = "pubkey".toList ∨ s = "u8".toList ∨ s = "u32".toList ∨
        s = "u64".toList ∨ s = "u128".toList ∨ s = "string".toList := by
      obtain ⟨x, hx, rfl⟩ := List.mem_map.mp h
      rcases List.mem_cons.mp hx with rfl | hx; · exact .inl rfl
      rcases List.mem_cons.mp hx with rfl | hx; · exact .inr (.inl rfl)
      rcases List.mem_cons.mp hx with rfl | hx; · exact .inr (.inr (.inl rfl))
      rcases List.mem_cons.mp hx with rfl | hx; · exact .inr (.inr (.inr (.inl rfl)))
      rcases List.mem_cons.mp hx with rfl | hx; · exact .inr (.inr (.inr (.inr (.inl rfl))))
      rcases List.mem_cons.mp hx with rfl | hx; · exact .inr (.inr (.inr (.inr (.inr (.inl rfl)))))
      rcases List.mem_cons.mp hx with rfl | hx; · exact .inr (.inr (.inr (.inr (.inr (.inr (.inl rfl))))))
      rcases List.mem_cons.mp hx with rfl | hx; · exact .inr (.inr (.inr (.inr (.inr (.inr (.inr rfl))))))
      cases hx
    unfold builtin
    rw [typeFor, Option.some.injEq] at hty
    subst hty
    rcases hs with rfl | rfl | rfl | rfl | rfl | rfl | rfl | rfl
    · exact .inl (by decide +kernel)
    · exact .inr (.inl (by decide +kernel))
    · exact .inr (.inr (.inl (by decide +kernel)))
    · exact .inl (by decide +kernel)
    · exact .inl (by decide +kernel)
    · exact .inr (.inl (by decide +kernel))
    · exact .inr (.inl (by decide +kernel))
    · exact .inl (by decide +kernel)
  | .defined n, h, ty, hty => by
    rw [typeFor, Option.some.injEq] at hty
    subst hty
    obtain ⟨u, hu, hn, hc⟩ := h
    exact .inr (.inr (.inr ⟨u, hu, hn, hc⟩))
  | .array e _, h, ty, hty => by
    rw [typeFor] at hty
    obtain ⟨ty', he, rfl⟩ := Option.map_eq_some_iff.mp hty
    have := base_cases (t := e) h (ty := ty') he
    exact this
  | .other, h, _, _ => h.elim

/-- The type file is closed, for every interface whose fields have types that make sense: every type a field mentions is
built into TypeScript, or is `BN` or `PublicKey` and imported by the file, or is declared in the file. -/
theorem C102_closed {types : List IdlType} (names : ∀ t ∈ types, WellNamed t)
    (resolved : ∀ t ∈ types, ∀ fs, t.body = .struct (some fs) → ∀ f ∈ fs, Resolved types f.type) {content : Str}
    (written : generateStructs types = some content) {decls : List Decl} (read : declarations? content = some decls)
    {n : Str} {fields : List (Str × TsType)} (hd : Decl.object n fields ∈ decls) {x : Str} {ty : TsType}
    (hx : (x, ty) ∈ fields) :
    builtin ty.base ∨ (ty.base = "BN".toList ∧ importsBN content) ∨
    (ty.base = "PublicKey".toList ∧ importsPublicKey content) ∨ ∃ d ∈ decls, d.name = ty.base := by
  rw [structs_read names written, Option.some.injEq] at read
  subst read
  obtain ⟨t, ht, hdecl⟩ := List.mem_filterMap.mp hd
  obtain ⟨fs, hb, f, hf, hty⟩ : ∃ fs, t.body = .struct (some fs) ∧ ∃ f ∈ fs, typeFor f.type = some ty := by
    obtain ⟨tn, b⟩ := t
    unfold declFor at hdecl
    match b, hdecl with
    | .struct (some (g :: gs)), hdecl =>
      obtain ⟨r, hr, hrr⟩ := Option.map_eq_some_iff.mp hdecl
      cases hrr
      obtain ⟨f, hf, he⟩ := mapM_mem hr _ hx
      obtain ⟨ty', h1, h2⟩ := Option.map_eq_some_iff.mp he
      cases h2
      exact ⟨_, rfl, f, hf, h1⟩
    | .enum (some (v :: vs)), hdecl => cases hdecl
  have hw := (names t ht).2
  rw [hb] at hw
  have hi := imports_needed written ht hb hf (hw f hf).2 hty
  rcases base_cases (resolved t ht fs hb f hf) hty with h | h | h | ⟨u, hu, hn, hc⟩
  · exact .inl h
  · exact .inr (.inl ⟨h, hi.1 h⟩)
  · exact .inr (.inr (.inl ⟨h, hi.2 h⟩))
  · obtain ⟨d, h1, h2⟩ := declFor_isSome (resolved u hu) hc
    exact .inr (.inr (.inr ⟨d, List.mem_filterMap.mpr ⟨u, hu, h1⟩, h2.trans hn⟩))

/-- The programs a command line names. -/
def C102_named : Option Str → List Str
  | none => []
  | some a =>
    if a = "all".toList then ["sablier_lockup".toList, "sablier_merkle_instant".toList]
    else if a = "sablier_lockup".toList ∨ a = "sablier_merkle_instant".toList then [a] else []

/-- The command, for every argument and every generator: it succeeds exactly if the argument names a program (or all of
them) and the generator succeeds on each; then it has written one file for each, in order. Whatever happens, it writes
nothing but those files. -/
theorem C102_command (generator : Str → Option Write) (argument : Option Str) :
    ((main generator argument).2 = true ↔
      C102_named argument ≠ [] ∧ ∀ p ∈ C102_named argument, (generator p).isSome = true) ∧
    ((main generator argument).2 = true → (main generator argument).1 = (C102_named argument).filterMap generator) ∧
    (main generator argument).1 <+: (C102_named argument).filterMap generator := by
  cases argument with
  | none => exact ⟨⟨fun h => (by cases h), fun h => absurd rfl h.1⟩, fun h => (by cases h), List.nil_prefix⟩
  | some a =>
    unfold main C102_named
    by_cases hall : a = "all".toList
    · subst hall
      dsimp only
      rw [if_neg (by decide +kernel), if_pos rfl, if_pos rfl]
      change _ ∧ _ ∧ _ <+: List.filterMap generator [LOCKUP, MERKLE_INSTANT]
      change (_ ↔ [LOCKUP, MERKLE_INSTANT] ≠ [] ∧ ∀ p ∈ [LOCKUP, MERKLE_INSTANT], _) ∧
        (_ → _ = List.filterMap generator [LOCKUP, MERKLE_INSTANT]) ∧ _
      generalize LOCKUP = L
      generalize MERKLE_INSTANT = M
      cases h1 : generator L <;> cases h2 : generator M <;> simp [h1, h2]
    · by_cases hone : a = "sablier_lockup".toList ∨ a = "sablier_merkle_instant".toList
      · have hv : ¬ (a = [] ∨ a ∉ VALID_PROGRAMS) := by
          rintro (h | h)
          · rcases hone with rfl | rfl <;> revert h <;> decide +kernel
          · rcases hone with rfl | rfl <;> revert h <;> decide +kernel
        dsimp only
        rw [if_neg hv, if_neg hall, if_neg hall, if_pos hone]
        cases h1 : generator a <;> simp [h1]
      · have hv : a = [] ∨ a ∉ VALID_PROGRAMS := by
          right
          intro h
          rcases List.mem_cons.mp h with h | h
          · exact hall h
          rcases List.mem_cons.mp h with h | h
          · exact hone (.inl h)
          rcases List.mem_cons.mp h with h | h
          · exact hone (.inr h)
          cases h
        dsimp only
        rw [if_pos hv, if_neg hall, if_neg hone]
        exact ⟨⟨fun h => (by cases h), fun h => absurd rfl h.1⟩, fun h => (by cases h), List.nil_prefix⟩

noncomputable instance (t : IdlTy) : Decidable (namesOk t) := by
  induction t with
  | prim s => exact inferInstanceAs (Decidable (Ident s))
  | defined s => exact inferInstanceAs (Decidable (Ident s))
  | array e n ih => exact ih
  | other => exact inferInstanceAs (Decidable True)

noncomputable instance (t : IdlType) : Decidable (WellNamed t) := by
  unfold WellNamed
  obtain ⟨n, b⟩ := t
  match b with
  | .struct none => exact inferInstanceAs (Decidable (_ ∧ True))
  | .struct (some fs) => exact inferInstanceAs (Decidable (_ ∧ ∀ f ∈ fs, Snake f.name = true ∧ namesOk f.type))
  | .enum none => exact inferInstanceAs (Decidable (_ ∧ False))
  | .enum (some vs) => exact inferInstanceAs (Decidable (_ ∧ vs ≠ [] ∧ ∀ v ∈ vs, Ident v))
  | .other => exact inferInstanceAs (Decidable (_ ∧ True))

noncomputable instance (types : List IdlType) (t : IdlTy) : Decidable (Resolved types t) := by
  induction t with
  | prim s => exact inferInstanceAs (Decidable (s ∈ _))
  | defined s => exact inferInstanceAs (Decidable (∃ u ∈ types, u.name = s ∧ hasContent u = true))
  | array e n ih => exact ih
  | other => exact inferInstanceAs (Decidable False)

/-- All the fields of a type, none for an enum. -/
def C102_fields (t : IdlType) : List IdlField :=
  match t.body with
  | .struct (some fs) => fs
  | _ => []

def C102_lockup : List LockupErr :=
  [.streamDepleted, .streamCanceled, .streamIsNotCancelable, .streamSettled, .cantCollectZeroFees,
   .cliffTimeNotLessThanEndTime, .cliffTimeZeroUnlockAmountNotZero, .depositAmountZero,
   .startTimeNotLessThanCliffTime, .startTimeNotLessThanEndTime, .startTimeZero, .unlockAmountsSumTooHigh,
   .streamAlreadyNonCancelable, .overdraw, .withdrawAmountZero]

def C102_merkle : List MerkleErr :=
  [.campaignExpired, .invalidMerkleProof, .campaignNotStarted, .clawbackNotAllowed, .cantCollectZeroFees]

/-- The two programs: the commands write all four files; the error files list exactly the errors of the programs, each with
the number the program returns; the type files declare exactly the types of the programs with content, and are closed. -/
theorem C102_programs :
    (∃ a b, main (genErrors Idl.files) (some "all".toList) =
        ([("sablier_lockup_errors.ts".toList, a), ("sablier_merkle_instant_errors.ts".toList, b)], true) ∧
      (∃ table, errorTable? (linesOf a) = some table ∧
        ∀ n c, (n, c) ∈ table ↔ ∃ e : LockupErr, n = e.name.toList ∧ c = e.code) ∧
      (∃ table, errorTable? (linesOf b) = some table ∧
        ∀ n c, (n, c) ∈ table ↔ ∃ e : MerkleErr, n = e.name.toList ∧ c = e.code)) ∧
    (∃ a b, main (genStructs Idl.files) (some "all".toList) =
        ([("sablier_lockup_structs.ts".toList, a), ("sablier_merkle_instant_structs.ts".toList, b)], true) ∧
      declarations? a = some (Idl.lockupTypes.filterMap declFor) ∧
      declarations? b = some (Idl.merkleTypes.filterMap declFor)) ∧
    (∀ types ∈ [Idl.lockupTypes, Idl.merkleTypes], (∀ t ∈ types, WellNamed t) ∧
      ∀ t ∈ types, ∀ fs, t.body = .struct (some fs) → ∀ f ∈ fs, Resolved types f.type) := by
  have hle : ∀ e ∈ Idl.lockupErrors, Ident e.name := by decide +kernel
  have hme : ∀ e ∈ Idl.merkleErrors, Ident e.name := by decide +kernel
  have hw : ∀ types ∈ [Idl.lockupTypes, Idl.merkleTypes], ∀ t ∈ types, WellNamed t := by decide +kernel
  have hr : ∀ types ∈ [Idl.lockupTypes, Idl.merkleTypes], ∀ t ∈ types, ∀ f ∈ C102_fields t, Resolved types f.type := by
    decide +kernel
  have hr' : ∀ types ∈ [Idl.lockupTypes, Idl.merkleTypes], ∀ t ∈ types, ∀ fs, t.body = .struct (some fs) →
      ∀ f ∈ fs, Resolved types f.type := by
    intro types ht t h fs hb f hf
    refine hr types ht t h f ?_
    unfold C102_fields; rw [hb]; exact hf
  have hlw := hw _ (List.mem_cons_self ..)
  have hmw := hw _ (List.mem_cons_of_mem _ (List.mem_cons_self ..))
  have hgl : genErrors Idl.files LOCKUP = some ("sablier_lockup_errors.ts".toList, generateErrorCode Idl.lockupErrors) := by
    decide +kernel
  have hgm : genErrors Idl.files MERKLE_INSTANT =
      some ("sablier_merkle_instant_errors.ts".toList, generateErrorCode Idl.merkleErrors) := by
    decide +kernel
  refine ⟨⟨generateErrorCode Idl.lockupErrors, generateErrorCode Idl.merkleErrors, ?_, ?_, ?_⟩, ?_, fun ts h => ⟨hw ts h, hr' ts h⟩⟩
  · unfold main
    dsimp only
    rw [if_neg (by decide +kernel), if_pos rfl, hgl]
    dsimp only
    rw [hgm]
  · refine ⟨_, C102_errors hle, fun n c => ?_⟩
    have hm : Idl.lockupErrors.map (fun e => (e.name, e.code)) = C102_lockup.map (fun e => (e.name.toList, e.code)) := by
      decide +kernel
    have hall : ∀ e : LockupErr, e ∈ C102_lockup := by intro e; cases e <;> decide
    rw [hm]
    constructor
    · intro h
      obtain ⟨e, -, he⟩ := List.mem_map.mp h
      exact ⟨e, (congrArg Prod.fst he).symm, (congrArg Prod.snd he).symm⟩
    · rintro ⟨e, rfl, rfl⟩
      exact List.mem_map.mpr ⟨e, hall e, rfl⟩
  · refine ⟨_, C102_errors hme, fun n c => ?_⟩
    have hm : Idl.merkleErrors.map (fun e => (e.name, e.code)) = C102_merkle.map (fun e => (e.name.toList, e.code)) := by
      decide +kernel
    have hall : ∀ e : MerkleErr, e ∈ C102_merkle := by intro e; cases e <;> decide
    rw [hm]
    constructor
    · intro h
      obtain ⟨e, -, he⟩ := List.mem_map.mp h
      exact ⟨e, (congrArg Prod.fst he).symm, (congrArg Prod.snd he).symm⟩
    · rintro ⟨e, rfl, rfl⟩
      exact List.mem_map.mpr ⟨e, hall e, rfl⟩
  · have kl : (generateStructs Idl.lockupTypes).isSome = true := by decide +kernel
    have km : (generateStructs Idl.merkleTypes).isSome = true := by decide +kernel
    obtain ⟨a, ha⟩ := Option.isSome_iff_exists.mp kl
    obtain ⟨b, hb⟩ := Option.isSome_iff_exists.mp km
    refine ⟨a, b, ?_, C102_structs hlw ha, C102_structs hmw hb⟩
    have hgl : genStructs Idl.files LOCKUP = some ("sablier_lockup_structs.ts".toList, a) := by
      have : genStructs Idl.files LOCKUP =
          (generateStructs Idl.lockupTypes).map fun c => ("sablier_lockup_structs.ts".toList, c) := by decide +kernel
      rw [this, ha]; rfl
    have hgm : genStructs Idl.files MERKLE_INSTANT = some ("sablier_merkle_instant_structs.ts".toList, b) := by
      have : genStructs Idl.files MERKLE_INSTANT =
          (generateStructs Idl.merkleTypes).map fun c => ("sablier_merkle_instant_structs.ts".toList, c) := by decide +kernel
      rw [this, hb]; rfl
    unfold main
    dsimp only
    rw [if_neg (by decide +kernel), if_pos rfl, hgl]
    dsimp only
    rw [hgm]

/-! ## Examples: each hypothesis is met, and what the files look like -/

/-- The first three lines of the error file of the airdrop program, character by character. -/
example : (linesOf (generateErrorCode Idl.merkleErrors)).take 4 =
    ["// THIS IS AN AUTOGENERATED FILE. DO NOT EDIT THIS FILE DIRECTLY.".toList,
     "export const ProgramErrorCode = {".toList, "  CampaignExpired: 6000,".toList,
     "  InvalidMerkleProof: 6001,".toList] := by decide +kernel

example : ∀ e ∈ Idl.lockupErrors, Ident e.name := by decide +kernel

/-- `Timestamps`, as the file declares it. -/
example : generateStructType (Idl.struct "Timestamps" [Idl.fld "cliff" "u64", Idl.fld "end" "u64"]) =
    some "export type Timestamps = {\n  cliff: BN;\n  end: BN;\n};\n".toList := by decide +kernel

/-- A stream, as a reader of the file sees it. -/
example : declFor (Idl.struct "S" [Idl.ref "amounts" "Amounts", Idl.fld "was_canceled" "bool", Idl.hash "merkle_root"]) =
    some (.object "S".toList [("amounts".toList, ⟨"Amounts".toList, 0⟩), ("wasCanceled".toList, ⟨"boolean".toList, 0⟩),
      ("merkleRoot".toList, ⟨"number".toList, 1⟩)]) := by decide +kernel

/-- A receipt has no fields, so it has no declaration; the other six types of the airdrop program have one. -/
example : (Idl.merkleTypes.filterMap declFor).map Decl.name =
    ["Campaign", "Claim", "Clawback", "CreateCampaign", "FeesCollected", "Treasury"].map String.toList := by
  decide +kernel

/-- A `vec` is refused. -/
example : generateStructs [⟨"A".toList, .struct (some [⟨"xs".toList, .other⟩])⟩] = none := by decide +kernel

example : Snake "chainlink_sol_usd_feed".toList = true ∧
    camelCase "chainlink_sol_usd_feed".toList = "chainlinkSolUsdFeed".toList := by decide +kernel

/-- An unknown program: nothing is written. -/
example : main (genErrors Idl.files) (some "sablier_flow".toList) = ([], false) := by decide +kernel

end Solsab.Props
