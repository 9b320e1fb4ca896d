/-!
# Errors, checked machine arithmetic, map update

Rust `Result` stays data (`Res α = Except Err α`).  A Rust panic (arithmetic overflow, failed
`unwrap`/`expect`, division by zero, slice out of range) is the explicit value `Err.panic`:
`/repo/Cargo.toml:5-8` sets `overflow-checks = true` for the release profile, so `+`, `-`, `*` on
`u64`/`u128` panic instead of wrapping.
-/

namespace Solsab

/-- `programs/lockup/src/utils/errors.rs:3-58` (`ErrorCode`). -/
inductive LockupErr
  | streamDepleted | streamCanceled | streamIsNotCancelable | streamSettled
  | cantCollectZeroFees
  | cliffTimeNotLessThanEndTime | cliffTimeZeroUnlockAmountNotZero | depositAmountZero
  | startTimeNotLessThanCliffTime | startTimeNotLessThanEndTime | startTimeZero
  | unlockAmountsSumTooHigh
  | streamAlreadyNonCancelable
  | overdraw | withdrawAmountZero
  deriving DecidableEq, Repr

/-- `programs/merkle_instant/src/utils/errors.rs:3-26` (`ErrorCode`). -/
inductive MerkleErr
  | campaignExpired | invalidMerkleProof | campaignNotStarted
  | clawbackNotAllowed
  | cantCollectZeroFees
  deriving DecidableEq, Repr

/-- Errors raised by the code Anchor generates from the `#[account(...)]` constraints.
Coarse: the model distinguishes the constraint kinds, and does not claim which one Anchor reports
first when several are violated. The constraints are those of the `#[derive(Accounts)]` structs in
`programs/lockup/src/instructions/*.rs`, `programs/merkle_instant/src/instructions/*.rs`. -/
inductive AnchorErr
  | accountNotSigner | accountNotInitialized | accountAlreadyInUse
  | constraintAddress | constraintSeeds | constraintRaw
  | constraintAssociated | constraintTokenOwner | constraintTokenProgram
  | privilegeEscalation | maxSeedLengthExceeded | didNotSerialize
  deriving DecidableEq, Repr

/-- Errors of the SPL-Token / Token-2022 / Metaplex programs (external; coarse). -/
inductive TokenErr
  | insufficientFunds | ownerMismatch | mintMismatch | decimalsMismatch
  | accountFrozen | transferBlocked | cpiGuard | noMemo | overflow | badAuthority | nameTooLong
  deriving DecidableEq, Repr

/-- How an instruction fails: the error codes of `programs/lockup/src/utils/errors.rs:3-58` and
`programs/merkle_instant/src/utils/errors.rs`, Anchor's, the token programs', the system program's, or a panic. -/
inductive Err
  | panic
  | lockup (e : LockupErr)
  | merkle (e : MerkleErr)
  | anchor (e : AnchorErr)
  | token (e : TokenErr)
  | insufficientLamports
  | arithmeticOverflow      -- `sub_lamports` / `add_lamports` (anchor_lang)
  | env                     -- an environment step whose guard does not hold
  deriving DecidableEq, Repr

/-- `Result<T>` of the handlers (`programs/lockup/src/lib.rs`, `programs/merkle_instant/src/lib.rs`). -/
abbrev Res (α : Type) := Except Err α

/-- `if !c { return Err(e) }`. The shape of the checks in `programs/lockup/src/utils/validations.rs`,
`programs/merkle_instant/src/utils/validations.rs`. -/
def require (c : Prop) [Decidable c] (e : Err) : Res Unit :=
  if c then .ok () else .error e

/-- Deserialising / loading an account that must exist. `Account<'info, T>` / `InterfaceAccount` in the account
structs, e.g. `programs/lockup/src/instructions/withdraw.rs:60-66`. -/
def fetch {α : Type} (o : Option α) (e : Err) : Res α :=
  match o with
  | some a => .ok a
  | none => .error e

/-! ## Checked arithmetic -/

/-- Rust `a + b` on `u64` with `overflow-checks = true`; also `checked_add(..).unwrap()`/`expect`. `Cargo.toml:8`;
e.g. `programs/lockup/src/state/lockup.rs`, `programs/lockup/src/utils/validations.rs`. -/
def addU64 (a b : Nat) : Res Nat := if a + b < 2 ^ 64 then .ok (a + b) else .error .panic

/-- Rust `a - b` on `u64` with `overflow-checks = true`. `Cargo.toml:8`; e.g.
`programs/lockup/src/utils/lockup_math.rs:8-94`. -/
def subU64 (a b : Nat) : Res Nat := if b ≤ a then .ok (a - b) else .error .panic

/-- Rust `a * b` on `u64` with `overflow-checks = true`. `Cargo.toml:8`;
`programs/lockup/src/utils/fee_calculation.rs:57-66`. -/
def mulU64 (a b : Nat) : Res Nat := if a * b < 2 ^ 64 then .ok (a * b) else .error .panic

/-- Rust `a * b` on `u128` with `overflow-checks = true`. `Cargo.toml:8`;
`programs/lockup/src/utils/lockup_math.rs:8-94`, `programs/lockup/src/utils/fee_calculation.rs:57-66`. -/
def mulU128 (a b : Nat) : Res Nat := if a * b < 2 ^ 128 then .ok (a * b) else .error .panic

/-- Rust `a / b` on unsigned integers: panics when `b = 0`. `programs/lockup/src/utils/lockup_math.rs:8-94`,
`programs/lockup/src/utils/fee_calculation.rs:57-66`. -/
def divChecked (a b : Nat) : Res Nat := if b = 0 then .error .panic else .ok (a / b)

/-- Rust `10_u128.pow(e)` with `overflow-checks = true`. `programs/lockup/src/utils/fee_calculation.rs:57-66`. -/
def pow10U128 (e : Nat) : Res Nat := if 10 ^ e < 2 ^ 128 then .ok (10 ^ e) else .error .panic

/-- Rust `x as u64` for an unsigned `x`. `programs/lockup/src/utils/lockup_math.rs:8-94`,
`programs/lockup/src/utils/fee_calculation.rs:57-66`. -/
def asU64 (x : Nat) : Nat := x % 2 ^ 64

/-- Rust `x as u64` for a signed `x` (`i64`, `i128`): two's-complement truncation.
`programs/lockup/src/utils/time.rs:5`, `programs/lockup/src/utils/fee_calculation.rs:28-36`. -/
def intAsU64 (x : Int) : Nat := (x % 2 ^ 64).toNat

/-- Rust `x as u32` for an unsigned `x`. `programs/lockup/src/utils/fee_calculation.rs:36`,
`programs/merkle_instant/src/utils/fee_calculation.rs:35`. -/
def asU32 (x : Nat) : Nat := x % 2 ^ 32

/-! ## Maps -/

/-- Point update of a total map. Writing one account; no line of /repo. -/
def upd {κ ν : Type} [DecidableEq κ] (f : κ → ν) (k : κ) (v : ν) : κ → ν :=
  fun x => if x = k then v else f x

/-! ## Inversion lemmas for the error monad (used by every proof) -/

theorem bind_ok {α β : Type} {x : Res α} {f : α → Res β} {b : β} :
    (x >>= f) = .ok b ↔ ∃ a, x = .ok a ∧ f a = .ok b := by
  cases x with
  | error e => constructor
               · intro h; exact absurd h (by intro h; cases h)
               · rintro ⟨a, h, _⟩; cases h
  | ok a => constructor
            · intro h; exact ⟨a, rfl, h⟩
            · rintro ⟨a', h, h'⟩; cases h; exact h'

theorem pure_ok {α : Type} {a b : α} : (pure a : Res α) = .ok b ↔ a = b := by
  constructor
  · intro h; cases h; rfl
  · intro h; rw [h]; rfl

theorem ok_inj {α : Type} {a b : α} : (Except.ok a : Res α) = .ok b ↔ a = b := by
  constructor
  · intro h; cases h; rfl
  · intro h; rw [h]

theorem require_ok {c : Prop} [Decidable c] {e : Err} {u : Unit} :
    require c e = .ok u ↔ c := by
  unfold require
  split
  · simp_all
  · constructor
    · intro h; cases h
    · intro h; contradiction

theorem fetch_ok {α : Type} {o : Option α} {e : Err} {a : α} :
    fetch o e = .ok a ↔ o = some a := by
  unfold fetch
  cases o with
  | none => constructor <;> (intro h; cases h)
  | some b => constructor
              · intro h; cases h; rfl
              · intro h; cases h; rfl

theorem addU64_ok {a b c : Nat} : addU64 a b = .ok c ↔ a + b < 2 ^ 64 ∧ c = a + b := by
  unfold addU64
  split
  · constructor
    · intro h; cases h; exact ⟨by assumption, rfl⟩
    · rintro ⟨_, rfl⟩; rfl
  · constructor
    · intro h; cases h
    · rintro ⟨h, _⟩; contradiction

theorem subU64_ok {a b c : Nat} : subU64 a b = .ok c ↔ b ≤ a ∧ c = a - b := by
  unfold subU64
  split
  · constructor
    · intro h; cases h; exact ⟨by assumption, rfl⟩
    · rintro ⟨_, rfl⟩; rfl
  · constructor
    · intro h; cases h
    · rintro ⟨h, _⟩; contradiction

theorem mulU64_ok {a b c : Nat} : mulU64 a b = .ok c ↔ a * b < 2 ^ 64 ∧ c = a * b := by
  unfold mulU64
  split
  · constructor
    · intro h; cases h; exact ⟨by assumption, rfl⟩
    · rintro ⟨_, rfl⟩; rfl
  · constructor
    · intro h; cases h
    · rintro ⟨h, _⟩; contradiction

theorem mulU128_ok {a b c : Nat} : mulU128 a b = .ok c ↔ a * b < 2 ^ 128 ∧ c = a * b := by
  unfold mulU128
  split
  · constructor
    · intro h; cases h; exact ⟨by assumption, rfl⟩
    · rintro ⟨_, rfl⟩; rfl
  · constructor
    · intro h; cases h
    · rintro ⟨h, _⟩; contradiction

theorem divChecked_ok {a b c : Nat} : divChecked a b = .ok c ↔ b ≠ 0 ∧ c = a / b := by
  unfold divChecked
  split
  · constructor
    · intro h; cases h
    · rintro ⟨h, _⟩; contradiction
  · constructor
    · intro h; cases h; exact ⟨by assumption, rfl⟩
    · rintro ⟨_, rfl⟩; rfl

theorem pow10U128_ok {e c : Nat} : pow10U128 e = .ok c ↔ 10 ^ e < 2 ^ 128 ∧ c = 10 ^ e := by
  unfold pow10U128
  split
  · constructor
    · intro h; cases h; exact ⟨by assumption, rfl⟩
    · rintro ⟨_, rfl⟩; rfl
  · constructor
    · intro h; cases h
    · rintro ⟨h, _⟩; contradiction

@[simp] theorem upd_same {κ ν : Type} [DecidableEq κ] (f : κ → ν) (k : κ) (v : ν) :
    upd f k v k = v := by simp [upd]

theorem upd_ne {κ ν : Type} [DecidableEq κ] (f : κ → ν) {k x : κ} (v : ν) (h : x ≠ k) :
    upd f k v x = f x := by simp [upd, h]

theorem upd_upd {κ ν : Type} [DecidableEq κ] (f : κ → ν) (k : κ) (v v' : ν) :
    upd (upd f k v) k v' = upd f k v' := by
  funext x
  simp only [upd]
  split <;> rfl

theorem upd_apply {κ ν : Type} [DecidableEq κ] (f : κ → ν) (k x : κ) (v : ν) :
    upd f k v x = if x = k then v else f x := rfl

end Solsab
