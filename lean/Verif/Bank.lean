import Verif.Addr
/-!
# Token ledger (external programs: SPL-Token, Token-2022, Associated Token Account)

These programs are not part of the repository; this file records the behaviour the repository relies
on (`anchor_spl::token_interface::transfer_checked`, `mint_to`, account creation), and the behaviour
an adversary can use (fees, permanent delegate, freezing, ownership changes, burning).
-/

namespace Solsab

/-- Token-2022 `TransferFeeConfig` (current epoch): basis points and cap. External (Token-2022), no line of /repo. -/
structure FeeConfig where
  bps : Nat
  maxFee : Nat
  deriving DecidableEq, Repr

/-- A token mint.  Simplification: of the Token-2022 extensions only transfer fee, permanent delegate, default account
state (`startsFrozen`: new accounts are frozen until the freeze authority thaws them) and "transfers always fail when called as these programs call them" (transfer hook, non-transferable,
paused) are represented. External (`Mint` of the token programs), read e.g. at
`programs/lockup/src/instructions/create_with_timestamps.rs:95-125`. -/
structure MintData where
  program : TokenProgram
  decimals : Nat
  authority : Option Addr
  freezeAuthority : Option Addr
  supply : Nat
  feeConfig : Option FeeConfig
  permanentDelegate : Option Addr
  transferBlocked : Bool
  startsFrozen : Bool
  deriving DecidableEq

/-- A token account. External (`TokenAccount` of the token programs), read e.g. at
`programs/lockup/src/instructions/withdraw.rs:49-105`. -/
structure TokenData where
  program : TokenProgram
  mint : Addr
  owner : Addr
  amount : Nat
  frozen : Bool
  deriving DecidableEq

/-- A mint whose transfers move exactly the stated amount and only with the owner's authority. External; no line of
/repo. -/
def MintData.Plain (m : MintData) : Prop := m.feeConfig = none ∧ m.permanentDelegate = none

instance (m : MintData) : Decidable m.Plain := inferInstanceAs (Decidable (_ ∧ _))

/-- Extensions exist only in Token-2022: a mint of the classic token program has no transfer fee and no permanent
delegate, nothing blocks its transfers, and its new accounts are not frozen. External; no line of /repo. -/
def MintData.ExtensionsOk (m : MintData) : Prop := m.program = .token → m.Plain ∧ m.transferBlocked = false ∧ m.startsFrozen = false

instance (m : MintData) : Decidable m.ExtensionsOk := inferInstanceAs (Decidable (_ → _))

/-- Token-2022 `TransferFee::calculate_fee`: `min(ceil(amount * bps / 10000), max)`. External (Token-2022), no line of
/repo. -/
def MintData.fee (m : MintData) (amount : Nat) : Nat :=
  match m.feeConfig with
  | none => 0
  | some f => min ((amount * f.bps + 9999) / 10000) f.maxFee

/-- All mints and token accounts. External (the token programs), no line of /repo. -/
structure Bank where
  mints : Addr → Option MintData
  tokens : Addr → Option TokenData

namespace Bank

/-- Balance of a token account; 0 if there is no such account. External (`TokenAccount.amount`). -/
def balance (b : Bank) (a : Addr) : Nat :=
  match b.tokens a with
  | some t => t.amount
  | none => 0

/-- Write a token account (external). -/
def setToken (b : Bank) (a : Addr) (t : Option TokenData) : Bank :=
  { b with tokens := upd b.tokens a t }

/-- Write a mint (external). -/
def setMint (b : Bank) (a : Addr) (m : Option MintData) : Bank :=
  { b with mints := upd b.mints a m }

/-- Move `amount` out of `src` (holding `tf`) and credit `amount - fee` to `dst` (holding `tt`). External (the token
programs), called through `programs/lockup/src/utils/transfer_helper.rs:6-30`,
`programs/merkle_instant/src/utils/transfer_helper.rs:6-30`. -/
def move (b : Bank) (src dst : Addr) (tf tt : TokenData) (amount fee : Nat) : Bank :=
  (b.setToken src (some { tf with amount := tf.amount - amount })).setToken dst
    (some { tt with amount := tt.amount + (amount - fee) })

/-- The effect of a checked transfer once authorisation has been established
(`process_transfer` of SPL-Token and Token-2022): both accounts exist under the called program and
belong to the mint, are not frozen, the balance suffices; a self-transfer changes nothing; Token-2022
withholds its fee from the credited amount (the withheld part is not spendable by the receiver and is
not tracked further). External (the token programs), called through
`programs/lockup/src/utils/transfer_helper.rs:6-30`, `programs/merkle_instant/src/utils/transfer_helper.rs:6-30`. -/
def transferCore (b : Bank) (src dst mint : Addr) (tp : TokenProgram) (amount : Nat) : Res Bank := do
  let tf ← fetch (b.tokens src) (.anchor .accountNotInitialized)
  let tt ← fetch (b.tokens dst) (.anchor .accountNotInitialized)
  let md ← fetch (b.mints mint) (.anchor .accountNotInitialized)
  require (tf.program = tp ∧ tt.program = tp ∧ md.program = tp) (.anchor .constraintTokenProgram)
  require (tf.mint = mint ∧ tt.mint = mint) (.token .mintMismatch)
  require (tf.frozen = false ∧ tt.frozen = false) (.token .accountFrozen)
  require (md.transferBlocked = false) (.token .transferBlocked)
  require (amount ≤ tf.amount) (.token .insufficientFunds)
  if src = dst then
    pure b
  else do
    require (tt.amount + (amount - md.fee amount) < 2 ^ 64) (.token .overflow)
    pure (b.move src dst tf tt amount (md.fee amount))

/-- `transfer_checked` signed by `authority` (token owner), as issued by
`programs/lockup/src/utils/transfer_helper.rs:6-30` and
`programs/merkle_instant/src/utils/transfer_helper.rs:6-30`: the transfer above, plus the checks that
`authority` owns the source account and that the stated decimals are the mint's. -/
def transferChecked (b : Bank) (src dst authority mint : Addr) (tp : TokenProgram)
    (amount decimals : Nat) : Res Bank := do
  let tf ← fetch (b.tokens src) (.anchor .accountNotInitialized)
  let md ← fetch (b.mints mint) (.anchor .accountNotInitialized)
  require (tf.owner = authority) (.token .ownerMismatch)
  require (md.decimals = decimals) (.token .decimalsMismatch)
  b.transferCore src dst mint tp amount

/-- `mint_to` signed by `authority`. External, called at `programs/lockup/src/utils/nft.rs:16-122` and
`programs/lockup/src/utils/nft.rs:126-220`. -/
def mintTo (b : Bank) (mint dst authority : Addr) (tp : TokenProgram) (amount : Nat) : Res Bank := do
  let md ← fetch (b.mints mint) (.anchor .accountNotInitialized)
  let tt ← fetch (b.tokens dst) (.anchor .accountNotInitialized)
  require (md.program = tp ∧ tt.program = tp) (.anchor .constraintTokenProgram)
  require (tt.mint = mint) (.token .mintMismatch)
  require (tt.frozen = false) (.token .accountFrozen)
  require (md.authority = some authority) (.token .badAuthority)
  require (md.supply + amount < 2 ^ 64) (.token .overflow)
  require (tt.amount + amount < 2 ^ 64) (.token .overflow)
  pure ((b.setMint mint (some { md with supply := md.supply + amount })).setToken dst
    (some { tt with amount := tt.amount + amount }))

/-- `burn` by whoever is authorised: removes `amount` from the account and from the supply. External, not called by
the two programs. -/
def burn (b : Bank) (src : Addr) (amount : Nat) : Res Bank := do
  let tf ← fetch (b.tokens src) (.anchor .accountNotInitialized)
  let md ← fetch (b.mints tf.mint) (.anchor .accountNotInitialized)
  require (tf.frozen = false) (.token .accountFrozen)
  require (amount ≤ tf.amount ∧ amount ≤ md.supply) (.token .insufficientFunds)
  pure ((b.setMint tf.mint (some { md with supply := md.supply - amount })).setToken src
    (some { tf with amount := tf.amount - amount }))

/-- Create a token account at `addr` for an existing mint of program `tp`; fails if the address is
already in use. It is frozen if the mint says so (the default account state of Token-2022). External; `init` of token accounts, e.g.
`programs/lockup/src/instructions/create_with_timestamps.rs:116-145`,
`programs/merkle_instant/src/instructions/create_campaign.rs:55-63`. -/
def openAccount (b : Bank) (addr owner mint : Addr) (tp : TokenProgram) : Res Bank := do
  let md ← fetch (b.mints mint) (.anchor .accountNotInitialized)
  require (md.program = tp) (.anchor .constraintTokenProgram)
  require (b.tokens addr = none ∧ b.mints addr = none) (.anchor .accountAlreadyInUse)
  pure (b.setToken addr (some ⟨tp, mint, owner, 0, md.startsFrozen⟩))

/-- Create a mint at `addr`; fails if the address is already in use. External; `init` of mints,
`programs/lockup/src/instructions/initialize.rs:82-92`,
`programs/lockup/src/instructions/create_with_timestamps.rs:99-113`. -/
def openMint (b : Bank) (addr : Addr) (md : MintData) : Res Bank := do
  require (b.mints addr = none ∧ b.tokens addr = none) (.anchor .accountAlreadyInUse)
  pure (b.setMint addr (some md))

/-- The checks Anchor generates for a non-`init` account with
`associated_token::{mint, authority, token_program}`: the account exists, its token owner is the
authority, its address is the associated address, and it belongs to the token program. E.g.
`programs/lockup/src/instructions/withdraw.rs:77-105`, `programs/merkle_instant/src/instructions/claim.rs:66-73`. -/
def checkAta (b : Bank) (addr owner : Addr) (tp : TokenProgram) (mint : Addr) : Res TokenData := do
  let t ← fetch (b.tokens addr) (.anchor .accountNotInitialized)
  require (t.owner = owner) (.anchor .constraintTokenOwner)
  require (addr = .ata owner tp mint) (.anchor .constraintAssociated)
  require (t.program = tp) (.anchor .constraintTokenProgram)
  pure t

end Bank
end Solsab
