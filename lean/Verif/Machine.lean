import Verif.Lockup.Instructions
import Verif.Merkle.Instructions
/-!
# The machine: every instruction, an adversarial environment, transactions, histories

`step` executes one instruction.  Arguments are typed as in the program's interface (`u64`, `u32`,
`u128`), so a theorem over all `Ix` ranges over exactly the representable inputs.
-/

namespace Solsab

/-- State-changing instructions of `sablier_lockup`, `programs/lockup/src/lib.rs:44-255`. -/
inductive LockupIx
  | initialize (c : Lockup.InitializeAccts) (feeCollector chainlinkProgram chainlinkSolUsdFeed : Addr)
  | createWithTimestamps (c : Lockup.CreateAccts) (salt : Fin (2 ^ 128))
      (depositAmount startTime cliffTime endTime startUnlockAmount cliffUnlockAmount : UInt64)
      (isCancelable : Bool)
  | createWithDurations (c : Lockup.CreateAccts) (salt : Fin (2 ^ 128))
      (depositAmount cliffDuration totalDuration startUnlockAmount cliffUnlockAmount : UInt64)
      (isCancelable : Bool)
  | withdraw (c : Lockup.WithdrawAccts) (amount : UInt64)
  | withdrawMax (c : Lockup.WithdrawAccts)
  | cancel (c : Lockup.CancelAccts)
  | renounce (c : Lockup.RenounceAccts)
  | collectFees (c : Lockup.CollectFeesAccts)

/-- State-changing instructions of `sablier_merkle_instant`, `programs/merkle_instant/src/lib.rs:52-167`. -/
inductive MerkleIx
  | initialize (c : Merkle.InitializeAccts) (feeCollector chainlinkProgram chainlinkSolUsdFeed : Addr)
  | createCampaign (c : Merkle.CreateCampaignAccts) (merkleRoot : Bytes32)
      (campaignStartTime expirationTime : UInt64) (name ipfsCid : List UInt8)
      (aggregateAmount : UInt64) (recipientCount : UInt32)
  | claim (c : Merkle.ClaimAccts) (index : UInt32) (amount : UInt64) (proof : List Bytes32)
  | clawback (c : Merkle.ClawbackAccts) (amount : UInt64)
  | collectFees (c : Merkle.CollectFeesAccts)

/-- Everything else that can happen on the chain and that matters to the two programs.  External
programs; the guards are the authorisations those programs enforce. Models no line of /repo: the environment of the
programs. -/
inductive EnvIx
  /-- Time passes (`Clock` sysvar; never backwards). -/
  | tick (t : Int)
  /-- The oracle feed (or whatever program is installed as oracle) answers anything. -/
  | setOracle (program feed : Addr) (d : OracleData)
  /-- The lamports of a non-derived address change arbitrarily. -/
  | setWallet (n : Nat) (amount : Nat)
  /-- System transfer signed by `src`, to any address (in particular a donation to a derived one). -/
  | sendLamports (src dst : Addr) (amount : Nat)
  /-- A new mint at a keypair address, with any authorities and extensions. -/
  | createMint (n : Nat) (md : MintData)
  /-- Token-2022 `SetTransferFee` on a mint that has the extension. -/
  | setFee (mint : Addr) (f : FeeConfig)
  /-- Token-2022 pause / resume, hook changes, ... and change of the default account state of a keypair mint of that
  program. -/
  | setBlocked (n : Nat) (blocked startsFrozen : Bool)
  /-- `SetAuthority(MintTokens | FreezeAccount)` signed by the current authority. -/
  | setMintAuthority (mint signer : Addr) (newAuthority : Option Addr)
  | setFreezeAuthority (mint signer : Addr) (newAuthority : Option Addr)
  | mintTo (mint dst authority : Addr) (tp : TokenProgram) (amount : Nat)
  /-- Token transfer signed by the owner of `src`. -/
  | transfer (src dst owner mint : Addr) (tp : TokenProgram) (amount decimals : Nat)
  /-- Token-2022 transfer by the permanent delegate of the mint. -/
  | delegateTransfer (src dst delegate mint : Addr) (tp : TokenProgram) (amount : Nat)
  | burn (src owner : Addr) (amount : Nat)
  | delegateBurn (src delegate : Addr) (amount : Nat)
  /-- `Approve`: the owner lets a delegate move up to `amount`. -/
  | approve (addr owner delegate : Addr) (amount : Nat)
  /-- `Revoke`, by the owner or (Token-2022) by the delegate. -/
  | revoke (addr signer : Addr)
  /-- Token-2022: the owner switches the memo requirement and the CPI guard of an account. -/
  | changeSettings (addr owner : Addr) (s : Settings)
  /-- Token transfer signed by an approved delegate. -/
  | approvedTransfer (src dst delegate mint : Addr) (tp : TokenProgram) (amount decimals : Nat)
  | approvedBurn (src delegate : Addr) (amount : Nat)
  /-- Metaplex `FreezeDelegatedAccount` / `ThawDelegatedAccount`: the delegate of an account of an NFT with an edition
  freezes or thaws it, with the edition as freeze authority. -/
  | metaplexFreeze (addr delegate : Addr) (frozen : Bool)
  /-- Metaplex `BurnNft` signed by the holder. -/
  | metaplexBurn (tokenAccount owner mint : Addr)
  /-- Metaplex metadata for any mint, signed by its mint authority; `sized` makes it a collection.  Whether a
  master edition is made too is left open (`info.edition`); the move of the authorities of the mint that goes
  with it is then the two `Set…Authority` steps. -/
  | metaplexCreate (mint authority : Addr) (name : List Char) (info : NftInfo) (sized : Bool)
  /-- Metaplex `update`, signed by the update authority: any new data (not the verified collection). -/
  | metaplexUpdate (mint authority : Addr) (name : List Char) (info : NftInfo) (size : Option Nat)
  /-- Metaplex `sign_metadata`. -/
  | metaplexSign (mint creator : Addr)
  /-- Metaplex `verify_(sized_)collection_item`, signed by the update authority of the collection, for an item
  whose metadata claims the collection (`set_and_verify` is an update and this). -/
  | metaplexVerify (item collection authority : Addr)
  /-- Metaplex `unverify_(sized_)collection_item`, signed by the update authority of the collection. -/
  | metaplexUnverify (item collection authority : Addr)
  /-- ATA program: anybody may create anybody's associated account. -/
  | createAta (payer addr owner : Addr) (tp : TokenProgram) (mint : Addr)
  /-- Token account at a keypair address for any owner. -/
  | createTokenAccount (n : Nat) (owner mint : Addr) (tp : TokenProgram)
  /-- `SetAuthority(AccountOwner)` signed by the current owner. -/
  | setOwner (addr owner newOwner : Addr)
  /-- `CloseAccount` of an empty account, signed by the owner. -/
  | closeToken (addr owner dst : Addr)
  /-- `FreezeAccount` / `ThawAccount` signed by the freeze authority. -/
  | setFrozen (addr authority : Addr) (frozen : Bool)

/-- The instructions of `programs/lockup/src/lib.rs:44-255` and `programs/merkle_instant/src/lib.rs:52-170`, and the
environment. -/
inductive Ix
  | lockup (i : LockupIx)
  | merkle (i : MerkleIx)
  | env (i : EnvIx)

/-- Dispatch of `sablier_lockup` (`programs/lockup/src/lib.rs:44-255`). -/
def LockupIx.run (rt : Runtime) (w : World) : LockupIx → Res World
  | .initialize c f p s => Lockup.initializeProgram rt w c f p s
  | .createWithTimestamps c salt dep st cl en su cu ca =>
      Lockup.createWithTimestamps rt w c
        { salt := salt.val, depositAmount := dep.toNat, startTime := st.toNat, cliffTime := cl.toNat,
          endTime := en.toNat, startUnlockAmount := su.toNat, cliffUnlockAmount := cu.toNat,
          isCancelable := ca }
  | .createWithDurations c salt dep cd td su cu ca =>
      Lockup.createWithDurations rt w c
        { salt := salt.val, depositAmount := dep.toNat, cliffDuration := cd.toNat,
          totalDuration := td.toNat, startUnlockAmount := su.toNat, cliffUnlockAmount := cu.toNat,
          isCancelable := ca }
  | .withdraw c amount => Lockup.withdraw rt w c amount.toNat
  | .withdrawMax c => Lockup.withdrawMax rt w c
  | .cancel c => Lockup.cancel rt w c
  | .renounce c => Lockup.renounce rt w c
  | .collectFees c => Lockup.collectFees rt w c

/-- Dispatch of `sablier_merkle_instant` (`programs/merkle_instant/src/lib.rs:52-167`). -/
def MerkleIx.run (rt : Runtime) (w : World) : MerkleIx → Res World
  | .initialize c f p s => Merkle.initializeProgram rt w c f p s
  | .createCampaign c root st ex name cid agg cnt =>
      Merkle.createCampaign rt w c
        { merkleRoot := root, campaignStartTime := st.toNat, expirationTime := ex.toNat, name := name,
          ipfsCid := cid, aggregateAmount := agg.toNat, recipientCount := cnt.toNat }
  | .claim c index amount proof => Merkle.claim rt w c index.toNat amount.toNat proof
  | .clawback c amount => Merkle.clawback rt w c amount.toNat
  | .collectFees c => Merkle.collectFees rt w c

/-- What is left of an approval when the delegate has moved `amount`: the token programs drop the delegate when nothing
is left. External program, no line of /repo. -/
def spendApproval (ap : Addr × Nat) (amount : Nat) : Option (Addr × Nat) :=
  if ap.2 - amount = 0 then none else some (ap.1, ap.2 - amount)

/-- The environment (external programs, time, oracle).  Two remarks on approvals.  An owner who approves himself only
caps his own transfers; that is excluded.  `t.owner.canSign` in the delegate's transfer and burn is never binding: only an
owner who signs can have approved (`Reachable.approvalsOK`). -/
def EnvIx.run (rt : Runtime) (w : World) : EnvIx → Res World
  | .tick t => do
      require (w.clock ≤ t ∧ t < 2 ^ 63) .env
      pure { w with clock := t }
  | .setOracle p f d => pure { w with oracle := fun p' f' => if p' = p ∧ f' = f then d else w.oracle p' f' }
  | .setWallet n amount => pure { w with lamports := upd w.lamports (.key n) amount }
  | .sendLamports src dst amount => do
      require (src.canSign = true) (.anchor .accountNotSigner)
      w.systemTransfer src dst amount
  | .createMint n md => do
      require (md.supply = 0 ∧ md.ExtensionsOk) .env
      let b ← w.bank.openMint (.key n) md
      pure { w with bank := b }
  | .setFee mint f => do
      let md ← fetch (w.bank.mints mint) .env
      require (md.feeConfig.isSome = true) .env
      pure { w with bank := w.bank.setMint mint (some { md with feeConfig := some f }) }
  | .setBlocked n blocked startsFrozen => do
      let md ← fetch (w.bank.mints (.key n)) .env
      require (md.program = .token2022) .env
      pure { w with bank := w.bank.setMint (.key n) (some { md with transferBlocked := blocked, startsFrozen := startsFrozen }) }
  | .setMintAuthority mint signer a => do
      let md ← fetch (w.bank.mints mint) .env
      require (md.authority = some signer ∧ signer.canSign = true) (.token .badAuthority)
      pure { w with bank := w.bank.setMint mint (some { md with authority := a }) }
  | .setFreezeAuthority mint signer a => do
      let md ← fetch (w.bank.mints mint) .env
      require (md.freezeAuthority = some signer ∧ signer.canSign = true) (.token .badAuthority)
      pure { w with bank := w.bank.setMint mint (some { md with freezeAuthority := a }) }
  | .mintTo mint dst authority tp amount => do
      require (authority.canSign = true) (.anchor .accountNotSigner)
      let b ← w.bank.mintTo mint dst authority tp amount
      pure { w with bank := b }
  | .transfer src dst owner mint tp amount decimals => do
      require (owner.canSign = true) (.anchor .accountNotSigner)
      let b ← w.bank.transferChecked src dst owner mint tp amount decimals
      pure { w with bank := b }
  | .delegateTransfer src dst delegate mint tp amount => do
      let md ← fetch (w.bank.mints mint) .env
      require (md.permanentDelegate = some delegate ∧ delegate.canSign = true) (.token .badAuthority)
      let b ← w.bank.transferCore src dst mint tp amount
      pure { w with bank := b }
  | .burn src owner amount => do
      let t ← fetch (w.bank.tokens src) .env
      require (t.owner = owner ∧ owner.canSign = true) (.token .ownerMismatch)
      let b ← w.bank.burn src amount
      pure { w with bank := b }
  | .delegateBurn src delegate amount => do
      let t ← fetch (w.bank.tokens src) .env
      let md ← fetch (w.bank.mints t.mint) .env
      require (md.permanentDelegate = some delegate ∧ delegate.canSign = true) (.token .badAuthority)
      let b ← w.bank.burn src amount
      pure { w with bank := b }
  | .approve addr owner delegate amount => do
      let t ← fetch (w.bank.tokens addr) .env
      require (t.owner = owner ∧ owner.canSign = true) (.token .ownerMismatch)
      require (t.frozen = false ∧ delegate ≠ owner) (.token .accountFrozen)
      pure { w with approvals := upd w.approvals addr (some (delegate, amount)) }
  | .revoke addr signer => do
      let t ← fetch (w.bank.tokens addr) .env
      require (signer.canSign = true ∧ (t.owner = signer ∨ (w.approvals addr).map Prod.fst = some signer))
        (.token .ownerMismatch)
      pure { w with approvals := upd w.approvals addr none }
  | .changeSettings addr owner s => do
      let t ← fetch (w.bank.tokens addr) .env
      require (t.owner = owner ∧ owner.canSign = true) (.token .ownerMismatch)
      require (t.program = .token2022) .env
      pure { w with settings := upd w.settings addr s }
  | .approvedTransfer src dst delegate mint tp amount decimals => do
      let t ← fetch (w.bank.tokens src) .env
      let ap ← fetch (w.approvals src) (.token .ownerMismatch)
      require (ap.1 = delegate ∧ delegate.canSign = true ∧ t.owner.canSign = true) (.token .ownerMismatch)
      require (amount ≤ ap.2) (.token .insufficientFunds)
      let b ← w.bank.transferChecked src dst t.owner mint tp amount decimals
      pure { w with
        bank := b, approvals := if src = dst then w.approvals else upd w.approvals src (spendApproval ap amount) }
  | .approvedBurn src delegate amount => do
      let t ← fetch (w.bank.tokens src) .env
      let ap ← fetch (w.approvals src) (.token .ownerMismatch)
      require (ap.1 = delegate ∧ delegate.canSign = true ∧ t.owner.canSign = true) (.token .ownerMismatch)
      require (amount ≤ ap.2) (.token .insufficientFunds)
      let b ← w.bank.burn src amount
      pure { w with bank := b, approvals := upd w.approvals src (spendApproval ap amount) }
  | .metaplexFreeze addr delegate frozen => do
      let t ← fetch (w.bank.tokens addr) .env
      let md ← fetch (w.bank.mints t.mint) .env
      let ap ← fetch (w.approvals addr) (.token .ownerMismatch)
      require (ap.1 = delegate ∧ delegate.canSign = true) (.token .ownerMismatch)
      require (md.freezeAuthority = some (.edition t.mint)) (.token .badAuthority)
      pure { w with bank := w.bank.setToken addr (some { t with frozen := frozen }) }
  | .metaplexBurn acc owner mint => do
      let t ← fetch (w.bank.tokens acc) .env
      require (t.owner = owner ∧ owner.canSign = true) (.token .ownerMismatch)
      require (t.mint = mint ∧ t.amount = 1) (.token .mintMismatch)
      let m ← fetch (w.metas mint) .env
      require (m.info.edition = true) .env
      let b ← w.bank.burn acc 1
      let b := b.setToken acc none
      let approvals := upd w.approvals acc none
      let metas := upd w.metas mint none
      let metas := match m.collection with
        | none => metas
        | some c => match metas c with
          | none => metas
          | some cm => upd metas c (some { cm with collectionSize := cm.collectionSize.map (· - 1) })
      pure { w with bank := b, metas := metas, approvals := approvals, settings := upd w.settings acc .off }
  | .metaplexCreate mint authority name info sized => do
      let md ← fetch (w.bank.mints mint) .env
      require (md.authority = some authority ∧ authority.canSign = true) (.token .badAuthority)
      require (w.metas mint = none) (.anchor .accountAlreadyInUse)
      require (∀ c ∈ info.creators, c.verified = true → c.address = authority) (.token .badAuthority)
      pure { w with metas := upd w.metas mint (some ⟨name, none, if sized then some 0 else none, info⟩) }
  | .metaplexUpdate mint authority name info size => do
      let m ← fetch (w.metas mint) .env
      require (m.info.updateAuthority = authority ∧ authority.canSign = true) (.token .badAuthority)
      require (m.info.isMutable = true ∧ info.edition = m.info.edition) .env
      require (∀ c ∈ info.creators, c.verified = true → c.address = authority ∨
        ∃ c' ∈ m.info.creators, c'.address = c.address ∧ c'.verified = true) (.token .badAuthority)
      pure { w with metas := upd w.metas mint (some ⟨name, m.collection, size, info⟩) }
  | .metaplexSign mint creator => do
      require (creator.canSign = true) (.anchor .accountNotSigner)
      Lockup.metaplexSign w mint creator
  | .metaplexVerify item collection authority => do
      require (authority.canSign = true) (.anchor .accountNotSigner)
      let im ← fetch (w.metas item) .env
      let cm ← fetch (w.metas collection) .env
      require (im.collection = none ∧ im.info.claimed = some collection) .env
      require (cm.info.updateAuthority = authority) (.token .badAuthority)
      let metas := upd w.metas collection (some { cm with collectionSize := cm.collectionSize.map (· + 1) })
      let im := (metas item).map fun m => { m with collection := some collection }
      pure { w with metas := upd metas item im }
  | .metaplexUnverify item collection authority => do
      require (authority.canSign = true) (.anchor .accountNotSigner)
      let im ← fetch (w.metas item) .env
      let cm ← fetch (w.metas collection) .env
      require (im.collection = some collection) .env
      require (cm.info.updateAuthority = authority) (.token .badAuthority)
      let metas := upd w.metas collection (some { cm with collectionSize := cm.collectionSize.map (· - 1) })
      let im := (metas item).map fun m => { m with collection := none }
      pure { w with metas := upd metas item im }
  | .createAta payer addr owner tp mint => do
      require (payer.canSign = true) (.anchor .accountNotSigner)
      w.createAta rt payer addr owner tp mint
  | .createTokenAccount n owner mint tp => do
      let b ← w.bank.openAccount (.key n) owner mint tp
      pure { w with bank := b }
  | .setOwner addr owner newOwner => do
      let t ← fetch (w.bank.tokens addr) .env
      require (t.owner = owner ∧ owner.canSign = true) (.token .ownerMismatch)
      require (t.frozen = false ∧ (w.settings addr).cpiGuard = false) (.token .accountFrozen)
      pure { w with
        bank := w.bank.setToken addr (some { t with owner := newOwner }), approvals := upd w.approvals addr none }
  | .closeToken addr owner dst => do
      let t ← fetch (w.bank.tokens addr) .env
      require (t.owner = owner ∧ owner.canSign = true) (.token .ownerMismatch)
      require (t.amount = 0) .env
      let l := upd w.lamports addr 0
      pure { w with
        bank := w.bank.setToken addr none, lamports := upd l dst (l dst + w.lamports addr)
        approvals := upd w.approvals addr none, settings := upd w.settings addr .off }
  | .setFrozen addr authority frozen => do
      let t ← fetch (w.bank.tokens addr) .env
      let md ← fetch (w.bank.mints t.mint) .env
      require (md.freezeAuthority = some authority ∧ authority.canSign = true) (.token .badAuthority)
      pure { w with bank := w.bank.setToken addr (some { t with frozen := frozen }) }

/-- One instruction. Entry points `programs/lockup/src/lib.rs:44-255`, `programs/merkle_instant/src/lib.rs:52-170`. -/
def step (rt : Runtime) (w : World) : Ix → Res World
  | .lockup i => i.run rt w
  | .merkle i => i.run rt w
  | .env i => i.run rt w

/-- The instructions of a transaction, in order; the first failure fails them all. Solana runtime, no line of /repo.
-/
def runAll (rt : Runtime) (w : World) : List Ix → Res World
  | [] => .ok w
  | i :: is => do
      let w ← step rt w i
      runAll rt w is

/-- A Solana transaction: on any failure nothing is committed. Solana runtime, no line of /repo. -/
def execTx (rt : Runtime) (w : World) (tx : List Ix) : World :=
  match runAll rt w tx with
  | .ok w' => w'
  | .error _ => w

/-- The chain before the programs are first used: no tokens, no program accounts, empty history; any
lamport balances and oracle data; a clock in range. State before
`programs/lockup/src/instructions/initialize.rs:126-150` and
`programs/merkle_instant/src/instructions/initialize.rs:36-47` have run. -/
structure Genesis (w : World) : Prop where
  clock_nonneg : 0 ≤ w.clock
  clock_lt : w.clock < 2 ^ 63
  no_mints : ∀ a, w.bank.mints a = none
  no_tokens : ∀ a, w.bank.tokens a = none
  no_metas : ∀ a, w.metas a = none
  no_approvals : ∀ a, w.approvals a = none
  no_settings : ∀ a, w.settings a = .off
  no_lk_treasury : w.lk.treasury = none
  no_collection : w.lk.nftCollectionData = none
  no_streams : ∀ a, w.lk.streams a = none
  no_mi_treasury : w.mi.treasury = none
  no_campaigns : ∀ a, w.mi.campaigns a = none
  no_receipts : ∀ a, w.mi.receipts a = false
  no_log : w.log = []

/-- `w'` results from `w` by any number of successful instructions. Histories; no line of /repo. -/
inductive Steps (rt : Runtime) : World → World → Prop
  | refl (w : World) : Steps rt w w
  | tail {w w' w'' : World} (ix : Ix) : Steps rt w w' → step rt w' ix = .ok w'' → Steps rt w w''

/-- States of all histories. No line of /repo. -/
def Reachable (rt : Runtime) (w : World) : Prop := ∃ w₀, Genesis w₀ ∧ Steps rt w₀ w

end Solsab
