# Formal model of sablier-labs/solsab in Lean 4

The code is two Anchor programs: `lockup` (linear vesting streams wrapped in an NFT) and
`merkle_instant` (Merkle-tree airdrops).  Both are small state machines over Solana accounts, so the
model is one executable state machine `step : Runtime → World → Ix → Except Err World`, containing
every state-changing instruction of both programs **and** an adversarial environment (anybody moving
their own tokens, pre-creating associated accounts, changing oracle data, advancing the clock, ...).

## Files

| file (under `lean/Verif/`) | content |
|---|---|
| `Basic` | errors, checked `u64`/`u128` arithmetic, casts, map update |
| `Addr`, `Bank`, `World`, `Fee` | symbolic addresses; SPL-Token/Token-2022 ledger; clock, lamports, rent, oracle, event log; `fee_calculation.rs` |
| `Lockup/{State,Math,Validations,Instructions}` | `programs/lockup/src`: `state/*.rs`, `utils/lockup_math.rs`, `utils/validations.rs`, every instruction with its account constraints, every view |
| `Merkle/{State,Validations,Instructions,Builder}` | the same for `programs/merkle_instant/src`; `Builder` is the tree builder `tests/merkle-instant/utils/merkle.ts` |
| `Bytes/{Base58,Borsh,Sha256,Pda,Abi}` | base58 and NFT name; account encodings; discriminators; PDA preimages; instruction and event data |
| `Client/Calculations` | the TypeScript replica `tests/lockup/utils/calculations.ts` |
| `Codegen`, `Idl` | the binding generators `scripts/ts/codegen-*.ts`; the interfaces they read, for the two programs |
| `Machine` | environment steps, `Ix`, `step`, transactions, `Genesis`, `Steps`, `Reachable` |
| `AnyFee` | the instructions that charge a fee, with the fee constant as a parameter |
| `Spec/*` | small specifications the property theorems are stated against |
| `Proofs/*` | helper lemmas and invariants |
| `Props/*` | the property theorems `Cnn_...`, each followed by an `example` that instantiates it on a concrete run |
| `Demo` | the concrete run: two streams, a campaign, withdrawals, a cancel, a renounce, claims, a clawback, fees, a fee-charging mint |

`properties.jsonl`, `MANIFEST.json`, `AXIOMS.md` are written by the scripts in `tools/`.

## Modelling decisions

* `u64`/`u128` values are `Nat`s with explicit checked operations: an overflow, an underflow, a
  division by zero, a failed `unwrap` is the error value `Err.panic` (the workspace builds with
  `overflow-checks = true`, `/repo/Cargo.toml`).  Instruction arguments are typed (`UInt64`,
  `UInt32`, `Fin (2^128)`), so theorems quantify over exactly the representable inputs.
* `as` casts are modelled as the reductions they are (`as u64` of an `i64`, `i128`, `u128`; `as u32`).
* Addresses are symbolic: a derived address is a constructor applied to its seeds, so distinct
  seeds give distinct addresses and nobody owns a private key of a derived address.  The byte-level
  counterpart (seed concatenations are pairwise different) is proved separately (C54); that SHA-256
  does not collide is in the trusted base.
* Every account that an instruction takes is a field chosen freely by the caller, and the Anchor
  constraints (`address =`, `seeds =`, `associated_token::*`, `constraint =`, `init`,
  `init_if_needed`, `Signer`) are modelled as explicit checks: account substitution is inside the
  model.
* A failing instruction returns an error and no new world (Solana's atomicity); multi-instruction
  transactions are modelled (`execTx`).
* SPL-Token and Token-2022: `transfer_checked` with owner, mint, program, decimals, frozen and balance
  checks, self-transfers, Token-2022 transfer fees, permanent delegate, blocked transfers.
* Emitted events are appended to `World.log`, which is the observable history.

## Properties: what is modelled and how it is proved

| id | approach |
|---|---|
| C01–C05 | `get_streamed_amount` as written (checked arithmetic); closed-form lemma on valid schedules; lifted to all reachable states by the stream invariant `StreamOK` |
| C06–C09 | inversion lemma of `withdraw`; decision table; frame lemmas |
| C10, C11, C20 | invariant relating stored amounts to sums over the event log |
| C12 | liveness: construct the successful step explicitly from the invariants (solvency + no panic) |
| C13–C17 | inversion lemmas of `cancel`/`renounce`, temporal invariants over `Steps` |
| C18 | invariant over all instructions and environment steps |
| C19 | unconditional solvency is false of the code: negation proved on a reachable state (fee) and for every reachable state (permanent delegate); what remains true (exact initial backing, floor for ever) proved from the vault flow |
| C21–C25 | temporal invariants over `Steps` (reflexive-transitive closure of successful steps) |
| C26–C29 | inversion of `create`, decision table, log invariant |
| C30, C31 | invariants over the token ledger / log |
| C32 | base58 digit-count lemma over all 32-byte keys |
| C33–C37 | inversion lemmas and frame lemmas, pure lemma for the conversion |
| C38 | induction over the instruction list |
| C39–C52 | invariants for `merkle_instant`; Merkle trees as an inductive type, collision-extracting soundness |
| C50 | the view passes `expiration_time`: what it returns is stated exactly, and two reachable states where it contradicts the clawback rule are exhibited |
| C53–C55 | byte-level encoders with round-trip and length theorems; preimage injectivity; symbolic addresses refined to bytes up to SHA-256 clashes |
| C56, C58, C59 | liveness: the successful step is constructed from the invariants |
| C57 | lamport invariant over all steps |
| C60 | `RentFlow`: inversion of every instruction, composition of the rent top-ups; `C60_opened`: inversion of every instruction, what exists afterwards is old or listed |
| C61 | sums of balances over a finite support, one lemma per token operation |
| C62 | lamport invariant for every derived account; permanence by induction over steps; the same for associated token accounts and, from the vault invariants, for the vaults |
| C63 | frame: case analysis of the step relation |
| C64, C65 | byte codecs for instruction and event data (`Bytes/Abi.lean`), prefix-free decoders, discriminators computed with the SHA-256 of `Bytes/Sha256`; dispatch table as a list of entries |
| C66 | the TypeScript function over unbounded integers, proved equal to the schedule on valid terms |
| C67 | `Spec/Replay`: the indexer as a fold over the log, proved equal to the accounts by induction over steps |
| C68, C69 | two-run relation `Twin` (agreement on the listed accounts) preserved by every primitive and every instruction; commutation as a corollary |
| C70 | NFT supply never grows, a successful withdrawal implies supply 1; withdrawn amount by induction over steps |
| C71 | token accounts of derived owners persist; `init` needs an empty address; the hazard itself is shown to be always available |
| C72 | `Spec/Errors`: `Justified` lists, per instruction and code, the fact the code reports; every instruction walked with a Hoare-style predicate on errors |
| C73 | `Spec/Metadata`: the published data written out, base58 read declaratively; metadata invariant `CollOK` (stream NFT / collection / foreign) preserved by every step, Metaplex calls by outsiders included |
| C74 | `Spec/Surplus`; vault balance + withdrawn + refunded never decreases (`Steps.vault_flow`) and the payouts are bounded by the deposit; a self-transfer leaves the ledger as it is |
| C75 | C47 (no clawback any more) + C51 (outflow is claims and clawbacks) + C44 (claims bounded by the tree) over the whole history |
| C76 | forward simulation to the machine of `Spec/Protocol`: `C76_step` is one equation `next ix x now (read w) = some (read w')` per instruction, `C76_trace` its closure over histories, `C76_views` the observations, `C76_can_*` the converse (every move is realised) |
| C77 | the same for campaigns against `Spec/Airdrop` (claimed set = receipts, first claim = optional time); clock positive |
| C78 | `Spec/Classic`; `Proofs/Classic`: classic mints never have extensions, an absent freeze authority stays absent, an unfrozen program-owned account of such a mint stays unfrozen; then C12/C14/C45 (success) and C08/C14/C45 (effect) |
| C79 | `Spec/Signers` (who signs which instruction, from its syntax); one case analysis over the instructions (`Did.account`), then induction over the history |
| C80 | invariants: without a treasury there are no streams, no collection and no claims (`Reachable.lockupBlank`, `.merkleBlank`); the initialisation is run symbolically to success; then C45 (success) in the state after it |
| C81 | `AnyFee`: the charging instructions and fee views with the constant as a parameter (equal to the model by `rfl` at the shipped constants); `chargeFee` characterised exactly, then both programs compared run by run |
| C82 | from the per-stream invariant (`StreamOK`) and the evaluated views; the early cancel and early withdrawal from the effect theorems C14 and the withdraw characterisation |
| C83 | the specification `scheduled` put in the form of one floor, `((u*(10^18-P) + P*D)/10^18)`, on which the four relations are arithmetic; stated on the view of two or three streams |
| C84 | from C07 (what a withdrawal checks), C30 (one holder), C79 (custody without signature) and the exact effect of the token transfer |
| C85 | exact (iff) characterisations of withdraw, cancel, renounce and claim when the receiving account exists (`Proofs/Exact.lean`), two checked transfers out of one account commute (`transfer_swap`), rent payments for two accounts commute (`payRent_swap`); claims by induction on `List.Perm`. When the receiving account does not exist the first instruction opens it at its signer's expense, so the orders differ in who pays the rent: not claimed |
| C86 | a counting invariant (`Proofs/Count.lean`): one instruction opens at most two token accounts and one stream, so a history of k instructions occupies at most 3k addresses; pigeonhole over the 2^128 salts; C56 for success. The hazard from C56, C29 |
| C87 | approvals (`delegate`, `delegated_amount`) are part of the state (`World.approvals`) and `approve`, `revoke`, the delegate's transfer, burn and Metaplex freeze are environment steps; invariant `Reachable.approvalsOK` (a delegated account exists and its owner can sign) by induction over all steps; the hazard by executing the delegate's transfer on an arbitrary state |
| C88 | messages (`Bytes/Wire.lean`): account lists, signer and writable privileges, data; the slot tables of the `#[derive(Accounts)]` structs in declaration order, checked field by field, and positional readers; the specification (`Spec/Wire.lean`) writes the account metas once more from the client's side; exactness by showing each reader inverse to its meta list (induction over the slots) on top of C64; locality from C68, custody from C79, lamports from C60 |
| C89 | the views as messages with return data; exactness as for C88 (no privileges); bounds of all numbers from the stream, campaign and configuration invariants, layout by unfolding the codecs, readability by C53 |
| C90 | `Spec/RentRule.lean` states the runtime's rent-state rule; by the `RentFlow` of C60 (everything opened ends exempt, everything else but the payer unchanged) and C34 for `collect_fees`. Sizes are those of C60: SPL-Token accounts 165 bytes, Token-2022 accounts 170 bytes plus an arbitrary amount per token for its extensions, the two Metaplex accounts of arbitrary size |
| C91 | `Spec/Resolve.lean`: the choices of a caller and a resolver that computes all accounts from them and the state; inversion of every instruction shows that a successful one is its own resolution; token programs by the ledger invariant (an associated account has the program of its mint), NFT holder by C30 |
| C92 | `Spec/Transactions.lean`: a header and a list of messages or environment steps, run in order, committed as a whole; induction over the items and over the list of transactions on top of C88; bundles by the monotonicity of privileges. Transaction fees and account locks are not modelled; sizes are the subject of C93 |
| C93 | `Bytes/Packet.lean`: the legacy transaction format (compact lengths, address groups by privilege, positions), client side (collect, sort, write) and validator side (read, sanity checks, privileges by position, signatures by an arbitrary `verify`); round trip by codec lemmas, whose length conditions follow from the packet size; exact size formula, bounded for every instruction; proof length by strong induction over the layers |
| C94 | `Spec/Batch.lean`: a list of orders, what the payer needs, what the result is; induction over the list: one creation succeeds (C56), its full effect (C27) and its rent (C60) leave the funds and the free places of the remaining orders |
| C95 | `Scripts.lean`: the two scripts as lists of instructions with a tick of the clock before each; composition of C80 (initialisation), the token steps, C28 (durations) and the step of C94; C58 for the campaign. The constants of `lib/constants.ts` (admin, oracle) are arbitrary |
| C96 | `World.settings`: memo requirement and CPI guard per token account, checked by every transfer the programs make (`World.transferTokens`); the owner's switch is an environment step; invariant `Reachable.settingsOK` over all steps (`Proofs/Settings.lean`); all liveness theorems (C12, C14, C45, C46, C56, C78, C86, C94) are about this model and name the receiving account's setting as a condition |
| C97 | `Convertors.lean`: `convertTokenAmount` with bn.js' bound on numbers and viem's `parseUnits` on lists of characters (regular expression, split, trimming, rounding, padding, `BigInt`). The specification (`Spec/Convert.lean`) is the written form of a decimal number and its value in ℚ. `Math.round(Number(…))` is any function with the facts stated in `Convert.Rounding` |
| C98 | `Spec/Deliver.lean`: a list of grants, what the signer and the campaign need, what the result is; induction over the list: one claim succeeds (C45), its full effect and its rent (C60) leave the vault, the rent, the open grants and the recipients' accounts of the remaining ones; C42 for the builder's proofs |
| C99 | Default account state in `Bank` (`MintData.startsFrozen`), freezing by the freeze authority in `EnvIx`. Case analysis of every step (`Props/Freeze.lean`): what a step can do to an account's frozen flag and to a mint's freeze authority; induction over histories without the authority's signature; the transfers of every paying instruction go through `transfer_checked`, which refuses frozen ends; a campaign born frozen stays so by the history theorem. |
| C100 | `Spec/Portfolio.lean`: a list of streams with the holders of their NFTs (or of one sender), what is needed, what the result is; induction over the list: one withdrawal or cancellation succeeds (C12, C14), its full effect (C08, C14, C15) and its rent (C60) leave the rest of the list in order (accounts of others untouched, views of the other streams unchanged, an NFT that is itself the streamed token excluded by its supply of one). |
| C101 | `Spec/Backing.lean`: `unpaid`, `heldIn`. `C101_backed`: from the vault invariant of C18 and the ledger invariant that every finite sum of balances of a token is at most its supply, over the list of vaults and other accounts without repetition. `C101_in_use` with the status of C22. |
| C102 | `Codegen.lean`: the generators as functions on text; `Idl.lean`: the interfaces of the two programs, read off the Rust source. `Spec/Codegen.lean`: a line-by-line reader of the TypeScript they use. Reading back what was written gives the interface (induction over lists of errors, fields, variants, types); camel case has a left inverse on snake-case names; imports by monotonicity of the scan; the concrete interfaces by kernel evaluation. |
| C103 | `Spec/AnyFeeHistory.lean`: `stepWith` (the shipped `step` at the shipped constants, by `C103_shipped`), histories of it, `forgetFees`. No instruction reads the log (`Proofs/LogFree.lean`, from C68 and case by case for the environment); each charging step splits by C81 into the free step and a lamport payment; induction over the history. Revenue by C35's accounting; the way out by C12 and C81. |

## How the statements are to be read

* `Reachable rt w`: `w` is reached from a chain on which the programs were never used by any finite sequence of
  successful steps, each an instruction of the two programs with arbitrary arguments and arbitrary accounts, or
  an arbitrary outside action.  Failed instructions change nothing, so leaving them out loses nothing (C38).
* `Steps rt w w'`: any such sequence between two states.  "Forever", "never again" are theorems about `Steps`.
* `Runtime` (rent table, sizes of the Metaplex accounts and the Metaplex fee, extension space of each Token-2022 mint, canonical bumps, bytes of keys, Keccak) is a parameter of every theorem: nothing is
  assumed of it unless a hypothesis says so.  In particular Keccak is an arbitrary function; where its collision
  resistance matters the theorem *produces* the two colliding strings (one hashed for the tree, one hashed by a
  claim of the history), because the mere existence of collisions is a triviality.
* Statements are in terms of instructions (`step rt w (.lockup (.withdraw ...))`), views (`streamedAmountOf`,
  `statusOf`, ...), token balances (`Bank.balance`), lamports, and the event log; the vocabulary is in `Spec/`.

## Trusted base

1. **Lean 4.33.0's kernel** and its standard axioms `propext`, `Classical.choice`, `Quot.sound`.  `AXIOMS.md`
   lists the axioms of every theorem named in the manifest; no other axiom occurs.  `decide +kernel` (used for
   the concrete examples and for facts about literals) is evaluated by the kernel, not by compiled code.
2. **The model is a faithful reading of the source**: it was written by hand; each definition cites the lines it
   models.  Instructions of both programs, all account constraints, all state updates, all validations, all views,
   all emitted events and the fee code are modelled.
3. **External programs and the runtime**, as described by `Bank`, `World` and `EnvIx`:
   * SPL-Token / Token-2022 `transfer_checked` (owner, mint, program, decimals, frozen, balance, self-transfer,
     transfer fee withheld from the destination, permanent delegate, transfers blocked by pause or hook, default account state (new accounts start frozen); a classic mint has none of these), `mint_to`,
     `burn`, `close`, `set_authority`, freeze/thaw.  `approve`, `revoke` and transfers and burns by an
     approved delegate (an owner approving himself, which only caps his own transfers, is excluded).
     Memo requirement and CPI guard of Token-2022 accounts (C96): a transfer made by a program in the owner's name, without a memo
     before it, is refused; what owners do themselves at top level is not restricted (they can add the memo), except that
     a guarded account cannot change its owner.
     Wrapped SOL is represented by a mint whose authority mints (wrap, `SyncNative`) and by burns (unwrap, closing a
     non-empty account); the lamports of its token accounts are those beyond the wrapped amount.
   * Associated token program: `create` by anybody for anybody.
   * Metaplex: creation of metadata (name, symbol, URI, royalty, creators, claimed collection, update authority, mutability) and master edition, `update`, `sign_metadata`, sized-collection verification and unverification, `BurnNft`, freeze and thaw of a delegated account; by the program and by outsiders.
   * Chainlink: latest round and decimals of a feed are arbitrary data that may change at any time.
   * Anchor: constraint checks in the order that matters for errors, `init`/`init_if_needed`, `Signer`, account
     type and owner checks; (de)serialisation of accounts is the subject of C53, of instruction and event data
     of C64 and C65, UTF-8 validity of strings, the order and privileges of account lists and return data
     of C88 and C89 (the slot tables of `Bytes/Wire.lean` are read off the account structs).
   * Solana: failed transactions leave no effect; instructions are sequential; a derived address signs only for its
     program; the clock is non-negative, below `2^63` and never goes back; canonical bumps are a function of the seeds.
4. **Cryptography**: SHA-256 and ed25519 (addresses are symbolic; C54 says precisely which coincidences would break
   that), Keccak only as stated in C43, C44, C59.

### Not modelled

* Compute budget, stack and heap limits, account locking, rent collection, versioned transactions and address lookup
  tables (C93 models legacy transactions). The runtime's
  rent-state check is not part of `step`; C90 says exactly when it can reject what `step` accepts.
* Token-2022 extensions other than transfer fee, permanent delegate, memo requirement, CPI guard, default account state and "transfers
  blocked" (confidential transfers, interest-bearing and scaled UI amounts, mint close authority; C101 shows that a plain mint with a stream that
  is not depleted has supply, so it could not be closed).
* Program upgrade and the upgrade authority; how Anchor produces the IDL (`Idl.lean` states its content);
  log formatting; the TypeScript scripts and tests, except the binding generators (C102; lodash's `camelCase` only on snake-case
  names without digits), the tree builder, `getStreamedAmount`, the form of the transactions they send (C93), the two post-deployment scripts (C95)
  and the conversion of amounts (C97).
* UTF-8 validity of strings below the level of messages (C88 models it; the typed instructions accept arbitrary byte
  strings, a superset).
* Metaplex rules beyond the ones above: `uses`, `token_standard`, programmable NFTs, Metaplex-level delegates and collection authority records (only an update authority can appoint them), lamports returned when an NFT is burnt, Metaplex's own choice of NFT token program (the model lets both token programs hold NFTs, as the account lists of the code do), printing of editions (`max_supply = 0`).

## Findings about the code

* **C50** `has_grace_period_passed` passes `expiration_time` where `first_claim_time` is meant
  (`merkle_instant/src/instructions/view/has_grace_period_passed.rs`), so the view reports the wrong thing, and
  panics for expirations within seven days of `u64::MAX`.
* **C19** A Token-2022 mint with a transfer fee makes a stream insolvent from the start (the vault receives less than
  `deposited`); a permanent delegate can empty vaults.  The programs accept such mints.
* **C36** The fee code is latent-unsafe once the USD fee is positive: `price as u64` truncates (division by zero for
  prices that are multiples of `2^64`), the multiplication can panic, the result is truncated, and the oracle
  time is compared as `u32`.  With the shipped constants (fee 0) none of this is reachable (C37).
* The CID length limit 59 is not enforced on its own: only name ≤ 32 and name + CID ≤ 91 bytes (C58).
* Tokens left in the vault of a never-expiring campaign beyond the open allocations are locked once the grace period
  has passed (C75).
* An empty claim window (`expiration ≤ start`) is accepted (C52).
* Anybody can pre-create the vault address of a future stream or campaign (`init` then fails), use somebody else's
  (sender, salt) pair (the sender does not sign creation), or front-run `initialize` (C33 fixes the first caller's
  configuration forever).
* A recipient who directs a withdrawal to the stream account itself makes a self-transfer: the accounting
  advances, the tokens stay in the vault forever (C74).  Burning the NFT locks the recipient's part.
* `CreateLockupLinearStream` carries neither sender, amounts, times nor the cancelable flag: an indexer cannot
  reconstruct a stream from the events alone (C67); for campaigns it can.
* A token delegate approved on the account that holds a stream NFT can move the NFT and with it the stream (C87).
* The programs attach no memo to payouts: an account that requires memos can receive nothing from a stream or campaign,
  and a campaign's recipient, whose account is fixed, has to switch the requirement off first (C96).
* A token whose accounts start frozen cannot be streamed at all, while a campaign in it is accepted and is dead until the
  freeze authority thaws its vault (C99).
* The message of `StreamCanceled` is "Can't renounce an already-renounced Stream!", although the code is reported only
  by `cancel` on a canceled stream (C72); renouncing twice reports `StreamAlreadyNonCancelable`.
* A claim at unix time 0 would leave `first_claim_time` at 0; theorems that need it assume a positive clock.
