{"id": "C01", "title": "streamed amount never exceeds the deposit", "statement": "For every stream that create_with_timestamps_ll / create_with_durations_ll can create and after any later history, streamed_amount_of succeeds and returns a value between the already withdrawn amount and the deposited amount.", "quantifier": "all stream parameters, all reachable ledger states, all clock values at or after the current one", "why_tests_cant": "depends on u64/u128 division and on every history of withdraw/cancel/renounce; tests sample a handful of instants of one default stream", "anchors": ["programs/lockup/src/utils/lockup_math.rs:get_streamed_amount", "programs/lockup/src/instructions/view/streamed_amount_of.rs:handler"]}
{"id": "C02", "title": "streamed amount is monotone in time", "statement": "streamed_amount_of of a stream never decreases along any history, whatever happens in between (including cancellation).", "quantifier": "all reachable states, all pairs of states connected by any history", "why_tests_cant": "quantifies over pairs of instants and over all interleaved operations", "anchors": ["programs/lockup/src/utils/lockup_math.rs:get_streamed_amount"]}
{"id": "C03", "title": "streamed amount follows the published schedule", "statement": "While a stream is neither canceled nor depleted, streamed_amount_of is 0 before the start time, exactly start_unlock from the start until the cliff (when there is one), at least start_unlock + cliff_unlock from the cliff on (from the start when there is no cliff), and exactly the deposit from the end time on.", "quantifier": "all valid stream parameters and all instants", "why_tests_cant": "boundary instants for every parameter choice, including a cliff of zero and unlock sums equal to the deposit", "anchors": ["programs/lockup/src/utils/lockup_math.rs:get_streamed_amount"]}
{"id": "C04", "title": "linear part is accurate to the base unit bound", "statement": "Between the streaming start (cliff, or start when there is no cliff) and the end, streamed_amount_of is never above the exact line start_unlock + cliff_unlock + (deposit - unlocks) * elapsed / range, and is below it by strictly less than 1 + (deposit - unlocks)/10^18 base units.", "quantifier": "all valid stream parameters and all instants", "why_tests_cant": "two nested truncating divisions; the worst case depends on the parameters and cannot be found by sampling", "anchors": ["programs/lockup/src/utils/lockup_math.rs:get_streamed_amount"]}
{"id": "C05", "title": "no arithmetic panic on a live stream", "statement": "For every stream that exists in a reachable state, streamed_amount_of, withdrawable_amount_of, refundable_amount_of and status_of succeed at the current time (no overflow, underflow, division by zero or failed unwrap), so a stream can never be bricked by its own arithmetic. More generally no instruction of either program panics in any reachable state, except stream creation when 2^64-1 streams exist, create_with_durations whose durations take the clock past 2^64, and collect_fees on a chain with a rent minimum near 2^64.", "quantifier": "all reachable states of all histories", "why_tests_cant": "panics come from unchecked-looking u64/u128 expressions whose safety depends on cross-instruction invariants", "anchors": ["programs/lockup/src/utils/lockup_math.rs:get_streamed_amount", "programs/lockup/src/utils/lockup_math.rs:get_withdrawable_amount", "programs/lockup/src/utils/lockup_math.rs:get_refundable_amount", "programs/lockup/src/instructions/view/status_of.rs:handler"]}
{"id": "C06", "title": "withdraw amount rule", "statement": "A withdraw that succeeds had 0 < amount <= withdrawable_amount_of evaluated immediately before, on a stream that was not depleted; a withdraw with all accounts right is rejected with StreamDepleted, WithdrawAmountZero or Overdraw exactly in the respective case, in that order of precedence.", "quantifier": "all reachable states, all account choices, all amounts", "why_tests_cant": "the acceptance boundary moves with time and history", "anchors": ["programs/lockup/src/instructions/withdraw.rs:handler", "programs/lockup/src/utils/validations.rs:check_withdraw"]}
{"id": "C07", "title": "withdraw pays only the NFT holder or where the NFT holder directs", "statement": "If withdraw succeeds, the wallet named as stream recipient owns its associated token account holding exactly 1 stream NFT, and the tokens leave the stream vault to that wallet's associated account, or to any other wallet's associated account only if the NFT holder signed.", "quantifier": "all reachable states, all (possibly malicious) account choices and signers", "why_tests_cant": "adversarial account substitution over every account in the instruction", "anchors": ["programs/lockup/src/instructions/withdraw.rs:Withdraw"]}
{"id": "C08", "title": "withdraw moves exactly the requested amount and records it", "statement": "A successful withdraw of x decreases the vault by x, credits the destination by x minus the token's own transfer fee (when they differ), raises amounts.withdrawn by exactly x, leaves every other stream and vault untouched, and emits WithdrawFromLockupStream with withdrawn_amount = x.", "quantifier": "all reachable states and all successful withdraws", "why_tests_cant": "frame condition over all other accounts", "anchors": ["programs/lockup/src/instructions/withdraw.rs:handler", "programs/lockup/src/state/lockup.rs:StreamData::withdraw", "programs/lockup/src/utils/transfer_helper.rs:transfer_tokens"]}
{"id": "C09", "title": "withdraw_max takes everything that is withdrawable", "statement": "withdraw_max behaves exactly like withdraw of the current withdrawable_amount_of; after it succeeds withdrawable_amount_of is 0 at the same instant, and it fails with WithdrawAmountZero when a non-depleted stream has nothing withdrawable.", "quantifier": "all reachable states and account choices", "why_tests_cant": "relates two instructions and a view on all states", "anchors": ["programs/lockup/src/instructions/withdraw_max.rs:handler"]}
{"id": "C10", "title": "withdrawals are path independent", "statement": "At any time before cancellation, withdrawn so far plus withdrawable_amount_of equals the amount the schedule has streamed at that time: how the recipient splits withdrawals, and who triggers them, never changes the total obtainable.", "quantifier": "all reachable states, i.e. all histories of withdrawals", "why_tests_cant": "quantifies over all ways of splitting", "anchors": ["programs/lockup/src/utils/lockup_math.rs:get_withdrawable_amount", "programs/lockup/src/state/lockup.rs:StreamData::withdraw"]}
{"id": "C11", "title": "recipient is never ahead of schedule", "statement": "In every reachable state the sum of all WithdrawFromLockupStream amounts of a stream equals the stored withdrawn amount, and it never exceeds the amount streamed at the current time.", "quantifier": "all histories", "why_tests_cant": "history sum versus clock, for every interleaving", "anchors": ["programs/lockup/src/instructions/withdraw.rs:handler", "programs/lockup/src/utils/events.rs:WithdrawFromLockupStream"]}
{"id": "C12", "title": "full withdrawal is possible at the end", "statement": "Once the end time has passed, anyone can make withdraw_max succeed for any stream that was never depleted (plain token, accounts not frozen and, if the destination is missing, not starting frozen, payer can fund a missing account): it pays all that is left and marks the stream depleted.", "quantifier": "all reachable states at or after the end time", "why_tests_cant": "liveness from every reachable state", "anchors": ["programs/lockup/src/instructions/withdraw_max.rs:handler", "programs/lockup/src/instructions/withdraw.rs:handler"]}
{"id": "C13", "title": "only the sender can cancel or renounce", "statement": "A cancel or renounce of a stream succeeds only if signed by the sender recorded at its creation.", "quantifier": "all reachable states and account choices", "why_tests_cant": "adversarial account substitution", "anchors": ["programs/lockup/src/instructions/cancel.rs:Cancel", "programs/lockup/src/instructions/renounce.rs:Renounce"]}
{"id": "C14", "title": "cancel rule and refund amount", "statement": "Cancel passes its checks exactly when the stream is cancelable, not canceled, not depleted and not fully streamed; equivalently exactly when refundable_amount_of is positive. It then pays the sender's associated account exactly refundable_amount_of as evaluated just before, and records it as refunded.", "quantifier": "all reachable states", "why_tests_cant": "equivalence between a view and an instruction on every state", "anchors": ["programs/lockup/src/instructions/cancel.rs:handler", "programs/lockup/src/utils/validations.rs:check_cancel", "programs/lockup/src/utils/lockup_math.rs:get_refundable_amount"]}
{"id": "C15", "title": "cancel never takes vested tokens", "statement": "Cancelling leaves withdrawable_amount_of unchanged at that instant; from then on streamed_amount_of is frozen at deposit minus refund forever, no matter what happens later.", "quantifier": "all reachable states and all futures", "why_tests_cant": "all futures after the cancel", "anchors": ["programs/lockup/src/state/lockup.rs:StreamData::cancel", "programs/lockup/src/utils/lockup_math.rs:get_streamed_amount"]}
{"id": "C16", "title": "at most one cancel, and none after renounce", "statement": "After a successful renounce, no cancel of that stream ever succeeds and its refunded amount stays 0; a stream is canceled at most once in any history.", "quantifier": "all reachable states and all futures", "why_tests_cant": "temporal property over all futures", "anchors": ["programs/lockup/src/state/lockup.rs:StreamData::renounce", "programs/lockup/src/state/lockup.rs:StreamData::cancel", "programs/lockup/src/utils/validations.rs:check_cancel"]}
{"id": "C17", "title": "renounce rule", "statement": "Renounce passes exactly when the stream is cancelable and not fully streamed; it changes nothing but the cancelable flag and moves no tokens.", "quantifier": "all reachable states", "why_tests_cant": "frame condition over the whole ledger", "anchors": ["programs/lockup/src/instructions/renounce.rs:handler", "programs/lockup/src/utils/validations.rs:check_renounce"]}
{"id": "C18", "title": "vault solvency", "statement": "For every stream in a plain token (no transfer fee, no permanent delegate), in every reachable state the stream vault exists, is controlled by the stream account and holds at least deposited - withdrawn - refunded.", "quantifier": "all histories, including adversarial token operations by anyone", "why_tests_cant": "needs an invariant over all instructions and all outside token transfers", "anchors": ["programs/lockup/src/instructions/create_with_timestamps.rs:handler", "programs/lockup/src/instructions/withdraw.rs:handler", "programs/lockup/src/instructions/cancel.rs:handler"]}
{"id": "C19", "title": "solvency for every token the program accepts", "statement": "For every mint the program accepts, including Token-2022 mints with transfer fees: right after creation the vault holds exactly the deposit minus the token's own transfer fee, so the stream is fully backed exactly when that fee is zero; unless the mint has a permanent delegate, vault + withdrawn + refunded never drops below that amount in any history. Unconditional solvency is false: with a fee a reachable ended stream cannot pay its withdrawable amount, and a permanent delegate can empty any unfrozen vault in any reachable state.", "quantifier": "all histories, all mints accepted by create", "why_tests_cant": "no test uses a fee-charging mint", "anchors": ["programs/lockup/src/instructions/create_with_timestamps.rs:handler", "programs/lockup/src/utils/transfer_helper.rs:transfer_tokens"]}
{"id": "C20", "title": "payouts never exceed the deposit", "statement": "In every reachable state withdrawn + refunded <= deposited, where withdrawn and refunded are the sums of the amounts in the events emitted for the stream; with equality exactly when the stream is depleted.", "quantifier": "all histories", "why_tests_cant": "history sums over all interleavings", "anchors": ["programs/lockup/src/state/lockup.rs:StreamData", "programs/lockup/src/utils/events.rs"]}
{"id": "C21", "title": "depleted is final", "statement": "Once a stream is Depleted it stays so in every future: it is never cancelable, every withdraw, cancel and renounce is rejected, and streamed_amount_of stays equal to the total withdrawn.", "quantifier": "all reachable states and all futures", "why_tests_cant": "temporal property", "anchors": ["programs/lockup/src/state/lockup.rs:StreamData::withdraw", "programs/lockup/src/state/lockup.rs:StreamData::cancel"]}
{"id": "C22", "title": "status_of agrees with the amounts", "statement": "status_of returns Depleted/Canceled/Pending/Streaming/Settled exactly according to: fully paid out; canceled with something left for the recipient; start in the future; streamed < deposit; streamed = deposit.", "quantifier": "all reachable states", "why_tests_cant": "characterises a view on all states", "anchors": ["programs/lockup/src/instructions/view/status_of.rs:handler"]}
{"id": "C23", "title": "status only moves forward", "statement": "Along any history the status of a stream only moves along Pending -> Streaming -> Settled -> Depleted, Pending/Streaming -> Canceled -> Depleted (skipping allowed), never backwards; Settled is never followed by Canceled.", "quantifier": "all pairs of reachable states in one history", "why_tests_cant": "temporal property over all pairs of states", "anchors": ["programs/lockup/src/instructions/view/status_of.rs:handler"]}
{"id": "C24", "title": "stream terms are immutable", "statement": "sender, deposited mint, salt, timestamps, unlock amounts and deposit of a stream never change after creation, and the stream never disappears.", "quantifier": "all reachable states and all futures", "why_tests_cant": "frame over all instructions", "anchors": ["programs/lockup/src/state/lockup.rs:StreamData"]}
{"id": "C25", "title": "streams are isolated from each other", "statement": "No instruction on one stream, no other program instruction and no outside token operation changes another stream's data, or takes tokens out of its vault (plain tokens): vault outflow happens only through withdraw/withdraw_max/cancel naming that stream.", "quantifier": "all reachable states, all instructions, all other streams", "why_tests_cant": "frame over all pairs", "anchors": ["programs/lockup/src/instructions/withdraw.rs", "programs/lockup/src/instructions/cancel.rs", "programs/lockup/src/utils/transfer_helper.rs"]}
{"id": "C26", "title": "create validation is exact", "statement": "The parameter check of create_with_timestamps_ll accepts exactly when deposit > 0, start > 0, start < end, (cliff = 0 and cliff_unlock = 0) or start < cliff < end, and start_unlock + cliff_unlock <= deposit over the integers (no wrap-around).", "quantifier": "all u64 parameters", "why_tests_cant": "six independent u64 parameters and an overflow corner", "anchors": ["programs/lockup/src/utils/validations.rs:check_create"]}
{"id": "C27", "title": "create stores what was asked and moves the deposit", "statement": "A successful create stores exactly the given parameters with zero withdrawn/refunded and cleared flags, takes exactly deposit from the creator's associated account, which the creator signed for, credits the fresh vault (minus the token's own fee), mints one NFT to the recipient and emits the event.", "quantifier": "all reachable states and parameters", "why_tests_cant": "full postcondition incl. frame", "anchors": ["programs/lockup/src/instructions/create_with_timestamps.rs:handler", "programs/lockup/src/state/lockup.rs:StreamData::create"]}
{"id": "C28", "title": "durations variant equals timestamps variant at the current time", "statement": "create_with_durations_ll at time now succeeds exactly like create_with_timestamps_ll with start = now, end = now + total, cliff = now + cliff_duration or 0, with the same resulting state, and fails cleanly if a sum overflows u64.", "quantifier": "all reachable states and parameters", "why_tests_cant": "equivalence of two entry points on all inputs", "anchors": ["programs/lockup/src/instructions/create_with_durations.rs:handler"]}
{"id": "C29", "title": "one stream per sender and salt", "statement": "A (sender, salt) pair is used at most once in any history, and stream_exists(sender, salt) is true exactly when a creation event for that pair is in the history, forever after.", "quantifier": "all histories", "why_tests_cant": "uniqueness over all histories", "anchors": ["programs/lockup/src/instructions/create_with_timestamps.rs:CreateWithTimestamps", "programs/lockup/src/instructions/view/stream_exists.rs", "programs/lockup/src/lib.rs:stream_exists"]}
{"id": "C30", "title": "stream NFT is unique", "statement": "For every stream at most one token account in the whole ledger holds the stream NFT, and it holds exactly 1; supply never grows after creation. Hence at any time at most one wallet qualifies as recipient.", "quantifier": "all histories, including adversarial token operations", "why_tests_cant": "invariant over all token accounts", "anchors": ["programs/lockup/src/utils/nft.rs:create_stream", "programs/lockup/src/instructions/withdraw.rs:Withdraw"]}
{"id": "C31", "title": "collection counter equals number of streams", "statement": "The stored total_supply of the NFT collection equals the number of creation events in the history; the verified collection size in the collection metadata equals the number of created stream NFTs that have not been burned through Metaplex, hence never exceeds it.", "quantifier": "all histories", "why_tests_cant": "history count", "anchors": ["programs/lockup/src/state/nft_collection_data.rs", "programs/lockup/src/utils/nft.rs:create_stream"]}
{"id": "C32", "title": "stream NFT name always fits", "statement": "For every 32-byte mint key the NFT name is computed without a slicing panic and is exactly 32 bytes long, the Metaplex limit.", "quantifier": "all 2^256 keys", "why_tests_cant": "base58 length varies with the key", "anchors": ["programs/lockup/src/utils/nft.rs:create_stream", "programs/lockup/src/utils/constants.rs"]}
{"id": "C33", "title": "initialize works once and fixes the configuration", "statement": "initialize succeeds at most once per program; afterwards fee collector and oracle addresses never change in any history.", "quantifier": "all histories of both programs", "why_tests_cant": "temporal property", "anchors": ["programs/lockup/src/instructions/initialize.rs", "programs/merkle_instant/src/instructions/initialize.rs", "programs/lockup/src/state/treasury.rs"]}
{"id": "C34", "title": "collect_fees rule", "statement": "collect_fees succeeds only for the configured collector, moves exactly balance - (rent minimum + 1,000,000) lamports to the chosen recipient, requires it positive, and leaves the treasury at exactly rent minimum + 1,000,000 when the recipient is another account.", "quantifier": "all reachable states of both programs", "why_tests_cant": "all balances and aliasing of recipient and treasury", "anchors": ["programs/lockup/src/instructions/collect_fees.rs", "programs/merkle_instant/src/instructions/collect_fees.rs"]}
{"id": "C35", "title": "treasury lamports never leave otherwise", "statement": "The treasury balance of either program decreases only through a successful collect_fees of that program, and never below rent minimum + 1,000,000 through it.", "quantifier": "all histories", "why_tests_cant": "frame over all instructions", "anchors": ["programs/lockup/src/instructions/collect_fees.rs:safe_collectible_amount", "programs/merkle_instant/src/instructions/collect_fees.rs:safe_collectible_amount"]}
{"id": "C36", "title": "fee conversion is correct or zero", "statement": "The USD-to-lamports conversion returns 0 if the USD fee is 0, the oracle call fails, the price is not positive, the oracle time is in the future or older than 24 h; otherwise floor(fee_usd * 10^(1+decimals) / price), whenever the price fits u64 and the result and intermediates fit their types.", "quantifier": "all fees, prices, decimals, timestamps", "why_tests_cant": "huge numeric domain with wrap-around corners", "anchors": ["programs/lockup/src/utils/fee_calculation.rs:convert_usd_fee_to_lamports", "programs/merkle_instant/src/utils/fee_calculation.rs:convert_usd_fee_to_lamports"]}
{"id": "C37", "title": "oracle cannot influence withdrawals or claims while the fee is zero", "statement": "With the shipped fee constants, withdraw and claim give the same result for every oracle state, and charge the signer no lamports except rent for accounts it creates; withdrawal_fee_in_lamports and claim_fee_in_lamports return 0.", "quantifier": "all oracle states", "why_tests_cant": "independence from an arbitrary external value", "anchors": ["programs/lockup/src/instructions/withdraw.rs:charge_withdrawal_fee", "programs/merkle_instant/src/instructions/claim.rs:charge_claim_fee", "programs/lockup/src/utils/constants.rs", "programs/merkle_instant/src/utils/constants.rs"]}
{"id": "C38", "title": "failed transactions change nothing", "statement": "A transaction of any number of instructions either applies all of them or leaves the whole ledger unchanged; every state reached by transactions is reached by individually successful instructions.", "quantifier": "all transactions", "why_tests_cant": "all instruction lists", "anchors": ["programs/lockup/src/lib.rs", "programs/merkle_instant/src/lib.rs"]}
{"id": "C39", "title": "claim at most once per index", "statement": "For each campaign and index at most one claim succeeds in any history, by whoever and for whatever amount.", "quantifier": "all histories", "why_tests_cant": "uniqueness over all histories", "anchors": ["programs/merkle_instant/src/instructions/claim.rs:Claim", "programs/merkle_instant/src/state/claim_receipt.rs"]}
{"id": "C40", "title": "has_claimed is exact", "statement": "has_claimed(index) is true exactly when a Claim event for that campaign and index is in the history.", "quantifier": "all histories", "why_tests_cant": "equivalence with the whole history", "anchors": ["programs/merkle_instant/src/lib.rs:has_claimed", "programs/merkle_instant/src/instructions/view/has_claimed.rs"]}
{"id": "C41", "title": "claim window", "statement": "A claim succeeds only at or after the campaign start and strictly before the expiration (if any); before start it is rejected with CampaignNotStarted, else from expiration on with CampaignExpired; has_campaign_started and has_expired report exactly these conditions.", "quantifier": "all reachable states and claims", "why_tests_cant": "time boundaries for all campaigns", "anchors": ["programs/merkle_instant/src/utils/validations.rs:check_claim", "programs/merkle_instant/src/instructions/view/has_expired.rs", "programs/merkle_instant/src/instructions/view/has_campaign_started.rs"]}
{"id": "C42", "title": "every listed recipient can prove eligibility", "statement": "For the root of any non-empty Merkle tree over allocations (in particular the one built by the project's tree builder), the proof generated for any listed (index, recipient, amount) passes the claim check inside the claim window.", "quantifier": "all trees, all leaves, any hash function", "why_tests_cant": "unbounded tree sizes", "anchors": ["programs/merkle_instant/src/utils/validations.rs:check_claim", "tests/merkle-instant/utils/merkle.ts"]}
{"id": "C43", "title": "nobody else can claim", "statement": "If the claim check accepts (index, recipient, amount) with any proof against the root of a tree over allocations, then that exact triple is listed in the tree, or two explicitly given different byte strings have the same Keccak hash.", "quantifier": "all trees, all proofs of any length, any hash function", "why_tests_cant": "adversarial proofs of unbounded length (second-preimage attacks)", "anchors": ["programs/merkle_instant/src/utils/validations.rs:check_claim"]}
{"id": "C44", "title": "total claimed bounded by the tree", "statement": "For a campaign whose root is the root of a tree with pairwise distinct indices, the sum of all Claim amounts in any history is at most the sum of the tree's allocations, or a Keccak collision exists.", "quantifier": "all histories, all trees", "why_tests_cant": "history sum against tree sum", "anchors": ["programs/merkle_instant/src/instructions/claim.rs:handler"]}
{"id": "C45", "title": "claim pays the listed recipient in full", "statement": "A successful claim moves exactly amount from the campaign vault to the recipient's associated account (minus the token's own fee), whoever the claimer is, creates the receipt, and emits the event; no other campaign changes.", "quantifier": "all reachable states, all claimers", "why_tests_cant": "frame and adversarial accounts", "anchors": ["programs/merkle_instant/src/instructions/claim.rs:handler"]}
{"id": "C46", "title": "clawback rule", "statement": "Clawback succeeds only if signed by the campaign creator, and passes its time check exactly when no claim was made, or now <= first claim + 7 days, or the campaign has expired; otherwise ClawbackNotAllowed. It moves exactly amount to the chosen recipient's associated account.", "quantifier": "all reachable states", "why_tests_cant": "time boundaries, adversarial accounts", "anchors": ["programs/merkle_instant/src/utils/validations.rs:check_clawback", "programs/merkle_instant/src/instructions/clawback.rs"]}
{"id": "C47", "title": "no clawback after the grace period of a non-expired campaign", "statement": "Once the grace period has passed, until expiration (forever if there is none) no clawback of the campaign succeeds, and the campaign vault (plain token) decreases only by claims.", "quantifier": "all reachable states and all futures", "why_tests_cant": "temporal property over all futures", "anchors": ["programs/merkle_instant/src/utils/validations.rs:check_clawback"]}
{"id": "C48", "title": "first claim time is the time of the first claim", "statement": "first_claim_time is 0 until the first successful claim, equals the clock at that first claim, and never changes afterwards (positive clock).", "quantifier": "all histories", "why_tests_cant": "history property", "anchors": ["programs/merkle_instant/src/state/campaign.rs:Campaign::claim"]}
{"id": "C49", "title": "campaign terms are immutable and campaigns unique", "statement": "All campaign fields except first_claim_time never change after creation; the same (creator, root, start, expiration, name, mint) can be created at most once.", "quantifier": "all histories", "why_tests_cant": "temporal property", "anchors": ["programs/merkle_instant/src/state/campaign.rs", "programs/merkle_instant/src/instructions/create_campaign.rs"]}
{"id": "C50", "title": "what has_grace_period_passed reports", "statement": "has_grace_period_passed returns true exactly when the expiration is non-zero and the clock is past expiration + 7 days (and panics when that sum overflows u64): it does not report the grace period after the first claim, so there are reachable states where it says false although the grace period is over and clawback is blocked, and where it says true although nobody ever claimed. (Defect: the view passes expiration_time where first_claim_time is meant.)", "quantifier": "all reachable states", "why_tests_cant": "no test covers this view", "anchors": ["programs/merkle_instant/src/instructions/view/has_grace_period_passed.rs:handler", "programs/merkle_instant/src/utils/validations.rs:has_grace_period_passed"]}
{"id": "C51", "title": "campaign vault outflow is claims plus clawbacks only", "statement": "For plain tokens, in any history the campaign vault loses tokens only through successful claims and clawbacks of that campaign: balance >= (everything ever received) - claims - clawbacks; nobody but the program moves it.", "quantifier": "all histories", "why_tests_cant": "frame over all instructions and outside operations", "anchors": ["programs/merkle_instant/src/instructions/claim.rs", "programs/merkle_instant/src/instructions/clawback.rs"]}
{"id": "C52", "title": "campaigns without a possible window can never be claimed", "statement": "A campaign whose expiration is non-zero and not after its start never has a successful claim, and its creator can always claw back.", "quantifier": "all histories", "why_tests_cant": "all futures of an unvalidated parameter combination", "anchors": ["programs/merkle_instant/src/instructions/create_campaign.rs:handler", "programs/merkle_instant/src/utils/validations.rs"]}
{"id": "C53", "title": "account data round-trips and fits its allocation", "statement": "The Borsh encoding of StreamData, Treasury, NftCollectionData decodes back to the same value and has exactly the allocated size; Campaign data decodes back and fits the allocated space exactly when name and CID lengths sum to at most 91 bytes, in particular whenever the name is at most 32 and the CID at most 59 bytes.", "quantifier": "all account values", "why_tests_cant": "all values of all fields", "anchors": ["programs/lockup/src/state/lockup.rs:StreamData", "programs/lockup/src/state/treasury.rs", "programs/lockup/src/state/nft_collection_data.rs", "programs/merkle_instant/src/state/campaign.rs", "programs/merkle_instant/src/utils/constants.rs"]}
{"id": "C54", "title": "derived addresses cannot be confused", "statement": "The byte strings hashed to derive the programs' addresses are different for different logical accounts (kind or any seed value, including the variable-length campaign name), so two accounts share an address only through a SHA-256 collision.", "quantifier": "all seed values and bumps", "why_tests_cant": "variable-length seed concatenation", "anchors": ["programs/lockup/src/utils/constants.rs:seeds", "programs/merkle_instant/src/utils/constants.rs:seeds", "programs/lockup/src/instructions/create_with_timestamps.rs", "programs/merkle_instant/src/instructions/create_campaign.rs", "programs/merkle_instant/src/instructions/claim.rs"]}
{"id": "C55", "title": "leaf encoding is injective", "statement": "Two different (index, recipient, amount) triples never have the same 44-byte leaf encoding.", "quantifier": "all triples", "why_tests_cant": "2^352 inputs", "anchors": ["programs/merkle_instant/src/utils/validations.rs:check_claim"]}
{"id": "C56", "title": "a valid creation succeeds", "statement": "create_with_timestamps_ll succeeds for every valid parameter set, unused (sender, salt), initialized program, plain mint whose accounts do not start frozen, and creator with enough tokens and lamports: nothing else can make it fail.", "quantifier": "all reachable states, all valid parameters", "why_tests_cant": "liveness over all states", "anchors": ["programs/lockup/src/instructions/create_with_timestamps.rs:handler"]}
{"id": "C57", "title": "treasuries stay rent exempt", "statement": "From initialization on, in every history, each treasury keeps at least its rent-exempt minimum, so the configuration account can never be purged by the runtime.", "quantifier": "all histories", "why_tests_cant": "invariant over all instructions and outside transfers", "anchors": ["programs/lockup/src/instructions/collect_fees.rs", "programs/merkle_instant/src/instructions/collect_fees.rs"]}
{"id": "C58", "title": "create_campaign effect and exact success condition", "statement": "create_campaign stores exactly its arguments, creates an empty vault owned by the campaign (frozen exactly if the token's accounts start frozen) and emits the event; with the right accounts and funds it succeeds exactly when the name has at most 32 bytes, name and CID together at most 91, and campaign and vault addresses are unused.", "quantifier": "all reachable states and arguments", "why_tests_cant": "all argument lengths and states", "anchors": ["programs/merkle_instant/src/instructions/create_campaign.rs", "programs/merkle_instant/src/state/campaign.rs"]}
{"id": "C59", "title": "a funded airdrop pays everybody", "statement": "If the vault of a campaign (plain token) holds at least the allocations not claimed yet, then every listed allocation whose index is unclaimed can be claimed by anybody inside the window with its proof from the tree; and this funding condition survives every history without clawbacks of that campaign. Only a Keccak collision exhibited by an earlier claim can break it.", "quantifier": "all trees, all histories, all listed allocations", "why_tests_cant": "liveness over all histories and trees", "anchors": ["programs/merkle_instant/src/instructions/claim.rs:handler", "programs/merkle_instant/src/utils/validations.rs:check_claim"]}
{"id": "C60", "title": "instructions move lamports only for rent", "statement": "Apart from collect_fees, a successful instruction changes lamports in one way only: the signing payer tops each account that the instruction creates (the two Metaplex accounts of a new NFT included) up to its rent minimum and pays the Metaplex fee for a new NFT; no instruction creates or destroys lamports or takes them from an account other than the payer (collect_fees: the program's own treasury). The list of accounts created is complete: every program account, token account, mint and metadata account that exists after the instruction existed before it or is one the payer was charged for.", "quantifier": "all instructions, all states", "why_tests_cant": "all accounts of all states", "anchors": ["programs/lockup/src/instructions", "programs/merkle_instant/src/instructions", "programs/lockup/src/utils/fee_calculation.rs"]}
{"id": "C61", "title": "instructions never mint, burn or lose tokens", "statement": "For every mint except the NFT the instruction itself creates, a successful instruction leaves the mint's record unchanged and, if the token has no transfer fee, the sum of all balances too.", "quantifier": "all instructions, all mints", "why_tests_cant": "sum over all token accounts", "anchors": ["programs/lockup/src/utils/transfer_helper.rs", "programs/merkle_instant/src/utils/transfer_helper.rs"]}
{"id": "C62", "title": "program accounts are permanent and rent exempt", "statement": "Every stream, treasury, collection, campaign and claim receipt account exists forever once created, always holds the rent minimum of its allocation, and except for a treasury under collect_fees never gives up lamports. The same holds of the token vault of every stream and campaign, which nobody can close or drain of rent, and every associated token account that exists holds its rent minimum.", "quantifier": "all histories", "why_tests_cant": "invariant over all instructions and outside operations", "anchors": ["programs/lockup/src/state", "programs/merkle_instant/src/state", "programs/lockup/src/instructions/collect_fees.rs", "programs/merkle_instant/src/instructions/collect_fees.rs"]}
{"id": "C63", "title": "the two programs are isolated", "statement": "An instruction of one program never changes an account of the other, and only an instruction of a program changes its accounts.", "quantifier": "all instructions and outside operations", "why_tests_cant": "frame over all accounts", "anchors": ["programs/lockup/src/lib.rs", "programs/merkle_instant/src/lib.rs"]}
{"id": "C64", "title": "instruction data decodes to exactly the call that was encoded", "statement": "Every instruction of both programs, encoded as the IDL says (8-byte discriminator of its name, then its arguments in declaration order, little endian), is dispatched to that instruction with exactly those argument values; accepted data is the encoding of exactly one call followed by ignored bytes; and the arguments read early by the account constraints (the #[instruction(..)] prefixes that feed the PDA seeds) are the same values the handler gets.", "quantifier": "all instructions, all argument values, all byte strings", "why_tests_cant": "all byte strings", "anchors": ["programs/lockup/src/lib.rs", "programs/merkle_instant/src/lib.rs"]}
{"id": "C65", "title": "event data is unambiguous and complete", "statement": "The emitted bytes of an event determine which event it is and every one of its fields, so an indexer that decodes the log recovers exactly the emitted values; two different events never have the same data.", "quantifier": "all events, all field values", "why_tests_cant": "all field values", "anchors": ["programs/lockup/src/utils/events.rs", "programs/merkle_instant/src/utils/events.rs"]}
{"id": "C66", "title": "the TypeScript replica of the schedule predicts the view", "statement": "The client-side function getStreamedAmount, applied to the stored terms of any stream and any later clock value, never throws and returns exactly what streamed_amount_of returns at that time, unless the stream has been canceled, in which case it is an upper bound.", "quantifier": "all reachable states and futures, all streams", "why_tests_cant": "two implementations compared on all inputs", "anchors": ["tests/lockup/utils/calculations.ts:getStreamedAmount", "programs/lockup/src/utils/lockup_math.rs:get_streamed_amount", "programs/lockup/src/instructions/view/streamed_amount_of.rs"]}
{"id": "C67", "title": "the events are a complete audit trail", "statement": "An indexer that has a stream account as it was at any time (for example at its creation) and applies the withdraw, cancel and renounce events emitted since obtains exactly the account as it is now; every campaign account and every claim receipt can be rebuilt from the events alone. For streams the snapshot is needed: the creation event tells neither amounts, times nor the cancelable flag, so two histories with the same events can have different streams.", "quantifier": "all reachable histories, all streams and campaigns", "why_tests_cant": "refinement over all histories", "anchors": ["programs/lockup/src/utils/events.rs", "programs/merkle_instant/src/utils/events.rs", "programs/lockup/src/state/lockup.rs", "programs/merkle_instant/src/state/campaign.rs"]}
{"id": "C68", "title": "instructions see and change only the accounts they list", "statement": "What an instruction does (its error, or the new contents of its accounts and its events) is determined by the clock and the accounts it is given, whatever the rest of the chain looks like; and it changes only the accounts listed as written (in particular, withdraw and claim never change the treasury while the fee is zero). The stream views depend only on the clock, the stream account and its NFT mint.", "quantifier": "all instructions of both programs, all pairs of states that agree on the listed accounts", "why_tests_cant": "quantifies over pairs of arbitrary states", "anchors": ["programs/lockup/src/instructions", "programs/merkle_instant/src/instructions"]}
{"id": "C69", "title": "independent instructions do not interfere and commute", "statement": "If an instruction writes no account that another one lists, it cannot change whether the other succeeds nor with which error it fails; if this holds both ways, the two can be executed in either order with the same resulting accounts and the same events (in the other order). So unrelated streams and campaigns cannot be front-run or blocked by each other.", "quantifier": "all pairs of instructions, all states", "why_tests_cant": "all interleavings of arbitrary instructions", "anchors": ["programs/lockup/src/instructions", "programs/merkle_instant/src/instructions"]}
{"id": "C70", "title": "a burned stream NFT locks the recipient's part for ever", "statement": "Once the NFT of a stream has been burned (its supply is 0), no withdraw and no withdraw_max on that stream ever succeeds again, whoever calls it with whatever accounts; the recorded withdrawn amount stays what it was and the amount the views report as withdrawable never shrinks. The sender's right to cancel is not affected: as long as something is refundable, a cancel with the right accounts succeeds (plain token whose transfers work) and pays the sender exactly that.", "quantifier": "all reachable states with a burned NFT, all later states, all calls", "why_tests_cant": "all histories after the burn", "anchors": ["programs/lockup/src/instructions/withdraw.rs", "programs/lockup/src/instructions/withdraw_max.rs"]}
{"id": "C71", "title": "an occupied vault address blocks exactly one creation", "statement": "Anybody who pays the rent can open the token account that a future stream would use as its vault. From then on the stream with that sender, salt and token can never be created, in either variant; the same holds for a campaign whose vault account is already open. A creation that is ready to go with another sender, salt or token stays ready.", "quantifier": "all senders, salts, tokens, all later states, all terms", "why_tests_cant": "all histories after the account was opened", "anchors": ["programs/lockup/src/instructions/create_with_timestamps.rs", "programs/merkle_instant/src/instructions/create_campaign.rs"]}
{"id": "C72", "title": "error codes are truthful and unambiguous", "statement": "Whatever accounts and arguments an instruction is called with, if it fails with one of the programs' own error codes, then what the code says is true of the state and the arguments (the stream is depleted, the amount exceeds the withdrawable one, the campaign has expired, the proof is not one for this allocation in any tree with the published root, ...), and only the instructions documented to report a code report it. Within a program the numeric codes 6000, 6001, ... determine the error.", "quantifier": "all reachable states, all instructions, accounts and arguments", "why_tests_cant": "all states and arguments", "anchors": ["programs/lockup/src/utils/errors.rs", "programs/lockup/src/utils/validations.rs", "programs/merkle_instant/src/utils/errors.rs", "programs/merkle_instant/src/utils/validations.rs"]}
{"id": "C73", "title": "the NFT metadata is authentic and cannot be tampered with", "statement": "While it exists, the metadata of a stream NFT is exactly the published one (name made from the base58 text of the NFT's own address, symbol, image, no royalty, no creators, verified member of the Sablier collection, updatable by no one outside the program); the only step that changes it is the holder burning the NFT, and then it never comes back. The collection's metadata is fixed but for its size. Whatever metadata outsiders create, edit or verify, a token shown as verified member of the Sablier collection is the NFT of a stream created by the program.", "quantifier": "all reachable states and histories, including arbitrary Metaplex calls by anybody on any token", "why_tests_cant": "all histories with adversarial Metaplex calls", "anchors": ["programs/lockup/src/utils/nft.rs", "programs/lockup/src/utils/constants.rs"]}
{"id": "C74", "title": "tokens beyond what a stream owes are locked for ever", "statement": "If the vault of a stream holds k tokens more than deposit - withdrawals - refunds (because somebody donated them, or because a withdrawal was directed to the stream account itself), it holds at least k more than it owes in every later state, whatever instructions of whatever program are executed by whomever. A withdrawal whose recipient is the stream account itself is recorded and announced like any other but moves no token, so the withdrawn amount is lost.", "quantifier": "all reachable states, all later histories, all streams whose token has no permanent delegate, all withdrawals directed to the stream account", "why_tests_cant": "an adversary has unboundedly many instruction sequences; a test shows only that one attempt to recover the tokens fails", "anchors": ["programs/lockup/src/instructions/withdraw.rs: Withdraw, handler", "programs/lockup/src/instructions/cancel.rs: handler", "programs/lockup/src/utils/transfer_helper.rs: transfer_tokens"]}
{"id": "C75", "title": "the surplus of a never-expiring campaign is locked after the grace period", "statement": "Seven days after the first claim of a campaign without expiration time, whatever its vault holds beyond the allocations not claimed yet can never be moved again: in every later state the vault keeps at least balance + claimed so far - sum of all allocations, unless some claim of the history exhibits a Keccak collision.", "quantifier": "all histories from genesis, all campaigns with expiration 0 whose first claim is more than seven days old, all Merkle trees with the campaign's root, all later histories", "why_tests_cant": "'never again' ranges over all later histories and all claims, including forged proofs", "anchors": ["programs/merkle_instant/src/instructions/clawback.rs: handler", "programs/merkle_instant/src/utils/validations.rs: check_clawback, has_grace_period_passed, has_expired", "programs/merkle_instant/src/instructions/claim.rs: handler"]}
{"id": "C76", "title": "the lockup program implements a small vesting machine", "statement": "A stream, for its users, is a small thing: terms (sender, token, start, cliff, end, unlocks, deposit) and three variables: withdrawn, refunded, cancelable. Time and these determine everything: stream_exists, streamed_amount_of, withdrawable_amount_of, refundable_amount_of and status_of are functions of them, the two other stored flags carry no information. Three actions change them: withdraw a positive amount within what is vested, cancel and renounce while cancelable and not everything is vested. Whatever instruction of whichever program succeeds, every stream is afterwards exactly what this machine says: the named stream makes the named move, a create adds a stream with the requested terms where none was, and every other stream is unchanged; so every history of a stream is a run of the machine. Conversely every move of the machine can be made with the right accounts and an ordinary token.", "quantifier": "all reachable states, all instructions of all modelled programs, all streams, all histories and move sequences", "why_tests_cant": "Tests compare single calls with expected numbers; a refinement says that no sequence of calls by anybody can show behaviour outside the machine, and that the machine has no move the program refuses.", "anchors": ["programs/lockup/src/instructions/withdraw.rs: handler", "programs/lockup/src/instructions/cancel.rs: handler", "programs/lockup/src/instructions/renounce.rs: handler", "programs/lockup/src/instructions/create_with_timestamps.rs: handler", "programs/lockup/src/instructions/create_with_durations.rs: handler", "programs/lockup/src/state/lockup.rs: StreamData", "programs/lockup/src/utils/lockup_math.rs: get_streamed_amount, get_withdrawable_amount, get_refundable_amount"]}
{"id": "C77", "title": "the merkle_instant program implements a small airdrop machine", "statement": "A campaign, for its users, is its terms (creator, token, root, start, expiration, name, CID), the set of claimed indices and the time of the first claim. The views campaign_view, has_claimed, has_campaign_started and has_expired are functions of these, and the set and the time are those of the history. Two actions exist: a claim of an index not claimed yet, inside the claim window, with a proof that leads to the root, adds the index and sets the first-claim time if unset; a clawback by the creator, before any claim or at most seven days after the first one or after expiration, leaves everything as it is. Whatever instruction of whichever program succeeds, every campaign is afterwards exactly what this machine says, so every history of a campaign is a run of the machine; and every move of the machine can be made with the right accounts, rent, and an ordinary token of which the vault holds enough.", "quantifier": "all histories with a positive clock, all instructions of all modelled programs, all campaigns, all move sequences", "why_tests_cant": "a refinement excludes every behaviour outside the machine in every history; tests compare single calls", "anchors": ["programs/merkle_instant/src/instructions/claim.rs: handler", "programs/merkle_instant/src/instructions/clawback.rs: handler", "programs/merkle_instant/src/instructions/create_campaign.rs: handler", "programs/merkle_instant/src/state/campaign.rs: Campaign", "programs/merkle_instant/src/utils/validations.rs: check_claim, check_clawback"]}
{"id": "C78", "title": "nobody can stop the payouts of a classic, unfreezable token", "statement": "A stream in a token of the classic SPL token program whose mint has no freeze authority pays out no matter what anybody does. After any later history, if the stream NFT sits in the associated account of some holder, any signer who can pay for a missing token account can make the stream pay any positive amount up to withdrawable_amount_of to the holder's associated account, the holder can direct it to anyone's, and the account grows by exactly that amount; the sender can cancel as long as something is refundable and receives exactly the refundable amount; and a claim of a campaign in such a token with a fitting proof, in the window, not yet made and covered by the vault, can be carried out by anyone who can pay for the accounts. The only conditions on the world are the receiving account (absent, or owned by the receiver and not frozen) and lamports.", "quantifier": "all histories before and after the creation, all instructions of all modelled programs, all holders, signers, destinations and amounts", "why_tests_cant": "the adversary's instruction sequences between creation and withdrawal are unbounded", "anchors": ["programs/lockup/src/instructions/withdraw.rs: Withdraw, handler", "programs/lockup/src/instructions/cancel.rs: Cancel, handler", "programs/merkle_instant/src/instructions/claim.rs: Claim, handler", "programs/lockup/src/utils/transfer_helper.rs: transfer_tokens"]}
{"id": "C79", "title": "nobody's tokens move without their signature", "statement": "A successful instruction of either Sablier program never closes, reassigns or reduces a token account owned by a wallet, with one exception: a create instruction signed by the wallet takes exactly the deposit from that wallet's associated account of the deposited token. And whatever happens on the chain, over any history in which a wallet signs nothing, every token account of it (of a token without a permanent delegate) still exists, is still its own and holds at least as much as before, less at most what the wallet had approved a delegate to take before that history.", "quantifier": "all reachable states, all successful instructions, all histories without the wallet's signature, all token accounts", "why_tests_cant": "unbounded histories and every combination of account lists", "anchors": ["programs/lockup/src/instructions/create_with_timestamps.rs: CreateWithTimestamps", "programs/lockup/src/instructions/withdraw.rs: Withdraw", "programs/lockup/src/instructions/cancel.rs: Cancel", "programs/merkle_instant/src/instructions/claim.rs: Claim", "programs/merkle_instant/src/instructions/clawback.rs: Clawback"]}
{"id": "C80", "title": "before and at initialisation", "statement": "Until the lockup program is initialised there is no stream, and each of its instructions other than initialize fails whatever the accounts; until the airdrop program is initialised every claim and collect_fees fails and nothing is claimed, while campaigns can already be created. Nobody can prevent initialisation: in every reachable uninitialised state (whatever has been sent to the future accounts) any signer with the rent can initialise each program with any configuration. A campaign created before the initialisation is fully functional right after it: any claim with a fitting proof, in the window, covered by the vault succeeds.", "quantifier": "all reachable states in which the program is not initialised, all instructions, all signers and configurations, all campaigns", "why_tests_cant": "the histories before initialisation are unbounded and adversarial", "anchors": ["programs/lockup/src/instructions/initialize.rs: Initialize, handler", "programs/lockup/src/utils/nft.rs: initialize_collection", "programs/merkle_instant/src/instructions/initialize.rs: Initialize, handler", "programs/merkle_instant/src/instructions/claim.rs: Claim", "SECURITY.md: Assumptions"]}
{"id": "C81", "title": "the fee is orthogonal, for any fee constant", "statement": "For every value of the compile-time USD fee constants: withdraw, withdraw_max and claim succeed exactly when the free (shipped) program would, the oracle answer converts to some x lamports and the signer has x left after rent; they then do exactly what the free program does, plus a payment of x lamports from the signer to the treasury, reported in the event and equal to what the fee view reports. With a fresh, positive, u64 price x is the dollar fee at that price rounded down; when the oracle fails, is stale, in the future or not positive the fee is 0 and nobody is stopped. A fresh price that is a multiple of 2^64 would stop every withdrawal and claim of a program with a positive fee.", "quantifier": "all fee constants, states, accounts, amounts, oracle answers", "why_tests_cant": "the constant is 0 in this build, so no test of the build exercises the fee path; prices and states are unbounded", "anchors": ["programs/lockup/src/instructions/withdraw.rs: handler, charge_withdrawal_fee", "programs/lockup/src/utils/fee_calculation.rs: convert_usd_fee_to_lamports", "programs/lockup/src/instructions/view/withdrawal_fee_in_lamports.rs: handler", "programs/merkle_instant/src/instructions/claim.rs: handler, charge_claim_fee", "programs/merkle_instant/src/utils/fee_calculation.rs: convert_usd_fee_to_lamports", "programs/merkle_instant/src/instructions/view/claim_fee_in_lamports.rs: handler"]}
{"id": "C82", "title": "the books of a stream balance", "statement": "At every moment the views and the payouts account for the whole deposit. withdrawn + withdrawable = streamed; for a cancelable stream withdrawn + withdrawable + refundable = deposited and nothing has been refunded; for a canceled one withdrawn + withdrawable + refunded = deposited and nothing more is refundable; for any other nothing was or will be the sender's; a stream is depleted exactly when withdrawn + refunded = deposited, and then nothing is withdrawable or refundable. The sums of the withdraw and cancel events give the same numbers. Before the start every withdrawal fails, and a cancel returns the whole deposit (less the token's own transfer fee) to the sender and leaves the stream depleted.", "quantifier": "all reachable states, all streams, all instructions", "why_tests_cant": "a balance that holds in the states a test visits can fail after an untested interleaving of withdrawals, cancels, renounces and clock readings", "anchors": ["programs/lockup/src/utils/lockup_math.rs: get_streamed_amount, get_withdrawable_amount, get_refundable_amount", "programs/lockup/src/state/lockup.rs: StreamData.cancel, withdraw", "programs/lockup/src/instructions/cancel.rs: handler", "programs/lockup/src/instructions/withdraw.rs: handler"]}
{"id": "C83", "title": "the schedule is translation invariant, monotone in the money, and splits fairly", "statement": "For live streams: (a) if the dates of two streams and the clocks at which they are read are d seconds apart and the amounts are the same, both have streamed the same; (b) with the same dates and a deposit and unlocks that are not smaller, a stream has never streamed less; (c) cutting a stream into two with the same dates, whose deposits and unlocks add up, costs the recipient at most one base unit at any moment and never gains any; (d) between two moments of the linear phase the streamed amount grows by its share of the elapsed time up to less than 1 + range/10^18 units, whatever happened in between.", "quantifier": "all reachable states, all pairs and triples of streams, all offsets, all pairs of moments", "why_tests_cant": "relations between runs over unbounded amounts and dates; tests compare single values", "anchors": ["programs/lockup/src/utils/lockup_math.rs: get_streamed_amount", "programs/lockup/src/instructions/view/streamed_amount_of.rs: handler"]}
{"id": "C84", "title": "the right to withdraw is the NFT", "statement": "Whoever holds a stream's NFT (one token of its mint in his own associated account) is the only wallet a withdraw or withdraw_max of that stream can be for, and a withdrawal he did not sign pays him. Unless he has approved a delegate for that account, he keeps the right through any history in which he signs nothing, including everything the sender, the treasury or strangers do. A transfer of the NFT (by the owner or an approved delegate) to another wallet's associated account hands the right over at once: withdrawals for anybody else fail. While the NFT sits in any other account (not its owner's associated one) nobody can withdraw.", "quantifier": "all reachable states, all streams, all holders, all histories, all withdraw instructions", "why_tests_cant": "exclusivity and preservation quantify over all possible signers, account lists and intervening histories", "anchors": ["programs/lockup/src/instructions/withdraw.rs: Withdraw (recipient_stream_nft_ata, withdrawal_recipient)", "programs/lockup/src/utils/validations.rs: check_withdraw", "programs/lockup/src/utils/nft.rs: create_stream"]}
{"id": "C85", "title": "races: within a block the order does not matter", "statement": "At a fixed clock reading, when the receiving accounts exist and are not the vault itself: a withdrawal and a cancel, a withdrawal and a renounce, or two withdrawals of the same stream that succeed in one order succeed in the other order too, with the same balances, lamports and stream data (only the event log differs); any number of claims from one campaign can be permuted freely. So neither party gains or loses by being overtaken. Only cancel and renounce exclude each other: the one that comes first makes the other fail for ever.", "quantifier": "all reachable states, all pairs of withdraw/cancel/renounce instructions on one stream, all lists and permutations of claims", "why_tests_cant": "quantifies over all states and all schedules; a test fixes one order of events", "anchors": ["programs/lockup/src/instructions/withdraw.rs: handler", "programs/lockup/src/instructions/withdraw_max.rs: handler", "programs/lockup/src/instructions/cancel.rs: handler", "programs/lockup/src/instructions/renounce.rs: handler", "programs/lockup/src/state/lockup.rs: StreamData.withdraw, cancel, renounce", "programs/merkle_instant/src/instructions/claim.rs: handler", "programs/merkle_instant/src/state/campaign.rs: Campaign.claim"]}
{"id": "C86", "title": "a salt can be squatted, but nobody can be shut out", "statement": "The sender of a stream does not sign its creation, so a stranger who can fund one base unit can open a stream in anybody's name at a salt nobody has used yet, with a recipient of his choice, and from then on no creation with that sender and salt succeeds, in any token or variant, ever. But no history of fewer than 2^128/3 instructions, whoever sent them, exhausts the salts: every sender has a salt at which neither the stream nor its vault exists, and a funded creator succeeds with it for any valid terms (in a token whose accounts do not start frozen).", "quantifier": "all histories from an empty chain with fewer than 2^128/3 instructions, all senders, tokens, salts, creators and terms", "why_tests_cant": "impossibility for ever after, and existence of a free salt after any adversarial history, are not observable in finitely many runs", "anchors": ["programs/lockup/src/instructions/create_with_timestamps.rs: CreateWithTimestamps (sender, stream_nft_mint seeds, stream_data_ata init), handler"]}
{"id": "C87", "title": "delegates: vaults cannot have one, NFT accounts can", "statement": "No token account at the associated address of a stream, a campaign, a treasury or any other address without a private key ever has an approved delegate, so no approval can drain a vault. No Sablier instruction changes an approval; a delegate or a larger allowance comes about only by the account owner's own approve. The hazard: a delegate approved on the account that holds a stream's NFT can move the NFT to anybody's associated account, who then is the only one the stream can be withdrawn for. Freezing the NFT account through Metaplex, the other thing such a delegate can do, changes no vault, no stream, no campaign and no holder.", "quantifier": "all reachable states, all accounts, all instructions, all delegates and allowances", "why_tests_cant": "absence of a delegate on every vault in every history, whoever acts, is an invariant over unbounded runs", "anchors": ["programs/lockup/src/utils/transfer_helper.rs: transfer_tokens", "programs/lockup/src/instructions/withdraw.rs: Withdraw (stream_data_ata, recipient_stream_nft_ata)", "programs/lockup/src/instructions/cancel.rs: Cancel (stream_data_ata)", "programs/merkle_instant/src/instructions/claim.rs: Claim (campaign_ata)", "programs/merkle_instant/src/instructions/clawback.rs: Clawback (campaign_ata)"]}
{"id": "C88", "title": "messages: the interface as sent is the interface as run", "statement": "Programs receive a list of addresses, privileges (signatures, write locks) and bytes. A message is taken for an instruction if and only if its account list begins with the accounts of that instruction in the published order, its data begins with the published encoding, and the transaction grants every signature and every write privilege the interface asks for; then it does exactly what the instruction does. Withholding any one of them makes the message fail in every state. A message that succeeds is either a question (no change) or exactly one such instruction, signed by its signer; it changes no account that is not both listed and declared writable, costs nobody who has not signed a token or a lamport, and a history of messages is a history of instructions, so that a wallet that signs nothing keeps its tokens (except what it had approved before). Names and CIDs of campaigns are always valid UTF-8.", "quantifier": "all messages (any account list, any bytes, any privileges), all reachable states, all histories", "why_tests_cant": "the space of account lists and byte strings is infinite, and rejection of everything else is a universal statement", "anchors": ["programs/lockup/src/lib.rs: every entry point", "programs/merkle_instant/src/lib.rs: every entry point", "programs/lockup/src/instructions/*.rs: #[derive(Accounts)] structs (order, mut, Signer, Program)", "programs/merkle_instant/src/instructions/*.rs: #[derive(Accounts)] structs (order, mut, Signer, Program)"]}
{"id": "C89", "title": "questions change nothing and their answers can be read", "statement": "The view methods need no signature and no write privilege. Whoever asks, in any state that can arise, a view message leaves the state unchanged and returns exactly the answer in the published layout: amounts and fees as eight little-endian bytes without loss, the status as its position in the enum, yes/no as one byte, configuration and campaign field by field; and the answer can be recovered from the bytes. It fails exactly if the typed view fails or an address is not the derived one.", "quantifier": "all reachable states, all view messages, all privileges", "why_tests_cant": "losslessness in every reachable state needs the invariants that bound all stored and computed numbers", "anchors": ["programs/lockup/src/lib.rs: refundable_amount_of, status_of, stream_exists, streamed_amount_of, treasury_view, withdrawable_amount_of, withdrawal_fee_in_lamports", "programs/merkle_instant/src/lib.rs: campaign_view, claim_fee_in_lamports, has_claimed, has_expired, has_grace_period_passed, has_campaign_started, treasury_view", "programs/lockup/src/instructions/view/*.rs", "programs/merkle_instant/src/instructions/view/*.rs"]}
{"id": "C90", "title": "the runtime's rent rule can stop an instruction only at the payer or the fee recipient", "statement": "After every transaction the Solana runtime rejects it if some account ends with lamports below the rent minimum of its size, unless that account was so before, kept its size and gained nothing. After a successful instruction other than collect_fees the payer's is the only account this rule can object to; it cannot if the payer had the rent of everything the instruction may open plus its own minimum, nor, whatever the payer has, if nothing is opened. After collect_fees only the fee recipient's account can be objected to: collecting goes through if the recipient with the collected amount has its minimum, and is rejected if it was empty and receives less.", "quantifier": "all states, all instructions, all account sizes and balances, all rent tables", "why_tests_cant": "a universal statement over all accounts of the ledger, balances and rent parameters", "anchors": ["programs/lockup/src/instructions/*.rs: init, init_if_needed", "programs/merkle_instant/src/instructions/*.rs: init, init_if_needed", "programs/lockup/src/instructions/collect_fees.rs: handler", "programs/merkle_instant/src/instructions/collect_fees.rs: handler", "programs/lockup/src/instructions/collect_fees.rs: safe_collectible_amount"]}
{"id": "C91", "title": "no account of an instruction can be substituted", "statement": "Every account of a successful instruction follows from a few choices of the caller (who acts, which stream or campaign, who receives, which token, the arguments) together with the public configuration, the stream or campaign record and the token's mint; for cancel and renounce the stream alone decides, for withdrawals even the named recipient is not a choice. So a client that works the accounts out gets exactly what the program accepts, and exchanging any single account (vault, treasury, receipt, oracle feed, token program, collection, sender...) while keeping the choices makes the instruction fail.", "quantifier": "all reachable states, all instructions of both programs, all account lists", "why_tests_cant": "rejection of every other account list is a universal statement over all addresses and states", "anchors": ["programs/lockup/src/instructions/*.rs: #[account] constraints (seeds, has_one, address, associated_token)", "programs/merkle_instant/src/instructions/*.rs: #[account] constraints (seeds, has_one, address, associated_token)"]}
{"id": "C92", "title": "transactions of messages", "statement": "A transaction is one set of signatures and write privileges and a list of messages run under them, possibly with other things in between. It takes effect as a whole or, if any message fails, not at all. However many transactions are sent, in whatever order, failing or not, the ledger stays in a state all theorems about histories speak of. Whoever signs none of them keeps their token accounts; a transaction of Sablier messages takes nothing (tokens or lamports) from anybody who has not signed it and changes no account it does not declare writable. A client may bundle any instructions into one transaction with the union of their privileges: it does exactly what the instructions do one after the other, or nothing.", "quantifier": "all transactions (any privileges, any messages, any length), all sequences of transactions, all reachable states", "why_tests_cant": "atomicity and non-interference for unbounded transactions and sequences are universal statements", "anchors": ["programs/lockup/src/lib.rs: every entry point", "programs/merkle_instant/src/lib.rs: every entry point", "programs/lockup/src/instructions/*.rs", "programs/merkle_instant/src/instructions/*.rs"]}
{"id": "C93", "title": "transactions as bytes: what is signed is what runs, and everything fits", "statement": "A client lists instructions, the accounts of each with the privileges wanted, and a fee payer; what is signed and sent is a byte string of at most 1232 bytes. A transaction that fits and is signed by those it asks to sign is accepted and understood exactly as meant: the fee payer and the privileges asked for by some instruction and no others, the same calls in the same order; so any bundle of instructions of the two programs, with compute budget instructions in front, does as bytes what the instructions do one after the other, or nothing. Conversely everybody counted as a signer of accepted bytes has signed a message with that one meaning. Every instruction other than a claim that can succeed fits, even with a compute budget instruction and a separate fee payer. The proofs of the project's tree builder have at most log2 of the number of recipients hashes; a claim fits with up to twenty, exactly when its addresses are different, so everybody can claim in airdrops of up to 1048576 recipients.", "quantifier": "all lists of instructions, accounts and privileges, all byte strings, all signature schemes, all allocation lists", "why_tests_cant": "faithfulness for all instruction lists and byte strings, and a size bound over all instructions, arguments and allocation lists, are universal statements", "anchors": ["scripts/ts/init-lockup-and-create-streams.ts: createStream", "tests/merkle-instant/utils/merkle.ts: getProof", "programs/lockup/src/instructions/*.rs: #[derive(Accounts)]", "programs/merkle_instant/src/instructions/*.rs: #[derive(Accounts)]", "programs/merkle_instant/src/instructions/claim.rs: handler"]}
{"id": "C94", "title": "streams can be created in bulk", "statement": "Whoever has the deposits and the rent can open any list of streams in one token (whose accounts do not start frozen), one after the other: in every reachable state of the initialised program, for any senders, recipients and valid terms and any different unused salts, all the creations succeed. Afterwards every stream stores exactly what was asked for, every vault holds its deposit (less the token's own fee), every recipient holds the NFT, the creator has paid the sum of the deposits and at most the rent of as many streams, the collection counts them, and no other stream, token account, mint, configuration or campaign has changed.", "quantifier": "all reachable states, all lists of orders of any length, all valid terms, all creators, tokens and recipients", "why_tests_cant": "a list of arbitrary length in an arbitrary state; earlier creations must never spoil later ones", "anchors": ["programs/lockup/src/instructions/create_with_timestamps.rs: handler", "programs/lockup/src/utils/nft.rs: create_stream", "scripts/ts/init-lockup-and-create-streams.ts: createStream"]}
{"id": "C95", "title": "the post-deployment scripts run to the end on every chain", "statement": "In every reachable state in which the lockup program is not initialised, a signer with the rent and a new key for the token can run scripts/ts/init-lockup-and-create-streams.ts to its end, at whatever (growing) times its transactions are processed: the program is configured as the script says, the three streams have exactly the terms of the script and start when their transaction ran, the vaults are full, the signer holds the NFTs and the rest of the million tokens, the collection counts three. Likewise scripts/ts/init-merkle-instant-and-create-campaign.ts, in any existing classic token, with any root and expiration time, unless somebody has already created that very campaign or its vault: the campaign stores exactly the data of the script.", "quantifier": "all reachable uninitialised states, all signers, keys, configurations and times", "why_tests_cant": "the scripts meet an arbitrary ledger at arbitrary times; tests run them on one fresh validator", "anchors": ["scripts/ts/init-lockup-and-create-streams.ts: createStream, createTokenAndMintToSender", "scripts/ts/common/init-lockup-base.ts: initSablierLockup", "scripts/ts/init-merkle-instant-and-create-campaign.ts: createCampaign", "scripts/ts/common/init-merkle-instant-base.ts: initSablierMerkleInstant", "lib/convertors.ts: sol"]}
{"id": "C96", "title": "memo requirements and CPI guards hurt only those who set them", "statement": "The owner of a Token-2022 account can make memos compulsory for incoming transfers and forbid programs to move its tokens. Only the owner, by signing, changes these settings of an account (or closes it, and they are gone); the two programs never do; vaults of streams and campaigns, accounts of the classic token program and accounts that do not exist yet never have them. A withdraw, withdraw_max, cancel, claim or clawback into an account that requires memos fails, and so does a creation from a guarded account; the owner can switch the settings off again at any time without any other effect. Meanwhile a stream (in a token whose accounts do not start frozen) can still be paid into an account that does not exist yet: no setting of anybody can prevent that.", "quantifier": "all reachable states, all steps of all programs, all accounts and settings", "why_tests_cant": "who can ever have or change a setting is an invariant over all histories", "anchors": ["programs/lockup/src/utils/transfer_helper.rs: transfer_tokens", "programs/merkle_instant/src/utils/transfer_helper.rs: transfer_tokens", "programs/lockup/src/instructions/withdraw.rs: handler", "programs/lockup/src/instructions/cancel.rs: handler", "programs/lockup/src/instructions/create_with_timestamps.rs: handler", "programs/merkle_instant/src/instructions/claim.rs: handler", "programs/merkle_instant/src/instructions/clawback.rs: handler"]}
{"id": "C97", "title": "amounts written by clients come to the right number of base units", "statement": "dai, sol and usdc turn an amount of tokens into base units (9, 9 and 6 decimals). A number is accepted exactly if it is an integer below 2^53 in magnitude, and comes to that many tokens exactly. A text is accepted exactly if it is a decimal number: an optional minus sign, digits, at most one point. If its places beyond the token's decimals are zeros (or there are none), the result is exactly the number meant; otherwise it is rounded and off by three fifths of a base unit at most, with carries through any number of digits.", "quantifier": "all numbers and all texts, of any length", "why_tests_cant": "a universal statement over all texts", "anchors": ["lib/convertors.ts: convertTokenAmount, dai, sol, usdc", "lib/constants.ts: Decimals"]}
{"id": "C98", "title": "an airdrop can be delivered by anybody, completely and in any order", "statement": "Whoever has the rent can claim on behalf of any list of recipients of a campaign, one after the other: in every reachable state with an open claim window, for any grants with different indices that are listed under the campaign's root and not claimed yet, if the vault holds their sum in a token without transfer fee and the recipients' associated accounts (where they exist) can receive (where they do not, the token's accounts do not start frozen), all the claims succeed. Afterwards every index is claimed, the vault has paid exactly the sum, everybody has received exactly what was granted to them (several grants add up) in their own associated account, the signer has paid at most the rent, and no other claim, campaign, token account, mint, stream or configuration has changed. In particular a whole airdrop with the root and the proofs of the project's tree builder can be delivered, in any order of the recipients.", "quantifier": "all reachable states, all lists of grants of any length and order, all allocation lists, all signers, tokens and recipients", "why_tests_cant": "a list of arbitrary length in an arbitrary state; earlier claims must never spoil later ones", "anchors": ["programs/merkle_instant/src/instructions/claim.rs: handler", "programs/merkle_instant/src/utils/validations.rs: check_claim", "tests/merkle-instant/utils/merkle.ts: getRoot, getProof"]}
{"id": "C99", "title": "frozen token accounts", "statement": "The two programs never freeze or thaw a token account and never touch a frozen one. Only the freeze authority of the mint, by signing, freezes or thaws an account (for an NFT that is its master edition, acting for a delegate the owner approved), and that authority changes only with its own signature. So over any history in which it signs nothing every vault stays as frozen or thawed as it was, and a frozen one to the last base unit. No payment of an instruction leaves or enters a frozen account, nor enters a new account of a token whose accounts start frozen. Hence no stream can ever be created in such a token, while a campaign can: its vault is born frozen, stays empty, and every claim and clawback fails until the freeze authority signs.", "quantifier": "all states, all steps of all programs, all token accounts and mints, all histories without a signature of the freeze authority", "why_tests_cant": "who can ever freeze or thaw what is an invariant over all histories", "anchors": ["programs/lockup/src/utils/transfer_helper.rs: transfer_tokens", "programs/merkle_instant/src/utils/transfer_helper.rs: transfer_tokens", "programs/lockup/src/instructions/create_with_timestamps.rs: handler", "programs/lockup/src/instructions/withdraw.rs: handler", "programs/lockup/src/instructions/cancel.rs: handler", "programs/merkle_instant/src/instructions/create_campaign.rs: airdrop_token_ata", "programs/merkle_instant/src/instructions/claim.rs: handler", "programs/merkle_instant/src/instructions/clawback.rs: handler"]}
{"id": "C100", "title": "many streams can be emptied or canceled at once", "statement": "Whoever has the rent can call withdraw_max on any list of different streams, one after the other, for the wallets that hold their NFTs: in every reachable state, if something is withdrawable from each, the tokens (which may differ) are plain and transferable, and the holders' associated accounts (where they exist) can receive, all the withdrawals succeed, in any order. Afterwards nothing is withdrawable from any of them, every vault has paid exactly what was due, everybody has received exactly the sum due to them in each token in their own associated account, the signer has paid at most the rent, and no other stream, token account, mint, campaign or configuration has changed. Likewise a sender can cancel any list of streams from which something is refundable: they receive exactly the sum of the refunds in each token, and what the recipients can withdraw stays the same.", "quantifier": "all reachable states, all lists of streams of any length and order, all tokens, holders, signers and senders", "why_tests_cant": "a list of arbitrary length in an arbitrary state; earlier payouts must never spoil later ones", "anchors": ["programs/lockup/src/instructions/withdraw_max.rs: handler", "programs/lockup/src/instructions/withdraw.rs: handler", "programs/lockup/src/instructions/cancel.rs: handler"]}
{"id": "C101", "title": "all obligations together are backed", "statement": "In every reachable state, for any different streams in the same plain token and any other token accounts whatsoever (wallets, vaults of campaigns, ...): what the streams together still owe (deposits minus withdrawals minus refunds), plus what all those other accounts hold in that token, is at most the supply of the token. No token backs two streams, and none that backs a stream is spendable by somebody else. In particular a token with a stream that is not depleted has a positive supply.", "quantifier": "all reachable states, all finite sets of streams and token accounts", "why_tests_cant": "a sum over arbitrarily many streams in every history", "anchors": ["programs/lockup/src/instructions/create_with_timestamps.rs: stream_data_ata, handler", "programs/lockup/src/instructions/withdraw.rs: handler", "programs/lockup/src/instructions/cancel.rs: handler"]}
{"id": "C102", "title": "the TypeScript bindings say what the programs say", "statement": "The files that the binding generators write can be trusted as descriptions of a program's interface. For every list of errors with proper names, a reader of the error file finds exactly those errors, each with its number, in order. For every list of types with proper names, either a field has a type the generator does not know and it stops without writing, or a reader of the type file finds exactly one declaration per type with content, with its fields in order, under their JavaScript names (no two fields fall together) and with the TypeScript types that fit (BN from 64 bits on, number below, PublicKey for keys, arrays for arrays); and every type mentioned is built in, imported or declared in the file. The command succeeds exactly if its argument names a program, or all of them, and the generator succeeds on each; then it has written one file for each, and it never writes any other. For the two programs it succeeds, and the error files list exactly the errors the programs can return, with the numbers they return.", "quantifier": "all lists of errors and types of any length and nesting, all names, all command arguments", "why_tests_cant": "generated text must read back as the same interface for every interface; a test compares one", "anchors": ["scripts/ts/codegen-errors.ts: generateErrorCode, validateErrors", "scripts/ts/codegen-structs.ts: generateImports, generateStructType, mapSolanaTypeToTypeScript, genStructs", "scripts/ts/common/codegen-utils.ts: createMainFunction, extractIdlField, readIdlFile", "programs/lockup/src/utils/errors.rs: ErrorCode", "programs/merkle_instant/src/utils/errors.rs: ErrorCode"]}
{"id": "C103", "title": "with any fee, everything proved of every history still holds, and the fees arrive", "statement": "Compile the programs with any USD fee constants. Every history of that deployment, whatever anybody does and whatever the oracle answers, is a history of the shipped (free) programs in which each fee is an ordinary payment to the treasury made right after the instruction, except that the free programs' events report no fee. So every state it can reach has, account by account, with the same clock and the same events up to the reported fees, a counterpart the shipped programs can reach, and every guarantee proved of all reachable states carries over. In particular the vaults of streams in plain tokens hold what is owed, no index of a campaign is claimed twice, what is withdrawable can be withdrawn if the oracle gives no usable price or the signer has the fee, and each treasury gains at least the fees that the events report, less what was collected.", "quantifier": "all fee constants, all histories of both programs and of everybody else, all oracle answers", "why_tests_cant": "the constants are 0 in this build; a history with fees is not even expressible in a test of it, and the histories are unbounded", "anchors": ["programs/lockup/src/instructions/withdraw.rs: handler, charge_withdrawal_fee", "programs/lockup/src/instructions/withdraw_max.rs: handler", "programs/lockup/src/utils/constants.rs: WITHDRAWAL_FEE_USD", "programs/merkle_instant/src/instructions/claim.rs: handler, charge_claim_fee", "programs/merkle_instant/src/utils/constants.rs: CLAIM_FEE_USD", "programs/lockup/src/instructions/collect_fees.rs: handler", "programs/merkle_instant/src/instructions/collect_fees.rs: handler"]}
