#!/usr/bin/env python3
"""Writes ../properties.jsonl.  Kept so that the list can be edited as readable text."""
import json, os
L = "programs/lockup/src/"
M = "programs/merkle_instant/src/"
P = []
def p(title, statement, quantifier, why, *anchors):
    P.append(dict(id="C%02d" % (len(P)+1), title=title, statement=statement, quantifier=quantifier,
                  why_tests_cant=why, anchors=list(anchors)))

MATH = L+"utils/lockup_math.rs:get_streamed_amount"
# ---------------------------------------------------------------- lockup: schedule
p("streamed amount never exceeds the deposit",
  "For every stream that create_with_timestamps_ll / create_with_durations_ll can create and after any later history, streamed_amount_of succeeds and returns a value between the already withdrawn amount and the deposited amount.",
  "all stream parameters, all reachable ledger states, all clock values at or after the current one",
  "depends on u64/u128 division and on every history of withdraw/cancel/renounce; tests sample a handful of instants of one default stream",
  MATH, L+"instructions/view/streamed_amount_of.rs:handler")
p("streamed amount is monotone in time",
  "streamed_amount_of of a stream never decreases along any history, whatever happens in between (including cancellation).",
  "all reachable states, all pairs of states connected by any history",
  "quantifies over pairs of instants and over all interleaved operations",
  MATH)
p("streamed amount follows the published schedule",
  "While a stream is neither canceled nor depleted, streamed_amount_of is 0 before the start time, exactly start_unlock from the start until the cliff (when there is one), at least start_unlock + cliff_unlock from the cliff on (from the start when there is no cliff), and exactly the deposit from the end time on.",
  "all valid stream parameters and all instants",
  "boundary instants for every parameter choice, including a cliff of zero and unlock sums equal to the deposit",
  MATH)
p("linear part is accurate to the base unit bound",
  "Between the streaming start (cliff, or start when there is no cliff) and the end, streamed_amount_of is never above the exact line start_unlock + cliff_unlock + (deposit - unlocks) * elapsed / range, and is below it by strictly less than 1 + (deposit - unlocks)/10^18 base units.",
  "all valid stream parameters and all instants",
  "two nested truncating divisions; the worst case depends on the parameters and cannot be found by sampling",
  MATH)
p("no arithmetic panic on a live stream",
  "For every stream that exists in a reachable state, streamed_amount_of, withdrawable_amount_of, refundable_amount_of and status_of succeed at the current time (no overflow, underflow, division by zero or failed unwrap), so a stream can never be bricked by its own arithmetic. More generally no instruction of either program panics in any reachable state, except stream creation when 2^64-1 streams exist, create_with_durations whose durations take the clock past 2^64, and collect_fees on a chain with a rent minimum near 2^64.",
  "all reachable states of all histories",
  "panics come from unchecked-looking u64/u128 expressions whose safety depends on cross-instruction invariants",
  MATH, L+"utils/lockup_math.rs:get_withdrawable_amount", L+"utils/lockup_math.rs:get_refundable_amount", L+"instructions/view/status_of.rs:handler")
# ---------------------------------------------------------------- withdraw
p("withdraw amount rule",
  "A withdraw that succeeds had 0 < amount <= withdrawable_amount_of evaluated immediately before, on a stream that was not depleted; a withdraw with all accounts right is rejected with StreamDepleted, WithdrawAmountZero or Overdraw exactly in the respective case, in that order of precedence.",
  "all reachable states, all account choices, all amounts",
  "the acceptance boundary moves with time and history",
  L+"instructions/withdraw.rs:handler", L+"utils/validations.rs:check_withdraw")
p("withdraw pays only the NFT holder or where the NFT holder directs",
  "If withdraw succeeds, the wallet named as stream recipient owns its associated token account holding exactly 1 stream NFT, and the tokens leave the stream vault to that wallet's associated account, or to any other wallet's associated account only if the NFT holder signed.",
  "all reachable states, all (possibly malicious) account choices and signers",
  "adversarial account substitution over every account in the instruction",
  L+"instructions/withdraw.rs:Withdraw")
p("withdraw moves exactly the requested amount and records it",
  "A successful withdraw of x decreases the vault by x, credits the destination by x minus the token's own transfer fee (when they differ), raises amounts.withdrawn by exactly x, leaves every other stream and vault untouched, and emits WithdrawFromLockupStream with withdrawn_amount = x.",
  "all reachable states and all successful withdraws",
  "frame condition over all other accounts",
  L+"instructions/withdraw.rs:handler", L+"state/lockup.rs:StreamData::withdraw", L+"utils/transfer_helper.rs:transfer_tokens")
p("withdraw_max takes everything that is withdrawable",
  "withdraw_max behaves exactly like withdraw of the current withdrawable_amount_of; after it succeeds withdrawable_amount_of is 0 at the same instant, and it fails with WithdrawAmountZero when a non-depleted stream has nothing withdrawable.",
  "all reachable states and account choices", "relates two instructions and a view on all states",
  L+"instructions/withdraw_max.rs:handler")
p("withdrawals are path independent",
  "At any time before cancellation, withdrawn so far plus withdrawable_amount_of equals the amount the schedule has streamed at that time: how the recipient splits withdrawals, and who triggers them, never changes the total obtainable.",
  "all reachable states, i.e. all histories of withdrawals", "quantifies over all ways of splitting",
  L+"utils/lockup_math.rs:get_withdrawable_amount", L+"state/lockup.rs:StreamData::withdraw")
p("recipient is never ahead of schedule",
  "In every reachable state the sum of all WithdrawFromLockupStream amounts of a stream equals the stored withdrawn amount, and it never exceeds the amount streamed at the current time.",
  "all histories", "history sum versus clock, for every interleaving",
  L+"instructions/withdraw.rs:handler", L+"utils/events.rs:WithdrawFromLockupStream")
p("full withdrawal is possible at the end",
  "Once the end time has passed, anyone can make withdraw_max succeed for any stream that was never depleted (plain token, accounts not frozen and, if the destination is missing, not starting frozen, payer can fund a missing account): it pays all that is left and marks the stream depleted.",
  "all reachable states at or after the end time", "liveness from every reachable state",
  L+"instructions/withdraw_max.rs:handler", L+"instructions/withdraw.rs:handler")
# ---------------------------------------------------------------- cancel / renounce
p("only the sender can cancel or renounce",
  "A cancel or renounce of a stream succeeds only if signed by the sender recorded at its creation.",
  "all reachable states and account choices", "adversarial account substitution",
  L+"instructions/cancel.rs:Cancel", L+"instructions/renounce.rs:Renounce")
p("cancel rule and refund amount",
  "Cancel passes its checks exactly when the stream is cancelable, not canceled, not depleted and not fully streamed; equivalently exactly when refundable_amount_of is positive. It then pays the sender's associated account exactly refundable_amount_of as evaluated just before, and records it as refunded.",
  "all reachable states", "equivalence between a view and an instruction on every state",
  L+"instructions/cancel.rs:handler", L+"utils/validations.rs:check_cancel", L+"utils/lockup_math.rs:get_refundable_amount")
p("cancel never takes vested tokens",
  "Cancelling leaves withdrawable_amount_of unchanged at that instant; from then on streamed_amount_of is frozen at deposit minus refund forever, no matter what happens later.",
  "all reachable states and all futures", "all futures after the cancel",
  L+"state/lockup.rs:StreamData::cancel", MATH)
p("at most one cancel, and none after renounce",
  "After a successful renounce, no cancel of that stream ever succeeds and its refunded amount stays 0; a stream is canceled at most once in any history.",
  "all reachable states and all futures", "temporal property over all futures",
  L+"state/lockup.rs:StreamData::renounce", L+"state/lockup.rs:StreamData::cancel", L+"utils/validations.rs:check_cancel")
p("renounce rule",
  "Renounce passes exactly when the stream is cancelable and not fully streamed; it changes nothing but the cancelable flag and moves no tokens.",
  "all reachable states", "frame condition over the whole ledger",
  L+"instructions/renounce.rs:handler", L+"utils/validations.rs:check_renounce")
# ---------------------------------------------------------------- accounting
p("vault solvency",
  "For every stream in a plain token (no transfer fee, no permanent delegate), in every reachable state the stream vault exists, is controlled by the stream account and holds at least deposited - withdrawn - refunded.",
  "all histories, including adversarial token operations by anyone",
  "needs an invariant over all instructions and all outside token transfers",
  L+"instructions/create_with_timestamps.rs:handler", L+"instructions/withdraw.rs:handler", L+"instructions/cancel.rs:handler")
p("solvency for every token the program accepts",
  "For every mint the program accepts, including Token-2022 mints with transfer fees: right after creation the vault holds exactly the deposit minus the token's own transfer fee, so the stream is fully backed exactly when that fee is zero; unless the mint has a permanent delegate, vault + withdrawn + refunded never drops below that amount in any history. Unconditional solvency is false: with a fee a reachable ended stream cannot pay its withdrawable amount, and a permanent delegate can empty any unfrozen vault in any reachable state.",
  "all histories, all mints accepted by create", "no test uses a fee-charging mint",
  L+"instructions/create_with_timestamps.rs:handler", L+"utils/transfer_helper.rs:transfer_tokens")
p("payouts never exceed the deposit",
  "In every reachable state withdrawn + refunded <= deposited, where withdrawn and refunded are the sums of the amounts in the events emitted for the stream; with equality exactly when the stream is depleted.",
  "all histories", "history sums over all interleavings",
  L+"state/lockup.rs:StreamData", L+"utils/events.rs")
p("depleted is final",
  "Once a stream is Depleted it stays so in every future: it is never cancelable, every withdraw, cancel and renounce is rejected, and streamed_amount_of stays equal to the total withdrawn.",
  "all reachable states and all futures", "temporal property",
  L+"state/lockup.rs:StreamData::withdraw", L+"state/lockup.rs:StreamData::cancel")
p("status_of agrees with the amounts",
  "status_of returns Depleted/Canceled/Pending/Streaming/Settled exactly according to: fully paid out; canceled with something left for the recipient; start in the future; streamed < deposit; streamed = deposit.",
  "all reachable states", "characterises a view on all states",
  L+"instructions/view/status_of.rs:handler")
p("status only moves forward",
  "Along any history the status of a stream only moves along Pending -> Streaming -> Settled -> Depleted, Pending/Streaming -> Canceled -> Depleted (skipping allowed), never backwards; Settled is never followed by Canceled.",
  "all pairs of reachable states in one history", "temporal property over all pairs of states",
  L+"instructions/view/status_of.rs:handler")
p("stream terms are immutable",
  "sender, deposited mint, salt, timestamps, unlock amounts and deposit of a stream never change after creation, and the stream never disappears.",
  "all reachable states and all futures", "frame over all instructions",
  L+"state/lockup.rs:StreamData")
p("streams are isolated from each other",
  "No instruction on one stream, no other program instruction and no outside token operation changes another stream's data, or takes tokens out of its vault (plain tokens): vault outflow happens only through withdraw/withdraw_max/cancel naming that stream.",
  "all reachable states, all instructions, all other streams", "frame over all pairs",
  L+"instructions/withdraw.rs", L+"instructions/cancel.rs", L+"utils/transfer_helper.rs")
# ---------------------------------------------------------------- creation / NFT
p("create validation is exact",
  "The parameter check of create_with_timestamps_ll accepts exactly when deposit > 0, start > 0, start < end, (cliff = 0 and cliff_unlock = 0) or start < cliff < end, and start_unlock + cliff_unlock <= deposit over the integers (no wrap-around).",
  "all u64 parameters", "six independent u64 parameters and an overflow corner",
  L+"utils/validations.rs:check_create")
p("create stores what was asked and moves the deposit",
  "A successful create stores exactly the given parameters with zero withdrawn/refunded and cleared flags, takes exactly deposit from the creator's associated account, which the creator signed for, credits the fresh vault (minus the token's own fee), mints one NFT to the recipient and emits the event.",
  "all reachable states and parameters", "full postcondition incl. frame",
  L+"instructions/create_with_timestamps.rs:handler", L+"state/lockup.rs:StreamData::create")
p("durations variant equals timestamps variant at the current time",
  "create_with_durations_ll at time now succeeds exactly like create_with_timestamps_ll with start = now, end = now + total, cliff = now + cliff_duration or 0, with the same resulting state, and fails cleanly if a sum overflows u64.",
  "all reachable states and parameters", "equivalence of two entry points on all inputs",
  L+"instructions/create_with_durations.rs:handler")
p("one stream per sender and salt",
  "A (sender, salt) pair is used at most once in any history, and stream_exists(sender, salt) is true exactly when a creation event for that pair is in the history, forever after.",
  "all histories", "uniqueness over all histories",
  L+"instructions/create_with_timestamps.rs:CreateWithTimestamps", L+"instructions/view/stream_exists.rs", L+"lib.rs:stream_exists")
p("stream NFT is unique",
  "For every stream at most one token account in the whole ledger holds the stream NFT, and it holds exactly 1; supply never grows after creation. Hence at any time at most one wallet qualifies as recipient.",
  "all histories, including adversarial token operations", "invariant over all token accounts",
  L+"utils/nft.rs:create_stream", L+"instructions/withdraw.rs:Withdraw")
p("collection counter equals number of streams",
  "The stored total_supply of the NFT collection equals the number of creation events in the history; the verified collection size in the collection metadata equals the number of created stream NFTs that have not been burned through Metaplex, hence never exceeds it.",
  "all histories", "history count", L+"state/nft_collection_data.rs", L+"utils/nft.rs:create_stream")
p("stream NFT name always fits",
  "For every 32-byte mint key the NFT name is computed without a slicing panic and is exactly 32 bytes long, the Metaplex limit.",
  "all 2^256 keys", "base58 length varies with the key", L+"utils/nft.rs:create_stream", L+"utils/constants.rs")
# ---------------------------------------------------------------- treasury / fees
p("initialize works once and fixes the configuration",
  "initialize succeeds at most once per program; afterwards fee collector and oracle addresses never change in any history.",
  "all histories of both programs", "temporal property",
  L+"instructions/initialize.rs", M+"instructions/initialize.rs", L+"state/treasury.rs")
p("collect_fees rule",
  "collect_fees succeeds only for the configured collector, moves exactly balance - (rent minimum + 1,000,000) lamports to the chosen recipient, requires it positive, and leaves the treasury at exactly rent minimum + 1,000,000 when the recipient is another account.",
  "all reachable states of both programs", "all balances and aliasing of recipient and treasury",
  L+"instructions/collect_fees.rs", M+"instructions/collect_fees.rs")
p("treasury lamports never leave otherwise",
  "The treasury balance of either program decreases only through a successful collect_fees of that program, and never below rent minimum + 1,000,000 through it.",
  "all histories", "frame over all instructions",
  L+"instructions/collect_fees.rs:safe_collectible_amount", M+"instructions/collect_fees.rs:safe_collectible_amount")
p("fee conversion is correct or zero",
  "The USD-to-lamports conversion returns 0 if the USD fee is 0, the oracle call fails, the price is not positive, the oracle time is in the future or older than 24 h; otherwise floor(fee_usd * 10^(1+decimals) / price), whenever the price fits u64 and the result and intermediates fit their types.",
  "all fees, prices, decimals, timestamps", "huge numeric domain with wrap-around corners",
  L+"utils/fee_calculation.rs:convert_usd_fee_to_lamports", M+"utils/fee_calculation.rs:convert_usd_fee_to_lamports")
p("oracle cannot influence withdrawals or claims while the fee is zero",
  "With the shipped fee constants, withdraw and claim give the same result for every oracle state, and charge the signer no lamports except rent for accounts it creates; withdrawal_fee_in_lamports and claim_fee_in_lamports return 0.",
  "all oracle states", "independence from an arbitrary external value",
  L+"instructions/withdraw.rs:charge_withdrawal_fee", M+"instructions/claim.rs:charge_claim_fee", L+"utils/constants.rs", M+"utils/constants.rs")
p("failed transactions change nothing",
  "A transaction of any number of instructions either applies all of them or leaves the whole ledger unchanged; every state reached by transactions is reached by individually successful instructions.",
  "all transactions", "all instruction lists", L+"lib.rs", M+"lib.rs")
# ---------------------------------------------------------------- merkle
p("claim at most once per index",
  "For each campaign and index at most one claim succeeds in any history, by whoever and for whatever amount.",
  "all histories", "uniqueness over all histories",
  M+"instructions/claim.rs:Claim", M+"state/claim_receipt.rs")
p("has_claimed is exact",
  "has_claimed(index) is true exactly when a Claim event for that campaign and index is in the history.",
  "all histories", "equivalence with the whole history",
  M+"lib.rs:has_claimed", M+"instructions/view/has_claimed.rs")
p("claim window",
  "A claim succeeds only at or after the campaign start and strictly before the expiration (if any); before start it is rejected with CampaignNotStarted, else from expiration on with CampaignExpired; has_campaign_started and has_expired report exactly these conditions.",
  "all reachable states and claims", "time boundaries for all campaigns",
  M+"utils/validations.rs:check_claim", M+"instructions/view/has_expired.rs", M+"instructions/view/has_campaign_started.rs")
p("every listed recipient can prove eligibility",
  "For the root of any non-empty Merkle tree over allocations (in particular the one built by the project's tree builder), the proof generated for any listed (index, recipient, amount) passes the claim check inside the claim window.",
  "all trees, all leaves, any hash function", "unbounded tree sizes",
  M+"utils/validations.rs:check_claim", "tests/merkle-instant/utils/merkle.ts")
p("nobody else can claim",
  "If the claim check accepts (index, recipient, amount) with any proof against the root of a tree over allocations, then that exact triple is listed in the tree, or two explicitly given different byte strings have the same Keccak hash.",
  "all trees, all proofs of any length, any hash function", "adversarial proofs of unbounded length (second-preimage attacks)",
  M+"utils/validations.rs:check_claim")
p("total claimed bounded by the tree",
  "For a campaign whose root is the root of a tree with pairwise distinct indices, the sum of all Claim amounts in any history is at most the sum of the tree's allocations, or a Keccak collision exists.",
  "all histories, all trees", "history sum against tree sum",
  M+"instructions/claim.rs:handler")
p("claim pays the listed recipient in full",
  "A successful claim moves exactly amount from the campaign vault to the recipient's associated account (minus the token's own fee), whoever the claimer is, creates the receipt, and emits the event; no other campaign changes.",
  "all reachable states, all claimers", "frame and adversarial accounts",
  M+"instructions/claim.rs:handler")
p("clawback rule",
  "Clawback succeeds only if signed by the campaign creator, and passes its time check exactly when no claim was made, or now <= first claim + 7 days, or the campaign has expired; otherwise ClawbackNotAllowed. It moves exactly amount to the chosen recipient's associated account.",
  "all reachable states", "time boundaries, adversarial accounts",
  M+"utils/validations.rs:check_clawback", M+"instructions/clawback.rs")
p("no clawback after the grace period of a non-expired campaign",
  "Once the grace period has passed, until expiration (forever if there is none) no clawback of the campaign succeeds, and the campaign vault (plain token) decreases only by claims.",
  "all reachable states and all futures", "temporal property over all futures",
  M+"utils/validations.rs:check_clawback")
p("first claim time is the time of the first claim",
  "first_claim_time is 0 until the first successful claim, equals the clock at that first claim, and never changes afterwards (positive clock).",
  "all histories", "history property", M+"state/campaign.rs:Campaign::claim")
p("campaign terms are immutable and campaigns unique",
  "All campaign fields except first_claim_time never change after creation; the same (creator, root, start, expiration, name, mint) can be created at most once.",
  "all histories", "temporal property", M+"state/campaign.rs", M+"instructions/create_campaign.rs")
p("what has_grace_period_passed reports",
  "has_grace_period_passed returns true exactly when the expiration is non-zero and the clock is past expiration + 7 days (and panics when that sum overflows u64): it does not report the grace period after the first claim, so there are reachable states where it says false although the grace period is over and clawback is blocked, and where it says true although nobody ever claimed. (Defect: the view passes expiration_time where first_claim_time is meant.)",
  "all reachable states", "no test covers this view",
  M+"instructions/view/has_grace_period_passed.rs:handler", M+"utils/validations.rs:has_grace_period_passed")
p("campaign vault outflow is claims plus clawbacks only",
  "For plain tokens, in any history the campaign vault loses tokens only through successful claims and clawbacks of that campaign: balance >= (everything ever received) - claims - clawbacks; nobody but the program moves it.",
  "all histories", "frame over all instructions and outside operations",
  M+"instructions/claim.rs", M+"instructions/clawback.rs")
p("campaigns without a possible window can never be claimed",
  "A campaign whose expiration is non-zero and not after its start never has a successful claim, and its creator can always claw back.",
  "all histories", "all futures of an unvalidated parameter combination",
  M+"instructions/create_campaign.rs:handler", M+"utils/validations.rs")
p("account data round-trips and fits its allocation",
  "The Borsh encoding of StreamData, Treasury, NftCollectionData decodes back to the same value and has exactly the allocated size; Campaign data decodes back and fits the allocated space exactly when name and CID lengths sum to at most 91 bytes, in particular whenever the name is at most 32 and the CID at most 59 bytes.",
  "all account values", "all values of all fields",
  L+"state/lockup.rs:StreamData", L+"state/treasury.rs", L+"state/nft_collection_data.rs", M+"state/campaign.rs", M+"utils/constants.rs")
p("derived addresses cannot be confused",
  "The byte strings hashed to derive the programs' addresses are different for different logical accounts (kind or any seed value, including the variable-length campaign name), so two accounts share an address only through a SHA-256 collision.",
  "all seed values and bumps", "variable-length seed concatenation",
  L+"utils/constants.rs:seeds", M+"utils/constants.rs:seeds", L+"instructions/create_with_timestamps.rs", M+"instructions/create_campaign.rs", M+"instructions/claim.rs")
p("leaf encoding is injective",
  "Two different (index, recipient, amount) triples never have the same 44-byte leaf encoding.",
  "all triples", "2^352 inputs", M+"utils/validations.rs:check_claim")
# ---------------------------------------------------------------- added as the model grew
p("a valid creation succeeds",
  "create_with_timestamps_ll succeeds for every valid parameter set, unused (sender, salt), initialized program, plain mint whose accounts do not start frozen, and creator with enough tokens and lamports: nothing else can make it fail.",
  "all reachable states, all valid parameters", "liveness over all states",
  L+"instructions/create_with_timestamps.rs:handler")
p("treasuries stay rent exempt",
  "From initialization on, in every history, each treasury keeps at least its rent-exempt minimum, so the configuration account can never be purged by the runtime.",
  "all histories", "invariant over all instructions and outside transfers",
  L+"instructions/collect_fees.rs", M+"instructions/collect_fees.rs")
p("create_campaign effect and exact success condition",
  "create_campaign stores exactly its arguments, creates an empty vault owned by the campaign (frozen exactly if the token's accounts start frozen) and emits the event; with the right accounts and funds it succeeds exactly when the name has at most 32 bytes, name and CID together at most 91, and campaign and vault addresses are unused.",
  "all reachable states and arguments", "all argument lengths and states",
  M+"instructions/create_campaign.rs", M+"state/campaign.rs")
p("a funded airdrop pays everybody",
  "If the vault of a campaign (plain token) holds at least the allocations not claimed yet, then every listed allocation whose index is unclaimed can be claimed by anybody inside the window with its proof from the tree; and this funding condition survives every history without clawbacks of that campaign. Only a Keccak collision exhibited by an earlier claim can break it.",
  "all trees, all histories, all listed allocations", "liveness over all histories and trees",
  M+"instructions/claim.rs:handler", M+"utils/validations.rs:check_claim")
p("instructions move lamports only for rent",
  "Apart from collect_fees, a successful instruction changes lamports in one way only: the signing payer tops each account that the instruction creates (the two Metaplex accounts of a new NFT included) up to its rent minimum and pays the Metaplex fee for a new NFT; no instruction creates or destroys lamports or takes them from an account other than the payer (collect_fees: the program's own treasury). The list of accounts created is complete: every program account, token account, mint and metadata account that exists after the instruction existed before it or is one the payer was charged for.",
  "all instructions, all states", "all accounts of all states",
  L+"instructions", M+"instructions", L+"utils/fee_calculation.rs")
p("instructions never mint, burn or lose tokens",
  "For every mint except the NFT the instruction itself creates, a successful instruction leaves the mint's record unchanged and, if the token has no transfer fee, the sum of all balances too.",
  "all instructions, all mints", "sum over all token accounts",
  L+"utils/transfer_helper.rs", M+"utils/transfer_helper.rs")
p("program accounts are permanent and rent exempt",
  "Every stream, treasury, collection, campaign and claim receipt account exists forever once created, always holds the rent minimum of its allocation, and except for a treasury under collect_fees never gives up lamports. The same holds of the token vault of every stream and campaign, which nobody can close or drain of rent, and every associated token account that exists holds its rent minimum.",
  "all histories", "invariant over all instructions and outside operations",
  L+"state", M+"state", L+"instructions/collect_fees.rs", M+"instructions/collect_fees.rs")
p("the two programs are isolated",
  "An instruction of one program never changes an account of the other, and only an instruction of a program changes its accounts.",
  "all instructions and outside operations", "frame over all accounts",
  L+"lib.rs", M+"lib.rs")
p("instruction data decodes to exactly the call that was encoded",
  "Every instruction of both programs, encoded as the IDL says (8-byte discriminator of its name, then its arguments in declaration order, little endian), is dispatched to that instruction with exactly those argument values; accepted data is the encoding of exactly one call followed by ignored bytes; and the arguments read early by the account constraints (the #[instruction(..)] prefixes that feed the PDA seeds) are the same values the handler gets.",
  "all instructions, all argument values, all byte strings", "all byte strings",
  L+"lib.rs", M+"lib.rs")
p("event data is unambiguous and complete",
  "The emitted bytes of an event determine which event it is and every one of its fields, so an indexer that decodes the log recovers exactly the emitted values; two different events never have the same data.",
  "all events, all field values", "all field values",
  L+"utils/events.rs", M+"utils/events.rs")
p("the TypeScript replica of the schedule predicts the view",
  "The client-side function getStreamedAmount, applied to the stored terms of any stream and any later clock value, never throws and returns exactly what streamed_amount_of returns at that time, unless the stream has been canceled, in which case it is an upper bound.",
  "all reachable states and futures, all streams", "two implementations compared on all inputs",
  "tests/lockup/utils/calculations.ts:getStreamedAmount", L+"utils/lockup_math.rs:get_streamed_amount", L+"instructions/view/streamed_amount_of.rs")
p("the events are a complete audit trail",
  "An indexer that has a stream account as it was at any time (for example at its creation) and applies the withdraw, cancel and renounce events emitted since obtains exactly the account as it is now; every campaign account and every claim receipt can be rebuilt from the events alone. For streams the snapshot is needed: the creation event tells neither amounts, times nor the cancelable flag, so two histories with the same events can have different streams.",
  "all reachable histories, all streams and campaigns", "refinement over all histories",
  L+"utils/events.rs", M+"utils/events.rs", L+"state/lockup.rs", M+"state/campaign.rs")
p("instructions see and change only the accounts they list",
  "What an instruction does (its error, or the new contents of its accounts and its events) is determined by the clock and the accounts it is given, whatever the rest of the chain looks like; and it changes only the accounts listed as written (in particular, withdraw and claim never change the treasury while the fee is zero). The stream views depend only on the clock, the stream account and its NFT mint.",
  "all instructions of both programs, all pairs of states that agree on the listed accounts", "quantifies over pairs of arbitrary states",
  L+"instructions", M+"instructions")
p("independent instructions do not interfere and commute",
  "If an instruction writes no account that another one lists, it cannot change whether the other succeeds nor with which error it fails; if this holds both ways, the two can be executed in either order with the same resulting accounts and the same events (in the other order). So unrelated streams and campaigns cannot be front-run or blocked by each other.",
  "all pairs of instructions, all states", "all interleavings of arbitrary instructions",
  L+"instructions", M+"instructions")
p("a burned stream NFT locks the recipient's part for ever",
  "Once the NFT of a stream has been burned (its supply is 0), no withdraw and no withdraw_max on that stream ever succeeds again, whoever calls it with whatever accounts; the recorded withdrawn amount stays what it was and the amount the views report as withdrawable never shrinks. The sender's right to cancel is not affected: as long as something is refundable, a cancel with the right accounts succeeds (plain token whose transfers work) and pays the sender exactly that.",
  "all reachable states with a burned NFT, all later states, all calls", "all histories after the burn",
  L+"instructions/withdraw.rs", L+"instructions/withdraw_max.rs")
p("an occupied vault address blocks exactly one creation",
  "Anybody who pays the rent can open the token account that a future stream would use as its vault. From then on the stream with that sender, salt and token can never be created, in either variant; the same holds for a campaign whose vault account is already open. A creation that is ready to go with another sender, salt or token stays ready.",
  "all senders, salts, tokens, all later states, all terms", "all histories after the account was opened",
  L+"instructions/create_with_timestamps.rs", M+"instructions/create_campaign.rs")
p("error codes are truthful and unambiguous",
  "Whatever accounts and arguments an instruction is called with, if it fails with one of the programs' own error codes, then what the code says is true of the state and the arguments (the stream is depleted, the amount exceeds the withdrawable one, the campaign has expired, the proof is not one for this allocation in any tree with the published root, ...), and only the instructions documented to report a code report it. Within a program the numeric codes 6000, 6001, ... determine the error.",
  "all reachable states, all instructions, accounts and arguments", "all states and arguments",
  L+"utils/errors.rs", L+"utils/validations.rs", M+"utils/errors.rs", M+"utils/validations.rs")
p("the NFT metadata is authentic and cannot be tampered with",
  "While it exists, the metadata of a stream NFT is exactly the published one (name made from the base58 text of the NFT's own address, symbol, image, no royalty, no creators, verified member of the Sablier collection, updatable by no one outside the program); the only step that changes it is the holder burning the NFT, and then it never comes back. The collection's metadata is fixed but for its size. Whatever metadata outsiders create, edit or verify, a token shown as verified member of the Sablier collection is the NFT of a stream created by the program.",
  "all reachable states and histories, including arbitrary Metaplex calls by anybody on any token", "all histories with adversarial Metaplex calls",
  L+"utils/nft.rs", L+"utils/constants.rs")
p("tokens beyond what a stream owes are locked for ever",
  "If the vault of a stream holds k tokens more than deposit - withdrawals - refunds (because somebody donated them, or because a withdrawal was directed to the stream account itself), it holds at least k more than it owes in every later state, whatever instructions of whatever program are executed by whomever. A withdrawal whose recipient is the stream account itself is recorded and announced like any other but moves no token, so the withdrawn amount is lost.",
  "all reachable states, all later histories, all streams whose token has no permanent delegate, all withdrawals directed to the stream account",
  "an adversary has unboundedly many instruction sequences; a test shows only that one attempt to recover the tokens fails",
  L+"instructions/withdraw.rs: Withdraw, handler", L+"instructions/cancel.rs: handler", L+"utils/transfer_helper.rs: transfer_tokens")

p("the surplus of a never-expiring campaign is locked after the grace period",
  "Seven days after the first claim of a campaign without expiration time, whatever its vault holds beyond the allocations not claimed yet can never be moved again: in every later state the vault keeps at least balance + claimed so far - sum of all allocations, unless some claim of the history exhibits a Keccak collision.",
  "all histories from genesis, all campaigns with expiration 0 whose first claim is more than seven days old, all Merkle trees with the campaign's root, all later histories",
  "'never again' ranges over all later histories and all claims, including forged proofs",
  M+"instructions/clawback.rs: handler", M+"utils/validations.rs: check_clawback, has_grace_period_passed, has_expired", M+"instructions/claim.rs: handler")

p("the lockup program implements a small vesting machine",
  "A stream, for its users, is a small thing: terms (sender, token, start, cliff, end, unlocks, deposit) and three variables: withdrawn, refunded, cancelable. Time and these determine everything: stream_exists, streamed_amount_of, withdrawable_amount_of, refundable_amount_of and status_of are functions of them, the two other stored flags carry no information. Three actions change them: withdraw a positive amount within what is vested, cancel and renounce while cancelable and not everything is vested. Whatever instruction of whichever program succeeds, every stream is afterwards exactly what this machine says: the named stream makes the named move, a create adds a stream with the requested terms where none was, and every other stream is unchanged; so every history of a stream is a run of the machine. Conversely every move of the machine can be made with the right accounts and an ordinary token.",
  "all reachable states, all instructions of all modelled programs, all streams, all histories and move sequences",
  "Tests compare single calls with expected numbers; a refinement says that no sequence of calls by anybody can show behaviour outside the machine, and that the machine has no move the program refuses.",
  L+"instructions/withdraw.rs: handler", L+"instructions/cancel.rs: handler", L+"instructions/renounce.rs: handler", L+"instructions/create_with_timestamps.rs: handler", L+"instructions/create_with_durations.rs: handler", L+"state/lockup.rs: StreamData", L+"utils/lockup_math.rs: get_streamed_amount, get_withdrawable_amount, get_refundable_amount")

p("the merkle_instant program implements a small airdrop machine",
  "A campaign, for its users, is its terms (creator, token, root, start, expiration, name, CID), the set of claimed indices and the time of the first claim. The views campaign_view, has_claimed, has_campaign_started and has_expired are functions of these, and the set and the time are those of the history. Two actions exist: a claim of an index not claimed yet, inside the claim window, with a proof that leads to the root, adds the index and sets the first-claim time if unset; a clawback by the creator, before any claim or at most seven days after the first one or after expiration, leaves everything as it is. Whatever instruction of whichever program succeeds, every campaign is afterwards exactly what this machine says, so every history of a campaign is a run of the machine; and every move of the machine can be made with the right accounts, rent, and an ordinary token of which the vault holds enough.",
  "all histories with a positive clock, all instructions of all modelled programs, all campaigns, all move sequences",
  "a refinement excludes every behaviour outside the machine in every history; tests compare single calls",
  M+"instructions/claim.rs: handler", M+"instructions/clawback.rs: handler", M+"instructions/create_campaign.rs: handler", M+"state/campaign.rs: Campaign", M+"utils/validations.rs: check_claim, check_clawback")

p("nobody can stop the payouts of a classic, unfreezable token",
  "A stream in a token of the classic SPL token program whose mint has no freeze authority pays out no matter what anybody does. After any later history, if the stream NFT sits in the associated account of some holder, any signer who can pay for a missing token account can make the stream pay any positive amount up to withdrawable_amount_of to the holder's associated account, the holder can direct it to anyone's, and the account grows by exactly that amount; the sender can cancel as long as something is refundable and receives exactly the refundable amount; and a claim of a campaign in such a token with a fitting proof, in the window, not yet made and covered by the vault, can be carried out by anyone who can pay for the accounts. The only conditions on the world are the receiving account (absent, or owned by the receiver and not frozen) and lamports.",
  "all histories before and after the creation, all instructions of all modelled programs, all holders, signers, destinations and amounts",
  "the adversary's instruction sequences between creation and withdrawal are unbounded",
  L+"instructions/withdraw.rs: Withdraw, handler", L+"instructions/cancel.rs: Cancel, handler", M+"instructions/claim.rs: Claim, handler", L+"utils/transfer_helper.rs: transfer_tokens")

p("nobody's tokens move without their signature",
  "A successful instruction of either Sablier program never closes, reassigns or reduces a token account owned by a wallet, with one exception: a create instruction signed by the wallet takes exactly the deposit from that wallet's associated account of the deposited token. And whatever happens on the chain, over any history in which a wallet signs nothing, every token account of it (of a token without a permanent delegate) still exists, is still its own and holds at least as much as before, less at most what the wallet had approved a delegate to take before that history.",
  "all reachable states, all successful instructions, all histories without the wallet's signature, all token accounts",
  "unbounded histories and every combination of account lists",
  L+"instructions/create_with_timestamps.rs: CreateWithTimestamps", L+"instructions/withdraw.rs: Withdraw", L+"instructions/cancel.rs: Cancel", M+"instructions/claim.rs: Claim", M+"instructions/clawback.rs: Clawback")

p("before and at initialisation",
  "Until the lockup program is initialised there is no stream, and each of its instructions other than initialize fails whatever the accounts; until the airdrop program is initialised every claim and collect_fees fails and nothing is claimed, while campaigns can already be created. Nobody can prevent initialisation: in every reachable uninitialised state (whatever has been sent to the future accounts) any signer with the rent can initialise each program with any configuration. A campaign created before the initialisation is fully functional right after it: any claim with a fitting proof, in the window, covered by the vault succeeds.",
  "all reachable states in which the program is not initialised, all instructions, all signers and configurations, all campaigns",
  "the histories before initialisation are unbounded and adversarial",
  L+"instructions/initialize.rs: Initialize, handler", L+"utils/nft.rs: initialize_collection", M+"instructions/initialize.rs: Initialize, handler", M+"instructions/claim.rs: Claim", "SECURITY.md: Assumptions")

p("the fee is orthogonal, for any fee constant",
  "For every value of the compile-time USD fee constants: withdraw, withdraw_max and claim succeed exactly when the free (shipped) program would, the oracle answer converts to some x lamports and the signer has x left after rent; they then do exactly what the free program does, plus a payment of x lamports from the signer to the treasury, reported in the event and equal to what the fee view reports. With a fresh, positive, u64 price x is the dollar fee at that price rounded down; when the oracle fails, is stale, in the future or not positive the fee is 0 and nobody is stopped. A fresh price that is a multiple of 2^64 would stop every withdrawal and claim of a program with a positive fee.",
  "all fee constants, states, accounts, amounts, oracle answers",
  "the constant is 0 in this build, so no test of the build exercises the fee path; prices and states are unbounded",
  L+"instructions/withdraw.rs: handler, charge_withdrawal_fee", L+"utils/fee_calculation.rs: convert_usd_fee_to_lamports", L+"instructions/view/withdrawal_fee_in_lamports.rs: handler", M+"instructions/claim.rs: handler, charge_claim_fee", M+"utils/fee_calculation.rs: convert_usd_fee_to_lamports", M+"instructions/view/claim_fee_in_lamports.rs: handler")

p("the books of a stream balance",
  "At every moment the views and the payouts account for the whole deposit. withdrawn + withdrawable = streamed; for a cancelable stream withdrawn + withdrawable + refundable = deposited and nothing has been refunded; for a canceled one withdrawn + withdrawable + refunded = deposited and nothing more is refundable; for any other nothing was or will be the sender's; a stream is depleted exactly when withdrawn + refunded = deposited, and then nothing is withdrawable or refundable. The sums of the withdraw and cancel events give the same numbers. Before the start every withdrawal fails, and a cancel returns the whole deposit (less the token's own transfer fee) to the sender and leaves the stream depleted.",
  "all reachable states, all streams, all instructions",
  "a balance that holds in the states a test visits can fail after an untested interleaving of withdrawals, cancels, renounces and clock readings",
  L+"utils/lockup_math.rs: get_streamed_amount, get_withdrawable_amount, get_refundable_amount", L+"state/lockup.rs: StreamData.cancel, withdraw", L+"instructions/cancel.rs: handler", L+"instructions/withdraw.rs: handler")

p("the schedule is translation invariant, monotone in the money, and splits fairly",
  "For live streams: (a) if the dates of two streams and the clocks at which they are read are d seconds apart and the amounts are the same, both have streamed the same; (b) with the same dates and a deposit and unlocks that are not smaller, a stream has never streamed less; (c) cutting a stream into two with the same dates, whose deposits and unlocks add up, costs the recipient at most one base unit at any moment and never gains any; (d) between two moments of the linear phase the streamed amount grows by its share of the elapsed time up to less than 1 + range/10^18 units, whatever happened in between.",
  "all reachable states, all pairs and triples of streams, all offsets, all pairs of moments",
  "relations between runs over unbounded amounts and dates; tests compare single values",
  L+"utils/lockup_math.rs: get_streamed_amount", L+"instructions/view/streamed_amount_of.rs: handler")

p("the right to withdraw is the NFT",
  "Whoever holds a stream's NFT (one token of its mint in his own associated account) is the only wallet a withdraw or withdraw_max of that stream can be for, and a withdrawal he did not sign pays him. Unless he has approved a delegate for that account, he keeps the right through any history in which he signs nothing, including everything the sender, the treasury or strangers do. A transfer of the NFT (by the owner or an approved delegate) to another wallet's associated account hands the right over at once: withdrawals for anybody else fail. While the NFT sits in any other account (not its owner's associated one) nobody can withdraw.",
  "all reachable states, all streams, all holders, all histories, all withdraw instructions",
  "exclusivity and preservation quantify over all possible signers, account lists and intervening histories",
  L+"instructions/withdraw.rs: Withdraw (recipient_stream_nft_ata, withdrawal_recipient)", L+"utils/validations.rs: check_withdraw", L+"utils/nft.rs: create_stream")

p("races: within a block the order does not matter",
  "At a fixed clock reading, when the receiving accounts exist and are not the vault itself: a withdrawal and a cancel, a withdrawal and a renounce, or two withdrawals of the same stream that succeed in one order succeed in the other order too, with the same balances, lamports and stream data (only the event log differs); any number of claims from one campaign can be permuted freely. So neither party gains or loses by being overtaken. Only cancel and renounce exclude each other: the one that comes first makes the other fail for ever.",
  "all reachable states, all pairs of withdraw/cancel/renounce instructions on one stream, all lists and permutations of claims",
  "quantifies over all states and all schedules; a test fixes one order of events",
  L+"instructions/withdraw.rs: handler", L+"instructions/withdraw_max.rs: handler", L+"instructions/cancel.rs: handler", L+"instructions/renounce.rs: handler", L+"state/lockup.rs: StreamData.withdraw, cancel, renounce", M+"instructions/claim.rs: handler", M+"state/campaign.rs: Campaign.claim")

p("a salt can be squatted, but nobody can be shut out",
  "The sender of a stream does not sign its creation, so a stranger who can fund one base unit can open a stream in anybody's name at a salt nobody has used yet, with a recipient of his choice, and from then on no creation with that sender and salt succeeds, in any token or variant, ever. But no history of fewer than 2^128/3 instructions, whoever sent them, exhausts the salts: every sender has a salt at which neither the stream nor its vault exists, and a funded creator succeeds with it for any valid terms (in a token whose accounts do not start frozen).",
  "all histories from an empty chain with fewer than 2^128/3 instructions, all senders, tokens, salts, creators and terms",
  "impossibility for ever after, and existence of a free salt after any adversarial history, are not observable in finitely many runs",
  L+"instructions/create_with_timestamps.rs: CreateWithTimestamps (sender, stream_nft_mint seeds, stream_data_ata init), handler")

p("delegates: vaults cannot have one, NFT accounts can",
  "No token account at the associated address of a stream, a campaign, a treasury or any other address without a private key ever has an approved delegate, so no approval can drain a vault. No Sablier instruction changes an approval; a delegate or a larger allowance comes about only by the account owner's own approve. The hazard: a delegate approved on the account that holds a stream's NFT can move the NFT to anybody's associated account, who then is the only one the stream can be withdrawn for. Freezing the NFT account through Metaplex, the other thing such a delegate can do, changes no vault, no stream, no campaign and no holder.",
  "all reachable states, all accounts, all instructions, all delegates and allowances",
  "absence of a delegate on every vault in every history, whoever acts, is an invariant over unbounded runs",
  L+"utils/transfer_helper.rs: transfer_tokens", L+"instructions/withdraw.rs: Withdraw (stream_data_ata, recipient_stream_nft_ata)", L+"instructions/cancel.rs: Cancel (stream_data_ata)", M+"instructions/claim.rs: Claim (campaign_ata)", M+"instructions/clawback.rs: Clawback (campaign_ata)")

p("messages: the interface as sent is the interface as run",
  "Programs receive a list of addresses, privileges (signatures, write locks) and bytes. A message is taken for an instruction if and only if its account list begins with the accounts of that instruction in the published order, its data begins with the published encoding, and the transaction grants every signature and every write privilege the interface asks for; then it does exactly what the instruction does. Withholding any one of them makes the message fail in every state. A message that succeeds is either a question (no change) or exactly one such instruction, signed by its signer; it changes no account that is not both listed and declared writable, costs nobody who has not signed a token or a lamport, and a history of messages is a history of instructions, so that a wallet that signs nothing keeps its tokens (except what it had approved before). Names and CIDs of campaigns are always valid UTF-8.",
  "all messages (any account list, any bytes, any privileges), all reachable states, all histories",
  "the space of account lists and byte strings is infinite, and rejection of everything else is a universal statement",
  L+"lib.rs: every entry point", M+"lib.rs: every entry point", L+"instructions/*.rs: #[derive(Accounts)] structs (order, mut, Signer, Program)", M+"instructions/*.rs: #[derive(Accounts)] structs (order, mut, Signer, Program)")

p("questions change nothing and their answers can be read",
  "The view methods need no signature and no write privilege. Whoever asks, in any state that can arise, a view message leaves the state unchanged and returns exactly the answer in the published layout: amounts and fees as eight little-endian bytes without loss, the status as its position in the enum, yes/no as one byte, configuration and campaign field by field; and the answer can be recovered from the bytes. It fails exactly if the typed view fails or an address is not the derived one.",
  "all reachable states, all view messages, all privileges",
  "losslessness in every reachable state needs the invariants that bound all stored and computed numbers",
  L+"lib.rs: refundable_amount_of, status_of, stream_exists, streamed_amount_of, treasury_view, withdrawable_amount_of, withdrawal_fee_in_lamports", M+"lib.rs: campaign_view, claim_fee_in_lamports, has_claimed, has_expired, has_grace_period_passed, has_campaign_started, treasury_view", L+"instructions/view/*.rs", M+"instructions/view/*.rs")

p("the runtime's rent rule can stop an instruction only at the payer or the fee recipient",
  "After every transaction the Solana runtime rejects it if some account ends with lamports below the rent minimum of its size, unless that account was so before, kept its size and gained nothing. After a successful instruction other than collect_fees the payer's is the only account this rule can object to; it cannot if the payer had the rent of everything the instruction may open plus its own minimum, nor, whatever the payer has, if nothing is opened. After collect_fees only the fee recipient's account can be objected to: collecting goes through if the recipient with the collected amount has its minimum, and is rejected if it was empty and receives less.",
  "all states, all instructions, all account sizes and balances, all rent tables",
  "a universal statement over all accounts of the ledger, balances and rent parameters",
  L+"instructions/*.rs: init, init_if_needed", M+"instructions/*.rs: init, init_if_needed", L+"instructions/collect_fees.rs: handler", M+"instructions/collect_fees.rs: handler", L+"instructions/collect_fees.rs: safe_collectible_amount")

p("no account of an instruction can be substituted",
  "Every account of a successful instruction follows from a few choices of the caller (who acts, which stream or campaign, who receives, which token, the arguments) together with the public configuration, the stream or campaign record and the token's mint; for cancel and renounce the stream alone decides, for withdrawals even the named recipient is not a choice. So a client that works the accounts out gets exactly what the program accepts, and exchanging any single account (vault, treasury, receipt, oracle feed, token program, collection, sender...) while keeping the choices makes the instruction fail.",
  "all reachable states, all instructions of both programs, all account lists",
  "rejection of every other account list is a universal statement over all addresses and states",
  L+"instructions/*.rs: #[account] constraints (seeds, has_one, address, associated_token)", M+"instructions/*.rs: #[account] constraints (seeds, has_one, address, associated_token)")

p("transactions of messages",
  "A transaction is one set of signatures and write privileges and a list of messages run under them, possibly with other things in between. It takes effect as a whole or, if any message fails, not at all. However many transactions are sent, in whatever order, failing or not, the ledger stays in a state all theorems about histories speak of. Whoever signs none of them keeps their token accounts; a transaction of Sablier messages takes nothing (tokens or lamports) from anybody who has not signed it and changes no account it does not declare writable. A client may bundle any instructions into one transaction with the union of their privileges: it does exactly what the instructions do one after the other, or nothing.",
  "all transactions (any privileges, any messages, any length), all sequences of transactions, all reachable states",
  "atomicity and non-interference for unbounded transactions and sequences are universal statements",
  L+"lib.rs: every entry point", M+"lib.rs: every entry point", L+"instructions/*.rs", M+"instructions/*.rs")

p("transactions as bytes: what is signed is what runs, and everything fits",
  "A client lists instructions, the accounts of each with the privileges wanted, and a fee payer; what is signed and sent is a byte string of at most 1232 bytes. A transaction that fits and is signed by those it asks to sign is accepted and understood exactly as meant: the fee payer and the privileges asked for by some instruction and no others, the same calls in the same order; so any bundle of instructions of the two programs, with compute budget instructions in front, does as bytes what the instructions do one after the other, or nothing. Conversely everybody counted as a signer of accepted bytes has signed a message with that one meaning. Every instruction other than a claim that can succeed fits, even with a compute budget instruction and a separate fee payer. The proofs of the project's tree builder have at most log2 of the number of recipients hashes; a claim fits with up to twenty, exactly when its addresses are different, so everybody can claim in airdrops of up to 1048576 recipients.",
  "all lists of instructions, accounts and privileges, all byte strings, all signature schemes, all allocation lists",
  "faithfulness for all instruction lists and byte strings, and a size bound over all instructions, arguments and allocation lists, are universal statements",
  "scripts/ts/init-lockup-and-create-streams.ts: createStream", "tests/merkle-instant/utils/merkle.ts: getProof", L+"instructions/*.rs: #[derive(Accounts)]", M+"instructions/*.rs: #[derive(Accounts)]", M+"instructions/claim.rs: handler")

p("streams can be created in bulk",
  "Whoever has the deposits and the rent can open any list of streams in one token (whose accounts do not start frozen), one after the other: in every reachable state of the initialised program, for any senders, recipients and valid terms and any different unused salts, all the creations succeed. Afterwards every stream stores exactly what was asked for, every vault holds its deposit (less the token's own fee), every recipient holds the NFT, the creator has paid the sum of the deposits and at most the rent of as many streams, the collection counts them, and no other stream, token account, mint, configuration or campaign has changed.",
  "all reachable states, all lists of orders of any length, all valid terms, all creators, tokens and recipients",
  "a list of arbitrary length in an arbitrary state; earlier creations must never spoil later ones",
  L+"instructions/create_with_timestamps.rs: handler", L+"utils/nft.rs: create_stream", "scripts/ts/init-lockup-and-create-streams.ts: createStream")

p("the post-deployment scripts run to the end on every chain",
  "In every reachable state in which the lockup program is not initialised, a signer with the rent and a new key for the token can run scripts/ts/init-lockup-and-create-streams.ts to its end, at whatever (growing) times its transactions are processed: the program is configured as the script says, the three streams have exactly the terms of the script and start when their transaction ran, the vaults are full, the signer holds the NFTs and the rest of the million tokens, the collection counts three. Likewise scripts/ts/init-merkle-instant-and-create-campaign.ts, in any existing classic token, with any root and expiration time, unless somebody has already created that very campaign or its vault: the campaign stores exactly the data of the script.",
  "all reachable uninitialised states, all signers, keys, configurations and times",
  "the scripts meet an arbitrary ledger at arbitrary times; tests run them on one fresh validator",
  "scripts/ts/init-lockup-and-create-streams.ts: createStream, createTokenAndMintToSender", "scripts/ts/common/init-lockup-base.ts: initSablierLockup", "scripts/ts/init-merkle-instant-and-create-campaign.ts: createCampaign", "scripts/ts/common/init-merkle-instant-base.ts: initSablierMerkleInstant", "lib/convertors.ts: sol")

p("memo requirements and CPI guards hurt only those who set them",
  "The owner of a Token-2022 account can make memos compulsory for incoming transfers and forbid programs to move its tokens. Only the owner, by signing, changes these settings of an account (or closes it, and they are gone); the two programs never do; vaults of streams and campaigns, accounts of the classic token program and accounts that do not exist yet never have them. A withdraw, withdraw_max, cancel, claim or clawback into an account that requires memos fails, and so does a creation from a guarded account; the owner can switch the settings off again at any time without any other effect. Meanwhile a stream (in a token whose accounts do not start frozen) can still be paid into an account that does not exist yet: no setting of anybody can prevent that.",
  "all reachable states, all steps of all programs, all accounts and settings",
  "who can ever have or change a setting is an invariant over all histories",
  L+"utils/transfer_helper.rs: transfer_tokens", M+"utils/transfer_helper.rs: transfer_tokens", L+"instructions/withdraw.rs: handler", L+"instructions/cancel.rs: handler", L+"instructions/create_with_timestamps.rs: handler", M+"instructions/claim.rs: handler", M+"instructions/clawback.rs: handler")

p("amounts written by clients come to the right number of base units",
  "dai, sol and usdc turn an amount of tokens into base units (9, 9 and 6 decimals). A number is accepted exactly if it is an integer below 2^53 in magnitude, and comes to that many tokens exactly. A text is accepted exactly if it is a decimal number: an optional minus sign, digits, at most one point. If its places beyond the token's decimals are zeros (or there are none), the result is exactly the number meant; otherwise it is rounded and off by three fifths of a base unit at most, with carries through any number of digits.",
  "all numbers and all texts, of any length",
  "a universal statement over all texts",
  "lib/convertors.ts: convertTokenAmount, dai, sol, usdc", "lib/constants.ts: Decimals")

p("an airdrop can be delivered by anybody, completely and in any order",
  "Whoever has the rent can claim on behalf of any list of recipients of a campaign, one after the other: in every reachable state with an open claim window, for any grants with different indices that are listed under the campaign's root and not claimed yet, if the vault holds their sum in a token without transfer fee and the recipients' associated accounts (where they exist) can receive (where they do not, the token's accounts do not start frozen), all the claims succeed. Afterwards every index is claimed, the vault has paid exactly the sum, everybody has received exactly what was granted to them (several grants add up) in their own associated account, the signer has paid at most the rent, and no other claim, campaign, token account, mint, stream or configuration has changed. In particular a whole airdrop with the root and the proofs of the project's tree builder can be delivered, in any order of the recipients.",
  "all reachable states, all lists of grants of any length and order, all allocation lists, all signers, tokens and recipients",
  "a list of arbitrary length in an arbitrary state; earlier claims must never spoil later ones",
  M+"instructions/claim.rs: handler", M+"utils/validations.rs: check_claim", "tests/merkle-instant/utils/merkle.ts: getRoot, getProof")

p("frozen token accounts",
  "The two programs never freeze or thaw a token account and never touch a frozen one. Only the freeze authority of the mint, by signing, freezes or thaws an account (for an NFT that is its master edition, acting for a delegate the owner approved), and that authority changes only with its own signature. So over any history in which it signs nothing every vault stays as frozen or thawed as it was, and a frozen one to the last base unit. No payment of an instruction leaves or enters a frozen account, nor enters a new account of a token whose accounts start frozen. Hence no stream can ever be created in such a token, while a campaign can: its vault is born frozen, stays empty, and every claim and clawback fails until the freeze authority signs.",
  "all states, all steps of all programs, all token accounts and mints, all histories without a signature of the freeze authority",
  "who can ever freeze or thaw what is an invariant over all histories",
  L+"utils/transfer_helper.rs: transfer_tokens", M+"utils/transfer_helper.rs: transfer_tokens", L+"instructions/create_with_timestamps.rs: handler", L+"instructions/withdraw.rs: handler", L+"instructions/cancel.rs: handler", M+"instructions/create_campaign.rs: airdrop_token_ata", M+"instructions/claim.rs: handler", M+"instructions/clawback.rs: handler")

p("many streams can be emptied or canceled at once",
  "Whoever has the rent can call withdraw_max on any list of different streams, one after the other, for the wallets that hold their NFTs: in every reachable state, if something is withdrawable from each, the tokens (which may differ) are plain and transferable, and the holders' associated accounts (where they exist) can receive, all the withdrawals succeed, in any order. Afterwards nothing is withdrawable from any of them, every vault has paid exactly what was due, everybody has received exactly the sum due to them in each token in their own associated account, the signer has paid at most the rent, and no other stream, token account, mint, campaign or configuration has changed. Likewise a sender can cancel any list of streams from which something is refundable: they receive exactly the sum of the refunds in each token, and what the recipients can withdraw stays the same.",
  "all reachable states, all lists of streams of any length and order, all tokens, holders, signers and senders",
  "a list of arbitrary length in an arbitrary state; earlier payouts must never spoil later ones",
  L+"instructions/withdraw_max.rs: handler", L+"instructions/withdraw.rs: handler", L+"instructions/cancel.rs: handler")

p("all obligations together are backed",
  "In every reachable state, for any different streams in the same plain token and any other token accounts whatsoever (wallets, vaults of campaigns, ...): what the streams together still owe (deposits minus withdrawals minus refunds), plus what all those other accounts hold in that token, is at most the supply of the token. No token backs two streams, and none that backs a stream is spendable by somebody else. In particular a token with a stream that is not depleted has a positive supply.",
  "all reachable states, all finite sets of streams and token accounts",
  "a sum over arbitrarily many streams in every history",
  L+"instructions/create_with_timestamps.rs: stream_data_ata, handler", L+"instructions/withdraw.rs: handler", L+"instructions/cancel.rs: handler")

p("the TypeScript bindings say what the programs say",
  "The files that the binding generators write can be trusted as descriptions of a program's interface. For every list of errors with proper names, a reader of the error file finds exactly those errors, each with its number, in order. For every list of types with proper names, either a field has a type the generator does not know and it stops without writing, or a reader of the type file finds exactly one declaration per type with content, with its fields in order, under their JavaScript names (no two fields fall together) and with the TypeScript types that fit (BN from 64 bits on, number below, PublicKey for keys, arrays for arrays); and every type mentioned is built in, imported or declared in the file. The command succeeds exactly if its argument names a program, or all of them, and the generator succeeds on each; then it has written one file for each, and it never writes any other. For the two programs it succeeds, and the error files list exactly the errors the programs can return, with the numbers they return.",
  "all lists of errors and types of any length and nesting, all names, all command arguments",
  "generated text must read back as the same interface for every interface; a test compares one",
  "scripts/ts/codegen-errors.ts: generateErrorCode, validateErrors", "scripts/ts/codegen-structs.ts: generateImports, generateStructType, mapSolanaTypeToTypeScript, genStructs", "scripts/ts/common/codegen-utils.ts: createMainFunction, extractIdlField, readIdlFile", L+"utils/errors.rs: ErrorCode", M+"utils/errors.rs: ErrorCode")

p("with any fee, everything proved of every history still holds, and the fees arrive",
  "Compile the programs with any USD fee constants. Every history of that deployment, whatever anybody does and whatever the oracle answers, is a history of the shipped (free) programs in which each fee is an ordinary payment to the treasury made right after the instruction, except that the free programs' events report no fee. So every state it can reach has, account by account, with the same clock and the same events up to the reported fees, a counterpart the shipped programs can reach, and every guarantee proved of all reachable states carries over. In particular the vaults of streams in plain tokens hold what is owed, no index of a campaign is claimed twice, what is withdrawable can be withdrawn if the oracle gives no usable price or the signer has the fee, and each treasury gains at least the fees that the events report, less what was collected.",
  "all fee constants, all histories of both programs and of everybody else, all oracle answers",
  "the constants are 0 in this build; a history with fees is not even expressible in a test of it, and the histories are unbounded",
  L+"instructions/withdraw.rs: handler, charge_withdrawal_fee", L+"instructions/withdraw_max.rs: handler", L+"utils/constants.rs: WITHDRAWAL_FEE_USD", M+"instructions/claim.rs: handler, charge_claim_fee", M+"utils/constants.rs: CLAIM_FEE_USD", L+"instructions/collect_fees.rs: handler", M+"instructions/collect_fees.rs: handler")

if __name__ == "__main__":
    out = os.path.join(os.path.dirname(os.path.abspath(__file__)), "..", "properties.jsonl")
    with open(out, "w") as f:
        for x in P: f.write(json.dumps(x, ensure_ascii=False) + "\n")
    print(len(P), "properties")
