{
 "claims": [
  {
   "property": "C01",
   "status": "proved",
   "theorems": [
    "Solsab.Props.C01_streamed_between"
   ],
   "note": "streamed amount never exceeds the deposit"
  },
  {
   "property": "C02",
   "status": "proved",
   "theorems": [
    "Solsab.Props.C02_streamed_mono"
   ],
   "note": "streamed amount is monotone in time"
  },
  {
   "property": "C03",
   "status": "proved",
   "theorems": [
    "Solsab.Props.C03_schedule"
   ],
   "note": "streamed amount follows the published schedule"
  },
  {
   "property": "C04",
   "status": "proved",
   "theorems": [
    "Solsab.Props.C04_linear_accuracy"
   ],
   "note": "linear part is accurate to the base unit bound"
  },
  {
   "property": "C05",
   "status": "proved",
   "theorems": [
    "Solsab.Props.C05_panics_only",
    "Solsab.Props.C05_durations_overflow",
    "Solsab.Props.C05_views_total",
    "Solsab.Props.C05_no_panic"
   ],
   "note": "no arithmetic panic on a live stream"
  },
  {
   "property": "C06",
   "status": "proved",
   "theorems": [
    "Solsab.Props.C06_withdraw_success",
    "Solsab.Props.C06_withdraw_errors"
   ],
   "note": "withdraw amount rule"
  },
  {
   "property": "C07",
   "status": "proved",
   "theorems": [
    "Solsab.Props.C07_pays_holder"
   ],
   "note": "withdraw pays only the NFT holder or where the NFT holder directs"
  },
  {
   "property": "C08",
   "status": "proved",
   "theorems": [
    "Solsab.Props.C08_withdraw_effect"
   ],
   "note": "withdraw moves exactly the requested amount and records it"
  },
  {
   "property": "C09",
   "status": "proved",
   "theorems": [
    "Solsab.Props.C09_max_is_withdraw",
    "Solsab.Props.C09_nothing_left",
    "Solsab.Props.C09_zero"
   ],
   "note": "withdraw_max takes everything that is withdrawable"
  },
  {
   "property": "C10",
   "status": "proved",
   "theorems": [
    "Solsab.Props.C10_path_independent"
   ],
   "note": "withdrawals are path independent"
  },
  {
   "property": "C11",
   "status": "proved",
   "theorems": [
    "Solsab.Props.C11_never_ahead"
   ],
   "note": "recipient is never ahead of schedule"
  },
  {
   "property": "C12",
   "status": "proved",
   "theorems": [
    "Solsab.Props.C12_withdraw_succeeds",
    "Solsab.Props.C12_full_withdrawal"
   ],
   "note": "full withdrawal is possible at the end"
  },
  {
   "property": "C13",
   "status": "proved",
   "theorems": [
    "Solsab.Props.C13_only_sender_cancels",
    "Solsab.Props.C13_only_sender_renounces"
   ],
   "note": "only the sender can cancel or renounce"
  },
  {
   "property": "C14",
   "status": "proved",
   "theorems": [
    "Solsab.Props.C14_cancel_effect",
    "Solsab.Props.C14_cancel_errors",
    "Solsab.Props.C14_cancel_succeeds"
   ],
   "note": "cancel rule and refund amount"
  },
  {
   "property": "C15",
   "status": "proved",
   "theorems": [
    "Solsab.Props.C15_vested_safe"
   ],
   "note": "cancel never takes vested tokens"
  },
  {
   "property": "C16",
   "status": "proved",
   "theorems": [
    "Solsab.Props.C16_renounce_final",
    "Solsab.Props.C16_cancel_once",
    "Solsab.Props.C16_cancel_final"
   ],
   "note": "at most one cancel, and none after renounce"
  },
  {
   "property": "C17",
   "status": "proved",
   "theorems": [
    "Solsab.Props.C17_renounce_rule",
    "Solsab.Props.C17_renounce_effect"
   ],
   "note": "renounce rule"
  },
  {
   "property": "C18",
   "status": "proved",
   "theorems": [
    "Solsab.Props.C18_solvent",
    "Solsab.Props.C18_solvent_history"
   ],
   "note": "vault solvency"
  },
  {
   "property": "C19",
   "status": "proved",
   "theorems": [
    "Solsab.Props.C19_fails",
    "Solsab.Props.C19_fails_withdraw",
    "Solsab.Props.C19_floor",
    "Solsab.Props.C19_delegate"
   ],
   "note": "Unconditional solvency for every accepted mint is false of the code (C19_fails, C19_fails_withdraw, C19_delegate); the property states and C19_floor proves exactly what remains true."
  },
  {
   "property": "C20",
   "status": "proved",
   "theorems": [
    "Solsab.Props.C20_paid_le_deposit",
    "Solsab.Props.C20_no_events_before_creation"
   ],
   "note": "payouts never exceed the deposit"
  },
  {
   "property": "C21",
   "status": "proved",
   "theorems": [
    "Solsab.Props.C21_depleted_final"
   ],
   "note": "depleted is final"
  },
  {
   "property": "C22",
   "status": "proved",
   "theorems": [
    "Solsab.Props.C22_status_exact"
   ],
   "note": "status_of agrees with the amounts"
  },
  {
   "property": "C23",
   "status": "proved",
   "theorems": [
    "Solsab.Props.C23_status_forward"
   ],
   "note": "status only moves forward"
  },
  {
   "property": "C24",
   "status": "proved",
   "theorems": [
    "Solsab.Props.C24_terms_immutable"
   ],
   "note": "stream terms are immutable"
  },
  {
   "property": "C25",
   "status": "proved",
   "theorems": [
    "Solsab.Props.C25_data_isolated",
    "Solsab.Props.C25_vault_isolated"
   ],
   "note": "streams are isolated from each other"
  },
  {
   "property": "C26",
   "status": "proved",
   "theorems": [
    "Solsab.Props.C26_check",
    "Solsab.Props.C26_only_valid",
    "Solsab.Props.C26_create_errors"
   ],
   "note": "create validation is exact"
  },
  {
   "property": "C27",
   "status": "proved",
   "theorems": [
    "Solsab.Props.C27_create_effect"
   ],
   "note": "create stores what was asked and moves the deposit"
  },
  {
   "property": "C28",
   "status": "proved",
   "theorems": [
    "Solsab.Props.C28_durations"
   ],
   "note": "durations variant equals timestamps variant at the current time"
  },
  {
   "property": "C29",
   "status": "proved",
   "theorems": [
    "Solsab.Props.C29_unique",
    "Solsab.Props.C29_exists_forever",
    "Solsab.Props.C29_no_second"
   ],
   "note": "one stream per sender and salt"
  },
  {
   "property": "C30",
   "status": "proved",
   "theorems": [
    "Solsab.Props.C30_unique_holder",
    "Solsab.Props.C30_supply",
    "Solsab.Props.C30_one_recipient"
   ],
   "note": "stream NFT is unique"
  },
  {
   "property": "C31",
   "status": "proved",
   "theorems": [
    "Solsab.Props.C31_counter"
   ],
   "note": "collection counter equals number of streams"
  },
  {
   "property": "C32",
   "status": "proved",
   "theorems": [
    "Solsab.Props.C32_name_fits",
    "Solsab.Props.C32_base58_length",
    "Solsab.Props.C32_base58_text",
    "Solsab.Props.C32_base58_injective"
   ],
   "note": "stream NFT name always fits"
  },
  {
   "property": "C33",
   "status": "proved",
   "theorems": [
    "Solsab.Props.C33_stores",
    "Solsab.Props.C33_once"
   ],
   "note": "initialize works once and fixes the configuration"
  },
  {
   "property": "C34",
   "status": "proved",
   "theorems": [
    "Solsab.Props.C34_right_treasury",
    "Solsab.Props.C34_collect",
    "Solsab.Props.C34_exact"
   ],
   "note": "collect_fees rule"
  },
  {
   "property": "C35",
   "status": "proved",
   "theorems": [
    "Solsab.Props.C35_only_collect",
    "Solsab.Props.C35_accounting"
   ],
   "note": "treasury lamports never leave otherwise"
  },
  {
   "property": "C36",
   "status": "proved",
   "theorems": [
    "Solsab.Props.C36_zero",
    "Solsab.Props.C36_value",
    "Solsab.Props.C36_price_truncation"
   ],
   "note": "fee conversion is correct or zero"
  },
  {
   "property": "C37",
   "status": "proved",
   "theorems": [
    "Solsab.Props.C37_oracle_independent",
    "Solsab.Props.C37_fee_views",
    "Solsab.Props.C37_withdraw_lamports",
    "Solsab.Props.C37_claim_lamports"
   ],
   "note": "oracle cannot influence withdrawals or claims while the fee is zero"
  },
  {
   "property": "C38",
   "status": "proved",
   "theorems": [
    "Solsab.Props.C38_atomic",
    "Solsab.Props.C38_failure_undoes",
    "Solsab.Props.C38_transactions"
   ],
   "note": "failed transactions change nothing"
  },
  {
   "property": "C39",
   "status": "proved",
   "theorems": [
    "Solsab.Props.C39_at_most_one",
    "Solsab.Props.C39_second_claim_fails"
   ],
   "note": "claim at most once per index"
  },
  {
   "property": "C40",
   "status": "proved",
   "theorems": [
    "Solsab.Props.C40_has_claimed"
   ],
   "note": "has_claimed is exact"
  },
  {
   "property": "C41",
   "status": "proved",
   "theorems": [
    "Solsab.Props.C41_window",
    "Solsab.Props.C41_history",
    "Solsab.Props.C41_errors",
    "Solsab.Props.C41_views"
   ],
   "note": "claim window"
  },
  {
   "property": "C42",
   "status": "proved",
   "theorems": [
    "Solsab.Props.C42_tree",
    "Solsab.Props.C42_builder",
    "Solsab.Props.C42_builder_tree"
   ],
   "note": "every listed recipient can prove eligibility"
  },
  {
   "property": "C43",
   "status": "proved",
   "theorems": [
    "Solsab.Props.C43_only_listed",
    "Solsab.Props.C43_unlisted_rejected"
   ],
   "note": "nobody else can claim"
  },
  {
   "property": "C44",
   "status": "proved",
   "theorems": [
    "Solsab.Props.C44_total"
   ],
   "note": "total claimed bounded by the tree"
  },
  {
   "property": "C45",
   "status": "proved",
   "theorems": [
    "Solsab.Props.C45_claim_effect",
    "Solsab.Props.C45_claim_succeeds"
   ],
   "note": "claim pays the listed recipient in full"
  },
  {
   "property": "C46",
   "status": "proved",
   "theorems": [
    "Solsab.Props.C46_clawback_effect",
    "Solsab.Props.C46_errors",
    "Solsab.Props.C46_clawback_succeeds"
   ],
   "note": "clawback rule"
  },
  {
   "property": "C47",
   "status": "proved",
   "theorems": [
    "Solsab.Props.C47_no_clawback"
   ],
   "note": "no clawback after the grace period of a non-expired campaign"
  },
  {
   "property": "C48",
   "status": "proved",
   "theorems": [
    "Solsab.Props.C48_first_claim",
    "Solsab.Props.C48_stable"
   ],
   "note": "first claim time is the time of the first claim"
  },
  {
   "property": "C49",
   "status": "proved",
   "theorems": [
    "Solsab.Props.C49_immutable",
    "Solsab.Props.C49_unique"
   ],
   "note": "campaign terms are immutable and campaigns unique"
  },
  {
   "property": "C50",
   "status": "proved",
   "theorems": [
    "Solsab.Props.C50_what_it_reports",
    "Solsab.Props.C50_contradicts_clawback"
   ],
   "note": "The natural reading (the view reports the grace period after the first claim) is false of the code; C50_contradicts_clawback proves that, C50_what_it_reports states what the view returns."
  },
  {
   "property": "C51",
   "status": "proved",
   "theorems": [
    "Solsab.Props.C51_accounting",
    "Solsab.Props.C51_only_claims_and_clawbacks"
   ],
   "note": "campaign vault outflow is claims plus clawbacks only"
  },
  {
   "property": "C52",
   "status": "proved",
   "theorems": [
    "Solsab.Props.C52_never_claimed",
    "Solsab.Props.C52_clawback_always"
   ],
   "note": "campaigns without a possible window can never be claimed"
  },
  {
   "property": "C53",
   "status": "proved",
   "theorems": [
    "Solsab.Props.C53_layout",
    "Solsab.Props.C53_fixed_size",
    "Solsab.Props.C53_campaign",
    "Solsab.Props.C53_campaign_size",
    "Solsab.Props.C53_discriminators",
    "Solsab.Props.C53_no_confusion",
    "Solsab.Props.C53_stream_lossless",
    "Solsab.Props.C53_campaign_lossless"
   ],
   "note": "account data round-trips and fits its allocation"
  },
  {
   "property": "C54",
   "status": "proved",
   "theorems": [
    "Solsab.Props.C54_preimage",
    "Solsab.Props.C54_symbolic"
   ],
   "note": "derived addresses cannot be confused"
  },
  {
   "property": "C55",
   "status": "proved",
   "theorems": [
    "Solsab.Props.C55_leaf_encoding",
    "Solsab.Props.C55_program_leaf"
   ],
   "note": "leaf encoding is injective"
  },
  {
   "property": "C56",
   "status": "proved",
   "theorems": [
    "Solsab.Props.C56_create_succeeds"
   ],
   "note": "a valid creation succeeds"
  },
  {
   "property": "C57",
   "status": "proved",
   "theorems": [
    "Solsab.Props.C57_rent_exempt"
   ],
   "note": "treasuries stay rent exempt"
  },
  {
   "property": "C58",
   "status": "proved",
   "theorems": [
    "Solsab.Props.C58_create_effect",
    "Solsab.Props.C58_create_iff"
   ],
   "note": "create_campaign effect and exact success condition"
  },
  {
   "property": "C59",
   "status": "proved",
   "theorems": [
    "Solsab.Props.C59_listed_can_claim",
    "Solsab.Props.C59_funded_stays"
   ],
   "note": "a funded airdrop pays everybody"
  },
  {
   "property": "C60",
   "status": "proved",
   "theorems": [
    "Solsab.Props.C60_rent_only",
    "Solsab.Props.C60_conserved",
    "Solsab.Props.C60_opened"
   ],
   "note": "instructions move lamports only for rent"
  },
  {
   "property": "C61",
   "status": "proved",
   "theorems": [
    "Solsab.Props.C61_tokens_conserved"
   ],
   "note": "instructions never mint, burn or lose tokens"
  },
  {
   "property": "C62",
   "status": "proved",
   "theorems": [
    "Solsab.Props.C62_rent_exempt",
    "Solsab.Props.C62_permanent",
    "Solsab.Props.C62_token_accounts",
    "Solsab.Props.C62_vaults"
   ],
   "note": "program accounts are permanent and rent exempt"
  },
  {
   "property": "C63",
   "status": "proved",
   "theorems": [
    "Solsab.Props.C63_isolated"
   ],
   "note": "the two programs are isolated"
  },
  {
   "property": "C64",
   "status": "proved",
   "theorems": [
    "Solsab.Props.C64_lockup",
    "Solsab.Props.C64_merkle",
    "Solsab.Props.C64_lockup_canonical",
    "Solsab.Props.C64_merkle_canonical",
    "Solsab.Props.C64_prefix"
   ],
   "note": "instruction data decodes to exactly the call that was encoded"
  },
  {
   "property": "C65",
   "status": "proved",
   "theorems": [
    "Solsab.Props.C65_lockup_events",
    "Solsab.Props.C65_merkle_events",
    "Solsab.Props.C65_lossless"
   ],
   "note": "event data is unambiguous and complete"
  },
  {
   "property": "C66",
   "status": "proved",
   "theorems": [
    "Solsab.Props.C66_replica"
   ],
   "note": "the TypeScript replica of the schedule predicts the view"
  },
  {
   "property": "C67",
   "status": "proved",
   "theorems": [
    "Solsab.Props.C67_stream",
    "Solsab.Props.C67_campaigns",
    "Solsab.Props.C67_snapshot_needed"
   ],
   "note": "the events are a complete audit trail"
  },
  {
   "property": "C68",
   "status": "proved",
   "theorems": [
    "Solsab.Props.C68_writes",
    "Solsab.Props.C68_reads",
    "Solsab.Props.C68_accounts_complete",
    "Solsab.Props.C68_views"
   ],
   "note": "instructions see and change only the accounts they list"
  },
  {
   "property": "C69",
   "status": "proved",
   "theorems": [
    "Solsab.Props.C69_no_interference",
    "Solsab.Props.C69_commute"
   ],
   "note": "independent instructions do not interfere and commute"
  },
  {
   "property": "C70",
   "status": "proved",
   "theorems": [
    "Solsab.Props.C70_burned",
    "Solsab.Props.C70_cancel"
   ],
   "note": "a burned stream NFT locks the recipient's part for ever"
  },
  {
   "property": "C71",
   "status": "proved",
   "theorems": [
    "Solsab.Props.C71_anyone_can",
    "Solsab.Props.C71_stream_blocked",
    "Solsab.Props.C71_others_unaffected",
    "Solsab.Props.C71_campaign_blocked"
   ],
   "note": "an occupied vault address blocks exactly one creation"
  },
  {
   "property": "C72",
   "status": "proved",
   "theorems": [
    "Solsab.Props.C72_truthful",
    "Solsab.Props.C72_codes"
   ],
   "note": "error codes are truthful and unambiguous"
  },
  {
   "property": "C73",
   "status": "proved",
   "theorems": [
    "Solsab.Props.C73_nft",
    "Solsab.Props.C73_only_burn",
    "Solsab.Props.C73_for_ever",
    "Solsab.Props.C73_collection",
    "Solsab.Props.C73_authentic"
   ],
   "note": "the NFT metadata is authentic and cannot be tampered with"
  },
  {
   "property": "C74",
   "status": "proved",
   "theorems": [
    "Solsab.Props.C74_surplus_locked",
    "Solsab.Props.C74_self_withdraw",
    "Solsab.Props.C74_self_withdraw_lost"
   ],
   "note": "tokens beyond what a stream owes are locked for ever"
  },
  {
   "property": "C75",
   "status": "proved",
   "theorems": [
    "Solsab.Props.C75_leftover_locked"
   ],
   "note": "the surplus of a never-expiring campaign is locked after the grace period"
  },
  {
   "property": "C76",
   "status": "proved",
   "theorems": [
    "Solsab.Props.C76_views",
    "Solsab.Props.C76_step",
    "Solsab.Props.C76_trace",
    "Solsab.Props.C76_can_withdraw",
    "Solsab.Props.C76_can_cancel",
    "Solsab.Props.C76_can_renounce"
   ],
   "note": "the lockup program implements a small vesting machine"
  },
  {
   "property": "C77",
   "status": "proved",
   "theorems": [
    "Solsab.Props.C77_views",
    "Solsab.Props.C77_step",
    "Solsab.Props.C77_trace",
    "Solsab.Props.C77_can_claim",
    "Solsab.Props.C77_can_clawback"
   ],
   "note": "the merkle_instant program implements a small airdrop machine"
  },
  {
   "property": "C78",
   "status": "proved",
   "theorems": [
    "Solsab.Props.C78_withdraw",
    "Solsab.Props.C78_cancel",
    "Solsab.Props.C78_claim"
   ],
   "note": "nobody can stop the payouts of a classic, unfreezable token"
  },
  {
   "property": "C79",
   "status": "proved",
   "theorems": [
    "Solsab.Props.C79_sablier",
    "Solsab.Props.C79_step",
    "Solsab.Props.C79_history"
   ],
   "note": "nobody's tokens move without their signature"
  },
  {
   "property": "C80",
   "status": "proved",
   "theorems": [
    "Solsab.Props.C80_lockup_before",
    "Solsab.Props.C80_lockup_initialize",
    "Solsab.Props.C80_merkle_before",
    "Solsab.Props.C80_merkle_initialize",
    "Solsab.Props.C80_merkle_functional"
   ],
   "note": "before and at initialisation"
  },
  {
   "property": "C81",
   "status": "proved",
   "theorems": [
    "Solsab.Props.C81_withdraw",
    "Solsab.Props.C81_withdrawMax",
    "Solsab.Props.C81_claim",
    "Solsab.Props.C81_withdraw_view",
    "Solsab.Props.C81_claim_view",
    "Solsab.Props.C81_no_price",
    "Solsab.Props.C81_fair",
    "Solsab.Props.C81_oracle_can_block"
   ],
   "note": "the fee is orthogonal, for any fee constant"
  },
  {
   "property": "C82",
   "status": "proved",
   "theorems": [
    "Solsab.Props.C82_books",
    "Solsab.Props.C82_history",
    "Solsab.Props.C82_before_start",
    "Solsab.Props.C82_no_early_withdrawal"
   ],
   "note": "the books of a stream balance"
  },
  {
   "property": "C83",
   "status": "proved",
   "theorems": [
    "Solsab.Props.C83_translation",
    "Solsab.Props.C83_monotone",
    "Solsab.Props.C83_split",
    "Solsab.Props.C83_rate"
   ],
   "note": "the schedule is translation invariant, monotone in the money, and splits fairly"
  },
  {
   "property": "C84",
   "status": "proved",
   "theorems": [
    "Solsab.Props.C84_exclusive",
    "Solsab.Props.C84_kept",
    "Solsab.Props.C84_handover",
    "Solsab.Props.C84_misplaced"
   ],
   "note": "the right to withdraw is the NFT"
  },
  {
   "property": "C85",
   "status": "proved",
   "theorems": [
    "Solsab.Props.C85_withdrawals",
    "Solsab.Props.C85_withdraw_cancel",
    "Solsab.Props.C85_withdraw_renounce",
    "Solsab.Props.C85_first_wins",
    "Solsab.Props.C85_claims"
   ],
   "note": "races: within a block the order does not matter"
  },
  {
   "property": "C86",
   "status": "proved",
   "theorems": [
    "Solsab.Props.C86_free_salt",
    "Solsab.Props.C86_never_shut_out",
    "Solsab.Props.C86_stranger_can_take"
   ],
   "note": "a salt can be squatted, but nobody can be shut out"
  },
  {
   "property": "C87",
   "status": "proved",
   "theorems": [
    "Solsab.Props.C87_vaults_have_none",
    "Solsab.Props.C87_only_by_owner",
    "Solsab.Props.C87_delegate_takes_stream",
    "Solsab.Props.C87_freeze_harmless"
   ],
   "note": "delegates: vaults cannot have one, NFT accounts can"
  },
  {
   "property": "C88",
   "status": "proved",
   "theorems": [
    "Solsab.Props.C88_lockup_exact",
    "Solsab.Props.C88_merkle_exact",
    "Solsab.Props.C88_runs",
    "Solsab.Props.C88_accepted",
    "Solsab.Props.C88_writable",
    "Solsab.Props.C88_client",
    "Solsab.Props.C88_missing",
    "Solsab.Props.C88_signed",
    "Solsab.Props.C88_histories",
    "Solsab.Props.C88_unsigned",
    "Solsab.Props.C88_texts"
   ],
   "note": "messages: the interface as sent is the interface as run"
  },
  {
   "property": "C89",
   "status": "proved",
   "theorems": [
    "Solsab.Props.C89_exact",
    "Solsab.Props.C89_answers",
    "Solsab.Props.C89_readable"
   ],
   "note": "questions change nothing and their answers can be read"
  },
  {
   "property": "C90",
   "status": "proved",
   "theorems": [
    "Solsab.Props.C90_rule",
    "Solsab.Props.C90_payer",
    "Solsab.Props.C90_free",
    "Solsab.Props.C90_collect",
    "Solsab.Props.C90_recipient",
    "Solsab.Props.C90_dust"
   ],
   "note": "the runtime's rent rule can stop an instruction only at the payer or the fee recipient"
  },
  {
   "property": "C91",
   "status": "proved",
   "theorems": [
    "Solsab.Props.C91_resolved",
    "Solsab.Props.C91_tamper",
    "Solsab.Props.C91_withdraw"
   ],
   "note": "no account of an instruction can be substituted"
  },
  {
   "property": "C92",
   "status": "proved",
   "theorems": [
    "Solsab.Props.C92_atomic",
    "Solsab.Props.C92_failure",
    "Solsab.Props.C92_ledger",
    "Solsab.Props.C92_unsigned",
    "Solsab.Props.C92_writable",
    "Solsab.Props.C92_signed",
    "Solsab.Props.C92_bundle"
   ],
   "note": "transactions of messages"
  },
  {
   "property": "C93",
   "status": "proved",
   "theorems": [
    "Solsab.Props.C93_faithful",
    "Solsab.Props.C93_signed",
    "Solsab.Props.C93_size",
    "Solsab.Props.C93_fits",
    "Solsab.Props.C93_claim",
    "Solsab.Props.C93_proofs",
    "Solsab.Props.C93_airdrop",
    "Solsab.Props.C93_runs"
   ],
   "note": "transactions as bytes: what is signed is what runs, and everything fits"
  },
  {
   "property": "C94",
   "status": "proved",
   "theorems": [
    "Solsab.Props.C94_batch"
   ],
   "note": "streams can be created in bulk"
  },
  {
   "property": "C95",
   "status": "proved",
   "theorems": [
    "Solsab.Props.C95_lockup_script",
    "Solsab.Props.C95_campaign_script"
   ],
   "note": "the post-deployment scripts run to the end on every chain"
  },
  {
   "property": "C96",
   "status": "proved",
   "theorems": [
    "Solsab.Props.C96_only_by_owner",
    "Solsab.Props.C96_programs_leave_them",
    "Solsab.Props.C96_where",
    "Solsab.Props.C96_refused",
    "Solsab.Props.C96_reversible",
    "Solsab.Props.C96_elsewhere"
   ],
   "note": "memo requirements and CPI guards hurt only those who set them"
  },
  {
   "property": "C97",
   "status": "proved",
   "theorems": [
    "Solsab.Props.C97_number",
    "Solsab.Props.C97_text_accepted",
    "Solsab.Props.C97_text_exact",
    "Solsab.Props.C97_text_close",
    "Solsab.Props.C97_script"
   ],
   "note": "amounts written by clients come to the right number of base units"
  },
  {
   "property": "C98",
   "status": "proved",
   "theorems": [
    "Solsab.Props.C98_deliver",
    "Solsab.Props.C98_airdrop"
   ],
   "note": "an airdrop can be delivered by anybody, completely and in any order"
  },
  {
   "property": "C99",
   "status": "proved",
   "theorems": [
    "Solsab.Props.C99_programs",
    "Solsab.Props.C99_step",
    "Solsab.Props.C99_authority",
    "Solsab.Props.C99_history",
    "Solsab.Props.C99_refused",
    "Solsab.Props.C99_no_stream",
    "Solsab.Props.C99_campaign"
   ],
   "note": "frozen token accounts"
  },
  {
   "property": "C100",
   "status": "proved",
   "theorems": [
    "Solsab.Props.C100_collect",
    "Solsab.Props.C100_cancel"
   ],
   "note": "many streams can be emptied or canceled at once"
  },
  {
   "property": "C101",
   "status": "proved",
   "theorems": [
    "Solsab.Props.C101_backed",
    "Solsab.Props.C101_in_use"
   ],
   "note": "all obligations together are backed"
  },
  {
   "property": "C102",
   "status": "proved",
   "theorems": [
    "Solsab.Props.C102_errors",
    "Solsab.Props.C102_structs",
    "Solsab.Props.C102_complete",
    "Solsab.Props.C102_names",
    "Solsab.Props.C102_closed",
    "Solsab.Props.C102_command",
    "Solsab.Props.C102_programs"
   ],
   "note": "the TypeScript bindings say what the programs say"
  },
  {
   "property": "C103",
   "status": "proved",
   "theorems": [
    "Solsab.Props.C103_shipped",
    "Solsab.Props.C103_history",
    "Solsab.Props.C103_reachable",
    "Solsab.Props.C103_solvent",
    "Solsab.Props.C103_revenue",
    "Solsab.Props.C103_claims_once",
    "Solsab.Props.C103_exit",
    "Solsab.Props.C103_claim_exit"
   ],
   "note": "with any fee, everything proved of every history still holds, and the fees arrive"
  }
 ]
}