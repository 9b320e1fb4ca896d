# Axioms per theorem (from `#print axioms`; written by tools/gen_axioms.sh)

propext, Classical.choice and Quot.sound are Lean's standard axioms. Nothing else occurs.

* `Solsab.Props.C01_streamed_between`: propext, Classical.choice, Quot.sound
* `Solsab.Props.C02_streamed_mono`: propext, Classical.choice, Quot.sound
* `Solsab.Props.C03_schedule`: propext, Classical.choice, Quot.sound
* `Solsab.Props.C04_linear_accuracy`: propext, Classical.choice, Quot.sound
* `Solsab.Props.C05_panics_only`: propext, Classical.choice, Quot.sound
* `Solsab.Props.C05_durations_overflow`: propext, Classical.choice, Quot.sound
* `Solsab.Props.C05_views_total`: propext, Classical.choice, Quot.sound
* `Solsab.Props.C05_no_panic`: propext, Classical.choice, Quot.sound
* `Solsab.Props.C06_withdraw_success`: propext, Classical.choice, Quot.sound
* `Solsab.Props.C06_withdraw_errors`: propext, Classical.choice, Quot.sound
* `Solsab.Props.C07_pays_holder`: propext, Classical.choice, Quot.sound
* `Solsab.Props.C08_withdraw_effect`: propext, Classical.choice, Quot.sound
* `Solsab.Props.C09_max_is_withdraw`: propext, Classical.choice, Quot.sound
* `Solsab.Props.C09_nothing_left`: propext, Classical.choice, Quot.sound
* `Solsab.Props.C09_zero`: propext, Classical.choice, Quot.sound
* `Solsab.Props.C10_path_independent`: propext, Classical.choice, Quot.sound
* `Solsab.Props.C11_never_ahead`: propext, Classical.choice, Quot.sound
* `Solsab.Props.C12_withdraw_succeeds`: propext, Classical.choice, Quot.sound
* `Solsab.Props.C12_full_withdrawal`: propext, Classical.choice, Quot.sound
* `Solsab.Props.C13_only_sender_cancels`: propext, Classical.choice, Quot.sound
* `Solsab.Props.C13_only_sender_renounces`: propext, Classical.choice, Quot.sound
* `Solsab.Props.C14_cancel_effect`: propext, Classical.choice, Quot.sound
* `Solsab.Props.C14_cancel_errors`: propext, Classical.choice, Quot.sound
* `Solsab.Props.C14_cancel_succeeds`: propext, Classical.choice, Quot.sound
* `Solsab.Props.C15_vested_safe`: propext, Classical.choice, Quot.sound
* `Solsab.Props.C16_renounce_final`: propext, Classical.choice, Quot.sound
* `Solsab.Props.C16_cancel_once`: propext, Classical.choice, Quot.sound
* `Solsab.Props.C16_cancel_final`: propext, Classical.choice, Quot.sound
* `Solsab.Props.C17_renounce_rule`: propext, Classical.choice, Quot.sound
* `Solsab.Props.C17_renounce_effect`: propext, Classical.choice, Quot.sound
* `Solsab.Props.C18_solvent`: propext, Classical.choice, Quot.sound
* `Solsab.Props.C18_solvent_history`: propext, Classical.choice, Quot.sound
* `Solsab.Props.C19_fails`: propext, Classical.choice, Quot.sound
* `Solsab.Props.C19_fails_withdraw`: propext, Classical.choice, Quot.sound
* `Solsab.Props.C19_floor`: propext, Classical.choice, Quot.sound
* `Solsab.Props.C19_delegate`: propext, Classical.choice, Quot.sound
* `Solsab.Props.C20_paid_le_deposit`: propext, Classical.choice, Quot.sound
* `Solsab.Props.C20_no_events_before_creation`: propext, Classical.choice, Quot.sound
* `Solsab.Props.C21_depleted_final`: propext, Classical.choice, Quot.sound
* `Solsab.Props.C22_status_exact`: propext, Classical.choice, Quot.sound
* `Solsab.Props.C23_status_forward`: propext, Classical.choice, Quot.sound
* `Solsab.Props.C24_terms_immutable`: propext, Classical.choice, Quot.sound
* `Solsab.Props.C25_data_isolated`: propext, Classical.choice, Quot.sound
* `Solsab.Props.C25_vault_isolated`: propext, Classical.choice, Quot.sound
* `Solsab.Props.C26_check`: propext, Classical.choice, Quot.sound
* `Solsab.Props.C26_only_valid`: propext, Classical.choice, Quot.sound
* `Solsab.Props.C26_create_errors`: propext, Classical.choice, Quot.sound
* `Solsab.Props.C27_create_effect`: propext, Classical.choice, Quot.sound
* `Solsab.Props.C28_durations`: propext, Classical.choice, Quot.sound
* `Solsab.Props.C29_unique`: propext, Classical.choice, Quot.sound
* `Solsab.Props.C29_exists_forever`: propext, Classical.choice, Quot.sound
* `Solsab.Props.C29_no_second`: propext, Classical.choice, Quot.sound
* `Solsab.Props.C30_unique_holder`: propext, Classical.choice, Quot.sound
* `Solsab.Props.C30_supply`: propext, Classical.choice, Quot.sound
* `Solsab.Props.C30_one_recipient`: propext, Classical.choice, Quot.sound
* `Solsab.Props.C31_counter`: propext, Classical.choice, Quot.sound
* `Solsab.Props.C32_name_fits`: propext, Classical.choice, Quot.sound
* `Solsab.Props.C32_base58_length`: propext, Classical.choice, Quot.sound
* `Solsab.Props.C32_base58_text`: propext, Classical.choice, Quot.sound
* `Solsab.Props.C32_base58_injective`: propext, Classical.choice, Quot.sound
* `Solsab.Props.C33_stores`: propext, Classical.choice, Quot.sound
* `Solsab.Props.C33_once`: propext, Classical.choice, Quot.sound
* `Solsab.Props.C34_right_treasury`: propext, Classical.choice, Quot.sound
* `Solsab.Props.C34_collect`: propext, Classical.choice, Quot.sound
* `Solsab.Props.C34_exact`: propext, Classical.choice, Quot.sound
* `Solsab.Props.C35_only_collect`: propext, Classical.choice, Quot.sound
* `Solsab.Props.C35_accounting`: propext, Classical.choice, Quot.sound
* `Solsab.Props.C36_zero`: propext, Quot.sound
* `Solsab.Props.C36_value`: propext, Quot.sound
* `Solsab.Props.C36_price_truncation`: propext, Quot.sound
* `Solsab.Props.C37_oracle_independent`: propext, Classical.choice, Quot.sound
* `Solsab.Props.C37_fee_views`: propext, Classical.choice, Quot.sound
* `Solsab.Props.C37_withdraw_lamports`: propext, Classical.choice, Quot.sound
* `Solsab.Props.C37_claim_lamports`: propext, Classical.choice, Quot.sound
* `Solsab.Props.C38_atomic`: propext, Classical.choice, Quot.sound
* `Solsab.Props.C38_failure_undoes`: propext, Classical.choice, Quot.sound
* `Solsab.Props.C38_transactions`: propext, Classical.choice, Quot.sound
* `Solsab.Props.C39_at_most_one`: propext, Classical.choice, Quot.sound
* `Solsab.Props.C39_second_claim_fails`: propext, Classical.choice, Quot.sound
* `Solsab.Props.C40_has_claimed`: propext, Classical.choice, Quot.sound
* `Solsab.Props.C41_window`: propext, Classical.choice, Quot.sound
* `Solsab.Props.C41_history`: propext, Classical.choice, Quot.sound
* `Solsab.Props.C41_errors`: propext, Classical.choice, Quot.sound
* `Solsab.Props.C41_views`: propext, Classical.choice, Quot.sound
* `Solsab.Props.C42_tree`: propext, Classical.choice, Quot.sound
* `Solsab.Props.C42_builder`: propext, Classical.choice, Quot.sound
* `Solsab.Props.C42_builder_tree`: propext, Classical.choice, Quot.sound
* `Solsab.Props.C43_only_listed`: propext, Classical.choice, Quot.sound
* `Solsab.Props.C43_unlisted_rejected`: propext, Classical.choice, Quot.sound
* `Solsab.Props.C44_total`: propext, Classical.choice, Quot.sound
* `Solsab.Props.C45_claim_effect`: propext, Classical.choice, Quot.sound
* `Solsab.Props.C45_claim_succeeds`: propext, Classical.choice, Quot.sound
* `Solsab.Props.C46_clawback_effect`: propext, Classical.choice, Quot.sound
* `Solsab.Props.C46_errors`: propext, Classical.choice, Quot.sound
* `Solsab.Props.C46_clawback_succeeds`: propext, Classical.choice, Quot.sound
* `Solsab.Props.C47_no_clawback`: propext, Classical.choice, Quot.sound
* `Solsab.Props.C48_first_claim`: propext, Classical.choice, Quot.sound
* `Solsab.Props.C48_stable`: propext, Classical.choice, Quot.sound
* `Solsab.Props.C49_immutable`: propext, Classical.choice, Quot.sound
* `Solsab.Props.C49_unique`: propext, Classical.choice, Quot.sound
* `Solsab.Props.C50_what_it_reports`: propext, Classical.choice, Quot.sound
* `Solsab.Props.C50_contradicts_clawback`: propext, Classical.choice, Quot.sound
* `Solsab.Props.C51_accounting`: propext, Classical.choice, Quot.sound
* `Solsab.Props.C51_only_claims_and_clawbacks`: propext, Classical.choice, Quot.sound
* `Solsab.Props.C52_never_claimed`: propext, Classical.choice, Quot.sound
* `Solsab.Props.C52_clawback_always`: propext, Classical.choice, Quot.sound
* `Solsab.Props.C53_layout`: propext, Quot.sound
* `Solsab.Props.C53_fixed_size`: propext, Classical.choice, Quot.sound
* `Solsab.Props.C53_campaign`: propext, Classical.choice, Quot.sound
* `Solsab.Props.C53_campaign_size`: propext, Quot.sound
* `Solsab.Props.C53_discriminators`: propext, Classical.choice, Quot.sound
* `Solsab.Props.C53_no_confusion`: propext, Quot.sound
* `Solsab.Props.C53_stream_lossless`: propext, Classical.choice, Quot.sound
* `Solsab.Props.C53_campaign_lossless`: propext, Classical.choice, Quot.sound
* `Solsab.Props.C54_preimage`: propext, Classical.choice, Quot.sound
* `Solsab.Props.C54_symbolic`: propext, Classical.choice, Quot.sound
* `Solsab.Props.C55_leaf_encoding`: propext, Quot.sound
* `Solsab.Props.C55_program_leaf`: propext, Quot.sound
* `Solsab.Props.C56_create_succeeds`: propext, Classical.choice, Quot.sound
* `Solsab.Props.C57_rent_exempt`: propext, Classical.choice, Quot.sound
* `Solsab.Props.C58_create_effect`: propext, Classical.choice, Quot.sound
* `Solsab.Props.C58_create_iff`: propext, Classical.choice, Quot.sound
* `Solsab.Props.C59_listed_can_claim`: propext, Classical.choice, Quot.sound
* `Solsab.Props.C59_funded_stays`: propext, Classical.choice, Quot.sound
* `Solsab.Props.C60_rent_only`: propext, Classical.choice, Quot.sound
* `Solsab.Props.C60_conserved`: propext, Classical.choice, Quot.sound
* `Solsab.Props.C60_opened`: propext, Classical.choice, Quot.sound
* `Solsab.Props.C61_tokens_conserved`: propext, Classical.choice, Quot.sound
* `Solsab.Props.C62_rent_exempt`: propext, Classical.choice, Quot.sound
* `Solsab.Props.C62_permanent`: propext, Classical.choice, Quot.sound
* `Solsab.Props.C62_token_accounts`: propext, Classical.choice, Quot.sound
* `Solsab.Props.C62_vaults`: propext, Classical.choice, Quot.sound
* `Solsab.Props.C63_isolated`: propext, Classical.choice, Quot.sound
* `Solsab.Props.C64_lockup`: propext, Classical.choice, Quot.sound
* `Solsab.Props.C64_merkle`: propext, Classical.choice, Quot.sound
* `Solsab.Props.C64_lockup_canonical`: propext, Classical.choice, Quot.sound
* `Solsab.Props.C64_merkle_canonical`: propext, Classical.choice, Quot.sound
* `Solsab.Props.C64_prefix`: propext, Classical.choice, Quot.sound
* `Solsab.Props.C65_lockup_events`: propext, Classical.choice, Quot.sound
* `Solsab.Props.C65_merkle_events`: propext, Classical.choice, Quot.sound
* `Solsab.Props.C65_lossless`: propext, Classical.choice, Quot.sound
* `Solsab.Props.C66_replica`: propext, Classical.choice, Quot.sound
* `Solsab.Props.C67_stream`: propext, Classical.choice, Quot.sound
* `Solsab.Props.C67_campaigns`: propext, Classical.choice, Quot.sound
* `Solsab.Props.C67_snapshot_needed`: propext, Classical.choice, Quot.sound
* `Solsab.Props.C68_writes`: propext, Classical.choice, Quot.sound
* `Solsab.Props.C68_reads`: propext, Classical.choice, Quot.sound
* `Solsab.Props.C68_accounts_complete`: propext, Quot.sound
* `Solsab.Props.C68_views`: propext
* `Solsab.Props.C69_no_interference`: propext, Classical.choice, Quot.sound
* `Solsab.Props.C69_commute`: propext, Classical.choice, Quot.sound
* `Solsab.Props.C70_burned`: propext, Classical.choice, Quot.sound
* `Solsab.Props.C70_cancel`: propext, Classical.choice, Quot.sound
* `Solsab.Props.C71_anyone_can`: propext, Classical.choice, Quot.sound
* `Solsab.Props.C71_stream_blocked`: propext, Classical.choice, Quot.sound
* `Solsab.Props.C71_others_unaffected`: propext, Classical.choice, Quot.sound
* `Solsab.Props.C71_campaign_blocked`: propext, Classical.choice, Quot.sound
* `Solsab.Props.C72_truthful`: propext, Classical.choice, Quot.sound
* `Solsab.Props.C72_codes`: propext, Quot.sound
* `Solsab.Props.C73_nft`: propext, Classical.choice, Quot.sound
* `Solsab.Props.C73_only_burn`: propext, Classical.choice, Quot.sound
* `Solsab.Props.C73_for_ever`: propext, Classical.choice, Quot.sound
* `Solsab.Props.C73_collection`: propext, Classical.choice, Quot.sound
* `Solsab.Props.C73_authentic`: propext, Classical.choice, Quot.sound
* `Solsab.Props.C74_surplus_locked`: propext, Classical.choice, Quot.sound
* `Solsab.Props.C74_self_withdraw`: propext, Classical.choice, Quot.sound
* `Solsab.Props.C74_self_withdraw_lost`: propext, Classical.choice, Quot.sound
* `Solsab.Props.C75_leftover_locked`: propext, Classical.choice, Quot.sound
* `Solsab.Props.C76_views`: propext, Classical.choice, Quot.sound
* `Solsab.Props.C76_step`: propext, Classical.choice, Quot.sound
* `Solsab.Props.C76_trace`: propext, Classical.choice, Quot.sound
* `Solsab.Props.C76_can_withdraw`: propext, Classical.choice, Quot.sound
* `Solsab.Props.C76_can_cancel`: propext, Classical.choice, Quot.sound
* `Solsab.Props.C76_can_renounce`: propext, Classical.choice, Quot.sound
* `Solsab.Props.C77_views`: propext, Classical.choice, Quot.sound
* `Solsab.Props.C77_step`: propext, Classical.choice, Quot.sound
* `Solsab.Props.C77_trace`: propext, Classical.choice, Quot.sound
* `Solsab.Props.C77_can_claim`: propext, Classical.choice, Quot.sound
* `Solsab.Props.C77_can_clawback`: propext, Classical.choice, Quot.sound
* `Solsab.Props.C78_withdraw`: propext, Classical.choice, Quot.sound
* `Solsab.Props.C78_cancel`: propext, Classical.choice, Quot.sound
* `Solsab.Props.C78_claim`: propext, Classical.choice, Quot.sound
* `Solsab.Props.C79_sablier`: propext, Classical.choice, Quot.sound
* `Solsab.Props.C79_step`: propext, Classical.choice, Quot.sound
* `Solsab.Props.C79_history`: propext, Classical.choice, Quot.sound
* `Solsab.Props.C80_lockup_before`: propext, Classical.choice, Quot.sound
* `Solsab.Props.C80_lockup_initialize`: propext, Classical.choice, Quot.sound
* `Solsab.Props.C80_merkle_before`: propext, Classical.choice, Quot.sound
* `Solsab.Props.C80_merkle_initialize`: propext, Classical.choice, Quot.sound
* `Solsab.Props.C80_merkle_functional`: propext, Classical.choice, Quot.sound
* `Solsab.Props.C81_withdraw`: propext, Quot.sound
* `Solsab.Props.C81_withdrawMax`: propext, Quot.sound
* `Solsab.Props.C81_claim`: propext, Quot.sound
* `Solsab.Props.C81_withdraw_view`: propext, Quot.sound
* `Solsab.Props.C81_claim_view`: propext, Quot.sound
* `Solsab.Props.C81_no_price`: propext, Classical.choice, Quot.sound
* `Solsab.Props.C81_fair`: propext, Classical.choice, Quot.sound
* `Solsab.Props.C81_oracle_can_block`: propext, Quot.sound
* `Solsab.Props.C82_books`: propext, Classical.choice, Quot.sound
* `Solsab.Props.C82_history`: propext, Classical.choice, Quot.sound
* `Solsab.Props.C82_before_start`: propext, Classical.choice, Quot.sound
* `Solsab.Props.C82_no_early_withdrawal`: propext, Classical.choice, Quot.sound
* `Solsab.Props.C83_translation`: propext, Classical.choice, Quot.sound
* `Solsab.Props.C83_monotone`: propext, Classical.choice, Quot.sound
* `Solsab.Props.C83_split`: propext, Classical.choice, Quot.sound
* `Solsab.Props.C83_rate`: propext, Classical.choice, Quot.sound
* `Solsab.Props.C84_exclusive`: propext, Classical.choice, Quot.sound
* `Solsab.Props.C84_kept`: propext, Classical.choice, Quot.sound
* `Solsab.Props.C84_handover`: propext, Classical.choice, Quot.sound
* `Solsab.Props.C84_misplaced`: propext, Classical.choice, Quot.sound
* `Solsab.Props.C85_withdrawals`: propext, Classical.choice, Quot.sound
* `Solsab.Props.C85_withdraw_cancel`: propext, Classical.choice, Quot.sound
* `Solsab.Props.C85_withdraw_renounce`: propext, Classical.choice, Quot.sound
* `Solsab.Props.C85_first_wins`: propext, Classical.choice, Quot.sound
* `Solsab.Props.C85_claims`: propext, Classical.choice, Quot.sound
* `Solsab.Props.C86_free_salt`: propext, Classical.choice, Quot.sound
* `Solsab.Props.C86_never_shut_out`: propext, Classical.choice, Quot.sound
* `Solsab.Props.C86_stranger_can_take`: propext, Classical.choice, Quot.sound
* `Solsab.Props.C87_vaults_have_none`: propext, Classical.choice, Quot.sound
* `Solsab.Props.C87_only_by_owner`: propext, Classical.choice, Quot.sound
* `Solsab.Props.C87_delegate_takes_stream`: propext, Classical.choice, Quot.sound
* `Solsab.Props.C87_freeze_harmless`: propext, Classical.choice, Quot.sound
* `Solsab.Props.C88_lockup_exact`: propext, Classical.choice, Quot.sound
* `Solsab.Props.C88_merkle_exact`: propext, Classical.choice, Quot.sound
* `Solsab.Props.C88_runs`: propext, Classical.choice, Quot.sound
* `Solsab.Props.C88_accepted`: propext, Classical.choice, Quot.sound
* `Solsab.Props.C88_writable`: propext, Classical.choice, Quot.sound
* `Solsab.Props.C88_client`: propext, Classical.choice, Quot.sound
* `Solsab.Props.C88_missing`: propext, Classical.choice, Quot.sound
* `Solsab.Props.C88_signed`: propext, Classical.choice, Quot.sound
* `Solsab.Props.C88_histories`: propext, Classical.choice, Quot.sound
* `Solsab.Props.C88_unsigned`: propext, Classical.choice, Quot.sound
* `Solsab.Props.C88_texts`: propext, Classical.choice, Quot.sound
* `Solsab.Props.C89_exact`: propext, Classical.choice, Quot.sound
* `Solsab.Props.C89_answers`: propext, Classical.choice, Quot.sound
* `Solsab.Props.C89_readable`: propext, Classical.choice, Quot.sound
* `Solsab.Props.C90_rule`: propext, Classical.choice, Quot.sound
* `Solsab.Props.C90_payer`: propext, Classical.choice, Quot.sound
* `Solsab.Props.C90_free`: propext, Classical.choice, Quot.sound
* `Solsab.Props.C90_collect`: propext, Classical.choice, Quot.sound
* `Solsab.Props.C90_recipient`: propext, Classical.choice, Quot.sound
* `Solsab.Props.C90_dust`: propext, Classical.choice, Quot.sound
* `Solsab.Props.C91_resolved`: propext, Classical.choice, Quot.sound
* `Solsab.Props.C91_tamper`: propext, Classical.choice, Quot.sound
* `Solsab.Props.C91_withdraw`: propext, Classical.choice, Quot.sound
* `Solsab.Props.C92_atomic`: propext, Classical.choice, Quot.sound
* `Solsab.Props.C92_failure`: propext, Classical.choice, Quot.sound
* `Solsab.Props.C92_ledger`: propext, Classical.choice, Quot.sound
* `Solsab.Props.C92_unsigned`: propext, Classical.choice, Quot.sound
* `Solsab.Props.C92_writable`: propext, Classical.choice, Quot.sound
* `Solsab.Props.C92_signed`: propext, Classical.choice, Quot.sound
* `Solsab.Props.C92_bundle`: propext, Classical.choice, Quot.sound
* `Solsab.Props.C93_faithful`: propext, Classical.choice, Quot.sound
* `Solsab.Props.C93_signed`: propext, Quot.sound
* `Solsab.Props.C93_size`: propext, Classical.choice, Quot.sound
* `Solsab.Props.C93_fits`: propext, Classical.choice, Quot.sound
* `Solsab.Props.C93_claim`: propext, Classical.choice, Quot.sound
* `Solsab.Props.C93_proofs`: propext, Classical.choice, Quot.sound
* `Solsab.Props.C93_airdrop`: propext, Classical.choice, Quot.sound
* `Solsab.Props.C93_runs`: propext, Classical.choice, Quot.sound
* `Solsab.Props.C94_batch`: propext, Classical.choice, Quot.sound
* `Solsab.Props.C95_lockup_script`: propext, Classical.choice, Quot.sound
* `Solsab.Props.C95_campaign_script`: propext, Classical.choice, Quot.sound
* `Solsab.Props.C96_only_by_owner`: propext, Classical.choice, Quot.sound
* `Solsab.Props.C96_programs_leave_them`: propext, Classical.choice, Quot.sound
* `Solsab.Props.C96_where`: propext, Classical.choice, Quot.sound
* `Solsab.Props.C96_refused`: propext, Classical.choice, Quot.sound
* `Solsab.Props.C96_reversible`: propext, Classical.choice, Quot.sound
* `Solsab.Props.C96_elsewhere`: propext, Classical.choice, Quot.sound
* `Solsab.Props.C97_number`: propext, Classical.choice, Quot.sound
* `Solsab.Props.C97_text_accepted`: propext, Quot.sound
* `Solsab.Props.C97_text_exact`: propext, Classical.choice, Quot.sound
* `Solsab.Props.C97_text_close`: propext, Classical.choice, Quot.sound
* `Solsab.Props.C97_script`: propext, Classical.choice, Quot.sound
* `Solsab.Props.C98_deliver`: propext, Classical.choice, Quot.sound
* `Solsab.Props.C98_airdrop`: propext, Classical.choice, Quot.sound
* `Solsab.Props.C99_programs`: propext, Classical.choice, Quot.sound
* `Solsab.Props.C99_step`: propext, Classical.choice, Quot.sound
* `Solsab.Props.C99_authority`: propext, Classical.choice, Quot.sound
* `Solsab.Props.C99_history`: propext, Classical.choice, Quot.sound
* `Solsab.Props.C99_refused`: propext, Classical.choice, Quot.sound
* `Solsab.Props.C99_no_stream`: propext, Classical.choice, Quot.sound
* `Solsab.Props.C99_campaign`: propext, Classical.choice, Quot.sound
* `Solsab.Props.C100_collect`: propext, Classical.choice, Quot.sound
* `Solsab.Props.C100_cancel`: propext, Classical.choice, Quot.sound
* `Solsab.Props.C101_backed`: propext, Classical.choice, Quot.sound
* `Solsab.Props.C101_in_use`: propext, Classical.choice, Quot.sound
* `Solsab.Props.C102_errors`: propext, Classical.choice, Quot.sound
* `Solsab.Props.C102_structs`: propext, Classical.choice, Quot.sound
* `Solsab.Props.C102_complete`: propext, Classical.choice, Quot.sound
* `Solsab.Props.C102_names`: propext, Quot.sound
* `Solsab.Props.C102_closed`: propext, Classical.choice, Quot.sound
* `Solsab.Props.C102_command`: propext, Classical.choice, Quot.sound
* `Solsab.Props.C102_programs`: propext, Classical.choice, Quot.sound
* `Solsab.Props.C103_shipped`: propext, Classical.choice, Quot.sound
* `Solsab.Props.C103_history`: propext, Classical.choice, Quot.sound
* `Solsab.Props.C103_reachable`: propext, Classical.choice, Quot.sound
* `Solsab.Props.C103_solvent`: propext, Classical.choice, Quot.sound
* `Solsab.Props.C103_revenue`: propext, Classical.choice, Quot.sound
* `Solsab.Props.C103_claims_once`: propext, Classical.choice, Quot.sound
* `Solsab.Props.C103_exit`: propext, Classical.choice, Quot.sound
* `Solsab.Props.C103_claim_exit`: propext, Classical.choice, Quot.sound
