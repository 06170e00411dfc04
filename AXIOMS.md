# Axioms of the theorems

Generated by tools/axioms.py from `#print axioms`.

| theorem | axioms |
|---|---|
| C01_base64_roundtrip | propext, Classical.choice, Quot.sound |
| C01_base64_roundtrip_stripped | propext, Classical.choice, Quot.sound |
| C01_base64_injective | propext, Classical.choice, Quot.sound |
| C02_base64_is_rfc4648 | propext, Classical.choice, Quot.sound |
| C02_base64_stripped_alphabet | propext, Classical.choice, Quot.sound |
| C02_base64_padding | propext, Classical.choice, Quot.sound |
| C02_base64_no_separator | propext, Classical.choice, Quot.sound |
| C02_base64_decode_length | propext, Classical.choice, Quot.sound |
| C03_encode_is_documented_text | propext, Classical.choice, Quot.sound |
| C03_encode_decode_roundtrip | propext, Classical.choice, Quot.sound |
| C04_text_unambiguous | propext, Classical.choice, Quot.sound |
| C04_encoders_agree_only_on_equal_requests | propext, Classical.choice, Quot.sound |
| C05_digest_enforced | propext, Classical.choice, Quot.sound |
| C05_wrong_digest_rejected | propext, Classical.choice, Quot.sound |
| C05_digest_enforced_embedded_nul | propext, Classical.choice, Quot.sound |
| C06_decoded_is_wellformed | propext, Classical.choice, Quot.sound |
| C07_decoder_memory_safe | propext, Classical.choice, Quot.sound |
| C08_proto_port_grammar | propext, Classical.choice, Quot.sound |
| C08_proto_port_in_context | propext, Classical.choice, Quot.sound |
| C09_access_grammar | propext, Classical.choice, Quot.sound |
| C09_command_grammar | propext, Classical.choice, Quot.sound |
| C09_nat_grammar | propext, Classical.choice, Quot.sound |
| C09_ipv4_value | propext, Classical.choice, Quot.sound |
| C09_username_grammar | propext, Classical.choice, Quot.sound |
| C10_accepted_in_bounds | propext, Classical.choice, Quot.sound |
| C10_decimal_roundtrip | propext, Classical.choice, Quot.sound |
| C10_out_of_bounds_refused | propext, Classical.choice, Quot.sound |
| C10_beyond_long_refused | propext, Classical.choice, Quot.sound |
| C10_numeral_value | propext, Classical.choice, Quot.sound |
| C11_aliasing_negation | propext, Quot.sound |
| C11_no_aliasing_partial | propext, Classical.choice, Quot.sound |
| C12_aes_roundtrip_partial | propext, Classical.choice, Quot.sound |
| C12_encrypt_decrypt_roundtrip_partial | propext, Classical.choice, Quot.sound |
| C12_ciphertext_shape | propext, Quot.sound |
| C12_pcbc_not_implemented | propext |
| C13_early_padding_out_of_bounds | propext, Quot.sound |
| C13_two_blocks_memory_safe_partial | propext, Quot.sound |
| C13_packet_memory_safe_partial | propext, Classical.choice, Quot.sound |
| C14_salted_prefix_removed_and_restored | propext, Classical.choice, Quot.sound |
| C14_gpg_prefix_removed_and_restored | propext, Classical.choice, Quot.sound |
| C14_http_prefix_accepted | propext, Quot.sound |
| C14_prefixed_packet_refused_partial | propext, Classical.choice, Quot.sound |
| C15_accepted_only_with_valid_hmac | propext, Classical.choice, Quot.sound |
| C15_nothing_decrypted_without_valid_hmac | propext, Classical.choice, Quot.sound |
| C15_no_effect_without_valid_hmac | propext, Classical.choice, Quot.sound |
| C16_constant_time_cmp_is_equality | propext, Classical.choice, Quot.sound |
| C16_constant_time_cmp_same_length | propext, Classical.choice, Quot.sound |
| C16_constant_time_cmp_inspects_all | propext, Classical.choice, Quot.sound |
| C17_end_to_end_partial | propext, Classical.choice, Quot.sound |
| C18_long_username_not_decodable | propext, Quot.sound |
| C18_long_timeout_not_decodable | propext, Quot.sound |
| C18_long_message_not_decodable | propext, Quot.sound |
| C18_local_nat_without_target_not_decodable | propext, Quot.sound |
| C18_nat_target_misread | propext, Quot.sound |
| C18_setters_then_decode_partial | propext, Classical.choice, Quot.sound |
| C19_recognised_iff_short_partial | propext, Classical.choice, Quot.sound |
| C19_long_messages_refused | propext, Classical.choice, Quot.sound |
| C20_stale_packet_returned | propext, Quot.sound |
| C20_packed_from_current_values_partial | propext, Classical.choice, Quot.sound |
| C21_type_always_known | propext, Classical.choice, Quot.sound |
| C21_timeout_setter_coherent | propext, Classical.choice, Quot.sound |
| C21_encoded_type_coherent | propext, Classical.choice, Quot.sound |
| C22_digest_name_roundtrip | propext, Quot.sound |
| C22_digest_unknown_number | propext, Classical.choice, Quot.sound |
| C22_digest_names_exact | propext, Classical.choice, Quot.sound |
| C22_enc_mode_roundtrip | propext, Quot.sound |
| C22_enc_mode_unknown_number | propext, Classical.choice, Quot.sound |
| C22_enc_mode_names_exact | propext, Classical.choice, Quot.sound |
| C23_replay_never_honoured | propext, Classical.choice, Quot.sound |
| C23_same_bytes_never_honoured | propext, Classical.choice, Quot.sound |
| C24_recorded_digest_recognised_partial | propext, Classical.choice, Quot.sound |
| C24_loaded_digest_recognised_partial | propext, Classical.choice, Quot.sound |
| C24_no_false_alarm | propext, Classical.choice, Quot.sound |
| C25_record_lost_after_crash | propext, Quot.sound |
| C25_recorded_digest_recognised_partial | propext, Classical.choice, Quot.sound |
| C25_recognised_until_stopped | propext, Classical.choice, Quot.sound |
| C26_padding_disguises | propext, Quot.sound |
| C26_http_disguises | propext, Quot.sound |
| C26_new_hmac_needed_partial | propext, Classical.choice, Quot.sound |
| C27_addresses | propext, Classical.choice, Quot.sound |
| C27_networks | propext, Classical.choice, Quot.sound |
| C28_network_list | propext, Classical.choice, Quot.sound |
| C28_cidr | propext, Classical.choice, Quot.sound |
| C28_host | propext, Classical.choice, Quot.sound |
| C28_any | propext, Classical.choice, Quot.sound |
| C28_bad_length | propext, Classical.choice, Quot.sound |
| C28_mask_32 | propext |
| C29_duplicates_break | propext |
| C29_port_authorisation_partial | propext, Classical.choice, Quot.sound |
| C29_exact | propext, Classical.choice, Quot.sound |
| C30_restrict_wins | propext, Classical.choice, Quot.sound |
| C30_allowed_not_restricted | propext, Quot.sound |
| C31_two_stanzas_act | propext, Quot.sound |
| C31_first_full_match_partial | propext, Classical.choice, Quot.sound |
| C32_expired_never_acts | propext, Classical.choice, Quot.sound |
| C32_stays_expired | propext, Classical.choice, Quot.sound |
| C33_age_overflows | propext, Quot.sound |
| C33_age_limit_partial | propext, Classical.choice, Quot.sound |
| C34_username | propext, Classical.choice, Quot.sound |
| C35_address | propext, Classical.choice, Quot.sound |
| C36_stanza_timeout_not_capped | propext, Quot.sound |
| C36_access_time_partial | propext, Classical.choice, Quot.sound |
| C37_rootly_runs_as_root | propext, Quot.sound |
| C37_command_partial | propext, Classical.choice, Quot.sound |
| C38_nat_only_when_enabled | propext, Classical.choice, Quot.sound |
| C39_tables_partial | propext, Classical.choice, Quot.sound |
| C39_input_rules_partial | propext, Classical.choice, Quot.sound |
| C39_long_name | propext, Quot.sound |
| C39_lets_in_partial | propext, Classical.choice, Quot.sound |
| C40_check_partial | propext, Classical.choice, Quot.sound |
| C40_long_listing | propext, Quot.sound |
| C41_swept_partial | propext, Classical.choice, Quot.sound |
| C41_postponed | propext, Quot.sound |
| C41_grant_partial | propext, Classical.choice, Quot.sound |
| C41_prompt_partial | propext, Classical.choice, Quot.sound |
| C41_stale | propext, Quot.sound |
| C42_failures_partial | propext, Classical.choice, Quot.sound |
| C42_live_rule_stays | propext, Classical.choice, Quot.sound |
| C42_refused | propext, Quot.sound |
| C43_every_chain_partial | propext, Classical.choice, Quot.sound |
| C43_short_name | propext |
| C44_substitution_partial | propext, Classical.choice, Quot.sound |
| C44_stray_dollar_dropped | propext |
| C44_command_truncated | propext |
| C44_dropping | propext, Classical.choice, Quot.sound |
| C45_write_outside_buffer | propext |
| C45_in_bounds_partial | propext, Classical.choice, Quot.sound |
| C45_plain_text | propext, Quot.sound |
| C45_room_partial | propext, Classical.choice, Quot.sound |
| C46_closed_exactly_once | propext, Classical.choice, Quot.sound |
| C46_open_schedules_close | propext, Classical.choice, Quot.sound |
| C47_payload_in_frame | propext, Quot.sound |
| C48_reads_in_frame_partial | propext, Quot.sound |
| C48_tag | propext, Quot.sound |
| C48_short | propext, Quot.sound |
| C49_payload_partial | propext, Quot.sound |
| C49_options_dropped | propext, Classical.choice, Quot.sound |
| C49_options_misread | propext, Quot.sound |
| C50_only_the_data | propext, Classical.choice, Quot.sound |
| C50_accepted_partial | propext, Classical.choice, Quot.sound |
| C50_accepted_forwarded_partial | propext, Classical.choice, Quot.sound |
| C50_round_trip_partial | propext, Classical.choice, Quot.sound |
| C50_proxy_request | propext, Quot.sound |
| C50_long_request_lost | propext, Quot.sound |
| C51_last_header_misread | propext, Quot.sound |
| C51_forwarded_address_partial | propext, Classical.choice, Quot.sound |
| C51_other_value_ignored | propext, Classical.choice, Quot.sound |
| C51_no_header_no_address | propext, Classical.choice, Quot.sound |
| C52_shared_passphrase_accepted | none |
| C52_legacy_shared_key_accepted | none |
| C52_key_partial | propext |
| C52_passphrase_partial | propext |
| C52_accepted_keys_differ | propext |
| C53_defaults_safe | propext, Quot.sound |
| C53_defaults_frame | propext |
| C54_number_partial | propext, Classical.choice, Quot.sound |
| C54_opened_partial | propext, Classical.choice, Quot.sound |
| C54_safe_partial | propext, Classical.choice, Quot.sound |
| C54_refused | propext |
| C54_foreign | propext |
| C54_kept | propext |
| C55_check_partial | propext, Classical.choice, Quot.sound |
| C55_request_partial | propext, Classical.choice, Quot.sound |
| C55_history_partial | propext, Classical.choice, Quot.sound |
| C55_cleanup | propext, Quot.sound |
| C55_unlabelled | propext |
| C55_other_action | propext |
| C55_postponed | propext |
| C55_overflow | propext |
| C56_cycle_runs_in_test_mode | propext, Quot.sound |
| C56_test_mode_partial | propext, Classical.choice, Quot.sound |
| C57_restored_partial | propext, Classical.choice, Quot.sound |
| C57_safe | propext, Classical.choice, Quot.sound |
| C57_quoted | none |
| C57_lost | propext, Quot.sound |
| C58_hmac_is_rfc2104 | propext, Classical.choice, Quot.sound |
| C58_set_hmac | propext, Classical.choice, Quot.sound |
| C58_long_key_refused | propext |
| C59_decode_exact | propext, Classical.choice, Quot.sound |
| C60_key_derivation | propext |
| C60_legacy_key_derivation | propext, Quot.sound |
| C61_ciphertext_is_standard | propext, Classical.choice, Quot.sound |
| C62_encrypt_is_fips197 | propext, Classical.choice, Quot.sound |
| C63_decrypt_inverts_encrypt | propext, Classical.choice, Quot.sound |
| C63_cipher_lawful | propext, Classical.choice, Quot.sound |
| C64_forwarded_overflow | propext, Quot.sound |
| C64_forwarded_overread | propext, Quot.sound |
| C64_no_overflow_partial | propext, Classical.choice, Quot.sound |
| C65_early_padding_undefined | propext, Quot.sound |
| C65_sudo_group_undefined | propext, Quot.sound |
| C65_no_undefined_behaviour_partial | propext, Classical.choice, Quot.sound |
| C65_history_partial | propext, Classical.choice, Quot.sound |
| C66_sudo_partial | propext, Classical.choice, Quot.sound |
| C66_option_in_message | propext, Quot.sound |
| C66_group_ignored | propext, Quot.sound |
| C67_words_partial | propext, Quot.sound |
| C67_split_exists | propext, Classical.choice, Quot.sound |
| C67_long_word | propext, Quot.sound |
| C68_tables_partial | propext, Classical.choice, Quot.sound |
| C68_first_port_only | propext, Quot.sound |
| C68_forward_to_anywhere | propext, Classical.choice, Quot.sound |
| C68_forward_all_partial | propext, Classical.choice, Quot.sound |
| C68_forward_all_matches | propext |
| C68_false_masquerade_all | propext, Quot.sound |
| C68_false_force_snat_ignored | propext, Quot.sound |
| C68_false_nat_to_nowhere | propext, Quot.sound |
| C68_no_source_chain | propext, Quot.sound |
| C69_target_safe_partial | propext, Quot.sound |
| C69_overflow | propext, Quot.sound |
| C69_target_cut | propext |
| C70_udp | propext, Quot.sound |
| C70_tcp | propext, Quot.sound |
| C70_icmp | propext, Quot.sound |
| C70_fits | propext, Quot.sound |
| C71_icmp_checksum | propext, Classical.choice, Quot.sound |
| C72_last_partial | propext, Classical.choice, Quot.sound |
| C72_stuck | propext, Classical.choice, Quot.sound |
| C72_stuck_example | propext, Classical.choice, Quot.sound |
| C73_kept_partial | propext, Classical.choice, Quot.sound |
| C73_purged_partial | propext, Classical.choice, Quot.sound |
| C73_idle | propext, Classical.choice, Quot.sound |
| C73_truncated | propext |
| C74_md5_is_rfc1321 | propext, Classical.choice, Quot.sound |
| C74_sha1_is_fips180 | propext, Classical.choice, Quot.sound |
| C74_sha256_is_fips180 | propext, Classical.choice, Quot.sound |
| C74_sha384_is_fips180 | propext, Classical.choice, Quot.sound |
| C74_sha512_is_fips180 | propext, Classical.choice, Quot.sound |
| C74_md5_any_pieces | propext, Classical.choice, Quot.sound |
| C74_sha1_any_pieces | propext, Classical.choice, Quot.sound |
| C74_sha256_any_pieces | propext, Classical.choice, Quot.sound |
| C74_sha384_any_pieces | propext, Classical.choice, Quot.sound |
| C74_sha512_any_pieces | propext, Classical.choice, Quot.sound |
| C74_sha256_round_constants | propext, Quot.sound |
| C74_sha512_round_constants | propext, Quot.sound |
| C74_sha2_initial_values | propext, Quot.sound |
| C74_md5_long_message_truncated | propext, Classical.choice, Quot.sound |
| C74_sha1_undefined_from_two_gigabytes | propext, Quot.sound |
| C75_sha3_256_is_fips202 | propext, Classical.choice, Quot.sound |
| C75_sha3_512_is_fips202 | propext, Classical.choice, Quot.sound |
| C75_permutation_is_keccak | propext, Classical.choice, Quot.sound |
| C75_rotations_defined | propext, Quot.sound |
| C76_hmac_is_rfc2104_over_standard | propext, Classical.choice, Quot.sound |
| C77_standard_digests_lawful | propext, Classical.choice, Quot.sound |
| C77_accepted_only_with_standard_hmac | propext, Classical.choice, Quot.sound |
| C77_end_to_end_partial | propext, Classical.choice, Quot.sound |
| C78_entries_partial | propext, Classical.choice, Quot.sound |
| C78_line_partial | propext, Classical.choice, Quot.sound |
| C78_safe | propext, Classical.choice, Quot.sound |
| C78_one_character_not_trimmed | propext |
| C79_configured_partial | propext, Classical.choice, Quot.sound |
| C79_timeout_wraps | propext |
| C79_expiry_text_ignored | propext |
| C79_month_not_checked | propext |
| C79_nat_port_cut | propext |
| C79_placeholder_ends_keys_file | propext, Quot.sound |
| C79_false_masquerade_off_ends_snat | propext |
| C80_unusable_stanza_kept | propext |
| C80_usable_partial | propext, Classical.choice, Quot.sound |
| C81_in_range | propext, Classical.choice, Quot.sound |
| C82_cycles_refused | propext, Classical.choice, Quot.sound |
| C82_include_only_adds | propext, Classical.choice, Quot.sound |
| C83_group_of_the_wrong_user | propext |
| C83_user_and_group_partial | propext, Classical.choice, Quot.sound |
| C83_group_name_is_a_user | propext |
| C84_lists_expanded_again | propext |
| C84_one_file_partial | propext, Classical.choice, Quot.sound |
| C85_keys | propext, Classical.choice, Quot.sound |
| C85_effects_follow_the_file | propext, Classical.choice, Quot.sound |
| C85_empty_hmac_key | propext, Quot.sound |
| C86_server_reads_what_was_asked_partial | propext, Classical.choice, Quot.sound |
| C86_command_with_nat_is_lost | propext, Quot.sound |
| C86_long_timeout_is_lost | propext, Quot.sound |
| C86_empty_hmac_key_is_lost | propext, Quot.sound |
| C86_nat_port_is_cut | propext, Quot.sound |
| C86_access_is_needed | propext, Classical.choice, Quot.sound |
| C87_last_option_wins_partial | propext, Classical.choice, Quot.sound |
| C87_values_are_bent | propext |
| C88_only_checked_requests | propext, Classical.choice, Quot.sound |
| C88_nat_target_is_a_host | propext, Classical.choice, Quot.sound |
| C89_keys_as_given_partial | propext, Classical.choice, Quot.sound |
| C90_no_undefined_behaviour_partial | propext, Classical.choice, Quot.sound |
| C90_base64_key_overflows | propext |
| C90_key_file_overflows | propext |
| C90_access_overflows | propext |
| C90_access_overflows_by_one | propext |
| C90_time_offset_overflows | propext |
| C91_entries_are_options_partial | propext, Classical.choice, Quot.sound |
| C91_missing_stanza_refused | propext, Classical.choice, Quot.sound |
| C91_unknown_entry_refused | propext, Classical.choice, Quot.sound |
| C91_bad_address_refused | propext, Classical.choice, Quot.sound |
| C91_server_reads_what_the_rc_file_asks_partial | propext, Classical.choice, Quot.sound |
| C91_resolve_cannot_override | propext |
| C91_address_switches_resolution_off | propext |
| C91_hmac_type_alone | propext |
| C91_hmac_key_file_is_taken_for_the_key_file | propext |
| C91_no_does_not_reset | propext |
| C91_plain_key_precedes | propext |
| C91_timeouts | propext |
| C92_saved_stanza_is_the_command_line_partial | propext, Classical.choice, Quot.sound |
| C92_kept_entries_partial | propext, Classical.choice, Quot.sound |
| C92_false_for_a_stanza_given_twice | propext |
| C92_false_for_large_numbers | propext |
| C92_false_for_two_offsets | propext |
| C92_false_for_other_options | propext |
| C92_false_for_a_kept_key | propext |
| C93_old_or_new_text_is_there | propext, Quot.sound |
| C93_moment_without_rc_file | propext, Quot.sound |
| C93_leftover_blocks_every_update | propext |
| C93_crash_leaves_leftover | propext, Quot.sound |
| C93_update_that_gives_up | propext |
| C94_cleanup_partial | propext, Classical.choice, Quot.sound |
| C94_kept_at_exit | none |
| C94_start_partial | propext, Classical.choice, Quot.sound |
| C94_false_if_refused | propext, Quot.sound |
| C94_false_if_deletion_refused | propext, Quot.sound |
| C94_false_for_position_0 | propext, Quot.sound |
| C94_false_for_many_jumps | propext, Quot.sound |
| C94_false_for_foreign_jump | propext, Quot.sound |
| C95_no_trace_partial | propext, Classical.choice, Quot.sound |
| C95_meanwhile_partial | propext, Classical.choice, Quot.sound |
| C95_false_if_refused | propext, Quot.sound |
| C95_restart_drops_access | propext, Quot.sound |
| C96_values_partial | propext, Classical.choice, Quot.sound |
| C96_last_line_partial | propext, Classical.choice, Quot.sound |
| C96_one_file_partial | propext, Classical.choice, Quot.sound |
| C96_false_stale_suffix | propext, Quot.sound |
| C96_false_read_twice | propext, Quot.sound |
| C96_false_two_files | propext, Quot.sound |
| C96_false_own_override | propext, Quot.sound |
| C96_names | none |
| C96_flags | propext, Quot.sound |
| C97_numbers_partial | propext, Classical.choice, Quot.sound |
| C97_false_wraps | propext, Quot.sound |
| C97_false_junk | propext, Quot.sound |
| C97_false_port | propext, Quot.sound |
| C97_verbosity_partial | propext, Classical.choice, Quot.sound |
| C98_chains_partial | propext, Classical.choice, Quot.sound |
| C98_default_chains_partial | propext, Quot.sound |
| C98_false_long_name | propext, Quot.sound |
| C98_switches | propext, Classical.choice, Quot.sound |
| C99_memory_partial | propext, Quot.sound |
| C99_false_empty_run_dir | propext, Quot.sound |
| C99_false_empty_override | propext, Quot.sound |
| C100_knock_is_answered_partial | propext, Classical.choice, Quot.sound |
| C100_command_is_run_partial | propext, Classical.choice, Quot.sound |
| C100_knock_opens_the_door_partial | propext, Classical.choice, Quot.sound |
| C100_long_packets_are_lost | propext, Quot.sound |
| C100_short_commands_are_lost | propext, Quot.sound |
| C100_nat_knock_opens_the_way_partial | propext, Classical.choice, Quot.sound |
| C101_captured | propext, Classical.choice, Quot.sound |
| C101_datagram | propext, Classical.choice, Quot.sound |
| C101_capture_loop | propext, Classical.choice, Quot.sound |
| C101_udp_loop | propext, Classical.choice, Quot.sound |
| C101_datagram_as_captured_partial | propext, Classical.choice, Quot.sound |
| C101_long_datagram | propext, Quot.sound |
| C101_datagram_destination | propext, Classical.choice, Quot.sound |
| C102_every_rule_has_a_packet | propext, Classical.choice, Quot.sound |
| C103_rules_follow_the_file | propext, Classical.choice, Quot.sound |
| C103_effects_follow_the_file | propext, Classical.choice, Quot.sound |
| C104_every_cycle_is_closed_once_partial | propext, Classical.choice, Quot.sound |
| C104_on_time_udp | propext, Classical.choice, Quot.sound |
| C104_on_time_capture | propext, Classical.choice, Quot.sound |
| C104_false_if_the_daemon_ends | propext, Quot.sound |
| C104_false_for_a_long_command | propext, Quot.sound |
| C105_ends_only_when_told | propext |
| C105_reloads_only_when_told | propext |
| C105_term_is_obeyed_partial | propext, Quot.sound |
| C105_int_is_obeyed_partial | propext, Quot.sound |
| C105_term_is_kept_partial | propext, Quot.sound |
| C105_false_in_the_window | propext, Classical.choice, Quot.sound |
| C105_false_during_a_reload | propext, Classical.choice, Quot.sound |
| C105_false_for_good_after_a_reload | propext, Classical.choice, Quot.sound |
| C105_false_with_hup | propext, Classical.choice, Quot.sound |
| C105_hup_is_obeyed_partial | propext, Quot.sound |
| C105_hup_is_kept_partial | propext, Quot.sound |
| C105_false_hup_in_the_window | propext, Classical.choice, Quot.sound |
| C105_false_hup_during_a_reload | propext, Classical.choice, Quot.sound |
| C106_one_daemon_partial | propext, Classical.choice, Quot.sound |
| C106_one_daemon_numbered_partial | propext, Classical.choice, Quot.sound |
| C106_right_process_is_signalled_partial | propext, Classical.choice, Quot.sound |
| C106_status_partial | propext, Classical.choice, Quot.sound |
| C106_one_daemon_stays_partial | propext, Classical.choice, Quot.sound |
| C106_false_after_hup | propext, Classical.choice, Quot.sound |
| C106_false_in_a_race | propext |
| C106_false_for_a_number_that_comes_again | propext |
| C106_status_leaves_its_number | propext, Classical.choice, Quot.sound |
| C106_status_turns_a_daemon_away | propext, Quot.sound |
| C107_loaded_partial | propext, Classical.choice, Quot.sound |
| C107_keys_refused | propext |
| C107_values_refused | propext |
| C107_service_name_is_port_0 | propext |
| C108_output | propext, Classical.choice, Quot.sound |
| C108_generates | propext, Classical.choice, Quot.sound |
| C108_false_for_long_keys_and_sha3 | propext, Quot.sound |
| C108_false_without_urandom | propext, Classical.choice, Quot.sound |
| C108_daemon_has_the_keys | propext, Classical.choice, Quot.sound |
| C108_client_has_the_keys_partial | propext, Classical.choice, Quot.sound |
| C108_both_ends_partial | propext, Classical.choice, Quot.sound |
| C109_input_rules_partial | propext, Classical.choice, Quot.sound |
| C109_tables_partial | propext, Classical.choice, Quot.sound |
| C109_nat_partial | propext, Classical.choice, Quot.sound |
| C109_as_iptables_partial | propext, Classical.choice, Quot.sound |
| C109_check_partial | propext, Classical.choice, Quot.sound |
| C109_failures_partial | propext, Classical.choice, Quot.sound |
| C109_every_chain_partial | propext, Classical.choice, Quot.sound |
| C109_start_partial | propext, Classical.choice, Quot.sound |
| C109_cleanup_partial | propext, Classical.choice, Quot.sound |
| C109_kept_at_exit | none |
| C109_long_name | propext, Quot.sound |
| C109_refused | propext, Quot.sound |
| C109_start_refused | propext, Quot.sound |
| C109_start_deletion_refused | propext, Quot.sound |
| C109_killed_question | propext, Quot.sound |
| C109_no_trace_partial | propext, Classical.choice, Quot.sound |
| C109_forward_all_partial | propext, Classical.choice, Quot.sound |
| C110_typed_partial | propext, Quot.sound |
| C110_safe | propext, Quot.sound |
| C110_long_keys_are_cut | propext, Quot.sound |
| C110_backspace_of_a_dropped_character | propext, Quot.sound |
| C110_delete_key | propext, Quot.sound |
| C110_ctrl_c_is_an_empty_key | propext, Quot.sound |
| C110_ctrl_c_sends_a_packet | propext, Quot.sound |
| C110_client_uses_typed_key_partial | propext, Quot.sound |
| C110_client_uses_both_typed_keys_partial | propext, Quot.sound |
| C110_two_keys_one_descriptor | propext, Quot.sound |
| C111_any_answer_is_safe | propext, Quot.sound |
| C111_answer | propext, Classical.choice, Quot.sound |
| C111_only_addresses_partial | propext, Classical.choice, Quot.sound |
| C111_false_for_odd_answers | propext, Quot.sound |
| C111_false_for_long_answers | propext, Quot.sound |
| C111_url_partial | propext, Classical.choice, Quot.sound |
| C111_false_for_long_ports | propext, Classical.choice, Quot.sound |
| C111_false_for_a_colon_in_the_path | propext |
| C111_false_for_hostile_urls | propext |
| C111_parts_fit | propext, Quot.sound |
| C111_https_is_not_asked_in_the_clear | propext, Quot.sound |
| C111_http_partial | propext, Classical.choice, Quot.sound |
| C111_default_hosts | propext, Quot.sound |
| C111_https_partial | propext, Classical.choice, Quot.sound |
| C111_resolving_is_safe_partial | propext, Classical.choice, Quot.sound |
| C111_resolved_text | propext, Classical.choice, Quot.sound |
| C111_server_reads_resolved_partial | propext, Classical.choice, Quot.sound |
| C112_output | propext, Classical.choice, Quot.sound |
| C112_any_output_is_safe | propext, Classical.choice, Quot.sound |
| C112_search_partial | propext, Classical.choice, Quot.sound |
| C112_getline_partial | propext, Classical.choice, Quot.sound |
| C112_runs_as | propext, Quot.sound |
| C112_no_program_without_the_user | none |
| C112_run_extcmd_is_sound | propext, Classical.choice, Quot.sound |
| C112_search_extcmd_is_sound | propext, Classical.choice, Quot.sound |
| C112_false_for_missing_programs | propext, Quot.sound |
| C112_false_for_refused_users | propext, Quot.sound |
| C112_false_for_groups | none |
| C112_false_for_long_output | none |
| C112_false_for_long_lines | propext, Quot.sound |
| C113_requests_are_signed | propext, Classical.choice, Quot.sound |
| C113_listed_signers_get_in | propext, Classical.choice, Quot.sound |
| C113_false_for_equal_short_ids | propext, Quot.sound |
| C113_false_for_long_ids | propext, Quot.sound |
| C113_passphrase_is_there | propext, Classical.choice, Quot.sound |
| C114_every_nat_rule_has_a_packet_partial | propext, Classical.choice, Quot.sound |
| C114_nat_rules_follow_the_file_partial | propext, Classical.choice, Quot.sound |
| C114_open_ports_do_not_hold | propext, Quot.sound |
| C114_open_ports_do_not_hold_behind | propext, Quot.sound |
| C115_gpg_round_trip_partial | propext, Classical.choice, Quot.sound |
| C115_only_one_format_is_tried | propext, Classical.choice, Quot.sound |
| C115_other_formats_are_lost | propext, Classical.choice, Quot.sound |
| C115_gpg_knock_is_answered_partial | propext, Classical.choice, Quot.sound |
| C115_gpg_command_is_run_partial | propext, Classical.choice, Quot.sound |
| C115_curve25519_is_lost | propext, Quot.sound |
| C116_search_partial | propext, Classical.choice, Quot.sound |
| C116_request_partial | propext, Classical.choice, Quot.sound |
| C116_same_second_twice | propext, Quot.sound |
| C116_output_twice | propext, Quot.sound |
| C116_nat_target_mistaken | propext, Quot.sound |
| C117_serves_partial | propext |
| C117_closes_everything | propext, Quot.sound |
| C117_kept_partial | Quot.sound |
| C117_false_the_firewall_is_cleared | propext, Classical.choice, Quot.sound |
| C117_false_access_is_lost | propext, Quot.sound |
| C117_false_two_daemons | propext, Quot.sound |
| C118_never_started_again | none |
| C118_kills_a_stale_number | propext |
| C118_started_again_partial | propext, Quot.sound |
| C119_payload_partial | propext, Classical.choice, Quot.sound |
| C119_false_low_addresses | propext, Classical.choice, Quot.sound |
| C119_false_low_addresses_do_nothing | propext, Classical.choice, Quot.sound |
| C119_false_other_addresses | propext |
| C120_cycles_are_never_closed | propext, Quot.sound |
| C120_not_stopped_under_traffic | propext, Quot.sound |
| C120_stops_partial | propext, Quot.sound |
| C120_goes_on | propext, Quot.sound |
| C120_errors_end | propext, Quot.sound |
| C120_limit_counts_octets | propext, Classical.choice, Quot.sound |
| C120_no_verdicts | propext, Quot.sound |
| C120_every_rule_has_a_packet | propext, Classical.choice, Quot.sound |
| C121_once_partial | propext |
| C121_false_a_full_disk | propext |
| C121_new_packets | propext |
| C121_replays_are_counted | propext, Classical.choice, Quot.sound |
| C121_false_not_remembered | propext, Quot.sound |
| C122_put_aside_partial | propext |
| C122_without | propext |
| C122_false_a_reload_forgets | propext |
| C122_false_put_aside_is_lost | propext |
| C122_false_replay_after_reload | propext, Quot.sound |
| C123_in_bounds | propext, Quot.sound |
| C123_listing | propext, Quot.sound |
| C123_fields_partial | propext, Quot.sound |
| C123_false_two_contexts | propext, Quot.sound |
| C124_only_the_way | propext, Quot.sound |
| C124_defined | propext, Quot.sound |
| C124_made_partial | propext, Classical.choice, Quot.sound |
| C124_false_slashes | propext, Classical.choice, Quot.sound |
| C124_as_it_is | propext, Quot.sound |
| C124_relative | none |
| C124_goes_on | propext, Quot.sound |
| C124_false_long_path | propext, Classical.choice, Quot.sound |
| C125_released_once_partial | propext, Classical.choice, Quot.sound |
| C125_no_leak_partial | propext, Classical.choice, Quot.sound |
| C125_false_released_twice | propext, Classical.choice, Quot.sound |
| C125_false_lost_key | none |
| C125_false_lost_signature | none |
| C126_works_partial | propext, Classical.choice, Quot.sound |
| C126_false_after_failure | propext, Classical.choice, Quot.sound |
| C126_failed_signer | propext, Quot.sound |
| C127_says_so_partial | propext |
| C127_no_number | none |
| C127_false_not_permitted | propext |
| C127_can_clean_up | propext |
| C127_killed | propext, Quot.sound |
| C127_term_first | propext |
| C128_start_partial | propext, Quot.sound |
| C128_linked | propext, Quot.sound |
| C128_false_other_anchor | propext, Quot.sound |
| C129_daemon_partial | propext, Classical.choice, Quot.sound |
| C129_client_partial | propext, Classical.choice, Quot.sound |
| C129_rc_file_partial | propext, Classical.choice, Quot.sound |
| C129_false_used_by_daemon | propext, Classical.choice, Quot.sound |
| C129_false_rc_file_exchanged | propext |
| C129_false_fstat_fails | propext |
| C130_paths | propext, Classical.choice, Quot.sound |
| C130_no_links | propext, Classical.choice, Quot.sound |
| C131_saved_partial | propext, Quot.sound |
| C131_appended | propext, Quot.sound |
| C131_history | propext, Quot.sound |
| C131_errors | propext, Quot.sound |
| C131_false_written_through | none |
| C132_one_shot | propext, Quot.sound |
| C132_test_changes_nothing | propext |
| C132_cleans_up_partial | propext, Classical.choice, Quot.sound |
| C132_false_bad_reload | propext |
| C132_false_not_needed_any_more | propext |
| C132_serves_when_ready | propext, Classical.choice, Quot.sound |
| C132_one_shot_status | propext |
| C132_which_server | propext, Quot.sound |
| C132_which_server_nfq | propext, Quot.sound |
| C133_erased_partial | propext, Classical.choice, Quot.sound |
| C133_false_two_lines | propext |
| C133_false_empty_line | propext |
| C133_false_overrun | propext, Quot.sound |
| C134_sent_once | propext, Classical.choice, Quot.sound |
| C134_not_sent | none |
| C134_sockets_closed | propext, Classical.choice, Quot.sound |
| C134_sent_while_open | propext, Classical.choice, Quot.sound |
| C134_status_partial | propext, Quot.sound |
| C134_false_short | propext, Quot.sound |
