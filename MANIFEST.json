{
 "claims": [
  {
   "property": "C01",
   "status": "proved",
   "theorems": [
    "Fwknop.Props.C01_base64_roundtrip",
    "Fwknop.Props.C01_base64_roundtrip_stripped",
    "Fwknop.Props.C01_base64_injective"
   ],
   "note": "All byte strings; also after the '=' signs are stripped, as the SPA protocol does."
  },
  {
   "property": "C02",
   "status": "proved",
   "theorems": [
    "Fwknop.Props.C02_base64_is_rfc4648",
    "Fwknop.Props.C02_base64_stripped_alphabet",
    "Fwknop.Props.C02_base64_padding",
    "Fwknop.Props.C02_base64_no_separator",
    "Fwknop.Props.C02_base64_decode_length"
   ],
   "note": ""
  },
  {
   "property": "C03",
   "status": "proved",
   "theorems": [
    "Fwknop.Props.C03_encode_is_documented_text",
    "Fwknop.Props.C03_encode_decode_roundtrip"
   ],
   "note": "All nine fields, all seven digest algorithms, arbitrary bytes after the terminator in the receiver's buffer. The hash functions are a parameter assumed only to return digestLen bytes."
  },
  {
   "property": "C04",
   "status": "proved",
   "theorems": [
    "Fwknop.Props.C04_text_unambiguous",
    "Fwknop.Props.C04_encoders_agree_only_on_equal_requests"
   ],
   "note": ""
  },
  {
   "property": "C05",
   "status": "proved",
   "theorems": [
    "Fwknop.Props.C05_digest_enforced",
    "Fwknop.Props.C05_wrong_digest_rejected",
    "Fwknop.Props.C05_digest_enforced_embedded_nul"
   ],
   "note": "Exact for plaintexts without embedded NUL; with embedded NULs the digest covers the recorded length (C05_digest_enforced_embedded_nul)."
  },
  {
   "property": "C06",
   "status": "proved",
   "theorems": [
    "Fwknop.Props.C06_decoded_is_wellformed"
   ],
   "note": ""
  },
  {
   "property": "C07",
   "status": "proved",
   "theorems": [
    "Fwknop.Props.C07_decoder_memory_safe"
   ],
   "note": ""
  },
  {
   "property": "C08",
   "status": "proved",
   "theorems": [
    "Fwknop.Props.C08_proto_port_grammar",
    "Fwknop.Props.C08_proto_port_in_context"
   ],
   "note": ""
  },
  {
   "property": "C09",
   "status": "proved",
   "theorems": [
    "Fwknop.Props.C09_access_grammar",
    "Fwknop.Props.C09_command_grammar",
    "Fwknop.Props.C09_nat_grammar",
    "Fwknop.Props.C09_ipv4_value",
    "Fwknop.Props.C09_username_grammar"
   ],
   "note": "Both grammars exactly, plus NAT targets, usernames and the value of dotted quads."
  },
  {
   "property": "C10",
   "status": "proved",
   "theorems": [
    "Fwknop.Props.C10_accepted_in_bounds",
    "Fwknop.Props.C10_decimal_roundtrip",
    "Fwknop.Props.C10_out_of_bounds_refused",
    "Fwknop.Props.C10_beyond_long_refused",
    "Fwknop.Props.C10_numeral_value"
   ],
   "note": "Every text and every pair of bounds."
  },
  {
   "property": "C11",
   "status": "partial",
   "theorems": [
    "Fwknop.Props.C11_aliasing_negation",
    "Fwknop.Props.C11_no_aliasing_partial"
   ],
   "note": "The full statement is false of the code (the long is truncated to int before the bounds are checked): C11_aliasing_negation is the witness. Proved for values below 2^31."
  },
  {
   "property": "C12",
   "status": "partial",
   "theorems": [
    "Fwknop.Props.C12_aes_roundtrip_partial",
    "Fwknop.Props.C12_encrypt_decrypt_roundtrip_partial",
    "Fwknop.Props.C12_ciphertext_shape",
    "Fwknop.Props.C12_pcbc_not_implemented"
   ],
   "note": "Partial: PCBC is accepted by the setter but not implemented (C12_pcbc_not_implemented). Proved for every other mode of cipher_funcs.c over any lawful block cipher."
  },
  {
   "property": "C13",
   "status": "partial",
   "theorems": [
    "Fwknop.Props.C13_early_padding_out_of_bounds",
    "Fwknop.Props.C13_two_blocks_memory_safe_partial",
    "Fwknop.Props.C13_packet_memory_safe_partial"
   ],
   "note": "The full statement is false of the code: C13_early_padding_out_of_bounds is a ciphertext that makes the padding removal write before its buffer. Proved for ciphertexts of at least two blocks after the salt header and for whole packets of the protocol's minimum size."
  },
  {
   "property": "C14",
   "status": "partial",
   "theorems": [
    "Fwknop.Props.C14_salted_prefix_removed_and_restored",
    "Fwknop.Props.C14_gpg_prefix_removed_and_restored",
    "Fwknop.Props.C14_http_prefix_accepted",
    "Fwknop.Props.C14_prefixed_packet_refused_partial"
   ],
   "note": "Prefix removal and restoration, symmetric and GnuPG; a raw packet that carries the prefix is dropped. False over HTTP (witness), where the partial theorem does not apply."
  },
  {
   "property": "C15",
   "status": "proved",
   "theorems": [
    "Fwknop.Props.C15_accepted_only_with_valid_hmac",
    "Fwknop.Props.C15_nothing_decrypted_without_valid_hmac",
    "Fwknop.Props.C15_no_effect_without_valid_hmac"
   ],
   "note": "Acceptance implies a valid RFC 2104 tag; without it the result does not depend on cipher, GnuPG or key. Lifted to the server: no effect without a valid tag under the acting stanza's key."
  },
  {
   "property": "C16",
   "status": "proved",
   "theorems": [
    "Fwknop.Props.C16_constant_time_cmp_is_equality",
    "Fwknop.Props.C16_constant_time_cmp_same_length",
    "Fwknop.Props.C16_constant_time_cmp_inspects_all"
   ],
   "note": ""
  },
  {
   "property": "C17",
   "status": "partial",
   "theorems": [
    "Fwknop.Props.C17_end_to_end_partial"
   ],
   "note": "Proved for every API history and every request that fits the receiver's limits (287 characters of text, 271 with HMAC, the limits of C19)."
  },
  {
   "property": "C18",
   "status": "partial",
   "theorems": [
    "Fwknop.Props.C18_long_username_not_decodable",
    "Fwknop.Props.C18_long_timeout_not_decodable",
    "Fwknop.Props.C18_long_message_not_decodable",
    "Fwknop.Props.C18_local_nat_without_target_not_decodable",
    "Fwknop.Props.C18_nat_target_misread",
    "Fwknop.Props.C18_setters_then_decode_partial"
   ],
   "note": "The full statement is false of the code: five witnesses (long username, long message, timeout above 65536, local NAT without target, NAT target misread). Proved when the receiver's limits hold and type, message, NAT target and timeout are coherent."
  },
  {
   "property": "C19",
   "status": "partial",
   "theorems": [
    "Fwknop.Props.C19_recognised_iff_short_partial",
    "Fwknop.Props.C19_long_messages_refused"
   ],
   "note": "The full statement is false of the code: texts of 288 characters or more are taken for GnuPG (C19_long_messages_refused). The partial theorem is an exact characterisation."
  },
  {
   "property": "C20",
   "status": "partial",
   "theorems": [
    "Fwknop.Props.C20_stale_packet_returned",
    "Fwknop.Props.C20_packed_from_current_values_partial"
   ],
   "note": "The full statement is false of the code: C20_stale_packet_returned. Proved for packets taken after a new fko_spa_data_final: history independence."
  },
  {
   "property": "C21",
   "status": "proved",
   "theorems": [
    "Fwknop.Props.C21_type_always_known",
    "Fwknop.Props.C21_timeout_setter_coherent",
    "Fwknop.Props.C21_encoded_type_coherent"
   ],
   "note": "Command messages keep their type; the encoder re-establishes coherence."
  },
  {
   "property": "C22",
   "status": "proved",
   "theorems": [
    "Fwknop.Props.C22_digest_name_roundtrip",
    "Fwknop.Props.C22_digest_unknown_number",
    "Fwknop.Props.C22_digest_names_exact",
    "Fwknop.Props.C22_enc_mode_roundtrip",
    "Fwknop.Props.C22_enc_mode_unknown_number",
    "Fwknop.Props.C22_enc_mode_names_exact"
   ],
   "note": "hmac_digest_* have the same tables as digest_*."
  },
  {
   "property": "C23",
   "status": "proved",
   "theorems": [
    "Fwknop.Props.C23_replay_never_honoured",
    "Fwknop.Props.C23_same_bytes_never_honoured"
   ],
   "note": "Over every history of packets handled by incoming_spa; also for identical bytes."
  },
  {
   "property": "C24",
   "status": "partial",
   "theorems": [
    "Fwknop.Props.C24_recorded_digest_recognised_partial",
    "Fwknop.Props.C24_loaded_digest_recognised_partial",
    "Fwknop.Props.C24_no_false_alarm"
   ],
   "note": "Partial: every file that ends with a complete line (or a missing one), every history of records, failed records and restarts; plus absence of false alarms. A file that ends in the middle of a line is the case of C25."
  },
  {
   "property": "C25",
   "status": "partial",
   "theorems": [
    "Fwknop.Props.C25_record_lost_after_crash",
    "Fwknop.Props.C25_recorded_digest_recognised_partial",
    "Fwknop.Props.C25_recognised_until_stopped"
   ],
   "note": "The full statement is false of the code: the first append after a torn write lands on the torn line and is lost at the next restart (C25_record_lost_after_crash). Proved for every digest whose append is not the first one after a crash, with crashes at any byte before and after."
  },
  {
   "property": "C26",
   "status": "partial",
   "theorems": [
    "Fwknop.Props.C26_padding_disguises",
    "Fwknop.Props.C26_http_disguises",
    "Fwknop.Props.C26_new_hmac_needed_partial"
   ],
   "note": "False without HMAC (append '=') and with HTTP enabled (witnesses). Proved: with an HMAC and HTTP off a second accepted text needs an HMAC over other data."
  },
  {
   "property": "C27",
   "status": "proved",
   "theorems": [
    "Fwknop.Props.C27_addresses",
    "Fwknop.Props.C27_networks"
   ],
   "note": "In terms of address lists and of the SOURCE/DESTINATION texts."
  },
  {
   "property": "C28",
   "status": "proved",
   "theorems": [
    "Fwknop.Props.C28_network_list",
    "Fwknop.Props.C28_cidr",
    "Fwknop.Props.C28_host",
    "Fwknop.Props.C28_any",
    "Fwknop.Props.C28_bad_length",
    "Fwknop.Props.C28_mask_32"
   ],
   "note": ""
  },
  {
   "property": "C29",
   "status": "partial",
   "theorems": [
    "Fwknop.Props.C29_duplicates_break",
    "Fwknop.Props.C29_port_authorisation_partial",
    "Fwknop.Props.C29_exact"
   ],
   "note": "The exact equivalence is false when OPEN_PORTS repeats an entry: witness C29_duplicates_break. Proved otherwise."
  },
  {
   "property": "C30",
   "status": "proved",
   "theorems": [
    "Fwknop.Props.C30_restrict_wins",
    "Fwknop.Props.C30_allowed_not_restricted"
   ],
   "note": ""
  },
  {
   "property": "C31",
   "status": "partial",
   "theorems": [
    "Fwknop.Props.C31_two_stanzas_act",
    "Fwknop.Props.C31_first_full_match_partial"
   ],
   "note": "False when a closing command cannot be written (witness). Proved otherwise, both directions: at most one effect, from the first stanza for which every check succeeds."
  },
  {
   "property": "C32",
   "status": "proved",
   "theorems": [
    "Fwknop.Props.C32_expired_never_acts",
    "Fwknop.Props.C32_stays_expired"
   ],
   "note": "No effect from an expired stanza; over histories an expired stanza stays so (marked: for any clock; unmarked: for clocks that do not go back)."
  },
  {
   "property": "C33",
   "status": "partial",
   "theorems": [
    "Fwknop.Props.C33_age_overflows",
    "Fwknop.Props.C33_age_limit_partial"
   ],
   "note": "False for clocks past 2038 (witness: int truncation). Proved for clocks before 2^31."
  },
  {
   "property": "C34",
   "status": "proved",
   "theorems": [
    "Fwknop.Props.C34_username"
   ],
   "note": "Exact match of the user name."
  },
  {
   "property": "C35",
   "status": "proved",
   "theorems": [
    "Fwknop.Props.C35_address"
   ],
   "note": "Wildcard refused under REQUIRE_SOURCE_ADDRESS; the granted address is the payload's or the sender's."
  },
  {
   "property": "C36",
   "status": "partial",
   "theorems": [
    "Fwknop.Props.C36_stanza_timeout_not_capped",
    "Fwknop.Props.C36_access_time_partial"
   ],
   "note": "False: FW_ACCESS_TIMEOUT above MAX_FW_TIMEOUT is used (witness). Proved: the client's timeout is capped, otherwise the stanza's is used."
  },
  {
   "property": "C37",
   "status": "partial",
   "theorems": [
    "Fwknop.Props.C37_rootly_runs_as_root",
    "Fwknop.Props.C37_command_partial"
   ],
   "note": "False for user names that start with root (witness). Proved for the others, with the command text and the exclusion of port access."
  },
  {
   "property": "C38",
   "status": "proved",
   "theorems": [
    "Fwknop.Props.C38_nat_only_when_enabled"
   ],
   "note": "NAT types need their switch."
  },
  {
   "property": "C39",
   "status": "partial",
   "theorems": [
    "Fwknop.Props.C39_tables_partial",
    "Fwknop.Props.C39_input_rules_partial",
    "Fwknop.Props.C39_long_name",
    "Fwknop.Props.C39_lets_in_partial"
   ],
   "note": "The full statement is false of the code: command lines longer than the 256-byte buffers are cut (C39_long_name). Proved for rules of bounded length and a working iptables: the exact tables after a request that is not for NAT, with and without output chain."
  },
  {
   "property": "C40",
   "status": "partial",
   "theorems": [
    "Fwknop.Props.C40_check_partial",
    "Fwknop.Props.C40_long_listing"
   ],
   "note": "The full statement is false of the code: only the first 4095 bytes of a listing are looked at (C40_long_listing). Proved for listings that fit."
  },
  {
   "property": "C41",
   "status": "partial",
   "theorems": [
    "Fwknop.Props.C41_swept_partial",
    "Fwknop.Props.C41_postponed",
    "Fwknop.Props.C41_grant_partial",
    "Fwknop.Props.C41_prompt_partial",
    "Fwknop.Props.C41_stale"
   ],
   "note": "The full statement is false of the code: a second grant postpones the check of the chain (C41_postponed). A check that removes only some rules leaves the next check time stale (C41_stale). Proved: within RULES_CHECK_THRESHOLD iterations every chain is swept; while the counters are right every check is prompt (C41_prompt_partial), and grants keep them right if nothing is overdue (C41_grant_partial)."
  },
  {
   "property": "C42",
   "status": "partial",
   "theorems": [
    "Fwknop.Props.C42_failures_partial",
    "Fwknop.Props.C42_live_rule_stays",
    "Fwknop.Props.C42_refused"
   ],
   "note": "The full statement is false of the code: a deletion that exits with an error status shifts the rule numbers (C42_refused). Proved for calls that are killed or do not start."
  },
  {
   "property": "C43",
   "status": "partial",
   "theorems": [
    "Fwknop.Props.C43_every_chain_partial",
    "Fwknop.Props.C43_short_name"
   ],
   "note": "The full statement is false of the code: C43_short_name. Proved for names longer than the index of the chain."
  },
  {
   "property": "C44",
   "status": "partial",
   "theorems": [
    "Fwknop.Props.C44_substitution_partial",
    "Fwknop.Props.C44_stray_dollar_dropped",
    "Fwknop.Props.C44_command_truncated",
    "Fwknop.Props.C44_dropping"
   ],
   "note": "The full statement is false of the code: a '$' that starts no variable is dropped (C44_stray_dollar_dropped) and long commands are cut (C44_command_truncated). Proved for commands whose '$' all start variables and that fit; C44_dropping describes every command."
  },
  {
   "property": "C45",
   "status": "partial",
   "theorems": [
    "Fwknop.Props.C45_write_outside_buffer",
    "Fwknop.Props.C45_in_bounds_partial",
    "Fwknop.Props.C45_plain_text",
    "Fwknop.Props.C45_room_partial"
   ],
   "note": "The full statement is false of the code: C45_write_outside_buffer. Proved when the expansion leaves room before every plain character."
  },
  {
   "property": "C46",
   "status": "proved",
   "theorems": [
    "Fwknop.Props.C46_closed_exactly_once",
    "Fwknop.Props.C46_open_schedules_close"
   ],
   "note": "Every history of openings and clock ticks, in the spec's terms."
  },
  {
   "property": "C47",
   "status": "proved",
   "theorems": [
    "Fwknop.Props.C47_payload_in_frame"
   ],
   "note": "Any memory content in and behind the frame, any lengths and link header length."
  },
  {
   "property": "C48",
   "status": "partial",
   "theorems": [
    "Fwknop.Props.C48_reads_in_frame_partial",
    "Fwknop.Props.C48_tag",
    "Fwknop.Props.C48_short"
   ],
   "note": "False for frames captured shorter than 60 bytes or tagged frames shorter than 18 (witnesses C48_tag, C48_short); proved for all others."
  },
  {
   "property": "C49",
   "status": "partial",
   "theorems": [
    "Fwknop.Props.C49_payload_partial",
    "Fwknop.Props.C49_options_dropped",
    "Fwknop.Props.C49_options_misread"
   ],
   "note": "False: the mask 0x15 makes 5, 7, 13 and 15 words all count as 5 and drops the others (C49_options_dropped, C49_options_misread, for all such packets); the payload theorem holds for all packets without IP options."
  },
  {
   "property": "C50",
   "status": "partial",
   "theorems": [
    "Fwknop.Props.C50_only_the_data",
    "Fwknop.Props.C50_accepted_partial",
    "Fwknop.Props.C50_accepted_forwarded_partial",
    "Fwknop.Props.C50_round_trip_partial",
    "Fwknop.Props.C50_proxy_request",
    "Fwknop.Props.C50_long_request_lost"
   ],
   "note": "The server takes exactly the data from any GET request for its URL-safe form; the client's own requests of at most 1500 bytes are accepted. False for longer requests (witness)."
  },
  {
   "property": "C51",
   "status": "partial",
   "theorems": [
    "Fwknop.Props.C51_last_header_misread",
    "Fwknop.Props.C51_forwarded_address_partial",
    "Fwknop.Props.C51_other_value_ignored",
    "Fwknop.Props.C51_no_header_no_address"
   ],
   "note": "False when the value ends the packet (witness: first character lost). Proved when white space follows it; other values and absent headers give no address."
  },
  {
   "property": "C52",
   "status": "partial",
   "theorems": [
    "Fwknop.Props.C52_shared_passphrase_accepted",
    "Fwknop.Props.C52_legacy_shared_key_accepted",
    "Fwknop.Props.C52_key_partial",
    "Fwknop.Props.C52_passphrase_partial",
    "Fwknop.Props.C52_accepted_keys_differ"
   ],
   "note": "False of a GPG passphrase shared with the HMAC key and of keys given in the legacy shared form; witnesses beside the theorem."
  },
  {
   "property": "C53",
   "status": "proved",
   "theorems": [
    "Fwknop.Props.C53_defaults_safe",
    "Fwknop.Props.C53_defaults_frame"
   ],
   "note": ""
  },
  {
   "property": "C54",
   "status": "partial",
   "theorems": [
    "Fwknop.Props.C54_number_partial",
    "Fwknop.Props.C54_opened_partial",
    "Fwknop.Props.C54_safe_partial",
    "Fwknop.Props.C54_refused",
    "Fwknop.Props.C54_foreign",
    "Fwknop.Props.C54_kept"
   ],
   "note": "Partial: number uniqueness and exact effect of requests hold for every history that starts on a clean firewall with both flush options on and whose ipfw calls work or are killed. Refuted (witnesses): a move that ipfw refuses (C54_refused), administrator rules in the number range (C54_foreign), FLUSH_AT_EXIT off (C54_kept)."
  },
  {
   "property": "C55",
   "status": "partial",
   "theorems": [
    "Fwknop.Props.C55_check_partial",
    "Fwknop.Props.C55_request_partial",
    "Fwknop.Props.C55_history_partial",
    "Fwknop.Props.C55_cleanup",
    "Fwknop.Props.C55_unlabelled",
    "Fwknop.Props.C55_other_action",
    "Fwknop.Props.C55_postponed",
    "Fwknop.Props.C55_overflow"
   ],
   "note": "False in general: rules without a label, or after a rule that is not a pass rule, are lost, a request while a rule is overdue puts off the next check, and a listing that does not fit loses rules (witnesses). Proved for anchors of access rules with ten-digit times that fit the buffer: checks, requests, histories of them, and clean-up."
  },
  {
   "property": "C56",
   "status": "partial",
   "theorems": [
    "Fwknop.Props.C56_cycle_runs_in_test_mode",
    "Fwknop.Props.C56_test_mode_partial"
   ],
   "note": "False: cycle commands run in test mode (witness). Proved for stanzas without cycles, with the replay cache unchanged."
  },
  {
   "property": "C57",
   "status": "partial",
   "theorems": [
    "Fwknop.Props.C57_restored_partial",
    "Fwknop.Props.C57_safe",
    "Fwknop.Props.C57_quoted",
    "Fwknop.Props.C57_lost"
   ],
   "note": "False for a saved line that does not fit or for arguments with spaces (witnesses). Proved: an exact characterisation of the saved command lines that are restored, and memory safety of saving and restoring."
  },
  {
   "property": "C58",
   "status": "proved",
   "theorems": [
    "Fwknop.Props.C58_hmac_is_rfc2104",
    "Fwknop.Props.C58_set_hmac",
    "Fwknop.Props.C58_long_key_refused"
   ],
   "note": "All seven digest types, keys up to 136 bytes; longer keys are refused."
  },
  {
   "property": "C59",
   "status": "proved",
   "theorems": [
    "Fwknop.Props.C59_decode_exact"
   ],
   "note": ""
  },
  {
   "property": "C60",
   "status": "proved",
   "theorems": [
    "Fwknop.Props.C60_key_derivation",
    "Fwknop.Props.C60_legacy_key_derivation"
   ],
   "note": ""
  },
  {
   "property": "C61",
   "status": "proved",
   "theorems": [
    "Fwknop.Props.C61_ciphertext_is_standard"
   ],
   "note": ""
  },
  {
   "property": "C62",
   "status": "proved",
   "theorems": [
    "Fwknop.Props.C62_encrypt_is_fips197"
   ],
   "note": ""
  },
  {
   "property": "C63",
   "status": "proved",
   "theorems": [
    "Fwknop.Props.C63_decrypt_inverts_encrypt",
    "Fwknop.Props.C63_cipher_lawful"
   ],
   "note": ""
  },
  {
   "property": "C64",
   "status": "partial",
   "theorems": [
    "Fwknop.Props.C64_forwarded_overflow",
    "Fwknop.Props.C64_forwarded_overread",
    "Fwknop.Props.C64_no_overflow_partial"
   ],
   "note": "False: a 16-character value overflows the address by one byte, an empty value at the end of a full packet is read behind the array (witnesses). Proved for the other packets."
  },
  {
   "property": "C65",
   "status": "partial",
   "theorems": [
    "Fwknop.Props.C65_early_padding_undefined",
    "Fwknop.Props.C65_sudo_group_undefined",
    "Fwknop.Props.C65_no_undefined_behaviour_partial",
    "Fwknop.Props.C65_history_partial"
   ],
   "note": "False: a packet with an early '=' makes a server without HMAC read before a buffer; sudo with CMD_EXEC_GROUP only uses NULL (witnesses). Proved for packets without '=', lawful algorithms and configurations with room in the cycle commands."
  },
  {
   "property": "C66",
   "status": "partial",
   "theorems": [
    "Fwknop.Props.C66_sudo_partial",
    "Fwknop.Props.C66_option_in_message",
    "Fwknop.Props.C66_group_ignored"
   ],
   "note": "The full statement is false of the code: the message `-u root id` overrides CMD_SUDO_EXEC_USER (C66_option_in_message), and CMD_SUDO_EXEC_GROUP is ignored unless CMD_EXEC_GROUP is set (C66_group_ignored). Proved when both are configured, with CMD_EXEC_GROUP, and the message does not start with a hyphen."
  },
  {
   "property": "C67",
   "status": "partial",
   "theorems": [
    "Fwknop.Props.C67_words_partial",
    "Fwknop.Props.C67_split_exists",
    "Fwknop.Props.C67_long_word"
   ],
   "note": "The full statement is false of the code: any word of 1024 characters or more overflows the word buffer (C67_long_word, for every such text). Proved exactly for all other texts."
  },
  {
   "property": "C68",
   "status": "partial",
   "theorems": [
    "Fwknop.Props.C68_tables_partial",
    "Fwknop.Props.C68_first_port_only",
    "Fwknop.Props.C68_forward_to_anywhere",
    "Fwknop.Props.C68_forward_all_partial",
    "Fwknop.Props.C68_forward_all_matches",
    "Fwknop.Props.C68_false_masquerade_all",
    "Fwknop.Props.C68_false_force_snat_ignored",
    "Fwknop.Props.C68_false_nat_to_nowhere",
    "Fwknop.Props.C68_no_source_chain"
   ],
   "note": "False as stated: C68_first_port_only, C68_forward_to_anywhere, C68_false_masquerade_all, C68_false_force_snat_ignored, C68_false_nat_to_nowhere. Proved: the exact tables after a request, for the first port without FORWARD_ALL (C68_tables_partial) and for all packets of the client with FORWARD_ALL (C68_forward_all_partial)."
  },
  {
   "property": "C69",
   "status": "partial",
   "theorems": [
    "Fwknop.Props.C69_target_safe_partial",
    "Fwknop.Props.C69_overflow",
    "Fwknop.Props.C69_target_cut"
   ],
   "note": "False as stated: C69_overflow (for every host of 70 characters), C69_target_cut. Proved: memory safety for every other length."
  },
  {
   "property": "C70",
   "status": "proved",
   "theorems": [
    "Fwknop.Props.C70_udp",
    "Fwknop.Props.C70_tcp",
    "Fwknop.Props.C70_icmp",
    "Fwknop.Props.C70_fits"
   ],
   "note": "All three raw transports; what the kernel fills in is the specification KernelSends (raw(7))."
  },
  {
   "property": "C71",
   "status": "proved",
   "theorems": [
    "Fwknop.Props.C71_icmp_checksum"
   ],
   "note": "All data, odd lengths included."
  },
  {
   "property": "C72",
   "status": "partial",
   "theorems": [
    "Fwknop.Props.C72_last_partial",
    "Fwknop.Props.C72_stuck",
    "Fwknop.Props.C72_stuck_example"
   ],
   "note": "Refuted: the 11 characters read as a time include the line feed of every line but the last, so only the last rule listed can expire (C72_stuck, C72_stuck_example). Proved for the last rule: C72_last_partial."
  },
  {
   "property": "C73",
   "status": "partial",
   "theorems": [
    "Fwknop.Props.C73_kept_partial",
    "Fwknop.Props.C73_purged_partial",
    "Fwknop.Props.C73_idle",
    "Fwknop.Props.C73_truncated"
   ],
   "note": "Proved for listings of at most 4095 characters; refuted when no connection is left at all (nothing is purged: C73_idle) and when the listing is truncated (C73_truncated)."
  },
  {
   "property": "C74",
   "status": "proved",
   "theorems": [
    "Fwknop.Props.C74_md5_is_rfc1321",
    "Fwknop.Props.C74_sha1_is_fips180",
    "Fwknop.Props.C74_sha256_is_fips180",
    "Fwknop.Props.C74_sha384_is_fips180",
    "Fwknop.Props.C74_sha512_is_fips180",
    "Fwknop.Props.C74_md5_any_pieces",
    "Fwknop.Props.C74_sha1_any_pieces",
    "Fwknop.Props.C74_sha256_any_pieces",
    "Fwknop.Props.C74_sha384_any_pieces",
    "Fwknop.Props.C74_sha512_any_pieces",
    "Fwknop.Props.C74_sha256_round_constants",
    "Fwknop.Props.C74_sha512_round_constants",
    "Fwknop.Props.C74_sha2_initial_values",
    "Fwknop.Props.C74_md5_long_message_truncated",
    "Fwknop.Props.C74_sha1_undefined_from_two_gigabytes"
   ],
   "note": "md5T is given as a table in the specification; that it is the table of sines is not proved."
  },
  {
   "property": "C75",
   "status": "proved",
   "theorems": [
    "Fwknop.Props.C75_sha3_256_is_fips202",
    "Fwknop.Props.C75_sha3_512_is_fips202",
    "Fwknop.Props.C75_permutation_is_keccak",
    "Fwknop.Props.C75_rotations_defined"
   ],
   "note": ""
  },
  {
   "property": "C76",
   "status": "proved",
   "theorems": [
    "Fwknop.Props.C76_hmac_is_rfc2104_over_standard"
   ],
   "note": ""
  },
  {
   "property": "C77",
   "status": "partial",
   "theorems": [
    "Fwknop.Props.C77_standard_digests_lawful",
    "Fwknop.Props.C77_accepted_only_with_standard_hmac",
    "Fwknop.Props.C77_end_to_end_partial"
   ],
   "note": "The end-to-end theorem has the limits of C17."
  },
  {
   "property": "C78",
   "status": "partial",
   "theorems": [
    "Fwknop.Props.C78_entries_partial",
    "Fwknop.Props.C78_line_partial",
    "Fwknop.Props.C78_safe",
    "Fwknop.Props.C78_one_character_not_trimmed"
   ],
   "note": "Partial: lines up to 1022 characters; blanks behind a value of one character stay (C78_one_character_not_trimmed: chop_whitespace stops before the first character). C78_safe: all file systems, all descriptor limits."
  },
  {
   "property": "C79",
   "status": "partial",
   "theorems": [
    "Fwknop.Props.C79_configured_partial",
    "Fwknop.Props.C79_timeout_wraps",
    "Fwknop.Props.C79_expiry_text_ignored",
    "Fwknop.Props.C79_month_not_checked",
    "Fwknop.Props.C79_nat_port_cut",
    "Fwknop.Props.C79_placeholder_ends_keys_file",
    "Fwknop.Props.C79_false_masquerade_off_ends_snat"
   ],
   "note": "Partial. Numbers from 2^31 on are read modulo 2^32 (C79_timeout_wraps), ACCESS_EXPIRE_EPOCH of a word never expires (C79_expiry_text_ignored), the month of ACCESS_EXPIRE is not checked (C79_month_not_checked), six digits of a FORCE_NAT port are cut (C79_nat_port_cut) and FORCE_MASQUERADE N ends a FORCE_SNAT before it (C79_false_masquerade_off_ends_snat); Configured says nothing about such values."
  },
  {
   "property": "C80",
   "status": "partial",
   "theorems": [
    "Fwknop.Props.C80_unusable_stanza_kept",
    "Fwknop.Props.C80_usable_partial"
   ],
   "note": "False when %include_keys follows %include in a stanza: free_last_acc_stanza frees the last stanza of the included file, and the unusable one stays (C80_unusable_stanza_kept). Missing in C80_usable_partial: files with that order."
  },
  {
   "property": "C81",
   "status": "proved",
   "theorems": [
    "Fwknop.Props.C81_in_range"
   ],
   "note": "Unconditional."
  },
  {
   "property": "C82",
   "status": "proved",
   "theorems": [
    "Fwknop.Props.C82_cycles_refused",
    "Fwknop.Props.C82_include_only_adds"
   ],
   "note": "%include is limited to depth 3; %include_folder has no limit of its own, and a folder that includes itself ends only when no file descriptor is left."
  },
  {
   "property": "C83",
   "status": "partial",
   "theorems": [
    "Fwknop.Props.C83_group_of_the_wrong_user",
    "Fwknop.Props.C83_user_and_group_partial",
    "Fwknop.Props.C83_group_name_is_a_user"
   ],
   "note": "False: getpwnam overwrites its static result, so with CMD_SUDO_EXEC_USER after CMD_EXEC_USER the commands get the other user's group (C83_group_of_the_wrong_user); CMD_EXEC_GROUP is looked up with getpwnam, among users (C83_group_name_is_a_user). Missing in C83_user_and_group_partial: other orders, groups."
  },
  {
   "property": "C84",
   "status": "partial",
   "theorems": [
    "Fwknop.Props.C84_lists_expanded_again",
    "Fwknop.Props.C84_one_file_partial"
   ],
   "note": "False with two files: lists are expanded again for the stanzas of earlier files, OPEN_PORTS holds every port twice, and requests for open ports are refused (C84_lists_expanded_again). Missing in C84_one_file_partial: folders with several .conf files."
  },
  {
   "property": "C85",
   "status": "proved",
   "theorems": [
    "Fwknop.Props.C85_keys",
    "Fwknop.Props.C85_effects_follow_the_file",
    "Fwknop.Props.C85_empty_hmac_key"
   ],
   "note": "C85_keys discharges the hypothesis KeysOk of the packet theorems for every configuration that loads. An HMAC_KEY_BASE64 that decodes to nothing means no HMAC (C85_empty_hmac_key); the theorem speaks of non-empty keys."
  },
  {
   "property": "C86",
   "status": "partial",
   "theorems": [
    "Fwknop.Props.C86_server_reads_what_was_asked_partial",
    "Fwknop.Props.C86_command_with_nat_is_lost",
    "Fwknop.Props.C86_long_timeout_is_lost",
    "Fwknop.Props.C86_empty_hmac_key_is_lost",
    "Fwknop.Props.C86_nat_port_is_cut",
    "Fwknop.Props.C86_access_is_needed"
   ],
   "note": "Partial: a command is not combined with NAT or a timeout (C86_command_with_nat_is_lost), fields within the receiver's limits (C86_long_timeout_is_lost), a non-empty HMAC key (C86_empty_hmac_key_is_lost); GnuPG is out. The text of -A and -a after cutting is what is meant (C86_nat_port_is_cut, C87_values_are_bent)."
  },
  {
   "property": "C87",
   "status": "partial",
   "theorems": [
    "Fwknop.Props.C87_last_option_wins_partial",
    "Fwknop.Props.C87_values_are_bent"
   ],
   "note": "Partial: addresses are cut to 15 characters before they are checked and odd characters in time offsets are passed over (C87_values_are_bent)."
  },
  {
   "property": "C88",
   "status": "proved",
   "theorems": [
    "Fwknop.Props.C88_only_checked_requests",
    "Fwknop.Props.C88_nat_target_is_a_host"
   ],
   "note": ""
  },
  {
   "property": "C89",
   "status": "partial",
   "theorems": [
    "Fwknop.Props.C89_keys_as_given_partial"
   ],
   "note": "Partial: no GnuPG; what a key file gives is stated for lines of at most 1022 characters and server names that do not begin like a comment or a separator."
  },
  {
   "property": "C90",
   "status": "partial",
   "theorems": [
    "Fwknop.Props.C90_no_undefined_behaviour_partial",
    "Fwknop.Props.C90_base64_key_overflows",
    "Fwknop.Props.C90_key_file_overflows",
    "Fwknop.Props.C90_access_overflows",
    "Fwknop.Props.C90_access_overflows_by_one",
    "Fwknop.Props.C90_time_offset_overflows"
   ],
   "note": "Partial: the property is false of the code in four places, each with a witness (C90_base64_key_overflows, C90_key_file_overflows, C90_access_overflows, C90_time_offset_overflows); proved for shorter texts."
  },
  {
   "property": "C91",
   "status": "partial",
   "theorems": [
    "Fwknop.Props.C91_entries_are_options_partial",
    "Fwknop.Props.C91_missing_stanza_refused",
    "Fwknop.Props.C91_unknown_entry_refused",
    "Fwknop.Props.C91_bad_address_refused",
    "Fwknop.Props.C91_server_reads_what_the_rc_file_asks_partial",
    "Fwknop.Props.C91_resolve_cannot_override",
    "Fwknop.Props.C91_address_switches_resolution_off",
    "Fwknop.Props.C91_hmac_type_alone",
    "Fwknop.Props.C91_hmac_key_file_is_taken_for_the_key_file",
    "Fwknop.Props.C91_no_does_not_reset",
    "Fwknop.Props.C91_plain_key_precedes",
    "Fwknop.Props.C91_timeouts"
   ],
   "note": "Partial: an rc file with both an address and a wish to have it found, or with an HMAC type and no HMAC, is treated differently from the options (C91_resolve_cannot_override, C91_hmac_type_alone), and HMAC_KEY_FILE is taken for KEY_FILE (C91_hmac_key_file_is_taken_for_the_key_file)."
  },
  {
   "property": "C92",
   "status": "partial",
   "theorems": [
    "Fwknop.Props.C92_saved_stanza_is_the_command_line_partial",
    "Fwknop.Props.C92_kept_entries_partial",
    "Fwknop.Props.C92_false_for_a_stanza_given_twice",
    "Fwknop.Props.C92_false_for_large_numbers",
    "Fwknop.Props.C92_false_for_two_offsets",
    "Fwknop.Props.C92_false_for_other_options",
    "Fwknop.Props.C92_false_for_a_kept_key"
   ],
   "note": "Partial: the options of Savable (values without blanks, no -s, no --get-hmac-key, no address whose name begins with resolve), numbers within the limits of the file's parser, a stanza that is new or is overwritten with --force-stanza and is in the file at most once. The failures outside are the C92_false_ theorems."
  },
  {
   "property": "C93",
   "status": "proved",
   "theorems": [
    "Fwknop.Props.C93_old_or_new_text_is_there",
    "Fwknop.Props.C93_moment_without_rc_file",
    "Fwknop.Props.C93_leftover_blocks_every_update",
    "Fwknop.Props.C93_crash_leaves_leftover",
    "Fwknop.Props.C93_update_that_gives_up"
   ],
   "note": "System calls other than open with O_EXCL are taken to succeed; a crash is a kill of the client, not a loss of power (no fsync is made)."
  },
  {
   "property": "C94",
   "status": "partial",
   "theorems": [
    "Fwknop.Props.C94_cleanup_partial",
    "Fwknop.Props.C94_kept_at_exit",
    "Fwknop.Props.C94_start_partial",
    "Fwknop.Props.C94_false_if_refused",
    "Fwknop.Props.C94_false_if_deletion_refused",
    "Fwknop.Props.C94_false_for_position_0",
    "Fwknop.Props.C94_false_for_many_jumps",
    "Fwknop.Props.C94_false_for_foreign_jump"
   ],
   "note": "False when iptables refuses calls, when the jump position is 0, and when there are more jumps than the cleanup loop removes; witnesses beside the theorems."
  },
  {
   "property": "C95",
   "status": "partial",
   "theorems": [
    "Fwknop.Props.C95_no_trace_partial",
    "Fwknop.Props.C95_meanwhile_partial",
    "Fwknop.Props.C95_false_if_refused",
    "Fwknop.Props.C95_restart_drops_access"
   ],
   "note": "Proved for working iptables calls and requests of every kind, with and without NAT and FORWARD_ALL; C95_restart_drops_access shows that a restart drops access that had been granted."
  },
  {
   "property": "C96",
   "status": "partial",
   "theorems": [
    "Fwknop.Props.C96_values_partial",
    "Fwknop.Props.C96_last_line_partial",
    "Fwknop.Props.C96_one_file_partial",
    "Fwknop.Props.C96_false_stale_suffix",
    "Fwknop.Props.C96_false_read_twice",
    "Fwknop.Props.C96_false_two_files",
    "Fwknop.Props.C96_false_own_override",
    "Fwknop.Props.C96_names",
    "Fwknop.Props.C96_flags"
   ],
   "note": "For files of lines of at most 1022 characters in which references have a suffix; C96_false_* show where the code departs from the plain reading."
  },
  {
   "property": "C97",
   "status": "partial",
   "theorems": [
    "Fwknop.Props.C97_numbers_partial",
    "Fwknop.Props.C97_false_wraps",
    "Fwknop.Props.C97_false_junk",
    "Fwknop.Props.C97_false_port",
    "Fwknop.Props.C97_verbosity_partial"
   ],
   "note": "The value is proved for decimal numbers below 2^31; C97_false_wraps, C97_false_junk and C97_false_port show what else is accepted."
  },
  {
   "property": "C98",
   "status": "partial",
   "theorems": [
    "Fwknop.Props.C98_chains_partial",
    "Fwknop.Props.C98_default_chains_partial",
    "Fwknop.Props.C98_false_long_name",
    "Fwknop.Props.C98_switches"
   ],
   "note": "Names are cut to 63 characters (C98_false_long_name); the connection to C94 and C95 is for the default chain settings."
  },
  {
   "property": "C99",
   "status": "partial",
   "theorems": [
    "Fwknop.Props.C99_memory_partial",
    "Fwknop.Props.C99_false_empty_run_dir",
    "Fwknop.Props.C99_false_empty_override"
   ],
   "note": "Names on the command line and of the build that are empty are excluded: C99_false_empty_run_dir."
  },
  {
   "property": "C100",
   "status": "partial",
   "theorems": [
    "Fwknop.Props.C100_knock_is_answered_partial",
    "Fwknop.Props.C100_command_is_run_partial",
    "Fwknop.Props.C100_knock_opens_the_door_partial",
    "Fwknop.Props.C100_long_packets_are_lost",
    "Fwknop.Props.C100_short_commands_are_lost",
    "Fwknop.Props.C100_nat_knock_opens_the_way_partial"
   ],
   "note": "Partial: symmetric encryption, access, command and NAT requests, fewer than 400 characters, fields that fit the receiver, a non-empty HMAC key, clocks between 2001 and 2038; for the rules also what is missing in C39. C100_long_packets_are_lost shows that the length limit is needed: the server judges the encryption by the length of the packet with its HMAC (server/incoming_spa.c:1011), so a symmetric packet of 400 characters or more is taken for GnuPG and dropped unless ENABLE_CMD_EXEC is set. C100_command_is_run_partial is the same for -C commands (without sudo) and needs at least 140 characters: C100_short_commands_are_lost shows a short command with an MD5 digest and no HMAC that the server drops. C100_nat_knock_opens_the_way_partial goes from -N or --nat-local to the exact tables (first port, no FORWARD_ALL, as in C68)."
  },
  {
   "property": "C101",
   "status": "partial",
   "theorems": [
    "Fwknop.Props.C101_captured",
    "Fwknop.Props.C101_datagram",
    "Fwknop.Props.C101_capture_loop",
    "Fwknop.Props.C101_udp_loop",
    "Fwknop.Props.C101_datagram_as_captured_partial",
    "Fwknop.Props.C101_long_datagram",
    "Fwknop.Props.C101_datagram_destination"
   ],
   "note": "Partial: the first half is proved for both loops. The second is false in two respects: datagrams above 1500 bytes are cut and processed (C101_long_datagram), and the UDP server knows no destination address, so that DESTINATION matches only 0.0.0.0 (C101_datagram_destination)."
  },
  {
   "property": "C102",
   "status": "proved",
   "theorems": [
    "Fwknop.Props.C102_every_rule_has_a_packet"
   ],
   "note": ""
  },
  {
   "property": "C103",
   "status": "proved",
   "theorems": [
    "Fwknop.Props.C103_rules_follow_the_file",
    "Fwknop.Props.C103_effects_follow_the_file"
   ],
   "note": ""
  },
  {
   "property": "C104",
   "status": "partial",
   "theorems": [
    "Fwknop.Props.C104_every_cycle_is_closed_once_partial",
    "Fwknop.Props.C104_on_time_udp",
    "Fwknop.Props.C104_on_time_capture",
    "Fwknop.Props.C104_false_if_the_daemon_ends",
    "Fwknop.Props.C104_false_for_a_long_command"
   ],
   "note": "False when the daemon ends, also with SIGHUP in UDP mode (C104_false_if_the_daemon_ends), and for a closing command that does not fit (C104_false_for_a_long_command)."
  },
  {
   "property": "C105",
   "status": "partial",
   "theorems": [
    "Fwknop.Props.C105_ends_only_when_told",
    "Fwknop.Props.C105_reloads_only_when_told",
    "Fwknop.Props.C105_term_is_obeyed_partial",
    "Fwknop.Props.C105_int_is_obeyed_partial",
    "Fwknop.Props.C105_term_is_kept_partial",
    "Fwknop.Props.C105_false_in_the_window",
    "Fwknop.Props.C105_false_during_a_reload",
    "Fwknop.Props.C105_false_for_good_after_a_reload",
    "Fwknop.Props.C105_false_with_hup",
    "Fwknop.Props.C105_hup_is_obeyed_partial",
    "Fwknop.Props.C105_hup_is_kept_partial",
    "Fwknop.Props.C105_false_hup_in_the_window",
    "Fwknop.Props.C105_false_hup_during_a_reload"
   ],
   "note": "That nothing else ends or restarts the daemon is proved in full. SIGTERM is obeyed unless it arrives between the look at its flag and the reset of got_signal (C105_false_in_the_window: then it waits for another signal, C105_term_is_kept_partial), during a reload or with a SIGHUP (C105_false_during_a_reload, C105_false_with_hup). SIGHUP is obeyed whatever else arrives (C105_hup_is_obeyed_partial), except in the same window, during a reload and when the daemon is ending (C105_false_hup_in_the_window, C105_false_hup_during_a_reload); in the window it waits for another signal (C105_hup_is_kept_partial)."
  },
  {
   "property": "C106",
   "status": "partial",
   "theorems": [
    "Fwknop.Props.C106_one_daemon_partial",
    "Fwknop.Props.C106_one_daemon_numbered_partial",
    "Fwknop.Props.C106_right_process_is_signalled_partial",
    "Fwknop.Props.C106_status_partial",
    "Fwknop.Props.C106_one_daemon_stays_partial",
    "Fwknop.Props.C106_false_after_hup",
    "Fwknop.Props.C106_false_in_a_race",
    "Fwknop.Props.C106_false_for_a_number_that_comes_again",
    "Fwknop.Props.C106_status_leaves_its_number",
    "Fwknop.Props.C106_status_turns_a_daemon_away"
   ],
   "note": "False after a SIGHUP: get_running_pid closes a descriptor of the file and with it gives the lock up (C106_false_after_hup). Further exceptions: C106_false_in_a_race, C106_false_for_a_number_that_comes_again, C106_status_leaves_its_number, C106_status_turns_a_daemon_away. Missing: calls that fail; the clause on --status for a command whose steps are mixed with others'."
  },
  {
   "property": "C107",
   "status": "partial",
   "theorems": [
    "Fwknop.Props.C107_loaded_partial",
    "Fwknop.Props.C107_keys_refused",
    "Fwknop.Props.C107_values_refused",
    "Fwknop.Props.C107_service_name_is_port_0"
   ],
   "note": "Files without include directives and with lines of at most 1022 characters."
  },
  {
   "property": "C108",
   "status": "partial",
   "theorems": [
    "Fwknop.Props.C108_output",
    "Fwknop.Props.C108_generates",
    "Fwknop.Props.C108_false_for_long_keys_and_sha3",
    "Fwknop.Props.C108_false_without_urandom",
    "Fwknop.Props.C108_daemon_has_the_keys",
    "Fwknop.Props.C108_client_has_the_keys_partial",
    "Fwknop.Props.C108_both_ends_partial"
   ],
   "note": "The client's keys are given on the command line. The two generated keys are assumed to differ (the daemon refuses equal ones)."
  },
  {
   "property": "C109",
   "status": "partial",
   "theorems": [
    "Fwknop.Props.C109_input_rules_partial",
    "Fwknop.Props.C109_tables_partial",
    "Fwknop.Props.C109_nat_partial",
    "Fwknop.Props.C109_as_iptables_partial",
    "Fwknop.Props.C109_check_partial",
    "Fwknop.Props.C109_failures_partial",
    "Fwknop.Props.C109_every_chain_partial",
    "Fwknop.Props.C109_start_partial",
    "Fwknop.Props.C109_cleanup_partial",
    "Fwknop.Props.C109_kept_at_exit",
    "Fwknop.Props.C109_long_name",
    "Fwknop.Props.C109_refused",
    "Fwknop.Props.C109_start_refused",
    "Fwknop.Props.C109_start_deletion_refused",
    "Fwknop.Props.C109_killed_question",
    "Fwknop.Props.C109_no_trace_partial",
    "Fwknop.Props.C109_forward_all_partial"
   ],
   "note": "Proved for calls that work (and for the expiry also when calls are killed) and names that fit the 255-byte command buffer with the 29-byte prefix; C109_long_name, C109_refused, C109_start_refused and C109_start_deletion_refused show what goes wrong otherwise. C109_forward_all_partial covers FORWARD_ALL. C109_no_trace_partial follows a whole run from start to end, with requests and expirations in any number. The fallback without -C is not modelled."
  },
  {
   "property": "C110",
   "status": "partial",
   "theorems": [
    "Fwknop.Props.C110_typed_partial",
    "Fwknop.Props.C110_safe",
    "Fwknop.Props.C110_long_keys_are_cut",
    "Fwknop.Props.C110_backspace_of_a_dropped_character",
    "Fwknop.Props.C110_delete_key",
    "Fwknop.Props.C110_ctrl_c_is_an_empty_key",
    "Fwknop.Props.C110_ctrl_c_sends_a_packet",
    "Fwknop.Props.C110_client_uses_typed_key_partial",
    "Fwknop.Props.C110_client_uses_both_typed_keys_partial",
    "Fwknop.Props.C110_two_keys_one_descriptor"
   ],
   "note": "Lines of at most 127 characters. False of the code, with theorems: longer lines are cut without an error, Ctrl-C gives the empty key and the client goes on, two keys cannot come from one descriptor. Terminal settings and signals are not modelled."
  },
  {
   "property": "C111",
   "status": "partial",
   "theorems": [
    "Fwknop.Props.C111_any_answer_is_safe",
    "Fwknop.Props.C111_answer",
    "Fwknop.Props.C111_only_addresses_partial",
    "Fwknop.Props.C111_false_for_odd_answers",
    "Fwknop.Props.C111_false_for_long_answers",
    "Fwknop.Props.C111_url_partial",
    "Fwknop.Props.C111_false_for_long_ports",
    "Fwknop.Props.C111_false_for_a_colon_in_the_path",
    "Fwknop.Props.C111_false_for_hostile_urls",
    "Fwknop.Props.C111_parts_fit",
    "Fwknop.Props.C111_https_is_not_asked_in_the_clear",
    "Fwknop.Props.C111_http_partial",
    "Fwknop.Props.C111_default_hosts",
    "Fwknop.Props.C111_https_partial",
    "Fwknop.Props.C111_resolving_is_safe_partial",
    "Fwknop.Props.C111_resolved_text",
    "Fwknop.Props.C111_server_reads_resolved_partial"
   ],
   "note": "URLs with a port of at most four digits and no colon in the path without a port; answers of less than 2000 bytes. False of the code, with theorems: five-digit ports are cut, a colon in the path spoils the host or overflows an array, addresses with trailing characters are accepted, long answers depend on their pieces. Sockets, name resolution, fork and pipe are not modelled."
  },
  {
   "property": "C112",
   "status": "partial",
   "theorems": [
    "Fwknop.Props.C112_output",
    "Fwknop.Props.C112_any_output_is_safe",
    "Fwknop.Props.C112_search_partial",
    "Fwknop.Props.C112_getline_partial",
    "Fwknop.Props.C112_runs_as",
    "Fwknop.Props.C112_no_program_without_the_user",
    "Fwknop.Props.C112_run_extcmd_is_sound",
    "Fwknop.Props.C112_search_extcmd_is_sound",
    "Fwknop.Props.C112_false_for_missing_programs",
    "Fwknop.Props.C112_false_for_refused_users",
    "Fwknop.Props.C112_false_for_groups",
    "Fwknop.Props.C112_false_for_long_output",
    "Fwknop.Props.C112_false_for_long_lines"
   ],
   "note": "Lines of at most 254 characters for the search. False of the code, with theorems: a program that cannot be started or a user that cannot be taken on counts as success, supplementary groups are kept, output that does not fit may count as failure, texts in long lines are missed."
  },
  {
   "property": "C113",
   "status": "proved",
   "theorems": [
    "Fwknop.Props.C113_requests_are_signed",
    "Fwknop.Props.C113_listed_signers_get_in",
    "Fwknop.Props.C113_false_for_equal_short_ids",
    "Fwknop.Props.C113_false_for_long_ids",
    "Fwknop.Props.C113_passphrase_is_there"
   ],
   "note": "Proved from the text of the file to the effects. The identity of a signer under GPG_REMOTE_ID is the last eight digits of the fingerprint: C113_false_for_equal_short_ids shows two keys that pass as one, C113_false_for_long_ids that longer forms match nobody. With a KEY in the stanza the claim is about packets of at least 400 characters, since shorter ones are not taken for data of GnuPG."
  },
  {
   "property": "C114",
   "status": "partial",
   "theorems": [
    "Fwknop.Props.C114_every_nat_rule_has_a_packet_partial",
    "Fwknop.Props.C114_nat_rules_follow_the_file_partial",
    "Fwknop.Props.C114_open_ports_do_not_hold",
    "Fwknop.Props.C114_open_ports_do_not_hold_behind"
   ],
   "note": "The last sentence is false: OPEN_PORTS and RESTRICT_PORTS are not applied to the NAT target (witnesses C114_open_ports_do_not_hold, C114_open_ports_do_not_hold_behind); everything else in the statement is proved."
  },
  {
   "property": "C115",
   "status": "partial",
   "theorems": [
    "Fwknop.Props.C115_gpg_round_trip_partial",
    "Fwknop.Props.C115_only_one_format_is_tried",
    "Fwknop.Props.C115_other_formats_are_lost",
    "Fwknop.Props.C115_gpg_knock_is_answered_partial",
    "Fwknop.Props.C115_gpg_command_is_run_partial",
    "Fwknop.Props.C115_curve25519_is_lost"
   ],
   "note": "Partial: messages of GnuPG in the old packet format, of at least 301 octets and short enough for one packet, access requests. False for other formats: see C115_other_formats_are_lost."
  },
  {
   "property": "C116",
   "status": "partial",
   "theorems": [
    "Fwknop.Props.C116_search_partial",
    "Fwknop.Props.C116_request_partial",
    "Fwknop.Props.C116_same_second_twice",
    "Fwknop.Props.C116_output_twice",
    "Fwknop.Props.C116_nat_target_mistaken"
   ],
   "note": "Partial: false for the doubled rules and for NAT targets (three witnesses). Proved for the input chain in place, with only the daemon's rules of one destination in it, TCP and UDP ports from 1, and times from 2001 to 2106."
  },
  {
   "property": "C117",
   "status": "partial",
   "theorems": [
    "Fwknop.Props.C117_serves_partial",
    "Fwknop.Props.C117_closes_everything",
    "Fwknop.Props.C117_kept_partial",
    "Fwknop.Props.C117_false_the_firewall_is_cleared",
    "Fwknop.Props.C117_false_access_is_lost",
    "Fwknop.Props.C117_false_two_daemons"
   ],
   "note": "Partial: the firewall is kept only in test mode or with FLUSH_IPT_AT_EXIT N (C117_kept_partial); otherwise the end of the helper clears it, and a restarted helper that fails is a second daemon."
  },
  {
   "property": "C118",
   "status": "partial",
   "theorems": [
    "Fwknop.Props.C118_never_started_again",
    "Fwknop.Props.C118_kills_a_stale_number",
    "Fwknop.Props.C118_started_again_partial"
   ],
   "note": "Partial: false whenever the server ends alone; it is started again only if another child ends at the same moment."
  },
  {
   "property": "C119",
   "status": "partial",
   "theorems": [
    "Fwknop.Props.C119_payload_partial",
    "Fwknop.Props.C119_false_low_addresses",
    "Fwknop.Props.C119_false_low_addresses_do_nothing",
    "Fwknop.Props.C119_false_other_addresses"
   ],
   "note": "False for source addresses whose first half is at most 5.220, or 129.0, or 170.170; proved for all others."
  },
  {
   "property": "C120",
   "status": "partial",
   "theorems": [
    "Fwknop.Props.C120_cycles_are_never_closed",
    "Fwknop.Props.C120_not_stopped_under_traffic",
    "Fwknop.Props.C120_stops_partial",
    "Fwknop.Props.C120_goes_on",
    "Fwknop.Props.C120_errors_end",
    "Fwknop.Props.C120_limit_counts_octets",
    "Fwknop.Props.C120_no_verdicts",
    "Fwknop.Props.C120_every_rule_has_a_packet"
   ],
   "note": "False in four ways, each proved for all runs; proved: a signal ends the loop at the next pause, and without signal, limit and more than 101 errors the loop goes on. Proved for all runs as well: every rule has a packet that entitles to it, as with the other ways to get packets (C120_every_rule_has_a_packet)."
  },
  {
   "property": "C121",
   "status": "partial",
   "theorems": [
    "Fwknop.Props.C121_once_partial",
    "Fwknop.Props.C121_false_a_full_disk",
    "Fwknop.Props.C121_new_packets",
    "Fwknop.Props.C121_replays_are_counted",
    "Fwknop.Props.C121_false_not_remembered"
   ],
   "note": "False when the store fails (the error is overwritten; C121_false_a_full_disk, for every packet and any number of replays) and when the cache cannot be opened at the start (C121_false_not_remembered). Proved otherwise, with counted replays."
  },
  {
   "property": "C122",
   "status": "partial",
   "theorems": [
    "Fwknop.Props.C122_put_aside_partial",
    "Fwknop.Props.C122_without",
    "Fwknop.Props.C122_false_a_reload_forgets",
    "Fwknop.Props.C122_false_put_aside_is_lost",
    "Fwknop.Props.C122_false_replay_after_reload"
   ],
   "note": "False after SIGHUP: the option is obeyed again (C122_false_a_reload_forgets, C122_false_put_aside_is_lost, for all files; C122_false_replay_after_reload). Proved for the first start and without the option."
  },
  {
   "property": "C123",
   "status": "partial",
   "theorems": [
    "Fwknop.Props.C123_in_bounds",
    "Fwknop.Props.C123_listing",
    "Fwknop.Props.C123_fields_partial",
    "Fwknop.Props.C123_false_two_contexts"
   ],
   "note": "Memory safety and the text are proved for all contexts and sizes. That members can be told from the listing is false for texts with line feeds (C123_false_two_contexts) and proved for the others. Without the lines about GnuPG."
  },
  {
   "property": "C124",
   "status": "partial",
   "theorems": [
    "Fwknop.Props.C124_only_the_way",
    "Fwknop.Props.C124_defined",
    "Fwknop.Props.C124_made_partial",
    "Fwknop.Props.C124_false_slashes",
    "Fwknop.Props.C124_as_it_is",
    "Fwknop.Props.C124_relative",
    "Fwknop.Props.C124_goes_on",
    "Fwknop.Props.C124_false_long_path"
   ],
   "note": "Everything but two cases is proved for all paths and file systems: with two or more slashes at the end the directory is made but the daemon ends (C124_false_slashes, for all such paths with two), and longer paths are cut (C124_false_long_path)."
  },
  {
   "property": "C125",
   "status": "partial",
   "theorems": [
    "Fwknop.Props.C125_released_once_partial",
    "Fwknop.Props.C125_no_leak_partial",
    "Fwknop.Props.C125_false_released_twice",
    "Fwknop.Props.C125_false_lost_key",
    "Fwknop.Props.C125_false_lost_signature"
   ],
   "note": "Proved for all histories in which the listing of keys can be started; that nothing is left is proved with at most one recipient, signer and decryption of at most two signatures. The other cases are false of the code: C125_false_released_twice (for every history), C125_false_lost_key, C125_false_lost_signature."
  },
  {
   "property": "C126",
   "status": "partial",
   "theorems": [
    "Fwknop.Props.C126_works_partial",
    "Fwknop.Props.C126_false_after_failure",
    "Fwknop.Props.C126_failed_signer"
   ],
   "note": "Proved for histories in which only calls for keys fail; false after a failed encryption or decryption, for every history after it (C126_false_after_failure)."
  },
  {
   "property": "C127",
   "status": "partial",
   "theorems": [
    "Fwknop.Props.C127_says_so_partial",
    "Fwknop.Props.C127_no_number",
    "Fwknop.Props.C127_false_not_permitted",
    "Fwknop.Props.C127_can_clean_up",
    "Fwknop.Props.C127_killed",
    "Fwknop.Props.C127_term_first"
   ],
   "note": "C127_says_so_partial needs that the user may signal the process; C127_false_not_permitted shows that without that nothing is sent and success is reported."
  },
  {
   "property": "C128",
   "status": "partial",
   "theorems": [
    "Fwknop.Props.C128_start_partial",
    "Fwknop.Props.C128_linked",
    "Fwknop.Props.C128_false_other_anchor"
   ],
   "note": "C128_start_partial gives the exact condition (a name that ends with the configured one); C128_linked is the wanted direction; C128_false_other_anchor refutes the other."
  },
  {
   "property": "C129",
   "status": "partial",
   "theorems": [
    "Fwknop.Props.C129_daemon_partial",
    "Fwknop.Props.C129_client_partial",
    "Fwknop.Props.C129_rc_file_partial",
    "Fwknop.Props.C129_false_used_by_daemon",
    "Fwknop.Props.C129_false_rc_file_exchanged",
    "Fwknop.Props.C129_false_fstat_fails"
   ],
   "note": "Proved: what the daemon looks at is what it reads, it is used exactly if it is a regular file, and a warning is given exactly if others have a say in it (C129_daemon_partial; C129_client_partial and C129_rc_file_partial for the client). Such files are used all the same (C129_false_used_by_daemon), and the rc file can be exchanged after it was looked at (C129_false_rc_file_exchanged)."
  },
  {
   "property": "C130",
   "status": "proved",
   "theorems": [
    "Fwknop.Props.C130_paths",
    "Fwknop.Props.C130_no_links"
   ],
   "note": "All paths, modes and kinds; the path is looked at when the options are read, not when it is used."
  },
  {
   "property": "C131",
   "status": "partial",
   "theorems": [
    "Fwknop.Props.C131_saved_partial",
    "Fwknop.Props.C131_appended",
    "Fwknop.Props.C131_history",
    "Fwknop.Props.C131_errors",
    "Fwknop.Props.C131_false_written_through"
   ],
   "note": "Proved where the calls of the system work; C131_false_written_through shows what happens if the old entry cannot be removed."
  },
  {
   "property": "C132",
   "status": "partial",
   "theorems": [
    "Fwknop.Props.C132_one_shot",
    "Fwknop.Props.C132_test_changes_nothing",
    "Fwknop.Props.C132_cleans_up_partial",
    "Fwknop.Props.C132_false_bad_reload",
    "Fwknop.Props.C132_false_not_needed_any_more",
    "Fwknop.Props.C132_serves_when_ready",
    "Fwknop.Props.C132_one_shot_status",
    "Fwknop.Props.C132_which_server",
    "Fwknop.Props.C132_which_server_nfq"
   ],
   "note": "The order, the options that ask for one thing and --test are proved in full. The clean-up is proved for daemons whose reloads find a good configuration that needs the firewall; else it is false (C132_false_bad_reload, C132_false_not_needed_any_more). Calls inside the parts are one answer each."
  },
  {
   "property": "C133",
   "status": "partial",
   "theorems": [
    "Fwknop.Props.C133_erased_partial",
    "Fwknop.Props.C133_false_two_lines",
    "Fwknop.Props.C133_false_empty_line",
    "Fwknop.Props.C133_false_overrun"
   ],
   "note": "False for a key file with several lines for the server (C133_false_two_lines, C133_false_empty_line) and for base64 keys of more than 129 bytes (C133_false_overrun). The static array of getpasswd and the stack of get_key_file are not part of the claim."
  },
  {
   "property": "C134",
   "status": "partial",
   "theorems": [
    "Fwknop.Props.C134_sent_once",
    "Fwknop.Props.C134_not_sent",
    "Fwknop.Props.C134_sockets_closed",
    "Fwknop.Props.C134_sent_while_open",
    "Fwknop.Props.C134_status_partial",
    "Fwknop.Props.C134_false_short"
   ],
   "note": "The report of success is partial: a short send over TCP is only a warning (C134_false_short). The raw-socket and HTTP ways of sending are not part of this model."
  }
 ]
}