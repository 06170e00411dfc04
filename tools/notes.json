{
"C01": "All byte strings; also after the '=' signs are stripped, as the SPA protocol does.",
"C03": "All nine fields, all seven digest algorithms, arbitrary bytes after the terminator in the receiver's buffer. The hash functions are a parameter assumed only to return digestLen bytes.",
"C05": "Exact for plaintexts without embedded NUL; with embedded NULs the digest covers the recorded length (C05_digest_enforced_embedded_nul).",
"C09": "Both grammars exactly, plus NAT targets, usernames and the value of dotted quads.",
"C10": "Every text and every pair of bounds.",
"C100": "Partial: symmetric encryption, access, command and NAT requests, fewer than 400 characters, fields that fit the receiver, a non-empty HMAC key, clocks between 2001 and 2038; for the rules also what is missing in C39. C100_long_packets_are_lost shows that the length limit is needed: the server judges the encryption by the length of the packet with its HMAC (server/incoming_spa.c:1011), so a symmetric packet of 400 characters or more is taken for GnuPG and dropped unless ENABLE_CMD_EXEC is set. C100_command_is_run_partial is the same for -C commands (without sudo) and needs at least 140 characters: C100_short_commands_are_lost shows a short command with an MD5 digest and no HMAC that the server drops. C100_nat_knock_opens_the_way_partial goes from -N or --nat-local to the exact tables (first port, no FORWARD_ALL, as in C68).",
"C101": "Partial: the first half is proved for both loops. The second is false in two respects: datagrams above 1500 bytes are cut and processed (C101_long_datagram), and the UDP server knows no destination address, so that DESTINATION matches only 0.0.0.0 (C101_datagram_destination).",
"C104": "False when the daemon ends, also with SIGHUP in UDP mode (C104_false_if_the_daemon_ends), and for a closing command that does not fit (C104_false_for_a_long_command).",
"C105": "That nothing else ends or restarts the daemon is proved in full. SIGTERM is obeyed unless it arrives between the look at its flag and the reset of got_signal (C105_false_in_the_window: then it waits for another signal, C105_term_is_kept_partial), during a reload or with a SIGHUP (C105_false_during_a_reload, C105_false_with_hup). SIGHUP is obeyed whatever else arrives (C105_hup_is_obeyed_partial), except in the same window, during a reload and when the daemon is ending (C105_false_hup_in_the_window, C105_false_hup_during_a_reload); in the window it waits for another signal (C105_hup_is_kept_partial).",
"C106": "False after a SIGHUP: get_running_pid closes a descriptor of the file and with it gives the lock up (C106_false_after_hup). Further exceptions: C106_false_in_a_race, C106_false_for_a_number_that_comes_again, C106_status_leaves_its_number, C106_status_turns_a_daemon_away. Missing: calls that fail; the clause on --status for a command whose steps are mixed with others'.",
"C107": "Files without include directives and with lines of at most 1022 characters.",
"C108": "The client's keys are given on the command line. The two generated keys are assumed to differ (the daemon refuses equal ones).",
"C109": "Proved for calls that work (and for the expiry also when calls are killed) and names that fit the 255-byte command buffer with the 29-byte prefix; C109_long_name, C109_refused, C109_start_refused and C109_start_deletion_refused show what goes wrong otherwise. C109_forward_all_partial covers FORWARD_ALL. C109_no_trace_partial follows a whole run from start to end, with requests and expirations in any number. The fallback without -C is not modelled.",
"C11": "The full statement is false of the code (the long is truncated to int before the bounds are checked): C11_aliasing_negation is the witness. Proved for values below 2^31.",
"C110": "Lines of at most 127 characters. False of the code, with theorems: longer lines are cut without an error, Ctrl-C gives the empty key and the client goes on, two keys cannot come from one descriptor. Terminal settings and signals are not modelled.",
"C111": "URLs with a port of at most four digits and no colon in the path without a port; answers of less than 2000 bytes. False of the code, with theorems: five-digit ports are cut, a colon in the path spoils the host or overflows an array, addresses with trailing characters are accepted, long answers depend on their pieces. Sockets, name resolution, fork and pipe are not modelled.",
"C112": "Lines of at most 254 characters for the search. False of the code, with theorems: a program that cannot be started or a user that cannot be taken on counts as success, supplementary groups are kept, output that does not fit may count as failure, texts in long lines are missed.",
"C113": "Proved from the text of the file to the effects. The identity of a signer under GPG_REMOTE_ID is the last eight digits of the fingerprint: C113_false_for_equal_short_ids shows two keys that pass as one, C113_false_for_long_ids that longer forms match nobody. With a KEY in the stanza the claim is about packets of at least 400 characters, since shorter ones are not taken for data of GnuPG.",
"C114": "The last sentence is false: OPEN_PORTS and RESTRICT_PORTS are not applied to the NAT target (witnesses C114_open_ports_do_not_hold, C114_open_ports_do_not_hold_behind); everything else in the statement is proved.",
"C115": "Partial: messages of GnuPG in the old packet format, of at least 301 octets and short enough for one packet, access requests. False for other formats: see C115_other_formats_are_lost.",
"C116": "Partial: false for the doubled rules and for NAT targets (three witnesses). Proved for the input chain in place, with only the daemon's rules of one destination in it, TCP and UDP ports from 1, and times from 2001 to 2106.",
"C117": "Partial: the firewall is kept only in test mode or with FLUSH_IPT_AT_EXIT N (C117_kept_partial); otherwise the end of the helper clears it, and a restarted helper that fails is a second daemon.",
"C118": "Partial: false whenever the server ends alone; it is started again only if another child ends at the same moment.",
"C119": "False for source addresses whose first half is at most 5.220, or 129.0, or 170.170; proved for all others.",
"C12": "Partial: PCBC is accepted by the setter but not implemented (C12_pcbc_not_implemented). Proved for every other mode of cipher_funcs.c over any lawful block cipher.",
"C120": "False in four ways, each proved for all runs; proved: a signal ends the loop at the next pause, and without signal, limit and more than 101 errors the loop goes on. Proved for all runs as well: every rule has a packet that entitles to it, as with the other ways to get packets (C120_every_rule_has_a_packet).",
"C121": "False when the store fails (the error is overwritten; C121_false_a_full_disk, for every packet and any number of replays) and when the cache cannot be opened at the start (C121_false_not_remembered). Proved otherwise, with counted replays.",
"C122": "False after SIGHUP: the option is obeyed again (C122_false_a_reload_forgets, C122_false_put_aside_is_lost, for all files; C122_false_replay_after_reload). Proved for the first start and without the option.",
"C123": "Memory safety and the text are proved for all contexts and sizes. That members can be told from the listing is false for texts with line feeds (C123_false_two_contexts) and proved for the others. Without the lines about GnuPG.",
"C124": "Everything but two cases is proved for all paths and file systems: with two or more slashes at the end the directory is made but the daemon ends (C124_false_slashes, for all such paths with two), and longer paths are cut (C124_false_long_path).",
"C125": "Proved for all histories in which the listing of keys can be started; that nothing is left is proved with at most one recipient, signer and decryption of at most two signatures. The other cases are false of the code: C125_false_released_twice (for every history), C125_false_lost_key, C125_false_lost_signature.",
"C126": "Proved for histories in which only calls for keys fail; false after a failed encryption or decryption, for every history after it (C126_false_after_failure).",
"C127": "C127_says_so_partial needs that the user may signal the process; C127_false_not_permitted shows that without that nothing is sent and success is reported.",
"C128": "C128_start_partial gives the exact condition (a name that ends with the configured one); C128_linked is the wanted direction; C128_false_other_anchor refutes the other.",
"C129": "Proved: what the daemon looks at is what it reads, it is used exactly if it is a regular file, and a warning is given exactly if others have a say in it (C129_daemon_partial; C129_client_partial and C129_rc_file_partial for the client). Such files are used all the same (C129_false_used_by_daemon), and the rc file can be exchanged after it was looked at (C129_false_rc_file_exchanged).",
"C13": "The full statement is false of the code: C13_early_padding_out_of_bounds is a ciphertext that makes the padding removal write before its buffer. Proved for ciphertexts of at least two blocks after the salt header and for whole packets of the protocol's minimum size.",
"C130": "All paths, modes and kinds; the path is looked at when the options are read, not when it is used.",
"C131": "Proved where the calls of the system work; C131_false_written_through shows what happens if the old entry cannot be removed.",
"C132": "The order, the options that ask for one thing and --test are proved in full. The clean-up is proved for daemons whose reloads find a good configuration that needs the firewall; else it is false (C132_false_bad_reload, C132_false_not_needed_any_more). Calls inside the parts are one answer each.",
"C133": "False for a key file with several lines for the server (C133_false_two_lines, C133_false_empty_line) and for base64 keys of more than 129 bytes (C133_false_overrun). The static array of getpasswd and the stack of get_key_file are not part of the claim.",
"C134": "The report of success is partial: a short send over TCP is only a warning (C134_false_short). The raw-socket and HTTP ways of sending are not part of this model.",
"C14": "Prefix removal and restoration, symmetric and GnuPG; a raw packet that carries the prefix is dropped. False over HTTP (witness), where the partial theorem does not apply.",
"C15": "Acceptance implies a valid RFC 2104 tag; without it the result does not depend on cipher, GnuPG or key. Lifted to the server: no effect without a valid tag under the acting stanza's key.",
"C17": "Proved for every API history and every request that fits the receiver's limits (287 characters of text, 271 with HMAC, the limits of C19).",
"C18": "The full statement is false of the code: five witnesses (long username, long message, timeout above 65536, local NAT without target, NAT target misread). Proved when the receiver's limits hold and type, message, NAT target and timeout are coherent.",
"C19": "The full statement is false of the code: texts of 288 characters or more are taken for GnuPG (C19_long_messages_refused). The partial theorem is an exact characterisation.",
"C20": "The full statement is false of the code: C20_stale_packet_returned. Proved for packets taken after a new fko_spa_data_final: history independence.",
"C21": "Command messages keep their type; the encoder re-establishes coherence.",
"C22": "hmac_digest_* have the same tables as digest_*.",
"C23": "Over every history of packets handled by incoming_spa; also for identical bytes.",
"C24": "Partial: every file that ends with a complete line (or a missing one), every history of records, failed records and restarts; plus absence of false alarms. A file that ends in the middle of a line is the case of C25.",
"C25": "The full statement is false of the code: the first append after a torn write lands on the torn line and is lost at the next restart (C25_record_lost_after_crash). Proved for every digest whose append is not the first one after a crash, with crashes at any byte before and after.",
"C26": "False without HMAC (append '=') and with HTTP enabled (witnesses). Proved: with an HMAC and HTTP off a second accepted text needs an HMAC over other data.",
"C27": "In terms of address lists and of the SOURCE/DESTINATION texts.",
"C29": "The exact equivalence is false when OPEN_PORTS repeats an entry: witness C29_duplicates_break. Proved otherwise.",
"C31": "False when a closing command cannot be written (witness). Proved otherwise, both directions: at most one effect, from the first stanza for which every check succeeds.",
"C32": "No effect from an expired stanza; over histories an expired stanza stays so (marked: for any clock; unmarked: for clocks that do not go back).",
"C33": "False for clocks past 2038 (witness: int truncation). Proved for clocks before 2^31.",
"C34": "Exact match of the user name.",
"C35": "Wildcard refused under REQUIRE_SOURCE_ADDRESS; the granted address is the payload's or the sender's.",
"C36": "False: FW_ACCESS_TIMEOUT above MAX_FW_TIMEOUT is used (witness). Proved: the client's timeout is capped, otherwise the stanza's is used.",
"C37": "False for user names that start with root (witness). Proved for the others, with the command text and the exclusion of port access.",
"C38": "NAT types need their switch.",
"C39": "The full statement is false of the code: command lines longer than the 256-byte buffers are cut (C39_long_name). Proved for rules of bounded length and a working iptables: the exact tables after a request that is not for NAT, with and without output chain.",
"C40": "The full statement is false of the code: only the first 4095 bytes of a listing are looked at (C40_long_listing). Proved for listings that fit.",
"C41": "The full statement is false of the code: a second grant postpones the check of the chain (C41_postponed). A check that removes only some rules leaves the next check time stale (C41_stale). Proved: within RULES_CHECK_THRESHOLD iterations every chain is swept; while the counters are right every check is prompt (C41_prompt_partial), and grants keep them right if nothing is overdue (C41_grant_partial).",
"C42": "The full statement is false of the code: a deletion that exits with an error status shifts the rule numbers (C42_refused). Proved for calls that are killed or do not start.",
"C43": "The full statement is false of the code: C43_short_name. Proved for names longer than the index of the chain.",
"C44": "The full statement is false of the code: a '$' that starts no variable is dropped (C44_stray_dollar_dropped) and long commands are cut (C44_command_truncated). Proved for commands whose '$' all start variables and that fit; C44_dropping describes every command.",
"C45": "The full statement is false of the code: C45_write_outside_buffer. Proved when the expansion leaves room before every plain character.",
"C46": "Every history of openings and clock ticks, in the spec's terms.",
"C47": "Any memory content in and behind the frame, any lengths and link header length.",
"C48": "False for frames captured shorter than 60 bytes or tagged frames shorter than 18 (witnesses C48_tag, C48_short); proved for all others.",
"C49": "False: the mask 0x15 makes 5, 7, 13 and 15 words all count as 5 and drops the others (C49_options_dropped, C49_options_misread, for all such packets); the payload theorem holds for all packets without IP options.",
"C50": "The server takes exactly the data from any GET request for its URL-safe form; the client's own requests of at most 1500 bytes are accepted. False for longer requests (witness).",
"C51": "False when the value ends the packet (witness: first character lost). Proved when white space follows it; other values and absent headers give no address.",
"C52": "False of a GPG passphrase shared with the HMAC key and of keys given in the legacy shared form; witnesses beside the theorem.",
"C54": "Partial: number uniqueness and exact effect of requests hold for every history that starts on a clean firewall with both flush options on and whose ipfw calls work or are killed. Refuted (witnesses): a move that ipfw refuses (C54_refused), administrator rules in the number range (C54_foreign), FLUSH_AT_EXIT off (C54_kept).",
"C55": "False in general: rules without a label, or after a rule that is not a pass rule, are lost, a request while a rule is overdue puts off the next check, and a listing that does not fit loses rules (witnesses). Proved for anchors of access rules with ten-digit times that fit the buffer: checks, requests, histories of them, and clean-up.",
"C56": "False: cycle commands run in test mode (witness). Proved for stanzas without cycles, with the replay cache unchanged.",
"C57": "False for a saved line that does not fit or for arguments with spaces (witnesses). Proved: an exact characterisation of the saved command lines that are restored, and memory safety of saving and restoring.",
"C58": "All seven digest types, keys up to 136 bytes; longer keys are refused.",
"C64": "False: a 16-character value overflows the address by one byte, an empty value at the end of a full packet is read behind the array (witnesses). Proved for the other packets.",
"C65": "False: a packet with an early '=' makes a server without HMAC read before a buffer; sudo with CMD_EXEC_GROUP only uses NULL (witnesses). Proved for packets without '=', lawful algorithms and configurations with room in the cycle commands.",
"C66": "The full statement is false of the code: the message `-u root id` overrides CMD_SUDO_EXEC_USER (C66_option_in_message), and CMD_SUDO_EXEC_GROUP is ignored unless CMD_EXEC_GROUP is set (C66_group_ignored). Proved when both are configured, with CMD_EXEC_GROUP, and the message does not start with a hyphen.",
"C67": "The full statement is false of the code: any word of 1024 characters or more overflows the word buffer (C67_long_word, for every such text). Proved exactly for all other texts.",
"C68": "False as stated: C68_first_port_only, C68_forward_to_anywhere, C68_false_masquerade_all, C68_false_force_snat_ignored, C68_false_nat_to_nowhere. Proved: the exact tables after a request, for the first port without FORWARD_ALL (C68_tables_partial) and for all packets of the client with FORWARD_ALL (C68_forward_all_partial).",
"C69": "False as stated: C69_overflow (for every host of 70 characters), C69_target_cut. Proved: memory safety for every other length.",
"C70": "All three raw transports; what the kernel fills in is the specification KernelSends (raw(7)).",
"C71": "All data, odd lengths included.",
"C72": "Refuted: the 11 characters read as a time include the line feed of every line but the last, so only the last rule listed can expire (C72_stuck, C72_stuck_example). Proved for the last rule: C72_last_partial.",
"C73": "Proved for listings of at most 4095 characters; refuted when no connection is left at all (nothing is purged: C73_idle) and when the listing is truncated (C73_truncated).",
"C74": "md5T is given as a table in the specification; that it is the table of sines is not proved.",
"C77": "The end-to-end theorem has the limits of C17.",
"C78": "Partial: lines up to 1022 characters; blanks behind a value of one character stay (C78_one_character_not_trimmed: chop_whitespace stops before the first character). C78_safe: all file systems, all descriptor limits.",
"C79": "Partial. Numbers from 2^31 on are read modulo 2^32 (C79_timeout_wraps), ACCESS_EXPIRE_EPOCH of a word never expires (C79_expiry_text_ignored), the month of ACCESS_EXPIRE is not checked (C79_month_not_checked), six digits of a FORCE_NAT port are cut (C79_nat_port_cut) and FORCE_MASQUERADE N ends a FORCE_SNAT before it (C79_false_masquerade_off_ends_snat); Configured says nothing about such values.",
"C80": "False when %include_keys follows %include in a stanza: free_last_acc_stanza frees the last stanza of the included file, and the unusable one stays (C80_unusable_stanza_kept). Missing in C80_usable_partial: files with that order.",
"C81": "Unconditional.",
"C82": "%include is limited to depth 3; %include_folder has no limit of its own, and a folder that includes itself ends only when no file descriptor is left.",
"C83": "False: getpwnam overwrites its static result, so with CMD_SUDO_EXEC_USER after CMD_EXEC_USER the commands get the other user's group (C83_group_of_the_wrong_user); CMD_EXEC_GROUP is looked up with getpwnam, among users (C83_group_name_is_a_user). Missing in C83_user_and_group_partial: other orders, groups.",
"C84": "False with two files: lists are expanded again for the stanzas of earlier files, OPEN_PORTS holds every port twice, and requests for open ports are refused (C84_lists_expanded_again). Missing in C84_one_file_partial: folders with several .conf files.",
"C85": "C85_keys discharges the hypothesis KeysOk of the packet theorems for every configuration that loads. An HMAC_KEY_BASE64 that decodes to nothing means no HMAC (C85_empty_hmac_key); the theorem speaks of non-empty keys.",
"C86": "Partial: a command is not combined with NAT or a timeout (C86_command_with_nat_is_lost), fields within the receiver's limits (C86_long_timeout_is_lost), a non-empty HMAC key (C86_empty_hmac_key_is_lost); GnuPG is out. The text of -A and -a after cutting is what is meant (C86_nat_port_is_cut, C87_values_are_bent).",
"C87": "Partial: addresses are cut to 15 characters before they are checked and odd characters in time offsets are passed over (C87_values_are_bent).",
"C89": "Partial: no GnuPG; what a key file gives is stated for lines of at most 1022 characters and server names that do not begin like a comment or a separator.",
"C90": "Partial: the property is false of the code in four places, each with a witness (C90_base64_key_overflows, C90_key_file_overflows, C90_access_overflows, C90_time_offset_overflows); proved for shorter texts.",
"C91": "Partial: an rc file with both an address and a wish to have it found, or with an HMAC type and no HMAC, is treated differently from the options (C91_resolve_cannot_override, C91_hmac_type_alone), and HMAC_KEY_FILE is taken for KEY_FILE (C91_hmac_key_file_is_taken_for_the_key_file).",
"C92": "Partial: the options of Savable (values without blanks, no -s, no --get-hmac-key, no address whose name begins with resolve), numbers within the limits of the file's parser, a stanza that is new or is overwritten with --force-stanza and is in the file at most once. The failures outside are the C92_false_ theorems.",
"C93": "System calls other than open with O_EXCL are taken to succeed; a crash is a kill of the client, not a loss of power (no fsync is made).",
"C94": "False when iptables refuses calls, when the jump position is 0, and when there are more jumps than the cleanup loop removes; witnesses beside the theorems.",
"C95": "Proved for working iptables calls and requests of every kind, with and without NAT and FORWARD_ALL; C95_restart_drops_access shows that a restart drops access that had been granted.",
"C96": "For files of lines of at most 1022 characters in which references have a suffix; C96_false_* show where the code departs from the plain reading.",
"C97": "The value is proved for decimal numbers below 2^31; C97_false_wraps, C97_false_junk and C97_false_port show what else is accepted.",
"C98": "Names are cut to 63 characters (C98_false_long_name); the connection to C94 and C95 is for the default chain settings.",
"C99": "Names on the command line and of the build that are empty are excluded: C99_false_empty_run_dir."
}
