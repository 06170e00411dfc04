{"id": "C01", "title": "Base64 round trip", "statement": "Decoding the output of fko_base64_encode with fko_base64_decode returns exactly the original bytes and length, whether or not the trailing '=' padding has been stripped first.", "quantifier": "every byte string of every length, with or without '=' stripping", "why_tests_cant": "Inputs of every length and content; tests sample a handful of strings.", "anchors": ["lib/base64.c:b64_encode", "lib/base64.c:b64_decode", "lib/base64.c:strip_b64_eq"]}
{"id": "C02", "title": "Base64 output alphabet and length", "statement": "fko_base64_encode emits only characters A-Z a-z 0-9 + / followed by at most two '='; its length is 4*ceil(n/3), and after '=' stripping ceil(4n/3); in particular the output never contains ':' so it can be a field of a colon separated SPA message.", "quantifier": "every byte string", "why_tests_cant": "A universally quantified output-language property.", "anchors": ["lib/base64.c:b64_encode", "lib/base64.c:strip_b64_eq", "lib/fko_encode.c:fko_encode_spa_data"]}
{"id": "C03", "title": "SPA encode/decode round trip", "statement": "For every SPA context a client can build through the API whose fields fit the receiver's limits, decoding the encoded text plus its digest yields the same random value, username, timestamp, version, message type, message, NAT access, server auth and client timeout.", "quantifier": "every combination of field values and message types, every digest algorithm", "why_tests_cant": "The domain is a product of unbounded string fields and optional fields.", "anchors": ["lib/fko_encode.c:fko_encode_spa_data", "lib/fko_decode.c:fko_decode_spa_data"]}
{"id": "C04", "title": "SPA plaintext is unambiguous", "statement": "Two contexts whose encoded SPA texts are equal carry the same field values: no request can be reinterpreted as a different one by moving bytes between fields.", "quantifier": "every pair of encodable contexts", "why_tests_cant": "Pairs of arbitrary messages; only injectivity over all of them matters.", "anchors": ["lib/fko_encode.c:fko_encode_spa_data", "lib/fko_decode.c:fko_decode_spa_data"]}
{"id": "C05", "title": "Internal digest is enforced", "statement": "Decoding succeeds only if the trailing digest equals the base64 digest (of the algorithm implied by its length) of the text before it; any other text is rejected and no fields are exposed as valid.", "quantifier": "every decrypted plaintext", "why_tests_cant": "All texts, including adversarial ones.", "anchors": ["lib/fko_decode.c:fko_decode_spa_data", "lib/fko_decode.c:verify_digest", "lib/fko_decode.c:is_valid_digest_len"]}
{"id": "C06", "title": "A decoded SPA message is well formed", "statement": "Whenever decoding reports success, the username obeys the username rules, the message type is one of the seven known types, the message obeys the grammar for its type, NAT messages carry a NAT target that obeys the NAT grammar, timestamps are non-negative and client timeouts lie in range.", "quantifier": "every decrypted plaintext", "why_tests_cant": "Adversarial plaintexts cannot be enumerated.", "anchors": ["lib/fko_decode.c:fko_decode_spa_data", "lib/fko_message.c:validate_access_msg", "lib/fko_user.c:validate_username"]}
{"id": "C07", "title": "Decoder never reads or writes out of bounds", "statement": "Decoding any decrypted text accesses only bytes inside the message buffer and the working buffers it allocated.", "quantifier": "every decrypted plaintext of every length", "why_tests_cant": "Memory safety over all inputs; fuzzing samples.", "anchors": ["lib/fko_decode.c:fko_decode_spa_data", "lib/fko_decode.c:parse_msg", "lib/base64.c:b64_decode"]}
{"id": "C08", "title": "proto/port grammar", "statement": "The library accepts a proto/port specification exactly when it is 'tcp' or 'udp', a slash, and one to five decimal digits denoting 1..65535.", "quantifier": "every string", "why_tests_cant": "Exact characterisation of an accepted language.", "anchors": ["lib/fko_message.c:validate_proto_port_spec"]}
{"id": "C09", "title": "Access message grammar", "statement": "fko_set_spa_message for access messages accepts exactly the texts '<IPv4>,<proto/port>(,<proto/port>)*' within the size limit, and command messages exactly '<IPv4>,<non-empty command>' within the command size limit.", "quantifier": "every string", "why_tests_cant": "Exact characterisation of an accepted language.", "anchors": ["lib/fko_message.c:validate_access_msg", "lib/fko_message.c:validate_cmd_msg", "lib/fko_message.c:got_allow_ip"]}
{"id": "C10", "title": "Numeric field parsing respects its bounds", "statement": "A numeric configuration or packet field accepted with bounds [min,max] yields a value inside the bounds, and a canonical decimal rendering of a value in range parses back to it.", "quantifier": "every string, every pair of bounds, every in-range integer", "why_tests_cant": "All strings including overflowing ones.", "anchors": ["common/fko_util.c:strtol_wrapper"]}
{"id": "C11", "title": "Numeric fields are not aliased", "statement": "Two different decimal numbers in a numeric field are never accepted as the same value.", "quantifier": "every pair of decimal strings", "why_tests_cant": "Requires reasoning about 2^32 wrap-around on all inputs.", "anchors": ["common/fko_util.c:strtol_wrapper", "lib/fko_decode.c:parse_timestamp"]}
{"id": "C12", "title": "Encrypt/decrypt round trip", "statement": "For every plaintext, key and salt, decrypting with the same key and mode what the library encrypted returns the plaintext unchanged.", "quantifier": "every plaintext, key, salt and feedback mode", "why_tests_cant": "Unbounded plaintexts and keys; padding edge cases.", "anchors": ["lib/cipher_funcs.c:rij_encrypt", "lib/cipher_funcs.c:rij_decrypt", "lib/cipher_funcs.c:rijndael_init"]}
{"id": "C13", "title": "Decryption of hostile ciphertext is memory safe", "statement": "rij_decrypt on any ciphertext accesses only memory inside its buffers and returns a length that does not exceed the ciphertext length.", "quantifier": "every ciphertext of every length and every key", "why_tests_cant": "Adversarial ciphertext.", "anchors": ["lib/cipher_funcs.c:rij_decrypt", "lib/fko_encryption.c:_rijndael_decrypt"]}
{"id": "C14", "title": "Constant prefixes are removed and restored", "statement": "The data handed to the network omits the constant base64 prefix ('U2FsdGVkX1' or 'hQ') and the receiver's restored text equals the sender's encrypted text; a packet that already carries the prefix is refused.", "quantifier": "every encrypted message", "why_tests_cant": "All messages; negative half is a universally quantified rejection.", "anchors": ["lib/fko_funcs.c:fko_get_spa_data", "lib/cipher_funcs.c:add_salted_str", "lib/cipher_funcs.c:add_gpg_prefix", "server/incoming_spa.c:preprocess_spa_data"]}
{"id": "C15", "title": "HMAC is verified before decryption", "statement": "When an HMAC key is configured, no byte of a packet is decrypted and no field is exposed unless the packet's trailing HMAC equals the HMAC of the preceding text under that key.", "quantifier": "every packet, key and HMAC type", "why_tests_cant": "All forged packets.", "anchors": ["lib/fko_funcs.c:fko_new_with_data", "lib/fko_hmac.c:fko_verify_hmac"]}
{"id": "C16", "title": "Constant time comparison is equality", "statement": "The digest comparison reports equality exactly when the two byte strings are equal and inspects the same number of bytes whatever their content.", "quantifier": "every pair of equal length byte strings", "why_tests_cant": "All pairs; timing independence is a property of all executions.", "anchors": ["common/fko_util.c:constant_runtime_cmp"]}
{"id": "C17", "title": "Client to server end to end", "statement": "A packet produced by fko_spa_data_final and fko_get_spa_data, given unchanged to fko_new_with_data with the same keys, mode and HMAC type, decodes to the sender's fields.", "quantifier": "every encodable context, key pair, salt, mode, digest and HMAC algorithm", "why_tests_cant": "Composition over all inputs.", "anchors": ["lib/fko_funcs.c:fko_spa_data_final", "lib/fko_funcs.c:fko_get_spa_data", "lib/fko_funcs.c:fko_new_with_data"]}
{"id": "C18", "title": "What the client may send the server can decode", "statement": "Every field value the setter functions accept and the encoder encodes is accepted by the decoder.", "quantifier": "every username, message and client timeout", "why_tests_cant": "Boundary sizes interact with base64 expansion.", "anchors": ["lib/fko_user.c:fko_set_username", "lib/fko_message.c:fko_set_spa_message", "lib/fko_client_timeout.c:fko_set_spa_client_timeout", "lib/fko_decode.c:parse_username"]}
{"id": "C19", "title": "Ciphertext family is recognised", "statement": "Every ciphertext produced by symmetric encryption is recognised by the receiver as symmetric.", "quantifier": "every message length", "why_tests_cant": "Length dependent heuristic.", "anchors": ["lib/fko_encryption.c:fko_encryption_type"]}
{"id": "C20", "title": "fko_get_spa_data never returns stale data", "statement": "After a successful setter call fko_get_spa_data never returns a packet that was built from the values before the call.", "quantifier": "every sequence of API calls", "why_tests_cant": "Histories of API calls are unbounded.", "anchors": ["lib/fko_funcs.c:fko_get_spa_data", "lib/fko_encode.c:fko_encode_spa_data", "lib/fko_encryption.c:fko_encrypt_spa_data"]}
{"id": "C21", "title": "Client timeout and message type stay coherent", "statement": "After any sequence of client timeout, NAT access and message type setter calls, a message whose timeout is positive and which was last touched by the timeout setter has a client-timeout message type (a command message keeps its type), and the type stays within the known types.", "quantifier": "every sequence of setter calls", "why_tests_cant": "Unbounded histories.", "anchors": ["lib/fko_client_timeout.c:fko_set_spa_client_timeout", "lib/fko_nat_access.c:fko_set_spa_nat_access", "lib/fko_message.c:fko_set_spa_message_type"]}
{"id": "C22", "title": "Name/number tables agree", "statement": "Converting a digest, HMAC or encryption mode number to its name and back is the identity, and names not in the table are rejected.", "quantifier": "every integer and every string", "why_tests_cant": "Unbounded strings on the reject side.", "anchors": ["common/fko_util.c:digest_strtoint", "common/fko_util.c:digest_inttostr", "common/fko_util.c:enc_mode_strtoint", "common/fko_util.c:hmac_digest_strtoint"]}
{"id": "C23", "title": "A replayed packet is never honoured while the daemon runs", "statement": "With replay detection on, once a packet has been accepted for processing no later packet with the same raw text causes any firewall rule, command or cycle command.", "quantifier": "every history of packets, stanzas and times within a daemon run", "why_tests_cant": "Unbounded histories.", "anchors": ["server/incoming_spa.c:incoming_spa", "server/replay_cache.c:is_replay", "server/replay_cache.c:add_replay"]}
{"id": "C24", "title": "Replay protection survives restarts", "statement": "A digest recorded before a clean restart is still recognised after it.", "quantifier": "every cache content and any number of restarts", "why_tests_cant": "Histories of restarts.", "anchors": ["server/replay_cache.c:replay_file_cache_init", "server/replay_cache.c:add_replay_file_cache", "server/replay_cache.c:is_replay_file_cache"]}
{"id": "C25", "title": "Replay protection survives a crash", "statement": "If the daemon dies at any point while appending to the replay cache file, every digest whose append completed earlier and every digest appended after the restart is still recognised after later restarts.", "quantifier": "every crash point inside an append and every later history", "why_tests_cant": "Crash points must be quantified over.", "anchors": ["server/replay_cache.c:add_replay_file_cache", "server/replay_cache.c:replay_file_cache_init"]}
{"id": "C26", "title": "A replay cannot be disguised", "statement": "An observer who captured an accepted packet cannot produce a different raw packet that is accepted as the same request.", "quantifier": "every transformation of the raw packet", "why_tests_cant": "Adversarial transformations.", "anchors": ["server/incoming_spa.c:preprocess_spa_data", "server/incoming_spa.c:get_raw_digest", "lib/base64.c:b64_decode"]}
{"id": "C27", "title": "Source address authorises", "statement": "A stanza acts on a packet only if the packet's network source address lies in one of the stanza's SOURCE networks and its destination in one of the DESTINATION networks when configured.", "quantifier": "every address and every list of networks", "why_tests_cant": "2^32 addresses by arbitrary lists.", "anchors": ["server/access.c:compare_addr_list", "server/access.c:add_int_ent", "server/incoming_spa.c:src_dst_check"]}
{"id": "C28", "title": "Network specification semantics", "statement": "A network written a.b.c.d/n matches exactly the addresses that share its first n bits, a.b.c.d exactly that address, and ANY every address.", "quantifier": "every specification and address", "why_tests_cant": "All prefixes by all addresses.", "anchors": ["server/access.c:add_int_ent", "server/access.c:compare_addr_list"]}
{"id": "C29", "title": "Port authorisation", "statement": "A request is allowed exactly when no requested proto/port is in RESTRICT_PORTS and, if OPEN_PORTS is given, every requested proto/port is in it.", "quantifier": "every request list and every pair of configured lists", "why_tests_cant": "Lists of unbounded length with duplicates.", "anchors": ["server/access.c:acc_check_port_access", "server/access.c:compare_port_list", "server/access.c:expand_acc_port_list"]}
{"id": "C30", "title": "RESTRICT_PORTS always wins", "statement": "If any requested proto/port appears in RESTRICT_PORTS the request is denied, whatever OPEN_PORTS says.", "quantifier": "every request and configuration", "why_tests_cant": "Unbounded lists.", "anchors": ["server/access.c:acc_check_port_access"]}
{"id": "C31", "title": "At most one stanza acts, and it is the first that fully matches", "statement": "For each packet at most one stanza produces effects, and it is the first in file order for which every check succeeds.", "quantifier": "every stanza list and packet", "why_tests_cant": "Unbounded stanza lists with arbitrary check outcomes.", "anchors": ["server/incoming_spa.c:incoming_spa"]}
{"id": "C32", "title": "Expired stanzas never act", "statement": "A stanza whose ACCESS_EXPIRE time is in the past never produces an effect, and once expired it stays so.", "quantifier": "every stanza, packet and clock history", "why_tests_cant": "Clock histories.", "anchors": ["server/incoming_spa.c:check_stanza_expiration", "server/access.c:add_acc_expire_time"]}
{"id": "C33", "title": "Packet age limit", "statement": "With packet aging on, a packet whose timestamp differs from the server clock by more than the limit produces no effect.", "quantifier": "every timestamp and clock value", "why_tests_cant": "All 64-bit clock values and all timestamps incl. overflow.", "anchors": ["server/incoming_spa.c:check_pkt_age"]}
{"id": "C34", "title": "Username restriction", "statement": "A stanza with REQUIRE_USERNAME acts only on packets carrying exactly that username.", "quantifier": "every username and stanza", "why_tests_cant": "All strings.", "anchors": ["server/incoming_spa.c:check_username"]}
{"id": "C35", "title": "Address inside the packet is honoured only as configured", "statement": "With REQUIRE_SOURCE_ADDRESS a wildcard address (0.0.0.0) in the payload is refused, and access is granted to the payload's address or, for the wildcard, to the packet's source address.", "quantifier": "every payload address and stanza", "why_tests_cant": "All addresses and settings.", "anchors": ["server/incoming_spa.c:check_src_access"]}
{"id": "C36", "title": "Access time is bounded", "statement": "The time an access rule stays open is the client's timeout when given, otherwise the stanza's, and never exceeds the stanza's maximum.", "quantifier": "every stanza and request", "why_tests_cant": "All integers.", "anchors": ["server/incoming_spa.c:set_timeout"]}
{"id": "C37", "title": "Commands run only when enabled", "statement": "A command message executes only under a stanza with ENABLE_CMD_EXEC, with the configured user and group, and never opens a port.", "quantifier": "every packet and stanza list", "why_tests_cant": "All configurations.", "anchors": ["server/incoming_spa.c:process_cmd_msg", "server/incoming_spa.c:incoming_spa"]}
{"id": "C38", "title": "NAT only when enabled", "statement": "NAT requests are refused unless the corresponding forwarding or local NAT option is on.", "quantifier": "every packet and configuration", "why_tests_cant": "All configurations.", "anchors": ["server/incoming_spa.c:check_nat_access_types"]}
{"id": "C39", "title": "Firewall rules match the request", "statement": "A granted non-NAT request creates for each requested proto/port exactly one input rule whose source is the authorised address, whose port and protocol are the requested ones and whose expiry is now plus the access timeout, and no other accepting input rule.", "quantifier": "every request, stanza and clock value", "why_tests_cant": "Unbounded request lists.", "anchors": ["server/fw_util_iptables.c:process_spa_request", "server/fw_util_iptables.c:ipt_rule"]}
{"id": "C40", "title": "Expired firewall rules are removed, others kept", "statement": "A check of a chain removes exactly the rules whose expiry is at or before the current time and keeps every other rule in order.", "quantifier": "every chain content, clock value and pattern of deletion failures", "why_tests_cant": "Rule numbers shift as rules are deleted.", "anchors": ["server/fw_util_iptables.c:rm_expired_rules", "server/fw_util_iptables.c:check_firewall_rules"]}
{"id": "C41", "title": "Expired rules are noticed promptly", "statement": "At every loop iteration after a rule's expiry time has passed, the daemon examines the chain and removes the rule.", "quantifier": "every history of grants and checks", "why_tests_cant": "Histories of next-expiry bookkeeping.", "anchors": ["server/fw_util_iptables.c:check_firewall_rules", "server/fw_util_iptables.c:ipt_rule", "server/pcap_capture.c:pcap_capture"]}
{"id": "C42", "title": "A failed deletion does not endanger other rules", "statement": "If the firewall tool fails to delete a rule, no unexpired rule is deleted as a consequence.", "quantifier": "every chain and every pattern of tool failures, including non-zero exit status", "why_tests_cant": "Failure patterns.", "anchors": ["server/fw_util_iptables.c:rm_expired_rules", "server/extcmd.c:_run_extcmd"]}
{"id": "C43", "title": "Every configured chain is expired", "statement": "Expiry is applied to every chain in which the daemon creates rules, whatever the chain is called.", "quantifier": "every chain name", "why_tests_cant": "All names.", "anchors": ["server/fw_util_iptables.c:check_firewall_rules"]}
{"id": "C44", "title": "Command cycle substitution", "statement": "The command run for an open or close cycle is the configured text with each $VAR replaced by its value and nothing else changed.", "quantifier": "every template and every set of values", "why_tests_cant": "All templates; buffer boundary behaviour.", "anchors": ["server/cmd_cycle.c:build_cmd"]}
{"id": "C45", "title": "Command cycle substitution is memory safe", "statement": "Building a cycle command never writes outside its 256-byte buffer.", "quantifier": "every template and every set of values", "why_tests_cant": "Boundary behaviour for all templates.", "anchors": ["server/cmd_cycle.c:build_cmd"]}
{"id": "C46", "title": "Each opened cycle is closed exactly once, at its time", "statement": "For every successful open with a close command, the close command runs exactly once, in the first loop iteration whose clock is at or past the scheduled time, and never earlier.", "quantifier": "every history of opens and clock ticks", "why_tests_cant": "Unbounded histories and list surgery.", "anchors": ["server/cmd_cycle.c:cmd_cycle_close", "server/cmd_cycle.c:add_cmd_close"]}
{"id": "C47", "title": "Captured payload stays inside the frame", "statement": "For every captured frame, the bytes handed to SPA processing are a contiguous part of the frame and at most 1500 long.", "quantifier": "every frame content, capture length and link type", "why_tests_cant": "All frames including malformed headers.", "anchors": ["server/process_packet.c:process_packet"]}
{"id": "C48", "title": "Header parsing is memory safe", "statement": "Parsing any captured frame reads only bytes inside the captured frame.", "quantifier": "every frame content and capture length", "why_tests_cant": "Adversarial frames.", "anchors": ["server/process_packet.c:process_packet"]}
{"id": "C49", "title": "IPv4 header length is honoured", "statement": "For every well formed IPv4 packet the transport header is located at 4*IHL bytes into the IP packet.", "quantifier": "every header length 5..15", "why_tests_cant": "A table of all values and arbitrary frames.", "anchors": ["server/process_packet.c:process_packet", "common/netinet_common.h:IPV4_VER_MASK"]}
{"id": "C50", "title": "HTTP transport round trip", "statement": "A packet sent by the client over HTTP is restored by the server to the packet the client built.", "quantifier": "every SPA packet", "why_tests_cant": "All packets.", "anchors": ["client/spa_comm.c:send_spa_packet_http", "server/incoming_spa.c:preprocess_spa_data"]}
{"id": "C51", "title": "X-Forwarded-For address is read as written", "statement": "When X-Forwarded-For is honoured the address used is the one in the header.", "quantifier": "every HTTP request", "why_tests_cant": "All header layouts.", "anchors": ["server/incoming_spa.c:preprocess_spa_data"]}
{"id": "C52", "title": "Encryption and HMAC keys differ", "statement": "A configuration in which a stanza's decryption key or GPG passphrase equals its HMAC key is rejected.", "quantifier": "every stanza", "why_tests_cant": "All key pairs.", "anchors": ["server/access.c:acc_data_is_valid"]}
{"id": "C53", "title": "Stanza defaults are safe", "statement": "After defaults are applied every stanza has a positive access timeout, a positive maximum, and signature checking on for GPG unless it was explicitly turned off; a stanza with an HMAC key has an HMAC type.", "quantifier": "every stanza", "why_tests_cant": "All partial configurations.", "anchors": ["server/access.c:set_acc_defaults"]}
{"id": "C54", "title": "ipfw rule numbers never collide", "statement": "A rule number given to a new ipfw access rule is not in use by a live rule.", "quantifier": "every history of grants, expirations and purges", "why_tests_cant": "Unbounded histories.", "anchors": ["server/fw_util_ipfw.c:get_next_rule_num", "server/fw_util_ipfw.c:check_firewall_rules", "server/fw_util_ipfw.c:ipfw_purge_expired_rules"]}
{"id": "C55", "title": "pf anchor keeps unexpired rules", "statement": "Rebuilding the pf anchor removes every expired access rule and keeps every unexpired one.", "quantifier": "every anchor content and clock value", "why_tests_cant": "All listings.", "anchors": ["server/fw_util_pf.c:check_firewall_rules"]}
{"id": "C56", "title": "Test mode has no effects", "statement": "With --test, no packet causes a firewall rule or an external command.", "quantifier": "every packet and configuration", "why_tests_cant": "All paths through the decision procedure.", "anchors": ["server/incoming_spa.c:incoming_spa"]}
{"id": "C57", "title": "Run-last-command replays the saved command line", "statement": "The arguments restored by --last equal those of the previous invocation.", "quantifier": "every argument vector", "why_tests_cant": "All argument vectors incl. length limits.", "anchors": ["client/fwknop.c:save_args", "client/fwknop.c:run_last_args", "common/fko_util.c:strtoargv"]}
{"id": "C58", "title": "HMAC conforms to RFC 2104", "statement": "The tag appended to a packet (and recomputed on receipt) is the RFC 2104 HMAC of the ciphertext text under the given key with the selected digest, for every key of up to 136 bytes including keys longer than the digest's block; longer keys are refused with an error.", "quantifier": "every message, every key and every one of the seven HMAC types", "why_tests_cant": "Keys on both sides of each block length and all contents; test vectors sample a few keys.", "anchors": ["lib/hmac.c:pad_init", "lib/hmac.c:hmac_sha256", "lib/fko_hmac.c:fko_set_spa_hmac"]}
{"id": "C59", "title": "Base64 decoder accepts exactly the alphabet", "statement": "fko_base64_decode reads up to the first NUL or '='; it fails if any character before that is outside the 64-character alphabet, and otherwise returns exactly the bytes those characters denote (three per group of four, the complete bytes of an incomplete group).", "quantifier": "every byte string, canonical or not", "why_tests_cant": "All texts including malformed ones; a wrong table entry or an early stop would show up on specific inputs only.", "anchors": ["lib/base64.c:b64_decode", "lib/base64.c:map2"]}
{"id": "C60", "title": "Key derivation is OpenSSL's", "statement": "The AES key and iv used by symmetric encryption are those EVP_BytesToKey (MD5, one iteration) derives from the password and the salt, so packets can be produced and read by other implementations; in legacy mode passwords shorter than 16 bytes are first filled with the character '0'.", "quantifier": "every password, salt and mode", "why_tests_cant": "Interoperability for all passwords, including lengths around 16.", "anchors": ["lib/cipher_funcs.c:rij_salt_and_iv"]}
{"id": "C61", "title": "Ciphertexts are standard", "statement": "A symmetric ciphertext is \"Salted__\", the salt, and the blocks NIST SP 800-38A prescribes for the PKCS #7 padded plaintext in the selected mode (ECB, CBC, CFB, OFB, CTR with a 128-bit big-endian counter).", "quantifier": "every plaintext of every length, password, salt and mode", "why_tests_cant": "Chaining and counter carry errors appear only on long messages or rare counter values.", "anchors": ["lib/cipher_funcs.c:rij_encrypt", "lib/rijndael.c:block_encrypt"]}
{"id": "C62", "title": "The block cipher is AES", "statement": "For keys of 128, 192 and 256 bits, key setup followed by encryption of a block computes exactly the AES encryption defined in FIPS 197.", "quantifier": "every key of the three sizes and every 16-byte block", "why_tests_cant": "2^128 blocks and 2^256 keys; a wrong table entry shows up only on blocks that reach it.", "anchors": ["lib/rijndael.c:rijndael_setup", "lib/rijndael.c:rijndael_encrypt"]}
{"id": "C63", "title": "Block decryption inverts block encryption", "statement": "With the key set up once, decrypting an encrypted block returns the block, for every key.", "quantifier": "every key, key size and block", "why_tests_cant": "Same domain as C62; the decryption uses separate tables and transformed round keys.", "anchors": ["lib/rijndael.c:rijndael_setup", "lib/rijndael.c:rijndael_decrypt"]}
{"id": "C64", "title": "Extracting data from HTTP requests is memory safe", "statement": "Taking the SPA data and the X-Forwarded-For address out of a received packet never reads or writes outside the packet's and the address's arrays, whatever the packet contains.", "quantifier": "every packet of up to 1500 bytes and every setting of the HTTP options", "why_tests_cant": "the failing packets have specific lengths and positions of the header value", "anchors": ["server/incoming_spa.c:preprocess_spa_data"]}
{"id": "C65", "title": "Handling a packet never accesses memory out of bounds", "statement": "Whatever packet arrives, whatever the stanzas are and whatever happened before, the server's packet handling reads and writes only inside its buffers and uses no NULL pointer.", "quantifier": "every packet, every list of stanzas, every history", "why_tests_cant": "the space of packets and configurations is unbounded; the failures are at rare combinations", "anchors": ["server/incoming_spa.c:incoming_spa", "lib/fko_encryption.c:_rijndael_decrypt", "server/incoming_spa.c:process_cmd_msg"]}
{"id": "C66", "title": "Commands run through sudo run as the configured user and group", "statement": "When a stanza runs commands through sudo, the command that sudo executes is the command of the message, and the user and group it changes to are CMD_SUDO_EXEC_USER and CMD_SUDO_EXEC_GROUP, whatever the message says.", "quantifier": "all configurations, stanzas, packets and server states", "why_tests_cant": "The command is concatenated into a line that is split again; every message text, including one made of sudo options, has to be considered.", "anchors": ["server/incoming_spa.c: process_cmd_msg", "server/extcmd.c: run_extcmd", "common/fko_util.c: strtoargv"]}
{"id": "C67", "title": "Commands are executed with exactly the words of their text", "statement": "An external command is executed with exactly the blank-separated words of its text as its arguments, or not at all if there are too many of them; no text makes the daemon write outside its buffers.", "quantifier": "all texts", "why_tests_cant": "All numbers and lengths of words and all placements of blanks.", "anchors": ["common/fko_util.c: strtoargv, add_argv, free_argv", "server/extcmd.c: _run_extcmd"]}
{"id": "C68", "title": "A granted NAT request forwards exactly what was asked for", "statement": "When a request for NAT is granted, packets from the authorised address to each requested port are sent on to the requested host and port until the expiry time, and nothing else is let through.", "quantifier": "all NAT requests, stanzas and contents of the tables", "why_tests_cant": "All combinations of ports, targets, stanza options and rules already there.", "anchors": ["server/fw_util_iptables.c: process_spa_request", "server/fw_util_iptables.c: forward_access_rule, dnat_rule, snat_rule"]}
{"id": "C69", "title": "The NAT target is used exactly as given", "statement": "The host and port to which a NAT request asks packets to be sent are used exactly as given, and reading them never goes outside the memory reserved for them.", "quantifier": "all texts of NAT targets that the protocol library accepts", "why_tests_cant": "All lengths of host names and forms of addresses.", "anchors": ["server/fw_util_iptables.c: process_spa_request (lines 1515-1585)", "lib/fko_message.c: validate_nat_access_msg"]}
{"id": "C70", "title": "Raw packets of the client arrive at the server", "statement": "What the client sends with the raw UDP, raw TCP and ICMP protocols, completed by the kernel and captured in an Ethernet frame, reaches SPA processing in the server as exactly the SPA data, with the ports and addresses the client set; and putting the packet together never overruns its array.", "quantifier": "every SPA data of 140 to 1500 bytes, every address, port, ICMP type and code, with or without an 802.1Q tag and a trailer", "why_tests_cant": "Ranges over all data, header fields and frame layouts; both ends compute the offsets and lengths separately.", "anchors": ["client/spa_comm.c:send_spa_packet_udp_raw", "client/spa_comm.c:send_spa_packet_tcp_raw", "client/spa_comm.c:send_spa_packet_icmp", "server/process_packet.c:process_packet"]}
{"id": "C71", "title": "ICMP checksum of the client is correct", "statement": "Every ICMP message the client sends has a ones' complement sum of 0xffff.", "quantifier": "every data up to 1500 bytes, odd or even length, every type and code", "why_tests_cant": "Ranges over all data; wrong carry handling shows for few inputs only.", "anchors": ["client/spa_comm.c:chksum", "client/spa_comm.c:send_spa_packet_icmp"]}
{"id": "C72", "title": "Expired ipfw rules are taken out of service", "statement": "With the ipfw back end, after the time at which an access rule expires the next check of the daemon moves it out of the active set, so that it no longer admits new connections.", "quantifier": "every history of requests, checks, purges and connections, every time of a check", "why_tests_cant": "Whether a rule is found depends on all other rules listed after it; unbounded rule sets and histories.", "anchors": ["server/fw_util_ipfw.c:check_firewall_rules", "server/fw_util_ipfw.c:process_spa_request"]}
{"id": "C73", "title": "Purging keeps expired ipfw rules with live connections and removes the others", "statement": "A purge deletes an expired ipfw rule if and only if no connection made under it is still alive; it never deletes other rules.", "quantifier": "every history, every set of dynamic rules", "why_tests_cant": "Unbounded histories, rule and connection sets; size-dependent truncation of the listing.", "anchors": ["server/fw_util_ipfw.c:ipfw_purge_expired_rules"]}
{"id": "C74", "title": "MD5, SHA-1 and SHA-2 digests are the standard ones", "statement": "For every message (below 4 GiB for MD5, below 2 GiB for SHA-1) the digest functions store exactly the digest that RFC 1321 and FIPS 180-4 define, whatever was in the memory of the context before, without touching memory outside their objects; a message handed over in any pieces has the digest of the whole; the round constants and initial values are those the standard derives from the primes.", "quantifier": "every message, every division into pieces, every content of uninitialised memory", "why_tests_cant": "test vectors cover a few lengths; padding errors, block-boundary errors and wrong constants show on particular lengths and values only", "anchors": ["lib/md5.c:MD5Update", "lib/md5.c:MD5Final", "lib/sha1.c:sha1_update", "lib/sha1.c:sha1_final", "lib/sha2.c:SHA256_Update", "lib/sha2.c:SHA512_Last", "lib/digest.c:md5", "lib/digest.c:sha512"]}
{"id": "C75", "title": "SHA-3 digests are the standard ones", "statement": "For every message below 4 GiB the SHA3-256 and SHA3-512 functions store exactly the digest FIPS 202 defines; the permutation, on any state, is Keccak-p[1600, 24]; no shift is by the width of the word.", "quantifier": "every message; every state of 200 bytes", "why_tests_cant": "a permutation on 1600 bits cannot be covered, and the padding differs by length", "anchors": ["lib/sha3.c:Keccak", "lib/sha3.c:KeccakF1600_StatePermute", "lib/sha3.c:FIPS202_SHA3_256", "lib/sha3.c:FIPS202_SHA3_512"]}
{"id": "C76", "title": "HMAC is RFC 2104 over the standard digest", "statement": "For each of the seven types, every key and every message below 2 GiB, the HMAC functions store the RFC 2104 HMAC of the message under the key over the standard digest function of that type, and stay inside their arrays, whatever uninitialised memory holds.", "quantifier": "every type, key and message", "why_tests_cant": "keys at, below and above the block length of each of seven functions, with any message", "anchors": ["lib/hmac.c:hmac_md5", "lib/hmac.c:hmac_sha3_512", "lib/hmac.c:pad_init"]}
{"id": "C77", "title": "The protocol theorems hold of the algorithms compiled in", "statement": "With the digests and the cipher that are compiled in, and no assumption about them: a packet is accepted with an HMAC key only when it ends in the standard HMAC under that key; and what a client builds, within the size limits, is decoded by a server with the same keys to the same request, with the standard digest of the text.", "quantifier": "every packet, key, mode, HMAC type; every history of API calls and request", "why_tests_cant": "a claim about every packet and every history of calls", "anchors": ["lib/fko_hmac.c:fko_verify_hmac", "lib/fko_funcs.c:fko_new_with_data", "lib/fko_funcs.c:fko_spa_data_final"]}
{"id": "C78", "title": "Lines of access.conf mean what the manual says", "statement": "A line of an access.conf file of the form NAME VALUE or NAME: VALUE, with blanks around it and perhaps a semicolon behind the value, is read as that name and value without the blanks; lines that begin with # or ; and empty lines are skipped; whatever bytes the files contain, reading them stays inside the buffers of the parser and never touches a stanza that was freed.", "quantifier": "all files, all lines, all names and values, all trees of included files", "why_tests_cant": "The lines and files are unbounded in number and content; overruns of a line buffer or uses of a freed stanza show only for particular lengths and include orders.", "anchors": ["server/access.c:parse_access_file", "server/access.c:include_keys_file", "common/fko_util.c:chop_whitespace"]}
{"id": "C79", "title": "The stanzas in effect are those written in access.conf", "statement": "When the server loads an access.conf without % directives, the stanzas in effect are the SOURCE blocks of the file in order, and every setting of each is the one its last entry of that name says, or the documented default: networks, ports, keys, modes, timeouts, users, commands, GPG settings, expiry, NAT.", "quantifier": "all files of well formed lines without % directives that the server accepts; every stanza of them and every setting", "why_tests_cant": "The number of stanzas, entries and values is unbounded, and settings could leak from one stanza to the next in some order of entries.", "anchors": ["server/access.c:parse_access_file", "server/access.c:expand_acc_ent_lists", "server/access.c:set_acc_defaults", "server/access.c:acc_data_is_valid"]}
{"id": "C80", "title": "Only usable stanzas take effect", "statement": "Every stanza in effect can authenticate somebody: it has an encryption key, or a GPG passphrase, or GPG without a passphrase was allowed; and its HMAC key differs from its encryption key.", "quantifier": "all trees of access.conf files, folders and keys files", "why_tests_cant": "Depends on every order of %include, %include_folder and %include_keys and on which stanza is current when one fails.", "anchors": ["server/access.c:acc_data_is_valid", "server/access.c:free_last_acc_stanza", "server/access.c:parse_access_file"]}
{"id": "C81", "title": "Numbers of loaded stanzas are in range", "statement": "Whatever access.conf files the server loads, every stanza in effect has timeouts between 1 and 2^23 seconds, a supported encryption mode and HMAC type (a type whenever there is an HMAC key), a NAT port of at most 65535, a key exactly if it uses Rijndael, and with a GPG passphrase and signatures not disabled it requires signatures and lists signers.", "quantifier": "all trees of access.conf files, folders and keys files", "why_tests_cant": "Ranges must hold for every text of a number, in every order of entries and includes.", "anchors": ["server/access.c:parse_access_file", "server/access.c:set_acc_defaults", "common/fko_util.c:strtol_wrapper"]}
{"id": "C82", "title": "Includes: no cycles, no interference", "statement": "access.conf files that include themselves, directly, through each other or through a folder, are refused rather than read forever; reading an included file never changes, removes or reorders the stanzas read before it.", "quantifier": "all include graphs, all limits on open files", "why_tests_cant": "Include graphs are unbounded, and termination for every graph is not observable in a finite run.", "anchors": ["server/access.c:parse_access_file", "server/access.c:parse_access_folder", "server/access.h:MAX_DEPTH"]}
{"id": "C83", "title": "Commands run as the configured user and group", "statement": "The user and group numbers commands of a stanza run with are those of CMD_EXEC_USER and, if given, CMD_EXEC_GROUP.", "quantifier": "all files, all orders of the entries, all password databases", "why_tests_cant": "The result depends on the order of all lookups in the stanza.", "anchors": ["server/access.c:add_acc_user", "server/access.c:add_acc_group", "server/access.c:acc_data_is_valid"]}
{"id": "C84", "title": "A folder of access files is the files together", "statement": "With ACCESS_FOLDER the stanzas in effect are those of the files in the folder, each as if its file were read alone.", "quantifier": "all folders and files", "why_tests_cant": "Folders of any size, in any order of the directory.", "anchors": ["server/access.c:parse_access_folder", "server/access.c:expand_acc_ent_lists"]}
{"id": "C85", "title": "From the text of access.conf to effects", "statement": "When the server has loaded an access.conf without % directives, every effect of every packet of any history belongs to a stanza written in the file, and the packet met what the text of that stanza demands: it came from the networks in SOURCE and went to those in DESTINATION, ends in the HMAC under HMAC_KEY, carries the name in REQUIRE_USERNAME, no wildcard address under REQUIRE_SOURCE_ADDRESS, arrived before ACCESS_EXPIRE_EPOCH; commands need ENABLE_CMD_EXEC, opened ports are in OPEN_PORTS (if that lists no port twice, see C29) and not in RESTRICT_PORTS.", "quantifier": "all files, all packet histories, all keys, clocks and networks", "why_tests_cant": "Ranges over all configuration texts and all packet histories at once.", "anchors": ["server/access.c:parse_access_file", "server/incoming_spa.c:incoming_spa", "server/fwknopd.c:main"]}
{"id": "C86", "title": "The server reads what the client's command line asks for", "statement": "For every command line of the client with a symmetric key, if the client makes a packet, then a server with the same keys, encryption mode and HMAC type decodes that packet into exactly the request the command line asks for: address, protocol and ports (with --nat-port in their place), NAT target, timeout, user name, time (with the offsets) and message type.", "quantifier": "all command lines, all keys, random values, clocks, user names and ciphers/hashes that satisfy their laws", "why_tests_cant": "Ranges over all combinations of options with all their values, and over all keys.", "anchors": ["client/fwknop.c:main", "client/fwknop.c:set_message_type", "client/fwknop.c:set_nat_access", "client/fwknop.c:set_access_buf", "client/config_init.c:config_init", "lib/fko_funcs.c:fko_spa_data_final", "lib/fko_funcs.c:fko_new_with_data"]}
{"id": "C87", "title": "What a command line means", "statement": "Of several options of a kind the last one counts; every option sets what the manual says and nothing else; numbers must be in their ranges and names of digests, modes and protocols must be known, otherwise the command line is refused.", "quantifier": "all command lines", "why_tests_cant": "Ranges over all sequences of options and all texts of values.", "anchors": ["client/config_init.c:config_init", "client/utils.c:enc_mode_strtoint", "client/utils.c:hmac_digest_strtoint"]}
{"id": "C88", "title": "Only checked requests are sent", "statement": "The client makes a packet only if the command line names a server and an address to allow (or a way to find one), the address and a forged source address are IPv4 addresses, a forged source goes with a raw protocol, GnuPG has a recipient, and the legacy mode is not combined with an HMAC.", "quantifier": "all command lines, keys, environments", "why_tests_cant": "Ranges over all combinations of options.", "anchors": ["client/config_init.c:validate_options"]}
{"id": "C89", "title": "The packet is made with the keys the user gave", "statement": "The encryption key and the HMAC key of the packet are those given by the option, the base64 option, the line of the key file for the server, or typed, in this order; the HMAC key never equals the encryption key; there is an HMAC exactly if an option asks for one; the legacy mode uses 16 characters of the key.", "quantifier": "all command lines, key files and typed keys", "why_tests_cant": "Ranges over all keys and all contents of key files.", "anchors": ["client/fwknop.c:get_keys", "client/utils.c:get_key_file", "client/fwknop.c:main"]}
{"id": "C90", "title": "The client's handling of its command line has no undefined behaviour", "statement": "Whatever the command line, the key files and the typed keys, the client computes with no integer out of range and writes no byte outside its arrays.", "quantifier": "all command lines, key files, keys", "why_tests_cant": "Ranges over all texts of options and all files.", "anchors": ["client/config_init.c:config_init", "client/utils.c:get_key_file", "client/fwknop.c:set_access_buf", "client/fwknop.c:get_keys"]}
{"id": "C91", "title": "An rc file stands for the options that its entries name", "statement": "Running the client with an rc file, with or without -n STANZA, makes the packet of the command line in which the options named by the entries of the section [default] and then those of the stanza come before the given options; the section names ignore case; a stanza that the file does not have, and an entry with an unknown name in a section that counts, make the client refuse to send anything.", "quantifier": "all rc files made of lines that are empty, comments, section heads or NAME VALUE entries of any number, all stanza names, all command lines, all keys", "why_tests_cant": "Ranges over all files, in which any number of sections and entries may be repeated and combined with any command line.", "anchors": ["client/config_init.c:process_rc_section", "client/config_init.c:parse_rc_param", "client/config_init.c:is_rc_section", "client/config_init.c:is_rc_param", "client/config_init.c:config_init"]}
{"id": "C92", "title": "A saved stanza stands for the command line that saved it", "statement": "After a successful run of the client with --save-rc-stanza, running it with -n NAME and nothing else makes exactly the packets that the saved command line makes on top of the section default; all other sections of the rc file keep their entries.", "quantifier": "every rc file, every list of options with plain values, every stanza name, all typed answers, every clock and random stream", "why_tests_cant": "Some thirty options, each written and parsed by different code, interact with defaults and with what the file held before; combinations and file contents are unbounded.", "anchors": ["client/config_init.c: update_rc, add_single_var_to_rc, add_multiple_vars_to_rc, config_init, parse_rc_param", "client/cmd_opts.h"]}
{"id": "C93", "title": "An interrupted save loses no settings", "statement": "At every moment of an update of the rc file, also when the client is killed, the old text is complete in the rc file, or the complete new text is in the rc file or in the file beside it.", "quantifier": "every rc file, command line, list of typed answers and every crash point", "why_tests_cant": "The claim ranges over all moments at which the client can be killed, for files of any content.", "anchors": ["client/config_init.c: update_rc"]}
{"id": "C94", "title": "The daemon makes and removes its own chains and touches nothing else", "statement": "With iptables, a start of the daemon (with the default FLUSH_IPT_AT_INIT) leaves every configured chain in place, empty and jumped to exactly once, and the end of the daemon (unless FLUSH_IPT_AT_EXIT is N) takes away its chains, all rules in them and all jumps to them. Neither changes any other rule or chain of the firewall, whatever that holds.", "quantifier": "all contents of the firewall, all configurations of chains, all targets and positions of jumps, all ways of printing rules", "why_tests_cant": "the rules of an administrator are arbitrary; the start probes by inserting and deleting rules by number in the administrator's own chains, and a test sees only the firewalls and timings it sets up", "anchors": ["server/fw_util_iptables.c: fw_initialize, fw_cleanup, ipt_chk_support, comment_match_exists, delete_all_chains, create_fw_chains, mk_chain, jump_rule_exists", "server/extcmd.c: run_extcmd, search_extcmd"]}
{"id": "C95", "title": "A run of the daemon leaves no trace in the firewall", "statement": "Starting the daemon with iptables, letting it handle any number of access and NAT requests and expire their rules, and ending it brings back exactly the firewall there was before the start; and at any time in between, the firewall without the daemon's chains and the jumps to them is the one there was before.", "quantifier": "all firewalls that know nothing of the daemon, all configurations, all sequences of requests, times and checks", "why_tests_cant": "the history of requests and expirations between start and end is unbounded", "anchors": ["server/fw_util_iptables.c: fw_initialize, process_spa_request, check_firewall_rules, fw_cleanup", "server/pcap_capture.c: pcap_capture"]}
{"id": "C96", "title": "Every variable of fwknopd has the value that files, command line and defaults give it", "statement": "When fwknopd accepts its configuration, each variable has the value of the last option of the command line that sets it; otherwise the value of the last line for it in the configuration file and then the override files, in their order, with references to other variables replaced by the values they have at that line; otherwise its documented default.", "quantifier": "all contents and numbers of configuration files, all command lines, all defaults of the build", "why_tests_cant": "Files and command lines are unbounded, and the value of a variable depends on all earlier lines through references and on the order of all files.", "anchors": ["server/config_init.c: config_init, parse_config_file, set_config_entry, validate_options"]}
{"id": "C97", "title": "Numbers in the server's configuration are within their bounds and are those written", "statement": "In an accepted configuration every numeric variable is within its documented bounds and equals the number that the configuration gives; a configuration with a number out of bounds is refused.", "quantifier": "all contents of configuration files, all command lines", "why_tests_cant": "The claim ranges over all texts that can be written for a number.", "anchors": ["server/config_init.c: validate_int_var_ranges, range_check", "common/fko_util.c: strtol_wrapper"]}
{"id": "C98", "title": "The chains of the firewall are those of the configuration", "statement": "With an accepted configuration, the chains the daemon uses are exactly those that are switched on, with the target, table, chains and position of their settings, and making them never leaves the arrays; with the default settings they meet the conditions under which start, run and end of the daemon are correct.", "quantifier": "all contents of configuration files, all command lines, all combinations of switches", "why_tests_cant": "The settings are arbitrary texts, and whether copying them stays inside the arrays depends on what the parser let through.", "anchors": ["server/fw_util_iptables.c: fw_config_init, set_fw_chain_conf, validate_ipt_chain_conf"]}
{"id": "C99", "title": "Reading the server's configuration is memory safe", "statement": "Whatever the configuration files hold and whatever the command line says, reading the configuration reads and writes no memory outside its arrays.", "quantifier": "all contents of files, all command lines", "why_tests_cant": "The claim ranges over arbitrary bytes in files of any length.", "anchors": ["server/config_init.c: config_init, parse_config_file, validate_options"]}
{"id": "C100", "title": "A knock opens the door that was asked for", "statement": "When the client is given a command line and the server has a stanza with the same keys, encryption mode and HMAC type that expects the request and opens the ports to it, then the packet the client sends, once it arrives unchanged and has not been seen before, has exactly one effect: that stanza grants access to the address the command line asks for, for the ports it asks for and the time it asks for (up to the stanza's limit), and the firewall then lets in exactly the packets from that address to those ports.", "quantifier": "every command line, clock, random values and salt of the client, every configuration, stanza list, replay cache and clock of the server, every source and destination address, every state of the firewall tables", "why_tests_cant": "It composes the client, the packet format, the server's checks and the firewall rules over all of their inputs; a test covers one command line, one stanza and one firewall state.", "anchors": ["client/fwknop.c: main", "client/config_init.c: config_init", "lib/fko_funcs.c: fko_spa_data_final, fko_new_with_data", "server/incoming_spa.c: incoming_spa", "server/fw_util_iptables.c: process_spa_request"]}
{"id": "C101", "title": "A packet is judged by its own bytes alone", "statement": "What the daemon does with a packet depends only on the packet and the daemon's state, not on the bytes that earlier packets left in the buffer it is copied into; and a UDP datagram given to the UDP server is treated as the same datagram captured from the wire.", "quantifier": "every captured frame and every datagram, every content of the buffer that earlier packets can leave, every configuration, clock, replay cache and stanza list, runs of any length", "why_tests_cant": "The buffer is reused for the life of the daemon and never cleared, so the claim ranges over all histories of packets and all pairs of contents.", "anchors": ["server/process_packet.c: process_packet", "server/udp_server.c: run_udp_server", "server/pcap_capture.c: pcap_capture", "server/incoming_spa.c: incoming_spa, preprocess_spa_data"]}
{"id": "C102", "title": "Every rule in the daemon's chains has a packet that was entitled to it", "statement": "Whatever a daemon with iptables and without address translation receives, however long it runs, and whichever calls of iptables fail, each rule that it has put into the firewall lets in one source address to one port and expires at one time, and there is a packet it received that decodes under a stanza which permits that address, protocol, port and time; and everything outside of the daemon's own chains is as it was at the start. (C114 says the same with address translation.)", "quantifier": "every run of either main loop: every sequence of packets, datagrams, clocks, signals, capture errors, every stanza list, every state of the tables, every pattern of failing iptables calls", "why_tests_cant": "It is an invariant of unbounded runs over arbitrary traffic.", "anchors": ["server/udp_server.c: run_udp_server", "server/pcap_capture.c: pcap_capture", "server/fw_util_iptables.c: process_spa_request, check_firewall_rules", "server/incoming_spa.c: incoming_spa"]}
{"id": "C103", "title": "From access.conf to the rules in the firewall", "statement": "When the daemon has loaded an access.conf and runs, whatever arrives and for however long, then each rule that it has put into its chains lets one address reach one port until one time, and there are a packet that arrived and a stanza of the file such that the packet came from the stanza's SOURCE, carries an HMAC under the stanza's HMAC_KEY, the stanza's user name and so on, asks for that port, the stanza's OPEN_PORTS and RESTRICT_PORTS allow it, and the time is what FW_ACCESS_TIMEOUT and MAX_FW_TIMEOUT give. Every other effect comes from such a packet and stanza too.", "quantifier": "every text of access.conf without directives, every run of either main loop over arbitrary packets, clocks and signals, every state of the firewall, every pattern of failing iptables calls; no address translation (that is C114)", "why_tests_cant": "It relates the text of a configuration file to an unbounded run of the daemon over arbitrary traffic.", "anchors": ["server/access.c: parse_access_file, set_acc_defaults", "server/incoming_spa.c: incoming_spa", "server/fw_util_iptables.c: process_spa_request", "server/pcap_capture.c: pcap_capture", "server/udp_server.c: run_udp_server"]}
{"id": "C104", "title": "Every command cycle that is opened is closed once", "statement": "Each opening of a cycle under a stanza that closes its cycles schedules one closing, after the client's time or the stanza's; every scheduled closing happens exactly once, not before its time and at the first iteration after it.", "quantifier": "every run of either main loop over arbitrary packets, clocks and signals, every stanza list", "why_tests_cant": "It is a claim about every history of packets and iterations.", "anchors": ["server/cmd_cycle.c: cmd_cycle_open, cmd_cycle_close, add_cmd_close", "server/incoming_spa.c: incoming_spa", "server/pcap_capture.c: pcap_capture", "server/udp_server.c: run_udp_server", "server/utils.c: clean_exit"]}
{"id": "C105", "title": "Signals are obeyed", "statement": "SIGTERM and SIGINT end the daemon, nothing else does; SIGHUP makes it read its configuration again, nothing else does; this holds whenever the signals arrive.", "quantifier": "every sequence of signals, every interleaving of their handlers with the accesses of the main program to the flags", "why_tests_cant": "The interleavings of signal handlers cannot be forced or enumerated by a test.", "anchors": ["server/sig_handler.c: sig_handler, sig_do_stop, set_sig_handlers", "server/fwknopd.c: main, handle_signals", "server/pcap_capture.c: pcap_capture"]}
{"id": "C106", "title": "The pid file keeps a second daemon away", "statement": "Of the fwknopd processes that use a pid file at most one runs as a daemon, and when several are started one of them comes to run. The number in the file is that of the running daemon: --status gives it, --kill and --restart signal it.", "quantifier": "any number of processes, every interleaving of their system calls, every moment at which they are started or end", "why_tests_cant": "The interleavings of several processes cannot be enumerated or forced by a test, and the lock's release by an unrelated close does not show in a single process.", "anchors": ["server/fwknopd.c: setup_pid, daemonize_process, write_pid_file, get_running_pid, status_fwknopd, stop_fwknopd, restart_fwknopd"]}
{"id": "C107", "title": "An access.conf written as the manual says is loaded", "statement": "If every value in access.conf is one that its option allows (a number in range, a known digest type or mode, base64 for base64 keys, an existing user or directory, well-formed addresses and ports) and every stanza has a source, a key, distinct keys, and what its NAT, GPG and cycle options need, then the daemon accepts the file and puts exactly its stanzas into effect, each as written.", "quantifier": "all access.conf files of any number of stanzas and entries, in any order, with comments, repeated options and unknown names", "why_tests_cant": "the daemon refuses a file for some dozens of reasons spread over parsing, per-option checks, per-stanza checks and defaults; that a combination of valid values is never refused ranges over every file", "anchors": ["server/access.c: parse_access_file, set_acc_defaults, acc_data_is_valid, expand_acc_ent_lists, valid_access_stanzas"]}
{"id": "C108", "title": "Generated keys are random, fit, and are the same at both ends", "statement": "Key generation writes the base64 texts of as many bytes from the system's random source as were asked for (or the documented defaults); whatever the options it overruns no buffer. The two lines it writes, put under a SOURCE line, are an access.conf that the daemon loads, and the daemon then holds exactly the generated bytes; a client given the two texts makes its packets with exactly those bytes.", "quantifier": "all options of key generation, all results of the random source, all generated keys, all source lists, all client command lines that give these keys", "why_tests_cant": "whether every byte string survives encoding, the config parser, its checks and decoding on two different programs depends on the random bytes", "anchors": ["lib/fko_funcs.c: fko_key_gen", "lib/cipher_funcs.c: get_random_data", "client/config_init.c: generate_keys, keys_status", "server/config_init.c: generate_keys"]}
{"id": "C109", "title": "The firewalld back end grants, expires and tidies up as the iptables one does", "statement": "On a host with firewalld a granted request adds to firewalld's tables exactly the rules for the authorised source and the ports asked for, with the expiry time; a check removes exactly the expired rules and, whichever calls of firewall-cmd are killed, never another one; a start makes the configured chains, empty and jumped to once, and changes nothing of the administrator's; the end takes away exactly what the daemon made.", "quantifier": "all tables of the firewall, all ways of printing rules and error messages, all configurations whose names fit the command buffer, all requests (ordinary and NAT), all times, all sequences of calls that are killed", "why_tests_cant": "the back end reads the texts that firewall-cmd prints (success, COMMAND_FAILED, listings cut at a buffer); whether it understands them right depends on every rule of the firewall", "anchors": ["server/fw_util_firewalld.c: fw_config_init, fw_initialize, fw_cleanup, process_spa_request, check_firewall_rules, rule_exists_chk_support, chain_exists, mk_chain, firewd_rule, comment_match_exists, firewd_chk_support"]}
{"id": "C110", "title": "A key that is typed in or read from a descriptor is the key that is used", "statement": "When the client asks for a key, the key it uses is the line that was typed, with the backspace key and Ctrl-U obeyed (or the first line of the descriptor of --fd or --stdin), whatever was typed for an earlier key; nothing that is typed makes it write outside its buffer; a line that is too long is refused, and Ctrl-C ends the client without a packet.", "quantifier": "all sequences of keys, all contents of the descriptor, all earlier contents of the buffer, all combinations of options under which a key is asked for", "why_tests_cant": "the line editor works on a fixed array that is used again for the second key; whether every sequence of characters, erasures and clears leaves the right text and stays inside cannot be sampled", "anchors": ["client/getpasswd.c: read_passwd_from_stream, getpasswd", "client/fwknop.c: get_keys"]}
{"id": "C111", "title": "The client finds its own address whatever the web server answers", "statement": "With -R the client asks the host, port and path of --resolve-url (or the built-in hosts, the second one only if the first gives no address) and uses the address with which the content of the answer begins, in whatever pieces the answer arrives; whatever is answered, it uses nothing but an IPv4 address and makes no memory error, and the packet it then sends asks for access for exactly that address.", "quantifier": "all answers and all ways to cut them into pieces, all outputs of wget, all URLs, all user agents and names of the wget program", "why_tests_cant": "the answer comes from a network: its length, its content and its division into pieces are free, and parsing works on fixed arrays; tests use a few well-behaved servers", "anchors": ["client/http_resolve_host.c: try_url, parse_url, resolve_ip_https, resolve_ip_http", "client/fwknop.c: main"]}
{"id": "C112", "title": "What the daemon knows of a command that it runs is what the command did", "statement": "A command that the daemon runs is started with the words of its text, on behalf of the configured user and group and of nobody else, and not at all if these cannot be taken on; the output that the daemon reads is what the program printed, whole lines as far as they fit; a text that is looked for in the output is found if and only if a line has it, and the line that is returned is the first one; nothing that is printed makes the daemon write outside its buffer; and the daemon is told whether the program did its work.", "quantifier": "all commands, all programs and their outputs (in any pieces, to standard output and standard error), all sizes of buffers, all texts to look for, all users and groups, all failures of system calls", "why_tests_cant": "the output of a program is unbounded and is read in pieces into buffers of several sizes; who may run a program is a statement about all programs; failing system calls cannot be provoked one by one", "anchors": ["server/extcmd.c: _run_extcmd, copy_or_search, run_extcmd, run_extcmd_as, search_extcmd, search_extcmd_getline", "server/utils.c: truncate_partial_line"]}
{"id": "C113", "title": "Requests by GnuPG are signed by somebody who is listed", "statement": "When a stanza takes requests that are encrypted with GnuPG, does not switch signatures off and does not combine KEY with the mode Asymmetric, then each request that it obeys was decrypted by GnuPG with the key ring, the program and the passphrase of the stanza from the packet that came, the text that GnuPG returned is the request that is obeyed, and the first signature that GnuPG reports is good and of a key that it believes in (unless the stanza says to ignore errors), its fingerprint is in GPG_FINGERPRINT_ID and the last eight digits of it are in GPG_REMOTE_ID, whichever are given; one of the two lists is always given. Conversely a request signed by a listed key passes.", "quantifier": "all access.conf files without directives, all histories of packets, all behaviours of GnuPG, all fingerprints and lists", "why_tests_cant": "who may have signed a request is a statement about every key ring, every reply of GnuPG and every packet; tests have two or three keys", "anchors": ["lib/gpgme_funcs.c: my_passphrase_cb, process_sigs, gpgme_decrypt", "lib/fko_encryption.c: gpg_decrypt, fko_set_gpg_exe, fko_set_gpg_home_dir, fko_get_gpg_signature_fpr, fko_get_gpg_signature_id", "server/incoming_spa.c: handle_gpg_enc, handle_gpg_sigs", "server/access.c: parse_access_file, set_acc_defaults"]}
{"id": "C114", "title": "NAT rules come only from entitled packets, and the stanza decides their target", "statement": "Whatever happens to the running daemon, every rule that it puts into any of its iptables chains, those for input, output, forwarding, destination and source translation, was caused by a packet that arrived, that a stanza of the access file decodes, and that meets all demands of the stanza. A rule of address translation appears only if the stanza has FORCE_NAT, or if the packet asks for NAT and the configuration allows that kind of NAT; it is for the address and the first port of the packet and for the time granted; the target is the one of FORCE_NAT or else the one in the packet. The ports that a NAT request reaches are among the OPEN_PORTS of the stanza and not among its RESTRICT_PORTS.", "quantifier": "all access files without directives, configurations, keys, histories of packets, frames, datagrams and clock values, of any length, every pattern of failing iptables calls", "why_tests_cant": "A test tries one request against one stanza; the property is about every rule after every history, and about every target a client may ask for.", "anchors": ["server/fw_util_iptables.c:process_spa_request", "server/fw_util_iptables.c:forward_access_rule", "server/fw_util_iptables.c:dnat_rule", "server/fw_util_iptables.c:snat_rule", "server/incoming_spa.c:incoming_spa", "server/incoming_spa.c:check_nat_access_types", "server/access.c:acc_check_port_access"]}
{"id": "C115", "title": "A knock by GnuPG, from the command line to the effect", "statement": "When the client encrypts a request with GnuPG, the text it gives to GnuPG is the request and its digest, and the packet carries the message; a server with a stanza for GnuPG that has the same HMAC key, whose GnuPG decrypts the message and finds a signature that the stanza takes, reads exactly the request that the command line asked for, and grants access to the address, the ports and for the time that were asked for.", "quantifier": "all command lines, fields, keys, HMAC types, messages of GnuPG, signatures, stanzas and servers", "why_tests_cant": "The message of GnuPG is different each time and its form depends on the keys; tests use one kind of key, and the property is about each message that GnuPG may make.", "anchors": ["lib/fko_encryption.c:gpg_encrypt, gpg_decrypt, fko_encryption_type", "lib/cipher_funcs.c:add_gpg_prefix", "lib/fko_funcs.c:fko_spa_data_final, fko_get_spa_data, fko_new_with_data", "client/fwknop.c:main", "server/incoming_spa.c:incoming_spa, handle_gpg_enc, handle_gpg_sigs"]}
{"id": "C116", "title": "Without iptables -C, a request has its rules and loses none of another client", "statement": "On hosts whose iptables has no check option (-C), the server finds out from a listing whether a rule is there. Whatever rules of earlier requests the chain holds, a granted request then has a rule for every protocol and port it names, with its source, destination and expiry; a rule of another client, port, protocol or time is never taken for it; no other rule is added, no rule is removed, and a rule that is there is not added again.", "quantifier": "every request, every list of earlier permissions in the chain, every column width in which iptables prints them, every time", "why_tests_cant": "Whether a text of one rule occurs inside the printed form of another depends on all pairs of addresses, ports and times; tests try a few.", "anchors": ["server/fw_util_iptables.c: rule_exists_no_chk_support", "server/fw_util_iptables.c: rule_exists", "server/fw_util_iptables.c: ipt_rule", "server/fw_util_iptables.c: process_spa_request", "server/extcmd.c: search_extcmd_getline"]}
{"id": "C117", "title": "The TCP server only accepts and drops connections", "statement": "With ENABLE_TCP_SERVER, the helper process takes connections on its port one at a time, closes each after a second without reading or writing, does not hold the lock of the pid file, and leaves no socket open when it ends. Whatever happens to it (its port is taken, a signal, an error, the daemon is gone), it changes nothing in the firewall and handles no packets: only the daemon does.", "quantifier": "every sequence of connections, timeouts and errors, every call that fails at the start, every state of the firewall", "why_tests_cant": "What the child does after a failure depends on which call fails and when, in a process apart from the one that tests look at.", "anchors": ["server/tcp_server.c: run_tcp_server", "server/fwknopd.c: main", "server/pcap_capture.c: pcap_capture", "server/utils.c: clean_exit"]}
{"id": "C118", "title": "The TCP server is started again when it has ended", "statement": "When the TCP server ends while the daemon runs, the daemon starts it again; and when the daemon ends, it sends signals only to a server that runs.", "quantifier": "every order in which children of the daemon end and the capture loop looks", "why_tests_cant": "It depends on the order of signals, waits and loop iterations.", "anchors": ["server/sig_handler.c: sig_handler", "server/pcap_capture.c: pcap_capture", "server/fwknopd.c: main"]}
{"id": "C119", "title": "Knocks handed over by a netfilter queue are seen from every address", "statement": "When the daemon takes packets from a netfilter queue, the data of every UDP, TCP or ICMP packet is what SPA processing gets, whatever address it comes from.", "quantifier": "every packet from the queue: header fields, addresses, ports, payload", "why_tests_cant": "It depends on the source address of the packet; tests use a few.", "anchors": ["server/nfq_capture.c: process_nfq_packet", "server/process_packet.c: process_packet"]}
{"id": "C120", "title": "With a netfilter queue the daemon keeps its obligations", "statement": "A daemon that takes packets from a netfilter queue gives a verdict for each packet, runs the closing commands of command cycles, ends when told to by a signal, and ends after the number of packets of --packet-limit, not before.", "quantifier": "every sequence of packets, pauses, errors and signals", "why_tests_cant": "It is about unbounded histories of an event loop.", "anchors": ["server/nfq_capture.c: nfq_capture", "server/nfq_capture.c: process_nfq_packet"]}
{"id": "C121", "title": "With the database cache no packet is honoured twice, and replays are counted", "statement": "When the daemon keeps the digests of packets in a database, a packet that has been honoured is never honoured again, whatever calls of the database fail; a new one is honoured; and the entry of a replayed packet has the number of replays and the times of the first and the last.", "quantifier": "every content of the database, every sequence of packets, every pattern of failing calls", "why_tests_cant": "It is about all histories with all failures of the database.", "anchors": ["server/replay_cache.c: is_replay_dbm_cache", "server/replay_cache.c: add_replay_dbm_cache", "server/replay_cache.c: replay_warning", "server/incoming_spa.c: add_replay_cache"]}
{"id": "C122", "title": "Rotating the digest cache puts it aside once", "statement": "With --rotate-digest-cache the daemon puts the digest cache aside when it starts and begins a new one; digests recorded since then are recognised, also after SIGHUP, and what was put aside stays.", "quantifier": "every content of the files and every number of reloads", "why_tests_cant": "It is about all contents and the order of starts, packets and reloads.", "anchors": ["server/replay_cache.c: rotate_digest_cache_file", "server/replay_cache.c: replay_cache_init", "server/fwknopd.c: main"]}
{"id": "C123", "title": "The listing of a context stays in its array and shows the members", "statement": "The listing of a context, as the client and the daemon print it, is written within the array given for it, ends with a NUL, and has one line for each member, from which the member can be read.", "quantifier": "every context and every size of the array", "why_tests_cant": "It is about all texts, including those of unknown senders, and all sizes.", "anchors": ["common/fko_util.c: dump_ctx_to_buffer", "common/fko_util.c: append_msg_to_buf"]}
{"id": "C124", "title": "The run directory is made, and only that", "statement": "When the daemon starts and its run directory does not exist, it makes it and every missing directory on the way to it and goes on. If the directory exists nothing is changed, and if a file is in its place or on the way the daemon ends without changing anything. In no case is anything removed or replaced, or anything made that is not on the way to the directory.", "quantifier": "every path, every content of the file system, every set of refused mkdir calls", "why_tests_cant": "Paths and file systems are unbounded; a test tries a few directories, and the result depends on which part of the path exists, on files in the way and on slashes.", "anchors": ["server/fwknopd.c: check_dir_path, make_dir_path", "server/utils.c: chop_char"]}
{"id": "C125", "title": "The GnuPG objects of a context are released once and only once", "statement": "Over the life of a context, from fko_new to fko_destroy, with any calls that set keys, encrypt or decrypt and any answers of gpgme: no gpgme object is used after it was released or released twice, and after fko_destroy none is left.", "quantifier": "every sequence of calls, every answer of gpgme to each of them (failures at each step, number of keys, number of signatures)", "why_tests_cant": "The failing answers of gpgme are hard to provoke and their positions in a sequence of calls are unbounded; a double release or a leak shows no effect in most runs.", "anchors": ["lib/gpgme_funcs.c: init_gpgme, get_gpg_key, gpgme_encrypt, gpgme_decrypt, process_sigs", "lib/fko_encryption.c: fko_set_gpg_recipient, fko_set_gpg_signer", "lib/fko_funcs.c: fko_destroy"]}
{"id": "C126", "title": "A context can be used after a failed GnuPG call", "statement": "When a GnuPG call on a context fails, a later call on the same context to which GnuPG agrees succeeds.", "quantifier": "every sequence of calls before, every answer of gpgme", "why_tests_cant": "It is about every sequence of calls and every position of a failure in it.", "anchors": ["lib/gpgme_funcs.c: init_gpgme, get_gpg_key, gpgme_encrypt, gpgme_decrypt"]}
{"id": "C127", "title": "--kill says whether the daemon is gone", "statement": "fwknopd --kill ends with success exactly if the process whose number is in the pid file no longer exists; a daemon that ends within four seconds of SIGTERM gets no other signal, so that it can clean up, and none gets SIGKILL without SIGTERM before.", "quantifier": "every process: whether it may be signalled, how long it takes after each signal, whether it reacts at all", "why_tests_cant": "It is about every delay between the signals and the end of the process and about processes of other users.", "anchors": ["server/fwknopd.c: stop_fwknopd"]}
{"id": "C128", "title": "With pf the daemon starts only if its anchor is in use", "statement": "fwknopd with pf starts exactly if the main policy refers to the configured anchor; then that anchor is emptied and no other is touched, otherwise nothing is changed.", "quantifier": "every policy, every list of anchors, every configured name", "why_tests_cant": "It is about every set of names of anchors in the main policy.", "anchors": ["server/fw_util_pf.c: anchor_active, fw_initialize, delete_all_anchor_rules", "server/extcmd.c: search_extcmd"]}
{"id": "C129", "title": "Files that others have a say in are not used", "statement": "fwknopd uses a configuration file, an access file or a digest cache, and fwknop its rc file or its saved command line, only if it is a regular file that belongs to the user and that nobody else may read or write; what was looked at is what is read.", "quantifier": "every file system, every mode and owner, every change of the file system between the calls of the program", "why_tests_cant": "It is about every mode and about every moment at which another process may exchange the file.", "anchors": ["server/utils.c: verify_file_perms_ownership", "client/utils.c: verify_file_perms_ownership", "server/access.c: parse_access_file", "server/config_init.c: parse_config_file", "client/config_init.c: set_rc_file, process_rc_section", "client/fwknop.c: show_last_command, run_last_args"]}
{"id": "C130", "title": "Paths given to the daemon are of the right kind", "statement": "A path that fwknopd takes from its command line for the access file, the access folder, the GnuPG home directory or an executable, or from access.conf for the GnuPG home directory, is accepted exactly if it has less than 1024 characters and is itself, not by a symbolic link, a file, a directory or an executable file.", "quantifier": "every path, every file system, every mode", "why_tests_cant": "It is about every mode of a file.", "anchors": ["server/utils.c: is_valid_path, is_valid_dir, is_valid_exe, is_valid_file", "server/config_init.c: config_init", "server/access.c: parse_access_file"]}
{"id": "C131", "title": "A saved packet is in its file, and nothing else is touched", "statement": "With --save-packet the named file holds the packet and an end of line, and no file that was there before is changed; with --save-packet-append the packets are added one per line in the order of the calls, and nothing else is changed.", "quantifier": "every packet, every content of the directory, every sequence of calls", "why_tests_cant": "It is about every state of the directory, links included, and every history of calls.", "anchors": ["client/spa_comm.c: write_spa_packet_data", "client/fwknop.c: main"]}
{"id": "C132", "title": "The parts of the daemon come in their order, and the firewall is cleaned up at the end", "statement": "fwknopd takes packets or connections only after the configuration and the access files were found good, the pid file was written, the digest cache was read and, if a stanza needs it, the firewall was prepared. With an option that asks for one thing (--kill, --status, --restart, --fw-list, --fw-flush, --dump-config, --exit-parse-config, the parsing of the digest cache) it takes no packet and leaves the firewall as it is, except that --fw-flush cleans it up. With --test the firewall is never changed. A daemon that has prepared the firewall does not end without cleaning it up.", "quantifier": "every command line, every result of each part, every number of reloads and every configuration they meet", "why_tests_cant": "The exits are spread over all parts of the start, which is repeated at every reload; the combinations of options, failures and earlier turns are unbounded.", "anchors": ["server/fwknopd.c: main", "server/utils.c: clean_exit", "server/access.c: acc_data_is_valid"]}
{"id": "C133", "title": "The client's keys are erased when it ends", "statement": "However the client got its encryption key and its HMAC key (option, base64 option, key file, typed) and whether or not it goes on with them, when it ends no byte of a key is left in its arrays, and nothing else is overwritten.", "quantifier": "every key, every key file, every answer to the prompt, every base64 text", "why_tests_cant": "What is left in memory has no visible effect, and the lines of a key file and their order are unbounded.", "anchors": ["client/fwknop.c: get_keys, clean_exit, zero_buf_wrapper", "client/getpasswd.c: get_key_file", "common/fko_util.c: zero_buf"]}
{"id": "C134", "title": "The packet is sent once, to the first address that can be reached", "statement": "Over UDP or a TCP connection the client tries the addresses of the server in order, keeps to IPv4 if asked to, and hands the whole packet to the first one it can connect to, in one call and once. If there is none, or the name is not known, nothing is sent and an error is reported. With --test no socket is opened. Every socket it opens is closed once, after the sending. Success is reported exactly if the whole packet was sent.", "quantifier": "every list of addresses with every pattern of failing socket and connect calls, every packet, every result of send", "why_tests_cant": "The addresses a resolver returns and which of them fail are unbounded combinations, and short sends do not occur on a loopback device.", "anchors": ["client/spa_comm.c: send_spa_packet_tcp_or_udp", "client/fwknop.c: main"]}
