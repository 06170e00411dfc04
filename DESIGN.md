# Design of the formal model of fwknop

## Approach

The C sources in /repo are read as text and transcribed, function by function, into total
Lean 4 functions.  Bytes are natural numbers (a C string is a list of them without 0), C
integers are `Int`/`Nat` with the conversions that matter (long to int, unsigned short wrap)
written out, and undefined behaviour (an access outside a buffer) is a separate outcome
wherever a property is about it.  External parties are parameters of the model: GnuPG, the clock,
the firewall tool's answers and inet_aton's answer where its exact language does not matter.  Most
protocol theorems take the digest functions and the block cipher as parameters too; both are modelled
and shown to be the standard ones (C62, C63, C74, C75), and C77 puts them in.

Model definitions live in `lean/Verif/Model/*.lean` and each cites the file and lines it
transcribes.  Independent specifications live in `lean/Verif/Spec/*.lean`, helper lemmas in
`lean/Verif/Lemmas/*.lean` and the property theorems, with their non-vacuity examples, in
`lean/Verif/Props/*.lean`.

Where a property is false of the code, the negation is proved with a concrete witness and the
part that does hold is proved with the suffix `_partial`.

## Trusted base

* Lean 4.33.0's kernel.
* Axioms: at most `propext`, `Classical.choice`, `Quot.sound` (Lean's own); none added.
  AXIOMS.md (written by tools/axioms.py) lists them for each theorem of MANIFEST.json.
* The reading of the C code: each definition of the model cites the lines it transcribes and says
  what it leaves out.
* The reading of the C library functions in Model/CLib.lean (glibc, C locale, 64-bit long, 32-bit
  int): strtol, strchr, strcasecmp, strlcpy/strlcat, sscanf and snprintf formats, isspace, inet_aton,
  inet_ntoa.
* The specifications in Spec/*.lean of parties outside the code: iptables (Spec/Iptables.lean), sudo's
  options (Spec/Extcmd.lean), FIPS 197 (Spec/Aes.lean), RFC 1321 and FIPS 180-4 (Spec/Digest.lean),
  FIPS 202 (Spec/Sha3.lean), RFC 2104 (Spec/Hmac.lean), RFC 4648
  (Spec/Base64.lean), HTTP requests (Spec/Http.lean).

### Parameters of the model

Theorems hold for every value of these, subject to the stated hypotheses.

* Hash functions: any function that returns digests of the right length; discharged by C74, C75 and
  C77 for the ones of the code (messages below 2 GiB).
* The block cipher of the block modes: any lawful one; discharged by C62/C63 for the one of the code.
* GnuPG: an arbitrary function of the keys and the data.
* The clock, random bytes and the environment's answers (user and group lookup, hostnames).
* The programs that are run: an arbitrary transition of an arbitrary world state.

## What is modelled

| source | modelled | not modelled |
|---|---|---|
| lib/base64.c | all (Base64) | |
| lib/fko_encode.c, fko_decode.c | all (Spa) | |
| lib/fko_message.c, fko_user.c, fko_nat_access.c, fko_server_auth.c, fko_client_timeout.c, fko_timestamp.c, fko_rand_value.c | setters and validators (Message, Ctx) | getters that only return a member; /dev/urandom |
| lib/fko_funcs.c | fko_new, fko_new_with_data, fko_spa_data_final, fko_set_spa_data, get/set of packets (Ctx, Fko, Util) | fko_destroy, version |
| lib/fko_digest.c, fko_hmac.c, hmac.c | all (Ctx, Fko, Hmac) | |
| lib/digest.c, md5.c, sha1.c, sha2.c, sha3.c | all, for a little-endian host (Words, Md5, Sha1, Sha2, Sha3) | SHAKE and SHA3-224/384, the _End and _Data helpers of sha2.c, clearing of contexts |
| lib/fko_encryption.c, cipher_funcs.c | all of the symmetric path (Fko, Cipher); the GnuPG path around gpgme (Gpg); what gpgme_funcs.c, the setters of keys and fko_destroy allocate and release (GpgLife) | gpgme itself (a parameter), get_random_data's source |
| lib/rijndael.c | all (Aes), the modes in Cipher | |
| common/fko_util.c | validators, tables, strtol_wrapper, strtoargv, constant_runtime_cmp, append/chop (CLib, Util, Message, Extcmd), dump_ctx_to_buffer (Dump) | the lines about GnuPG in it, resolve_dst_addr, get_in_addr |
| server/access.c | matching and expansion: compare_addr_list, expansion of port, source, string lists, acc_check_port_access (Access); the parser: lines, every option, %include, %include_folder, %include_keys, the checks and defaults of a stanza, ACCESS_FILE and ACCESS_FOLDER (AccessFile) | dump_access_list; freeing of memory; the firewalld/pf/ipfw variants of FORCE_NAT; the check of permissions is apart (FilePerms) |
| server/incoming_spa.c | all but logging (Incoming) | |
| server/replay_cache.c | the file cache (Replay), the database cache with gdbm, rotation (Dbm) | ndbm |
| server/cmd_cycle.c | all (CmdCycle) | |
| server/extcmd.c | run_extcmd and search_extcmd as seen by their callers (Extcmd, IptInit); `_run_extcmd` with the child, its credentials, the pipe and the loop over the output (Proc), of which C112 proves the other two to be views; run_extcmd_write (Pf) | the build without execvp, the code under `#if 0` |
| server/fw_util_iptables.c | rule creation, chain creation, checks, expiry (Iptables), initialisation and cleanup (IptInit), the search in listings without -C (IptList), the chains of the configuration (SrvConf) | the dump of the rules, libnetfilter_queue; the rules of NAT requests without -C but for DNAT |
| server/pcap_capture.c, udp_server.c, fwknopd.c | the main loops with signals and reloads (Daemon, Signals), the pid file (PidFile), --kill (Stop), the run directory (RunDir), the order of the parts in `main` (ServerMain) | libpcap, sockets, symbolic links and other processes while the run directory is made |
| client/spa_comm.c | HTTP transport (HttpClient), the bytes of raw packets (RawClient), the socket calls over UDP and TCP for any answers of the system (SendPacket) | the kernel's sockets, the resolver |
| server/process_packet.c | all (Packet) | |
| server/fw_util_pf.c | initialisation (PfInit), requests, checks, clean-up; run_extcmd_write in extcmd.c (Pf) | dump_rules |
| server/fw_util_ipfw.c | initialisation, clean-up, requests, checks, purges (Ipfw) | `total_rules`, the variants for Apple, fw_dump_rules, fw_config_init |
| client/fwknop.c, client/utils.c, client/cmd_opts.h | the saved command line: save_args, run_last_args (LastArgs); from the options to the packet: main, get_keys, get_key_file, set_message_type, set_nat_access, set_access_buf, get_rand_port, prompt loop (Client) | GnuPG agents, key generation, sockets, test mode output |
| client/getpasswd.c | the line editor, the two prompts, descriptors (Passwd) | the settings and signals of the terminal, WIN32 |
| client/http_resolve_host.c | `try_url`, `parse_url`, `resolve_ip_http`, `resolve_ip_https` with the command line of wget (Resolve) | sockets and name resolution (an answer is a list of pieces, or there is none), fork and pipe, WIN32, a build without execvp |
| client/config_init.c | the command line: config_init, validate_options, parse_time_offset, the tables of names (Client); the rc file: process_rc_section, parse_rc_param, update_rc with its crash points (ClientRc) | getopt itself: options come as a list; --save-args, --verbose and similar options without effect on the packet; checks of the rc file's owner and mode, writing the sample rc file |
| server/config_init.c, server/cmd_opts.h | config_init with its passes, parse_config_file, validate_options, validate_int_var_ranges; fw_config_init of iptables (SrvConf) | getopt itself, usage, dump_config, options that print or generate keys and exit; the check of permissions is apart (FilePerms); the variants without the file cache, libpcap or iptables |
| server/utils.c, client/utils.c, client/spa_comm.c: checks of files and paths, saved packets | verify_file_perms_ownership of both, is_valid_path, write_spa_packet_data, with a file system that may change between the calls (FilePerms) | builds without stat or fileno; the bits set-uid, set-gid and sticky, which the code does not look at; access control lists |
| server/fw_util_firewalld.c | start, end, requests, checks with `-C` (Firewalld); the check of the rules is the same text as in fw_util_iptables.c and shares its model | the fallback without `-C` and --no-firewd-check-support, fw_dump_rules, fw_config_init but for the command |
| server/tcp_server.c | all; what `main` and the capture loop do in the child afterwards, and how the parent waits for it (TcpServer) | the addresses in log messages |
| server/nfq_capture.c | the callback with its verdict, the loop with signals, errors and the limit (Nfq) | setting up the queue, messages longer than the buffer, the sleep |

## Properties

* **C01 Base64 round trip** — module Base64. B64_encode / b64_decode / strip_b64_eq as list functions; 3-byte-group induction with arithmetic lemmas.
* **C02 Base64 output alphabet and length** — module Base64. Same functions; induction on groups.
* **C03 SPA encode/decode round trip** — module Spa. Encoder and decoder modelled field by field, hash functions as parameters with fixed base64 lengths; composition of per-field lemmas.
* **C04 SPA plaintext is unambiguous** — module Spa. Corollary of C03 (decoder is a left inverse) plus a direct injectivity proof.
* **C05 Internal digest is enforced** — module Spa. Inversion of the decoder.
* **C06 A decoded SPA message is well formed** — module Spa. Inversion of the decoder.
* **C07 Decoder never reads or writes out of bounds** — module Spa. Every buffer access of the decoder made explicit; the outcome `ub` shown unreachable.
* **C08 proto/port grammar** — module Message. Validator modelled over C strings; iff with a grammar given as an independent predicate.
* **C09 Access message grammar** — module Message. Iff with an independent grammar.
* **C10 Numeric field parsing respects its bounds** — module Strtol. Glibc strtol modelled with LONG clamp; long to int truncation; digit induction.
* **C11 Numeric fields are not aliased** — module Strtol. Expected false (2^32 aliasing): witness plus a partial theorem for values below 2^31.
* **C12 Encrypt/decrypt round trip** — module Cipher. Feedback modes and PKCS-like padding over an arbitrary block permutation (later: rijndael.c itself).
* **C13 Decryption of hostile ciphertext is memory safe** — module Cipher. Buffer arithmetic with a `ub` outcome; expected false for an empty ciphertext body.
* **C14 Constant prefixes are removed and restored** — module Fko. Prefix functions on lists.
* **C15 HMAC is verified before decryption** — module Fko. Fko_new_with_data modelled with an event trace; HMAC and cipher as parameters.
* **C16 Constant time comparison is equality** — module Util. Xor-accumulate loop; equality by induction; number of inspected bytes.
* **C17 Client to server end to end** — module Fko. Composition of C03, C12, C14, C15.
* **C18 What the client may send the server can decode** — module Spa. Expected false: witnesses, and a partial theorem below the limits.
* **C19 Ciphertext family is recognised** — module Fko. Expected false: witness by length; partial theorem below 400 characters.
* **C20 fko_get_spa_data never returns stale data** — module Fko. Context state machine; expected false: witness.
* **C21 Client timeout and message type stay coherent** — module Fko. Setter state machine; induction over call sequences.
* **C22 Name/number tables agree** — module Util. Case analysis of the tables.
* **C23 A replayed packet is never honoured while the daemon runs** — module Server. Daemon state machine over packet histories; invariant: every acted-on digest is in the cache.
* **C24 Replay protection survives restarts** — module Replay. Cache file as a list of lines; parse after print.
* **C25 Replay protection survives a crash** — module Replay. Crash = any prefix of the bytes being appended; expected false: witness, partial theorem for line-atomic appends.
* **C26 A replay cannot be disguised** — module Incoming. Expected false without HMAC and with HTTP: witnesses; partial positive theorem with HMAC and no HTTP.
* **C27 Source address authorises** — module Access/Incoming. Stanza decision procedure; inversion.
* **C28 Network specification semantics** — module Access. Bit-level masks; matching iff equal top n bits.
* **C29 Port authorisation** — module Access. Expected false with duplicates: witnesses; iff under no duplicates.
* **C30 RESTRICT_PORTS always wins** — module Access. Inversion of port check.
* **C31 At most one stanza acts, and it is the first that fully matches** — module Incoming. Loop over stanzas as a recursive function; first-success characterisation.
* **C32 Expired stanzas never act** — module Incoming. Inversion and monotonicity.
* **C33 Packet age limit** — module Incoming. Labs and long-to-int truncation modelled; partial within 32-bit times.
* **C34 Username restriction** — module Incoming. Inversion.
* **C35 Address inside the packet is honoured only as configured** — module Incoming. Inversion.
* **C36 Access time is bounded** — module Incoming. Inversion.
* **C37 Commands run only when enabled** — module Incoming. Inversion; user/group defects as witnesses.
* **C38 NAT only when enabled** — module Incoming. Inversion.
* **C39 Firewall rules match the request** — module Iptables. Rule generation as list of iptables commands applied to a rule-set model.
* **C40 Expired firewall rules are removed, others kept** — module Iptables. Chain as a list of rules; listing/deletion loop; induction with rule-number offset invariant.
* **C41 Expired rules are noticed promptly** — module Iptables. Next_expire bookkeeping; expected false: witness; sweeps every N iterations proved.
* **C42 A failed deletion does not endanger other rules** — module Iptables. Expected false for non-zero exit status: witness; true for failures to execute.
* **C43 Every configured chain is expired** — module Iptables. Expected false: witness; partial for names longer than the index.
* **C44 Command cycle substitution** — module CmdCycle. Template expansion; equality with an independent specification under the size bound.
* **C45 Command cycle substitution is memory safe** — module CmdCycle. Expected false: witness; partial under the size bound.
* **C46 Each opened cycle is closed exactly once, at its time** — module CmdCycle. Linked list surgery as list recursion; refinement to a filter; histories.
* **C47 Captured payload stays inside the frame** — module Packet. Frame arithmetic with 16-bit wrap-around.
* **C48 Header parsing is memory safe** — module Packet. Expected false: witnesses; partial with a minimum capture length.
* **C49 IPv4 header length is honoured** — module Packet. Expected false: witness; partial for IHL 5.
* **C50 HTTP transport round trip** — module Http. Client translation and server restoration as list functions.
* **C51 X-Forwarded-For address is read as written** — module Http. Expected false at the end of the buffer: witness; partial otherwise.
* **C52 Encryption and HMAC keys differ** — module Access. Expected false in one branch: witness; partial.
* **C53 Stanza defaults are safe** — module Access. Case analysis.
* **C54 ipfw rule numbers never collide** — module Ipfw. The rule map and the firewall are a state machine (`IpfwReach`); the invariant `IpfwInv` says the map is right about every rule of the firewall. Holds for calls that work or are killed on a firewall without foreign rules in the range; refuted otherwise.
* **C55 pf anchor keeps unexpired rules** — module Pf. pfctl as a parameter that reads and prints rules; the scan of a listing by induction over its lines; reachable states by induction. False with foreign lines, overdue rules at a request, or a listing that does not fit: witnesses; positive otherwise.
* **C56 Test mode has no effects** — module Incoming. Expected false (cycle command): witness; partial.
* **C57 Run-last-command replays the saved command line** — module LastArgs. Save/parse round trip as an exact characterisation of what is restored; false with spaces or too long lines: witnesses.
* **C58 HMAC conforms to RFC 2104** — module Fko. Pad construction against the RFC's definition, for a parameter hash.
* **C59 Base64 decoder accepts exactly the alphabet** — module Base64. Exact characterisation of the decoding loop.
* **C60 Key derivation is OpenSSL's** — module Cipher. Equality with a specification of EVP_BytesToKey, MD5 a parameter.
* **C61 Ciphertexts are standard** — module Cipher. Each mode function against the block equations of SP 800-38A.
* **C62 The block cipher is AES** — module Aes. Transcription with the code's tables; refinement to FIPS 197 (inversion in GF(2^8), affine map, ShiftRows, MixColumns, key expansion) byte by byte, tables checked over their whole domain by the kernel.
* **C63 Block decryption inverts block encryption** — module Aes. Equivalent inverse cipher: linearity of InvMixColumns and induction over rounds; discharges the block cipher assumption of C12, C13, C17.
* **C64 Extracting data from HTTP requests is memory safe** — preprocess_spa_data over the whole array with reads and writes outside it as a distinct outcome; proved by cases on the header's value
* **C65 Handling a packet never accesses memory out of bounds** — composition of the safety lemmas of libfko, the cycle commands and the packet loop; induction over stanzas and packets
* **C66 Commands run through sudo run as the configured user and group** — module Extcmd (Props). The command line of C37 composed with strtoargv and a specification of how sudo reads its arguments; expected false (options in the message, group ignored): two witnesses and a partial theorem.
* **C67 Commands are executed with exactly the words of their text** — module Extcmd. Induction over an independent relation between a text and its words; expected false for words longer than the word buffer: general negative theorem.
* **C68 A granted NAT request forwards exactly what was asked for** — `process_spa_request` for the NAT messages with `forward_access_rule`, `dnat_rule`, `snat_rule`, with and without FORWARD_ALL; the rules are given a meaning for packets (`ruleMatches`). Proved: the tables after a request for the first port; false: only the first port is served and the FORWARD rule has no destination.
* **C69 The NAT target is used exactly as given** — `natTarget` models the extraction of host and port with array bounds; proved safe for hosts of any length other than 70; false: 70 characters overflow the array by one byte, 16-character addresses lose their last character.
* **C70 Raw packets of the client arrive at the server** — Model/RawClient.lean builds the bytes given to sendto; Spec/Packet.lean states what the kernel fills in and the wire formats; composed with the model of process_packet.
* **C71 ICMP checksum of the client is correct** — The sum of little-endian words is related to the big-endian one modulo 65535; the folding of carries is shown to be a negation modulo 65535.
* **C72 Expired ipfw rules are taken out of service** — module Ipfw. Reachable states as for C54; the scan of the listing is proved to accept the last line only, so C72 is proved for the last rule of the active set (`C72_last_partial`) and refuted for all others (`C72_stuck`: no number of checks moves any rule while the last one is live).
* **C73 Purging keeps expired ipfw rules with live connections and removes the others** — module Ipfw. `C73_kept_partial` and `C73_purged_partial` for listings that fit the buffer and at least one live connection; `C73_idle` and `C73_truncated` refute the rest.
* **C74 MD5, SHA-1 and SHA-2 digests are the standard ones** — Model/Md5, Sha1, Sha2 transcribe the C on byte buffers; Spec/Digest states the standards on lists of words. A representation invariant (state = chain value of the complete blocks, buffer = the rest, counter = bit length) is kept by every update and gives the padding at the end; the transforms are shown equal word by word. The limits (4 GiB, 2 GiB) are theorems too.
* **C75 SHA-3 digests are the standard ones** — Model/Sha3 works on the 200 bytes as the code does; Spec/Sha3 on lanes. Every step on bytes is shown to simulate a step on 25 lanes, and that to be the step of the standard; the LFSR gives the round constants; the sponge loop is related to the padded message by induction.
* **C76 HMAC is RFC 2104 over the standard digest** — Model/Hmac has the arrays of lib/hmac.c and calls the digest models; the result is related to rfc2104 over Spec.digest with C74 and C75.
* **C77 The protocol theorems hold of the algorithms compiled in** — stdHash (the standard digests) is shown to satisfy Hash.Lawful and C63 gives the cipher; C15 and C17 are instantiated.
* **C78 Lines of access.conf mean what the manual says** — Model: Model/AccessFile.lean (accLine, accLines, parse_access_file, load_access). Spec: LineHolds, LineMeans, FileHolds. Proof: splitting lemmas for sscanf and fgets; safety by the invariant of Lemmas/AccessInv.lean over the loop, nested files and folders.
* **C79 The stanzas in effect are those written in access.conf** — Model: setOption, accLoop, endFile. Spec: stanzasOf, lastOf, Configured. Proof: invariant that the current stanza equals rawOf of the entries read so far (Lemmas/AccessRaw, AccessRead), then the exact effect of the checks and defaults (AccessRange, AccessConf).
* **C80 Only usable stanzas take effect** — Invariant over the reading loop: every stanza except the current one was checked (Lemmas/AccessInv.lean: usableRules).
* **C81 Numbers of loaded stanzas are in range** — Invariant RawRange over all options and nested files; rangeRules.
* **C82 Includes: no cycles, no interference** — The recursion of the parser is bounded by the number of files that can be open; induction on it. Append-only by the invariant NestedOk.
* **C83 Commands run as the configured user and group** — The static result of getpwnam is part of the model (Pw.gid, AccState.gid); PwOk relates it to the last lookup.
* **C84 A folder of access files is the files together** — Model parse_access_folder with the depth counter returning to 0 after each file.
* **C85 From the text of access.conf to effects** — Composition of C79 with the theorems about incoming_spa (Props/Incoming.lean) over serve.
* **C86 The server reads what the client's command line asks for** — Model: Model/Client.lean (applyArgs, validate_options, clientCtx, clientPack, client). Spec: Meant (what a command line means), Settled, Asks (what is asked of the server). Proof: clientCtx_built relates the context to the request, then the round trip of C07/C12 for well-formed requests.
* **C87 What a command line means** — Model: applyArg, applyArgs. Spec: given, Meant, Numeric, Named, Offset. Proof: induction on the command line from the end.
* **C88 Only checked requests are sent** — Spec: SendChecked. Proof: inversion of validate_options (validate_full) and of applyArgs.
* **C89 The packet is made with the keys the user gave** — Model: getKey, getHmacKey, get_key_file. Spec: GivenKey, GivenHmac, FileKey (the last line that names the server). Proof: loop invariant over the lines; C01 for base64.
* **C90 The client's handling of its command line has no undefined behaviour** — Undefined behaviour is the outcome ub of the model. Proof: safety lemmas per function (Lemmas/ClientSafe.lean).
* **C91 An rc file stands for the options that its entries name** — Model: Model/ClientRc.lean. Spec: Spec/ClientRc.lean (what a line means, which entries count, the option an entry stands for). Proof: the loop over the lines is a fold over the entries that count (process_fold); each entry takes a step that the option takes too (step_entry), up to the flag for the HMAC; the packet does not depend on the name of the stanza.
* **C92 A saved stanza stands for the command line that saved it** — Model/ClientRc (the saving half), Spec/ClientRc (Savable, SavableNumbers, StanzaName). Each saved line is read back as an assignment of the one field it was written from (Lemmas/ClientRcPut); the options of a validated command line equal the defaults with exactly the marked fields replaced (Lemmas/ClientRcSave); the update loop is followed over the lines of the file. `C92_saved_stanza_is_the_command_line_partial`.
* **C93 An interrupted save loses no settings** — updStates lists the states of the disk during update_rc, one for each byte written. `C93_old_or_new_text_is_there`; what it costs: `C93_moment_without_rc_file`, `C93_leftover_blocks_every_update`, `C93_crash_leaves_leftover`, `C93_update_that_gives_up`.
* **C94 The daemon makes and removes its own chains and touches nothing else** — Model/IptInit.lean transcribes fw_initialize and fw_cleanup over the iptables of Spec/Iptables.lean, extended by -F and -X. Spec/IptInit.lean says what belongs to the daemon. The cleanup is shown equal to the specification's `without` by following each command; the start by an invariant over the chains. Refused calls, out-of-range positions, more than ten jumps and foreign references are refuted by concrete runs.
* **C95 A run of the daemon leaves no trace in the firewall** — An invariant over the main loop of Model/Iptables.lean: the daemon's chains are referred to by their own jumps only, and the rest is the administrator's. C39 and C68 give what requests do, C40's machinery that checks only remove rules from the daemon's chains, C94 what the end does.
* **C96 Every variable of fwknopd has the value that files, command line and defaults give it** — Model/SrvConf.lean transcribes the passes over the command line, the parser with the arrays that outlive a line, and the defaults. Spec/SrvConf.lean gives texts a meaning as lists of settings and says how settings combine. The model is shown equal to it by induction over lines, files and options; stale suffixes, files read twice and own overrides are refuted by concrete runs.
* **C97 Numbers in the server's configuration are within their bounds and are those written** — The numbers of the accepted options are followed back through range_check to strtol_wrapper, for which the bounds and the value of decimal numbers are already proved. Wrapping, trailing text and ports above 65535 are refuted by concrete runs.
* **C98 The chains of the firewall are those of the configuration** — An invariant of the parser (chain settings fit in a line) and the check of the settings give that the loop of set_fw_chain_conf stays inside its arrays and splits at the commas; its result is compared with splitOn. For the default settings the hypotheses of C94 and C95 are proved for every combination of switches.
* **C99 Reading the server's configuration is memory safe** — The model has an outcome for accesses outside arrays; it is excluded by invariants over the lines (no variable is ever empty, names and values fit). An empty run directory is refuted by a concrete run.
* **C100 A knock opens the door that was asked for** — Composition of the client model, the library model, the server model and the iptables model. The packet's length and alphabet (from the encryption model) show that it passes the server's first checks; C86 shows what is decoded; the loop lemmas of C31 show that the stanza acts and no other; C65 that nothing is undefined; C29 the ports; C39 the rules. The same for commands (C100_command_is_run_partial) and for NAT requests (C100_nat_knock_opens_the_way_partial, with C68).
* **C101 A packet is judged by its own bytes alone** — Model of the two main loops (udp_server.c:52-240, pcap_capture.c:193-333) in Model/Daemon.lean with the buffer's leftover bytes as an input of each packet. The text that is looked at ends at the NUL written behind the packet's data; equality of runs by induction over the run.
* **C102 Every rule in the daemon's chains has a packet that was entitled to it** — Induction over the history of a run (acts_rules): each packet's effects by C39 and the conditions of C24-C31 (effect_meets), each upkeep only removes rules (check_moves). The firewall is any program that changes the tables at most as iptables would (AtMost), so any call may fail or be killed. The specification (Spec/Daemon.lean: Entitles, Lets, Backed) names what entitles a packet.
* **C103 From access.conf to the rules in the firewall** — Composition of C79 and C81 (what the text configures) with C102 (every rule has an entitled packet) and, for the other effects, an induction over the history (acts_effect) with the conditions of C24-C38. Spec/DaemonFile.lean says what the text of a stanza demands.
* **C104 Every command cycle that is opened is closed once** — Induction over the history of a run: a packet's openings append closings (act_list, loop_list), an upkeep runs exactly the due ones (C46). The scheduled closings are a permutation of those that happened and those that are pending.
* **C105 Signals are obeyed** — Small-step machine (Model/Signals.lean) with one access to a flag per step and arbitrary arrivals before each; invariants and a ranking function for the obedience within ten steps; a SIGHUP or SIGTERM in the window is shown to be kept until the next signal; counterexamples as schedules with an induction over the time after them.
* **C106 The pid file keeps a second daemon away** — Transition system with one system call per step (Model/PidFile.lean), POSIX record locks that end when any descriptor of the file is closed. Invariant: who is past the lock has it, and who runs has their number in the file; induction over the events.
* **C107 An access.conf written as the manual says is loaded** — Spec/AccessAccept says which values and stanzas are good, without functions of the parser. C107_loaded_partial (no include directives, lines of at most 1022 characters) proves that the loop over the lines, the checks at the end of each stanza, the defaults and the expansion of lists cannot fail on such a file, and combines this with C79 and C81. C107_keys_refused and C107_values_refused show files that differ in one value and are refused; C107_service_name_is_port_0 that `RESTRICT_PORTS tcp/ssh` is accepted and restricts nothing.
* **C108 Generated keys are random, fit, and are the same at both ends** — Model/KeyGen is `fko_key_gen`, `get_random_data` and the options of both programs. C108_output: no memory error, and what is written is base64 of 1-32 and 1-128 bytes of two separate readings. C108_generates: options as in the help text give keys of the lengths asked for (encryption keys of at most 32 bytes; for SHA3 a length must be given: C108_false_for_long_keys_and_sha3). C108_daemon_has_the_keys uses C107 and C79; C108_client_has_the_keys_partial uses C88 and C89; C108_both_ends_partial gives the hypothesis `SharesKeys` of C100. C108_false_without_urandom: when /dev/urandom cannot be read the key is one of a million.
* **C109 The firewalld back end grants, expires and tidies up as the iptables one does** — module Firewalld. firewall-cmd is specified by means of the specification of iptables (Spec/Firewalld); the back end is proved to do to the tables what the iptables back end does (requests, start, end) and the expiry is proved for both by one argument (`Deletes`, `ReadsChain` in Lemmas/Iptables). A run of the daemon from start to end is proved to leave no trace (Props/FwdSession), by the invariant of C95 carried over to firewall-cmd.
* **C110 A key that is typed in or read from a descriptor is the key that is used** — Model/Passwd is the loop with the static array as explicit state, `getpasswd` with descriptors that are closed by `fclose`, and the two calls in `get_keys`; Spec/Passwd is a line editor (a fold over the keys). C110_typed_partial: an invariant says the array has the edited line in front; lines never above 127 characters. C110_safe holds for all input. The rest of the claim is false: C110_long_keys_are_cut (silently), C110_backspace_of_a_dropped_character, C110_delete_key, C110_ctrl_c_is_an_empty_key and C110_ctrl_c_sends_a_packet (the client sends a packet with the empty key), C110_two_keys_one_descriptor (the descriptor is closed before the second key).
* **C111 The client finds its own address whatever the web server answers** — Model/Resolve: an answer is a list of pieces (what each `recv` gives), `recvLoop` fills the array, the scan for the empty line and `sscanf` work on the array with explicit bounds; `parse_url` with C's integer conversions; `wget` is a function from an argument list to an output. Spec/Resolve: dotted addresses, answers, URLs by their parts. C111_answer: the array is the answer, by induction over the pieces. C111_http_partial, C111_default_hosts (an equivalence), C111_https_partial: whom the client asks, for what, and what it uses. C111_any_answer_is_safe and C111_resolving_is_safe_partial: no memory error. C111_resolved_text and C111_server_reads_resolved_partial close the hypothesis of C86 about the address. The rest is false: see the findings.
* **C112 What the daemon knows of a command that it runs is what the command did** — Model/Proc: the operating system is a record of which calls succeed and a function from words, credentials and world to a running program (what it writes where, how it ends if its output is read to the end or not); `extChild`, `copy_or_search`, `extLoop` and `_run_extcmd` are transcribed. Spec/Proc: the whole lines that fit (`Kept`, as a longest prefix), the first line with a text. C112_output, C112_search_partial, C112_getline_partial: induction over the pieces that `fgets` returns. C112_runs_as: independence from every other program and credential. C112_run_extcmd_is_sound and C112_search_extcmd_is_sound: the simpler descriptions that the models of the firewalls use are views of this one. The last part of the claim is false: see the findings.
* **C113 Requests by GnuPG are signed by somebody who is listed** — Model/Gpg.lean models the GnuPG half of lib/gpgme_funcs.c over any gpgme (an arbitrary function from program, key ring, passphrase callback and ciphertext to a reply) and makes the `Env` of Model/Incoming.lean from it. The theorem composes C79 (what a loaded file configures) with the effects of a history of packets. The exact claim is false for keys whose last eight digits agree, and a longer form in GPG_REMOTE_ID matches nobody; both have witnesses.
* **C114 NAT rules come only from entitled packets, and the stanza decides their target** — Generalises C102 and C103 to requests for NAT: BackedNat (Spec/DaemonNat.lean) says what a rule of a NAT request needs; proved by the same induction over the history, with a lemma for each request (nat_request_moves in Lemmas/IptAny.lean: which rules each step may add, whichever calls of iptables fail). The last sentence is false: C114_open_ports_do_not_hold shows that OPEN_PORTS and RESTRICT_PORTS are compared with the port in the message only, never with the port in the NAT target.
* **C115 A knock by GnuPG, from the command line to the effect** — Props/GpgSend.lean on Model/Fko.lean, Model/Client.lean, Model/Gpg.lean and Model/Incoming.lean; GnuPG on both sides is quoted. `C115_gpg_round_trip_partial` is the library, `C115_gpg_knock_is_answered_partial` goes from the command line to the effect at the server, for messages that begin with an old-format session key packet (RSA, Elgamal); `C115_only_one_format_is_tried`, `C115_other_formats_are_lost` and `C115_curve25519_is_lost` show that others never arrive.
* **C116 Without iptables -C, a request has its rules and loses none of another client** — Model: search_extcmd_getline, rule_exists_no_chk_support with its substring searches, rule_exists, ipt_rule and the loop of process_spa_request for requests that are not for NAT (Model/IptList.lean). Spec: permissions, and iptables printing them in columns of any width (Spec/IptList.lean). Proof: the line with the expiry is analysed column by column; the search is true exactly if the first rule of the same second is the one asked for (C116_search_partial); from it the content of the chain after a request by induction over its ports (C116_request_partial). The property is false in three ways, each shown by a run of the model: a rule behind another one of the same second is added again (C116_same_second_twice), rules of the output chain are always added again (C116_output_twice), and a NAT rule is not added if one for another target address is there (C116_nat_target_mistaken).
* **C117 The TCP server only accepts and drops connections** — Model: run_tcp_server in the child with its system calls as a list of answers, clean_exit, and what main and the capture loop do in the child afterwards, with the models of fw_cleanup and of the capture loop (Model/TcpServer.lean). Proof: induction over the turns. The first half holds (C117_serves_partial, C117_closes_everything). The second half is false: C117_false_the_firewall_is_cleared says what is left of any firewall, for every way in which the server ends, by C94; C117_false_two_daemons is a run in which a packet is honoured twice.
* **C118 The TCP server is started again when it has ended** — Model: the children that have ended and have not been waited for, the handler of SIGCHLD, the beginning of an iteration of the capture loop (Model/TcpServer.lean). Proof: induction over the history. The property is false: C118_never_started_again and C118_kills_a_stale_number hold for every history in which children end one at a time; C118_started_again_partial is the only way in which it works.
* **C119 Knocks handed over by a netfilter queue are seen from every address** — Model/Nfq hands the bare IP packet to the model of process_packet with link offset 0. The source address is taken for the Ethernet type. Delivery is proved for the addresses that survive this, loss for all of 0.0.0.0-5.220.255.255 but 1/8, and by witnesses for 1.2.3.4, 129.0.3.4, 170.170.3.4.
* **C120 With a netfilter queue the daemon keeps its obligations** — Model/Nfq has the loop over a list of iterations. By induction over it: no closing command is ever run, no end under continuous traffic, end at the first pause after a signal, no end before 102 errors, verdicts go to the numbers with swapped octets. Every firewall rule comes from the processing of a queued packet of that run (Props/NfqRules).
* **C121 With the database cache no packet is honoured twice, and replays are counted** — Model/Dbm: the database is a map, each call may fail; the stanzas that authenticate a packet are a list of calls. Induction over the packets: what is honoured was not in the database and is in it afterwards. A failed store is proved to be fatal for every packet.
* **C122 Rotating the digest cache puts it aside once** — Model/Dbm: the two files and the start of the cache with the option, which is done at every SIGHUP as main runs config_init again.
* **C123 The listing of a context stays in its array and shows the members** — Model/Dump writes each line into the array with bounds checks. Induction over the lines: the array holds the text so far, cut to its size. Reading it: lines without line feeds are determined by the text.
* **C124 The run directory is made, and only that** — Model/RunDir has a file system as a map from lists of names, stat and mkdir over it and the loop of make_dir_path, with an undefined outcome when a stat buffer is read after a failed stat. That only the way is added to is an induction over the path with an order of file systems (OnlyAdds); that the directory is made is an induction over the names. False with two slashes at the end and for paths of more than 1023 characters (witnesses).
* **C125 The GnuPG objects of a context are released once and only once** — Model/GpgLife has a heap of numbered objects of four kinds; every release and use checks that the object is alive. An invariant (each pointer of the context to a living object, engine and data objects alive only if pointed to) is kept by every call; a second one (nothing else is alive) by histories without a second key or decryption. False when a listing of keys cannot be started, with two recipients and with three signatures (witnesses, the first for every history).
* **C126 A context can be used after a failed GnuPG call** — On Model/GpgLife: a state is spoilt if the flag of the engine context is set and the pointer is null. Calls for keys and calls that succeed keep it unspoilt, and then every call that GnuPG agrees to succeeds; after a failed encryption or decryption it is spoilt for ever.
* **C127 --kill says whether the daemon is gone** — Model/Stop has a process as kill and sleep see it (permission, seconds until it ends after each signal, signals it got) and stop_fwknopd on it. Proved by following the function for any process; false (witness for every process) when it may not be signalled: EPERM is taken for absence.
* **C128 With pf the daemon starts only if its anchor is in use** — Model/PfInit on top of Model/Pf and the search_extcmd of Model/IptInit; Spec/PfInit adds the listing of anchors to the description of pfctl. The lines of the listing are split and the search is reduced to a suffix of a name. False: a longer name with the same end is taken for the anchor.
* **C129 Files that others have a say in are not used** — Model/FilePerms: each call of the program meets a file system of its own, so that anything may happen in between. The tests on bits of the mode are reduced to the kinds and permissions of stat(2) (Spec/FilePerms). False: only the kind of the file is enforced, and only by the daemon; the rc file is looked at before it is opened.
* **C130 Paths given to the daemon are of the right kind** — Model/FilePerms and Spec/FilePerms, by the same reduction of the bits of the mode as for C129.
* **C131 A saved packet is in its file, and nothing else is touched** — Model/FilePerms has a directory with files and links; induction on the calls for appending. Without a packet, or if the file cannot be opened, an error is reported and no file is changed (C131_errors). False if the old entry cannot be removed: then the file it leads to is overwritten.
* **C132 The parts of the daemon come in their order, and the firewall is cleaned up at the end** — Model/ServerMain has `main` with one act and one answer for each part; a run is the list of what its turns meet. Case analysis over the exits of a turn, induction over the turns. False after a reload that fails or that needs the firewall no more.
* **C133 The client's keys are erased when it ends** — Model/KeyWipe has the arrays with all their bytes; induction over the lines of a key file with the loop of get_key_file on the array. False for a file with two lines for the server and for base64 keys that are too long.
* **C134 The packet is sent once, to the first address that can be reached** — the loop over the answers of the resolver as a function that gives the list of socket calls and the result; induction over the answers. False of the report if the system takes only a part of the packet (possible over TCP): that is a warning, and the client ends with success (`C134_false_short`).

## Findings about the digests

* The length of a message is a `size_t` in lib/digest.c but an `unsigned` in md5.c and sha3.c and an
  `int` in sha1.c: of 4 GiB or more MD5 and SHA-3 digest only a beginning
  (C74_md5_long_message_truncated), and SHA-1 of 2 GiB or more is undefined
  (C74_sha1_undefined_from_two_gigabytes).  No caller in fwknop has messages of that size.
* md5.c and sha2.c read words through pointers to bytes, which is undefined in C when the address is
  not aligned; the model reads the bytes.
* SHA512_Last clears two bytes more than the 112 it needs when the block overflows; they are
  overwritten with the length at once.
* sha1.c leaves the last block of the message, which for an HMAC is key material, in memory.

## Findings about the client

Proved in Props/Client.lean of the model of client/config_init.c, client/fwknop.c and client/utils.c:

* -a keeps 15 characters before the check: `-a 192.168.100.1999` allows 192.168.100.199 (C87_values_are_bent).
* A time offset passes over characters it does not know (`1x2` is 12 s), and multiplies without a check: `24856d` overflows (C87_values_are_bent, C90_time_offset_overflows).
* A base64 key whose text fits its array (180 characters) can decode to 135 bytes, written into an array of 129; the same for the HMAC key (C90_base64_key_overflows).
* A line of a key file can carry a key longer than the array it is copied to (C90_key_file_overflows).
* set_access_buf bounds the copy of the protocol by the size of the text, not of the buffer (C90_access_overflows).
* Without -A and -C every packet is refused by the client's own library, as `none/0` is not a valid request (C86_access_is_needed).
* -f takes up to 131072 seconds, the server at most 65536: the packet is lost (C86_long_timeout_is_lost).
* -C with -N or --nat-local makes a packet every server refuses; the timeout of a command is not sent (C86_command_with_nat_is_lost).
* set_nat_access reads five digits of the port of -A (C86_nat_port_is_cut).
* An empty HMAC key is accepted and makes a packet no server verifies (C86_empty_hmac_key_is_lost).

## Findings about the client's rc file

Proved in Props/ClientRc.lean of the model of client/config_init.c:

* ALLOW_IP resolve in a stanza does not override an address of [default] (C91_resolve_cannot_override).
* HMAC_DIGEST_TYPE in the file does not switch the HMAC on; --hmac-digest-type does (C91_hmac_type_alone).
* HMAC_KEY_FILE is stored as the file of the encryption key, and packets go out without an HMAC (C91_hmac_key_file_is_taken_for_the_key_file).
* `N` in a stanza does not reset `Y` of [default] (C91_no_does_not_reset).
* A KEY of the file wins over --key-base64-rijndael of the command line (C91_plain_key_precedes).
* The sample file that the client writes shows CLIENT_TIMEOUT, a name the client refuses; FW_TIMEOUT is limited to half of what --fw-timeout takes (C91_timeouts).
* --save-rc-stanza loses or changes options: a stanza given twice in a row keeps the settings of the second (C92_false_for_a_stanza_given_twice); a timeout above 65536 or an offset in days makes the stanza unreadable (C92_false_for_large_numbers); of two offsets one is lost (C92_false_for_two_offsets); -s is not saved, blanks cut values, --get-hmac-key comes back as the file of the encryption key (C92_false_for_other_options); a KEY that the user keeps wins over the new KEY_BASE64 (C92_false_for_a_kept_key).
* `update_rc` removes the rc file before it renames the new one, so there is a moment without an rc file (C93_moment_without_rc_file).  A leftover `.updated` file blocks all later saves (C93_leftover_blocks_every_update); a line that is no entry leaves one behind, and a question at the end of the input is repeated for ever (C93_update_that_gives_up).

## Findings about the start and the end with iptables

- If the insertion of the rule that probes for `-C` is refused (another process holds the lock of the tables), the
  deletion of rule number 1 that follows takes away the first rule of the administrator; the start is reported as a
  success (`C94_false_if_refused`). The rule that probes for comments has the same pattern, but its deletion depends
  on the listing.
- If that deletion is refused, a rule that accepts UDP from 127.0.0.2 stays (`C94_false_if_deletion_refused`).
- A position of the jump of 0, or past the end of the chain, gives no jump, hence no access at all; the start is
  reported as a success (`C94_false_for_position_0`).
- At most ten jumps to a chain are removed (`C94_false_for_many_jumps`), and a chain that another rule refers to stays,
  emptied (`C94_false_for_foreign_jump`).
- A refused question for the jump at the end leaves the jump and the chain behind (`C95_false_if_refused`).
- A SIGHUP takes away access that is not over yet, with the default FLUSH_IPT_AT_INIT (`C95_restart_drops_access`).

## Findings about the firewalld back end

- The prefix `--direct --passthrough ipv4` takes 29 of the 255 bytes of the command buffer, which is as large as that of the
  iptables back end: with a path of 130 characters a rule with another expiry time and no target is made (C109_long_name).
- A deletion in which iptables exits with an error status counts as done, as with iptables (C109_refused); the probes at the
  start can take away a rule of the administrator or stay behind (C109_start_refused, C109_start_deletion_refused).
- `chain_exists` is right here and inverted in fw_util_iptables.c. When the question whether a rule is there is killed, the
  iptables back end takes the empty answer for yes and grants nothing; this one adds the rule (C109_killed_question).
- `comment_match_exists` deletes its rule only if it saw it in the first 4095 bytes of the listing.

## Findings about fwknopd.conf

- A reference without a suffix (`$FWKNOP_CONF_DIR`) gets the suffix of an earlier reference in the same file, and a lone
  `$` repeats the whole earlier reference: `sscanf` leaves the arrays as they were (`C96_false_stale_suffix`).
- `-c FILE` runs into the case of `-O`: the file is read a second time as an override, so a line may refer to a later one
  (`C96_false_read_twice`); with `-c A -c B`, B is read first and A overrides it (`C96_false_two_files`).
- OVERRIDE_CONFIG in the configuration file replaces the files of `-O` (`C96_false_own_override`).
- Numbers are read modulo 2^32 (`C97_false_wraps`) and may be followed by anything (`C97_false_junk`); ports up to 131071
  are accepted (`C97_false_port`). The upper bound for `-C`, `2 << 30`, overflows.
- Names of chains and targets are cut to 63 characters (`C98_false_long_name`).
- An empty FWKNOP_RUN_DIR makes the daemon read the byte before an array (`C99_false_empty_run_dir`,
  `C99_false_empty_override`).

## Findings about access.conf

Differences between what the parser does and what a reader of the manual expects.  Each is proved
of the model as a theorem or is visible in a definition cited here.

* A placeholder value (`__CHANGEME__`) in a file of `%include_keys` ends the reading of that file without an error: keys behind it are not read, so that a stanza may lose its HMAC key (`C79_placeholder_ends_keys_file`).
* `chop_whitespace` never looks at the first character, so blanks behind a one-character value stay
  (C78_one_character_not_trimmed).  `include_keys_file` does not trim at all (`keyLines`).
* `%include_keys` after `%include` in the same stanza: `free_last_acc_stanza` frees the wrong stanza
  (C80_unusable_stanza_kept).
* `getpwnam` returns static storage and both `user_pw` and `sudo_user_pw` point to it
  (C83_group_of_the_wrong_user); groups are looked up among users (C83_group_name_is_a_user).
* ACCESS_FOLDER with two files expands the lists of the first file's stanzas twice
  (C84_lists_expanded_again).
* HMAC_KEY_BASE64 that decodes to nothing switches the HMAC off (C85_empty_hmac_key).
* `strtol_wrapper` stores a `long` in an `int` before it compares (C79_timeout_wraps); dates and
  epochs are hardly checked (C79_month_not_checked, C79_expiry_text_ignored); `%5u` cuts a port
  (C79_nat_port_cut).
* Errors inside a keys file end its reading silently (`keyLines`: `.err` gives `.ok e`).

## Findings about the main loops, signals and the pid file

- The count of capture errors is not of consecutive errors: it is reset only when a dispatch returns 0, not when it
  returns packets (pcap_capture.c).
- `recvfrom` returning -1 makes the UDP server write the NUL before its array (`udpReady` of `.error` is undefined).
- In UDP mode the destination of a datagram is unknown: DESTINATION never matches, ENABLE_DESTINATION_RULE gives 0.0.0.0
  (C101_datagram_destination); datagrams above 1500 bytes are cut and processed (C101_long_datagram).
- SIGHUP in UDP mode ends the daemon. SIGHUP wins over a simultaneous SIGTERM, which the restart then forgets.
- The SIGCHLD handler's `waitpid(-1)` reaps the TCP server before the loop's `waitpid` sees it.
- The pid file is never removed: `--kill` signals whatever process has its number; `--status` without a daemon writes its
  own number. When the lock is held but the number cannot be read, the second daemon goes on.
- The closings of open command cycles live only in memory: when the daemon ends, and at a SIGHUP, which frees the list
  (utils.c `clean_exit`, `free_cmd_cycle_list`), they are forgotten and the cycles stay open (C104_false_if_the_daemon_ends).
  A closing command that does not fit into its buffer is not scheduled although the opening ran (C104_false_for_a_long_command).
- `got_signal` is cleared after the separate flags have been looked at. A SIGTERM between the look and the reset waits for
  another signal (C105_false_in_the_window); one that arrives during a reload, or together with a SIGHUP, is lost
  (C105_false_during_a_reload, C105_false_with_hup). A SIGHUP in the window or during a reload is lost too (C105_false_hup_in_the_window,
  C105_false_hup_during_a_reload).
- The lock on the pid file does not survive a SIGHUP: `lockf` locks end when the process closes any descriptor of the file,
  and `get_running_pid`, which `setup_pid` calls on each reload, opens and closes the file (C106_false_after_hup). Two daemons
  can then run at once. Also: a race before the first number is written (C106_false_in_a_race), and a new daemon that gets
  the number which is in the file takes itself for a reload and skips lock and fork (C106_false_for_a_number_that_comes_again).
- The name of a service in OPEN_PORTS or RESTRICT_PORTS is not refused: `strtol` gives 0 for it and the port is 0, so that
  `RESTRICT_PORTS tcp/ssh` restricts nothing (C107_service_name_is_port_0).
- Key generation accepts `--key-len` up to 128 and then refuses more than 32; with a SHA3 digest type and no
  `--hmac-key-len` it fails because there is no default length (C108_false_for_long_keys_and_sha3). When /dev/urandom cannot
  be read, `srand(tv_usec)` makes the key one of a million (C108_false_without_urandom), silently.

## Findings about keys that are typed in

- Ctrl-C at the prompt gives the empty key and not NULL, which is what the comment of `getpasswd` says and what `get_keys`
  tests for. The client goes on and sends a packet that is encrypted with the empty key (C110_ctrl_c_sends_a_packet), so that
  anybody on the path can read user name and request.
- A key of more than 127 characters is cut silently (C110_long_keys_are_cut). Generated HMAC keys of 128 bytes have 172
  characters in base64; typed in (as text) they cannot match.
- DEL, which most terminals send for the backspace key, becomes part of the key, since canonical mode is off
  (C110_delete_key).
- With `--fd` or `--stdin` and two keys to ask for, `fclose` closes the descriptor after the first, so that the second
  `fdopen` fails: there is never a packet (C110_two_keys_one_descriptor).
- Not modelled, seen while reading: the signal mask saved in `old_sig` is never restored, so SIGINT and SIGTSTP stay blocked
  after a prompt.

## Findings about finding one's own address

- `parse_url` prints the port with `snprintf(port, sizeof(port)-1, ...)` into 6 bytes, so that a port of five digits loses
  its last digit and the host gets a colon (C111_false_for_long_ports: every port from 10000).
- A colon in the path is taken for the one before a port, and characters of the host are lost
  (C111_false_for_a_colon_in_the_path); behind a short host the number of characters to copy becomes negative, and `strlcpy`
  with a huge size writes the whole URL over an array of 257 bytes. The empty URL makes it read the byte before the text
  (C111_false_for_hostile_urls).
- Only the beginning of an address is checked (`sscanf` with `%u` ignores what follows and takes signs and blanks; the copy is
  of 15 characters): C111_false_for_odd_answers.
- An answer of 2000 bytes or more gives an address or not depending on how TCP cuts it into pieces
  (C111_false_for_long_answers).

## Findings about running commands

- If `execvp`, `chdir`, `setgid` or `setuid` fails in the child, the child ends with `exit`, and `_run_extcmd` returns success
  (C112_false_for_missing_programs, C112_false_for_refused_users). A wrong path of iptables shows only in the logs of the child.
- The supplementary groups of the daemon are kept by commands that run on behalf of a user: there is no `setgroups` or
  `initgroups` (C112_false_for_groups).
- When the buffer is full the pipe is closed. A program that still writes is ended by SIGPIPE, and the call counts as failed
  (C112_false_for_long_output). For a listing above 4095 bytes it is a race whether the expiry of rules looks at its beginning
  or at nothing at all.
- Lines are read in pieces of 255 characters: a text across a border is not found, and the count of lines is off
  (C112_false_for_long_lines).

## Findings about GnuPG

- GPG_REMOTE_ID is compared with the last eight digits of the fingerprint, which can be forged by trying keys
  (C113_false_for_equal_short_ids); a longer identity there, or one in lower case, never matches
  (C113_false_for_long_ids). GPG_FINGERPRINT_ID compares the whole fingerprint.
- Only the first signature is looked at. `process_sigs` keeps the first and the last one of a list and leaks those between.
- `GPG_EXE` in fwknopd.conf and `--gpg-exe` of fwknopd change nothing for packets: `handle_gpg_enc` only looks at GPG_EXE of the
  stanza.
- `fko_set_gpg_recipient` is called by the server before the type of the encryption is known, so that it always fails; its
  result is not looked at. GPG_DECRYPT_ID has no effect.
- With KEY, ENCRYPTION_MODE Asymmetric and ENABLE_CMD_EXEC, the attempt with the KEY calls GnuPG with the default key ring of
  root (server/incoming_spa.c:560-600); the theorem excludes that mode.

- The client cuts the first two characters, which it expects to be `hQ`, off the base64 text of the message, and the server puts
  `hQ` in front of what it gets (lib/fko_funcs.c:560, lib/cipher_funcs.c:377-415). Messages for keys on Curve25519 begin
  0x84 0x5E (`hF4D`), so every knock with such a key is lost, without an error on the client
  (C115_other_formats_are_lost, C115_curve25519_is_lost).
- Messages of fewer than 400 characters are taken for Rijndael ones; C115 asks for 301 octets.

## Findings about requests for NAT

- OPEN_PORTS and RESTRICT_PORTS are compared with the port in the message only. The port in the NAT target (`-N`) is any that the
  client writes: with `OPEN_PORTS tcp/22`, a local NAT request for tcp/22 with the target port 3306 opens port 3306 in the
  input chain (C114_open_ports_do_not_hold), and one for forwarding reaches any port of any host behind the firewall
  (C114_open_ports_do_not_hold_behind). Only FORCE_NAT confines the target.

## Findings about commands

- The daemon drops packets of fewer than 140 characters (server/process_packet.c:213, server/incoming_spa.c:71). A command
  request with a short user name and command, an MD5 digest and no HMAC is shorter than that (118 characters in
  C100_short_commands_are_lost): the client sends it without a warning and the command is never run.

## Findings about iptables without `-C`

- The listing is searched for the expiry time, and only the first line with it is compared with the rule. When permissions of
  two clients end in the same second, the second one's rule is added again (C116_same_second_twice); the copies expire together.
- Rules of the output chain are printed with `spt:`, and `dpt:` is looked for: they are never found (C116_output_twice).
- The text for the NAT target is printed into the buffer of the destination (server/fw_util_iptables.c:118), which is only
  looked at with ENABLE_DESTINATION_RULE; the buffer that is looked at stays empty. A DNAT rule for another host, with the same
  port and the same second, counts as the one asked for, and the new one is not added (C116_nat_target_mistaken).

## Findings about the TCP server

- `run_tcp_server` returns -1 in the child process when it ends, and `main` then does in the child what it should do in the
  parent: `clean_exit` with FW_CLEANUP (server/fwknopd.c:283-287). A child whose port is taken, which gets a signal or whose
  parent has gone deletes the chains of the daemon with all rules (C117_false_the_firewall_is_cleared); on SIGHUP the daemon
  itself sends the signal, waits a second, and makes the chains anew while the child may still be deleting them.
- The capture loop does not look at the return value when it starts the server again: if that fails, the child goes on as a
  second daemon with a replay cache of its own and without the lock of the pid file (C117_false_two_daemons).
- The handler of SIGCHLD waits for any child (server/sig_handler.c:77), so the `waitpid` of the capture loop finds nothing: the
  server is not started again (C118_never_started_again), its number is never cleared, and at the end SIGTERM and SIGKILL go to
  whatever process has that number then (C118_kills_a_stale_number).
- The UDP server never returns to the place where the TCP server is started: ENABLE_TCP_SERVER has no effect with it.

## Findings about the netfilter queue

- The packet of a queue has no Ethernet header, but `process_packet` reads the Ethernet type from octets 12 and 13, which are
  the first half of the source address. Knocks from 0.0.0.0 to 5.220.255.255, 129.0.0.0/16 and 170.170.0.0/16 are looked at in
  the wrong place and lost (C119_false_low_addresses, C119_false_other_addresses).
- `nfq_set_verdict` gets `ph->packet_id` without `ntohl` (server/nfq_capture.c:80; the comment at line 64 has it). On a
  little-endian host no packet with a number below 65536 gets its verdict (C120_no_verdicts); the queue of the kernel fills up.
  The model has the little-endian host; on a big-endian one the verdicts are right.
- The loop does not call `cmd_cycle_close` (C120_cycles_are_never_closed), looks at signals only when no packet is waiting
  (C120_not_stopped_under_traffic), and counts octets, not packets, for --packet-limit (C120_limit_counts_octets).
- The message about an error of `recv` is given the function `strerror` instead of a string (line 253): undefined behaviour.

## Findings about the database cache and rotation

- `add_replay_dbm_cache` overwrites the error of a failed store with success (server/replay_cache.c:670). With a full disk or
  a database that cannot be written, every packet can be replayed any number of times (C121_false_a_full_disk).
- If the cache cannot be opened at the start, ENABLE_DIGEST_PERSISTENCE is set to N and the daemon goes on without protection
  against replays (server/fwknopd.c:485-495, C121_false_not_remembered).
- `main` reads the command line again after SIGHUP, so --rotate-digest-cache rotates at every reload: packets from before can be
  replayed (C122_false_replay_after_reload), and the file put aside is overwritten (C122_false_put_aside_is_lost).
- With ndbm the loop that counts the entries at the start tests a variable that is never set (server/replay_cache.c:422).

## Findings about listings

- Texts of a packet are listed as they are. A command or an authentication text with line feeds makes lines that look like
  those of other members; two different contexts have the same listing (C123_false_two_contexts).
- A run directory with two slashes at its end is made, and then the daemon ends with "Unable to create Run directory", because
  the last `mkdir` finds what the loop has just made (server/fwknopd.c:826-866); the next start works (C124_false_slashes). A
  path of more than 1023 characters is cut, and another directory is made (C124_false_long_path).
- In `make_dir_path`, a `stat` that fails for another reason than a missing name is followed by a look at `st`, which is then that
  of another component or not set (server/fwknopd.c:836-855). `check_dir_path` only gets there when the whole path gives ENOENT,
  and then this cannot happen without another process or errors of the disk (C124_defined).
- When gpgme cannot start a listing of keys, `get_gpg_key` releases the engine context and leaves the pointer to it
  (lib/gpgme_funcs.c:213-224): the next GnuPG call on the context uses it and `fko_destroy` releases it again
  (C125_false_released_twice).
- A second `fko_set_gpg_recipient` or `fko_set_gpg_signer` loses the reference to the first key (lib/fko_encryption.c:739, 856;
  C125_false_lost_key); of three or more signatures only the first and the last are kept and freed
  (lib/gpgme_funcs.c:153-156, C125_false_lost_signature).
- An encryption or decryption that fails, for instance with a wrong passphrase, sets `gpg_ctx` to NULL and leaves
  `have_gpgme_context` (lib/gpgme_funcs.c:472-478 and others): `init_gpgme` then makes no new one, and every later GnuPG call on
  that context fails, or crashes with a gpgme that does not check for NULL (C126_false_after_failure).
- `fwknopd --kill` takes every failure of `kill(pid, 0)` for the absence of the process (server/fwknopd.c:660, 671-680): a user who may not
  signal the daemon is told that it was killed, and the exit status is success (C127_false_not_permitted). A daemon that needs more
  than four seconds for its clean-up, for instance with a slow firewall command, gets SIGKILL in the middle of it (C127_killed).
- With pf, `anchor_active` looks for the name and a line feed anywhere in the listing (server/fw_util_pf.c:101-113): an anchor
  `my-fwknop` in the main policy is taken for `fwknop`, and the rules of the daemon have no effect (C128_false_other_anchor).
- With FORWARD_ALL, `snat_rule` does not look at FORCE_MASQUERADE: if SNAT_TRANSLATE_IP is set, the source is changed to that
  address (server/fw_util_iptables.c:1379-1403, C68_false_masquerade_all); without FORWARD_ALL it is masqueraded.
- FORCE_SNAT and FORCE_MASQUERADE are accepted without ENABLE_IPT_SNAT (server/access.c:1918-1951), but the chains for them are
  only set with it (server/fw_util_iptables.c:1064-1080): the rule is made for a chain without a name, iptables refuses it, and the
  access goes on with the source unchanged (C68_false_force_snat_ignored, C68_no_source_chain).
- FORWARD_ALL with FORCE_MASQUERADE or FORCE_SNAT and without FORCE_NAT gets a FORCE_NAT to 0.0.0.0 (server/access.c:1328-1343).
  Unless DISABLE_DNAT is set, all packets of the client are sent on to that address (C68_false_nat_to_nowhere).
- FORCE_MASQUERADE N also clears what FORCE_SNAT before it has set (server/access.c:1947-1951, C79_false_masquerade_off_ends_snat).
- `verify_file_perms_ownership` only warns about permissions and owners; the daemon refuses nothing but what is not a regular file, the
  client nothing at all (server/utils.c:132-153, client/utils.c:73-102, C129_false_used_by_daemon, C129_client_partial).
- The client looks at its rc file by its name and opens it later (client/config_init.c:703, 1543): another file can take its place
  in between, and then no warning is given (C129_false_rc_file_exchanged).
- `write_spa_packet_data` ignores whether `unlink` worked (client/spa_comm.c:780-781): where it did not, the file behind the name, which may be
  a symbolic link, is overwritten (C131_false_written_through); the result of the function is ignored too (client/fwknop.c:421).
- A SIGHUP with an error in the new configuration ends the daemon with NO_FW_CLEANUP (server/fwknopd.c:130-181, server/access.c): its chains and
  the rules of clients stay in the firewall, until the next start (C132_false_bad_reload). The same happens at the end of a daemon whose
  new access file has only command cycles: `enable_fw` is 0 then (server/access.c:1431-1432, server/utils.c:232, C132_false_not_needed_any_more).
- A key file with two lines for a server leaves the end of the longer first key in memory: only `strlen` of the last one is erased (client/getpasswd.c:271-289,
  client/fwknop.c:600-614, C133_false_two_lines, C133_false_empty_line). A base64 key that is refused as too long is erased with its own length, behind the end of the
  array (client/fwknop.c:1097-1109, C133_false_overrun).
- Over TCP a `send` that takes only a part of the packet is a warning, and the client ends with success (client/spa_comm.c:178-190, C134_false_short).
  `--server-resolve-ipv4` has no effect on the sending: the resolver is only asked for IPv4 in any case (client/spa_comm.c:101), so a server that has only
  an IPv6 address cannot be reached.
