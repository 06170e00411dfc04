import Verif.Model.CmdCycle
import Verif.Model.Replay
import Verif.Model.Fko

/-!
# What the server does with a packet (server/incoming_spa.c)

Configuration texts are represented by what the code looks for in them.  Logging, `hex_dump`,
`dump_ctx_to_buffer`, memory exhaustion and the return values that are only logged are not
modelled.  All calls of `time` while a packet is handled return the same value `now`.
The server is built for iptables or firewalld, which treat NAT options alike here.
-/

namespace Fwknop

/-- The settings of fwknopd.conf and the command line used here. -/
structure Conf where
  /-- ENABLE_SPA_OVER_HTTP starts with y -/
  http : Bool := false
  /-- ALLOW_ANY_USER_AGENT starts with n -/
  need_agent : Bool := true
  /-- ENABLE_X_FORWARDED_FOR starts with y -/
  xff : Bool := false
  /-- ENABLE_DIGEST_PERSISTENCE starts with y -/
  persistence : Bool := true
  /-- ENABLE_SPA_PACKET_AGING starts with y -/
  aging : Bool := true
  /-- MAX_SPA_PACKET_AGE -/
  max_age : Int := 120
  /-- ENABLE_IPT_FORWARDING (ENABLE_FIREWD_FORWARDING) starts with y -/
  forwarding : Bool := false
  /-- ENABLE_IPT_LOCAL_NAT (ENABLE_FIREWD_LOCAL_NAT) starts with y -/
  local_nat : Bool := false
  /-- the option --test -/
  test : Bool := false
  /-- SUDO_EXE -/
  sudo_exe : Str := b!"/usr/bin/sudo"

/-- What is outside the model: the algorithms, and GnuPG as it behaves with the settings of a
stanza: `gpgDec` decrypts, `gpgReady` says that the program and the key ring directory can be set,
`gpgSig` is the fingerprint of the first signature found while decrypting a packet. -/
structure Env where
  K : Crypto
  gpgDec : Stanza → (key cipher : Str) → Option Str
  gpgReady : Stanza → Bool
  gpgSig : Stanza → (packet : Str) → Option Str

/-- The algorithms with GnuPG as the stanza configures it. -/
def Env.crypto (E : Env) (acc : Stanza) : Crypto := { E.K with gpgDec := E.gpgDec acc }

/-- `spa_pkt_info_t`, server/fwknopd_common.h:601-610.  `data` is the whole array of 1501 bytes;
addresses are in host order. -/
structure Pkt where
  data : Str
  len : Nat
  proto : Nat
  src_ip : Nat
  dst_ip : Nat
  src_port : Nat
  dst_port : Nat

/-! ## preprocess_spa_data -/

abbrev MIN_SPA_DATA_SIZE : Nat := 140
abbrev MAX_SPA_PACKET_LEN : Nat := 1500
abbrev MIN_GNUPG_MSG_SIZE : Nat := 400

/-- The position of the first suffix with a property (`strstr`, `strcasestr`). -/
def findSuffix (p : Str → Bool) : Str → Option Nat
  | [] => if p [] then some 0 else none
  | c :: cs => if p (c :: cs) then some 0 else (findSuffix p cs).map (· + 1)

/-- server/incoming_spa.c:129-135: the text at `xff` is checked and copied with size `i` into the
16 bytes of pkt_source_xff_ip.  Result: the buffer and the address (empty if none). -/
def xffStore (buf : Str) (xff i : Nat) : Res (Str × Str) :=
  match cstrAt buf xff with
  | none => .ub
  | some a =>
    if !is_valid_ipv4_addr a a.length then .ok (buf, [])
    else do
      Res.mem (i ≠ 0 ∧ min a.length (i - 1) + 1 > MAX_IPV4_STR_LEN)
      return (buf, a.take (i - 1))

/-- server/incoming_spa.c:121-127: the value starts at `p`.  A blank ends it, is overwritten with
NUL and counted in `i`; then `xff -= i - 1` leads back to the start.  At the end of the text it
leads to the character after the start. -/
def xffValue (buf : Str) (p : Nat) : Res (Str × Str) :=
  let rest := cstr (buf.drop p)
  let n := (rest.takeWhile fun c => !isSpace c).length
  if n < rest.length then xffStore (buf.set (p + n) 0) p (n + 1)
  else xffStore buf (p + 1) n

/-- server/incoming_spa.c:114-136. -/
def xffHeader (buf : Str) : Res (Str × Str) :=
  match findSuffix (hasPrefixI b!"X-Forwarded-For: ") (cstr buf) with
  | none => .ok (buf, [])
  | some off => xffValue buf (off + 17)

/-- `strlcpy(packet_data, ndx+5, pkt_data_len)`, server/incoming_spa.c:141, byte by byte from the
left. -/
def shiftRequest (buf : Str) (len : Nat) : Str :=
  let s := ((cstr buf).drop 5).take (len - 1)
  s ++ 0 :: buf.drop (s.length + 1)

/-- server/incoming_spa.c:151-154. -/
def httpChar (c : Nat) : Nat := if c = 45 then 43 else if c = 95 then 47 else c

/-- The loop at server/incoming_spa.c:144-157: the buffer and `i`. -/
def httpLoop : (n : Nat) → Str → Str × Nat
  | 0, b => (b, 0)
  | _ + 1, [] => ([], 0)
  | n + 1, c :: cs =>
    if isSpace c then (0 :: cs, 0)
    else ((httpChar c) :: (httpLoop n cs).1, (httpLoop n cs).2 + 1)

/-- server/incoming_spa.c:97-168. -/
def httpRequest (conf : Conf) (buf : Str) (len : Nat) : Res (Str × Str) := do
  Res.guard (conf.need_agent && (findSuffix (hasPrefix b!"User-Agent: Fwknop") (cstr buf)).isNone)
  let x ← (if conf.xff then xffHeader buf else Res.ok (buf, []))
  let r := httpLoop (len - 5) (shiftRequest x.1 len)
  Res.guard (r.2 < MIN_SPA_DATA_SIZE)
  Res.guard (!Base64.is_base64 (r.1.take r.2))
  return (r.1, x.2)

/-- Is the packet treated as a HTTP request?  server/incoming_spa.c:95-96. -/
def isHttp (conf : Conf) (buf : Str) : Bool := conf.http && hasPrefixI b!"GET /" (cstr buf)

/-- `preprocess_spa_data`, server/incoming_spa.c:52-175: the buffer and the X-Forwarded-For
address, `err` for the values other than FKO_SUCCESS. -/
def preprocess_spa_data (conf : Conf) (buf : Str) (len : Nat) : Res (Str × Str) := do
  Res.guard (len < MIN_SPA_DATA_SIZE)
  Res.guard (len > MAX_SPA_PACKET_LEN)
  Res.guard (constant_runtime_cmp buf B64_RIJNDAEL_SALT 10 = 0)
  Res.guard (len > MIN_GNUPG_MSG_SIZE && constant_runtime_cmp buf B64_GPG_PREFIX 2 = 0)
  if isHttp conf buf then httpRequest conf buf len
  else do
    Res.guard (!Base64.is_base64 (buf.take len))
    return (buf, [])

/-! ## Replay detection -/

/-- `get_raw_digest`, server/incoming_spa.c:179-262 (`fko_set_raw_spa_digest`,
lib/fko_digest.c:257-279). -/
def get_raw_digest (E : Env) (text : Str) : Res Str :=
  match fko_new_with_data E.K text none FKO_DEFAULT_ENC_MODE none 0 with
  | .ub => .ub
  | .err => .err
  | .ok c =>
    match set_digest E.K.H (c.encrypted_msg.getD []) FKO_DIGEST_SHA256 with
    | none => .err
    | some d => .ok d

/-- `src_check`, server/incoming_spa.c:353-403: the digest (`none` when digests are off), `err`
when the packet is dropped. -/
def src_check (conf : Conf) (E : Env) (stanzas : List Stanza) (cache : List Str) (src : Nat) (text : Str) :
    Res (Option Str) :=
  if stanzas.any fun a => compare_addr_list a.source_list src then
    if conf.persistence then do
      let d ← get_raw_digest E text
      Res.guard (is_replay cache d)
      return some d
    else return none
  else .err

/-! ## One stanza -/

/-- `src_dst_check`, server/incoming_spa.c:433-447. -/
def src_dst_check (acc : Stanza) (src dst : Nat) : Bool :=
  !(!compare_addr_list acc.source_list src ||
    (acc.destination_list ≠ [] && !compare_addr_list acc.destination_list dst))

/-- `check_stanza_expiration`, server/incoming_spa.c:329-351: the stanza afterwards and the
result. -/
def check_stanza_expiration (now : Int) (acc : Stanza) : Stanza × Bool :=
  if acc.access_expire_time > 0 then
    if acc.expired then (acc, false)
    else if now > acc.access_expire_time then ({ acc with expired := true }, false)
    else (acc, true)
  else (acc, true)

/-- `handle_gpg_enc`, server/incoming_spa.c:604-689, with the tests before it. -/
def authGpg (E : Env) (acc : Stanza) (text : Str) : Res Ctx :=
  if acc.use_gpg ∧ fko_encryption_type text = FKO_ENCRYPTION_GPG ∧
      (acc.gpg_decrypt_pw ≠ none ∨ acc.gpg_allow_no_pw) then do
    let c ← fko_new_with_data (E.crypto acc) text none FKO_ENC_MODE_ASYMMETRIC acc.hmac_key acc.hmac_type
    Res.guard (!E.gpgReady acc)
    fko_decrypt_spa_data (E.crypto acc) c (acc.gpg_decrypt_pw.getD [])
  else .err

/-- Is Rijndael tried?  server/incoming_spa.c:1013-1016, 592. -/
def triesRijndael (acc : Stanza) (text : Str) : Bool :=
  acc.use_rijndael && (fko_encryption_type text = FKO_ENCRYPTION_RIJNDAEL || acc.enable_cmd_exec)

/-- Authentication and decryption, server/incoming_spa.c:1008-1030 (`handle_rijndael_enc`, 586-602,
`handle_gpg_enc`, `check_mode_ctx`, 548-584): `err` when the stanza is skipped. -/
def authenticate (E : Env) (acc : Stanza) (text : Str) : Res Ctx :=
  if triesRijndael acc text then
    match fko_new_with_data (E.crypto acc) text acc.key acc.encryption_mode acc.hmac_key acc.hmac_type with
    | .ub => .ub
    | .ok c => .ok c
    | .err => authGpg E acc text
  else authGpg E acc text

/-- `handle_gpg_sigs`, server/incoming_spa.c:691-782 (`fko_get_gpg_signature_id`,
`fko_gpg_signature_fpr_match` and `fko_gpg_signature_id_match`, lib/fko_encryption.c:1040-1206): the
identity is the last eight characters of the fingerprint. -/
def handle_gpg_sigs (E : Env) (acc : Stanza) (text : Str) (c : Ctx) : Res Unit :=
  if fko_encryption_type text = FKO_ENCRYPTION_GPG ∧ acc.gpg_require_sig then
    if c.encryption_type ≠ FKO_ENCRYPTION_GPG then .err
    else match E.gpgSig acc text with
      | none => .err
      | some fpr => do
        Res.mem (fpr.length < 8)
        Res.guard (acc.gpg_remote_fpr_list ≠ [] && !acc.gpg_remote_fpr_list.contains fpr)
        Res.guard (acc.gpg_remote_id_list ≠ [] && !acc.gpg_remote_id_list.contains (fpr.drop (fpr.length - 8)))
  else .ok ()

/-- `set_timeout`, server/incoming_spa.c:888-908 (unsigned comparison). -/
def set_timeout (acc : Stanza) (client_timeout : Nat) : Nat :=
  if client_timeout > 0 then
    if (acc.max_fw_timeout % 2 ^ 32).toNat < client_timeout then (acc.max_fw_timeout % 2 ^ 32).toNat
    else client_timeout
  else if acc.fw_access_timeout > 0 then acc.fw_access_timeout.toNat
  else DEF_FW_ACCESS_TIMEOUT.toNat

/-- `check_pkt_age`, server/incoming_spa.c:306-327: the `long` difference becomes an `int`. -/
def check_pkt_age (conf : Conf) (now timestamp : Int) : Bool :=
  if conf.aging then !(toInt32 ((now - timestamp).natAbs) > conf.max_age) else true

/-- `check_nat_access_types`, server/incoming_spa.c:826-864. -/
def check_nat_access_types (conf : Conf) (t : Int) : Bool :=
  if t = FKO_NAT_ACCESS_MSG ∨ t = FKO_CLIENT_TIMEOUT_NAT_ACCESS_MSG then conf.forwarding
  else if t = FKO_LOCAL_NAT_ACCESS_MSG ∨ t = FKO_CLIENT_TIMEOUT_LOCAL_NAT_ACCESS_MSG then conf.local_nat
  else true

/-- `check_username`, server/incoming_spa.c:809-824. -/
def check_username (acc : Stanza) (username : Option Str) : Res Bool :=
  match acc.require_username with
  | none => .ok true
  | some u =>
    match username with
    | none => .ub
    | some v => .ok (v = u)

/-- What the checks of one stanza say. -/
inductive Verdict where
  /-- look at the next stanza -/
  | next
  /-- stop looking -/
  | stop
  /-- the request, to be carried out -/
  | go (sp : SpaData)

/-- The packet's addresses as texts: source, destination, X-Forwarded-For. -/
structure Addrs where
  src : Str
  dst : Str
  xff : Str

/-- The fields taken from the packet, server/incoming_spa.c:264-304, 1083 (`set_timeout`). -/
def spaFields (acc : Stanza) (a : Addrs) (c : Ctx) : SpaData where
  username := c.username
  timestamp := c.timestamp
  message_type := c.message_type
  spa_message := c.message
  pkt_source_ip := a.src
  pkt_source_xff_ip := a.xff
  pkt_destination_ip := a.dst
  nat_access := c.nat_access
  client_timeout := c.client_timeout
  fw_access_timeout := set_timeout acc c.client_timeout

/-- The address access is granted to, `check_src_access`, server/incoming_spa.c:784-807. -/
def useSrcIp (a : Addrs) (ip : Str) : Str :=
  if ip = b!"0.0.0.0" then (if a.xff ≠ [] then a.xff else a.src) else ip

/-- server/incoming_spa.c:1130-1154: the checks after the message has been split. -/
def judgeRest (conf : Conf) (acc : Stanza) (a : Addrs) (c : Ctx) (ip remain : Str) : Res Verdict :=
  if ip = b!"0.0.0.0" ∧ acc.require_source_address then .ok .next
  else do
    let u ← check_username acc c.username
    if !u then return .next
    else if !check_nat_access_types conf c.message_type then return .next
    else return .go { spaFields acc a c with
      spa_message_src_ip := ip, spa_message_remain := remain, use_src_ip := useSrcIp a ip }

/-- server/incoming_spa.c:1065-1154: from the fields to the request.  The address is copied to an
array of 16 bytes. -/
def judge (conf : Conf) (now : Int) (acc : Stanza) (a : Addrs) (c : Ctx) : Res Verdict :=
  if !check_pkt_age conf now c.timestamp then .ok .next
  else
    match c.message with
    | none => .ub
    | some m =>
      match strchr m 44 with
      | none => .ok .next
      | some n =>
        if n < MIN_IPV4_STR_LEN - 1 ∨ n > MAX_IPV4_STR_LEN then .ok .stop
        else do
          Res.mem (n + 1 > MAX_IPV4_STR_LEN)
          if !is_valid_ipv4_addr (m.take n) n then return .stop
          else judgeRest conf acc a c (m.take n) ((m.drop (n + 1)).take 1023)

/-- An effect of a packet outside the daemon, with the number of the stanza. -/
inductive Effect where
  /-- a command was started for a command cycle -/
  | cycle (stanza : Nat) (cmd : Str)
  /-- a command message was executed, under a user and group id or as the daemon itself -/
  | command (stanza : Nat) (cmd : Str) (ids : Option (Nat × Nat))
  /-- the firewall is told to grant access -/
  | access (stanza : Nat) (acc : Stanza) (sp : SpaData)
  deriving DecidableEq

/-- What carrying out a request did: effects, the list of pending closings, and whether the loop
over the stanzas ends. -/
structure Acted where
  effects : List Effect
  cycles : List CycleEnt
  stop : Bool

/-- The words sudo is called with, server/incoming_spa.c:482-503.  The group test dereferences
`cmd_sudo_exec_group` when `cmd_exec_group` is set. -/
def sudoCmd (conf : Conf) (acc : Stanza) (remain : Str) : Res Str :=
  let app := fun (s t : Str) => strlcat s t MAX_SPA_CMD_LEN
  let s := strlcpy conf.sudo_exe MAX_SPA_CMD_LEN
  let s := match acc.cmd_sudo_exec_user with
    | some u => if hasPrefixI b!"root" u then s else app (app s b!" -u ") u
    | none => s
  match acc.cmd_exec_group with
  | none => .ok (app (app s b!" ") remain)
  | some _ =>
    match acc.cmd_sudo_exec_group with
    | none => .ub
    | some g => .ok (app (app (if hasPrefixI b!"root" g then s else app (app s b!" -g ") g) b!" ") remain)

/-- The user and group a command runs as, server/incoming_spa.c:508-530. -/
def cmdIds (acc : Stanza) : Option (Nat × Nat) :=
  match acc.cmd_exec_user with
  | some u => if hasPrefixI b!"root" u then none else some (acc.cmd_exec_uid, acc.cmd_exec_gid)
  | none => none

/-- `process_cmd_msg`, server/incoming_spa.c:451-546: what is executed, `none` for the return
value 0.  The result of the execution is only logged. -/
def process_cmd_msg (conf : Conf) (acc : Stanza) (remain : Str) : Res (Option (Str × Option (Nat × Nat))) :=
  if !acc.enable_cmd_exec then .ok none
  else if conf.test then .ok none
  else if acc.enable_cmd_sudo_exec then do
    let s ← sudoCmd conf acc remain
    return some (s, cmdIds acc)
  else .ok (some (strlcpy remain MAX_SPA_CMD_LEN, cmdIds acc))

/-- A command message, server/incoming_spa.c:1168-1182. -/
def actCommand (conf : Conf) (acc : Stanza) (n : Nat) (sp : SpaData) (cycles : List CycleEnt) : Res Acted := do
  let r ← process_cmd_msg conf acc sp.spa_message_remain
  match r with
  | none => return ⟨[], cycles, false⟩
  | some x => return ⟨[.command n x.1 x.2], cycles, true⟩

/-- A command cycle, server/incoming_spa.c:1158-1167. -/
def actCycle (now : Int) (acc : Stanza) (n : Nat) (sp : SpaData) (cycles : List CycleEnt) : Res Acted := do
  let r ← cmd_cycle_open now acc sp n cycles
  return ⟨(r.ran.map fun c => Effect.cycle n c).toList, r.list, r.ret⟩

/-- An access message, server/incoming_spa.c:1184-1231; the second look at `cmd_cycle_open` is
dead code. -/
def actAccess (conf : Conf) (acc : Stanza) (n : Nat) (sp : SpaData) (cycles : List CycleEnt) : Acted :=
  if !acc_check_port_access acc sp.spa_message_remain then ⟨[], cycles, false⟩
  else if conf.test then ⟨[], cycles, false⟩
  else ⟨[.access n acc sp], cycles, true⟩

/-- Carrying out a request, server/incoming_spa.c:1156-1231. -/
def act (conf : Conf) (now : Int) (acc : Stanza) (n : Nat) (sp : SpaData) (cycles : List CycleEnt) :
    Res Acted :=
  if acc.cmd_cycle_open ≠ none then actCycle now acc n sp cycles
  else if sp.message_type = FKO_COMMAND_MSG then actCommand conf acc n sp cycles
  else .ok (actAccess conf acc n sp cycles)

/-- What changes while a packet is handled: the replay cache, its file, whether the digest has been
added, the pending closings, the effects. -/
structure Loop where
  cache : List Str
  file : Str
  added : Bool
  cycles : List CycleEnt
  effects : List Effect

/-- `add_replay_cache`, server/incoming_spa.c:866-886 (called for packets that authenticated):
the state and the return value.  Without digests nothing is added. -/
def add_replay_cache (conf : Conf) (open_ok : Bool) (i : ReplayInfo) (digest : Option Str) (s : Loop) :
    Loop × Bool :=
  if !conf.test ∧ !s.added ∧ conf.persistence then
    let r := add_replay open_ok i (digest.getD []) s.cache s.file
    ({ s with cache := r.1, file := r.2.1, added := r.2.2 }, r.2.2)
  else (s, true)

/-- A request that passed the checks of stanza `n`. -/
def carryOut (conf : Conf) (now : Int) (acc : Stanza) (n : Nat) (s : Loop) : Verdict → Res (Loop × Bool)
  | .next => .ok (s, false)
  | .stop => .ok (s, true)
  | .go sp => do
    let r ← act conf now acc n sp s.cycles
    return ({ s with cycles := r.cycles, effects := s.effects ++ r.effects }, r.stop)

/-- After authentication, server/incoming_spa.c:1032-1231. -/
def afterAuth (conf : Conf) (E : Env) (now : Int) (a : Addrs) (text : Str) (digest : Option Str)
    (i : ReplayInfo) (open_ok : Bool) (n : Nat) (acc : Stanza) (c : Ctx) (s : Loop) : Res (Loop × Bool) :=
  let r := add_replay_cache conf open_ok i digest s
  if !r.2 then .ok (r.1, false)
  else
    match handle_gpg_sigs E acc text c with
    | .ub => .ub
    | .err => .ok (r.1, false)
    | .ok () => do
      let v ← judge conf now acc a c
      carryOut conf now acc n r.1 v

/-- One pass of the loop, server/incoming_spa.c:967-1231: the stanza, the state and whether the
loop ends. -/
def tryStanza (conf : Conf) (E : Env) (now : Int) (p : Pkt) (a : Addrs) (text : Str) (digest : Option Str)
    (open_ok : Bool) (n : Nat) (acc : Stanza) (s : Loop) : Res (Stanza × Loop × Bool) :=
  if !src_dst_check acc p.src_ip p.dst_ip then .ok (acc, s, false)
  else
    let x := check_stanza_expiration now acc
    if !x.2 then .ok (x.1, s, false)
    else
      match authenticate E acc text with
      | .ub => .ub
      | .err => .ok (x.1, s, false)
      | .ok c => do
        let r ← afterAuth conf E now a text digest
          ⟨p.proto, p.src_ip, p.dst_ip, p.src_port, p.dst_port, now⟩ open_ok n acc c s
        return (x.1, r.1, r.2)

/-- The loop over the stanzas, from number `n`. -/
def stanzaLoop (conf : Conf) (E : Env) (now : Int) (p : Pkt) (a : Addrs) (text : Str) (digest : Option Str)
    (open_ok : Nat → Bool) : (n : Nat) → List Stanza → Loop → Res (List Stanza × Loop)
  | _, [], s => .ok ([], s)
  | n, acc :: rest, s => do
    let r ← tryStanza conf E now p a text digest (open_ok n) n acc s
    if r.2.2 then return (r.1 :: rest, r.2.1)
    else do
      let q ← stanzaLoop conf E now p a text digest open_ok (n + 1) rest r.2.1
      return (r.1 :: q.1, q.2)

/-! ## The whole -/

/-- The part of `fko_srv_options_t` that packets change. -/
structure Server where
  stanzas : List Stanza
  cache : List Str
  file : Str
  cycles : List CycleEnt

/-- After the packet has been accepted for processing, server/incoming_spa.c:963-1247. -/
def process (conf : Conf) (E : Env) (now : Int) (p : Pkt) (open_ok : Nat → Bool) (sv : Server) (text xff : Str)
    (digest : Option Str) : Res (Server × List Effect) := do
  let r ← stanzaLoop conf E now p ⟨inet_ntop p.src_ip, inet_ntop p.dst_ip, xff⟩ text digest open_ok 1
    sv.stanzas ⟨sv.cache, sv.file, false, sv.cycles, []⟩
  return (⟨r.1, r.2.cache, r.2.file, r.2.cycles⟩, r.2.effects)

/-- `incoming_spa`, server/incoming_spa.c:926-1247, with `precheck_pkt`, 405-431.  `open_ok n` says
whether the replay cache file can be opened when stanza `n` is tried. -/
def incoming_spa (conf : Conf) (E : Env) (now : Int) (p : Pkt) (open_ok : Nat → Bool) (sv : Server) :
    Res (Server × List Effect) :=
  match preprocess_spa_data conf p.data p.len with
  | .ub => .ub
  | .err => .ok (sv, [])
  | .ok (buf, xff) =>
    match src_check conf E sv.stanzas sv.cache p.src_ip (cstr buf) with
    | .ub => .ub
    | .err => .ok (sv, [])
    | .ok digest => process conf E now p open_ok sv (cstr buf) xff digest

end Fwknop
