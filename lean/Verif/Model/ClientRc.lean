import Verif.Model.Client
import Verif.Model.AccessFile

/-!
# The client's rc file (client/config_init.c)

Reading a section, saving a stanza (`--save-rc-stanza`) and the steps of the update on the disk.
The rc file is a text; its permissions (`set_rc_file`), the creation of a first rc file and the
listing of stanzas are not modelled.  A line is read with `fgets` into an array of MAX_LINE_LEN
bytes, so names and values fit theirs, which are as long.
-/

namespace Fwknop

/-- `fwknop_cli_arg_t`, client/config_init.c:90-137. -/
inductive RcVar where
  | digest_type | spa_server_proto | spa_server_port | spa_source_port | fw_timeout | allow_ip | time_offset
  | encryption_mode | use_gpg | use_gpg_agent | gpg_recipient | gpg_signer | gpg_homedir | gpg_exe | gpg_signing_pw
  | gpg_signing_pw_base64 | gpg_no_signing_pw | spoof_user | spoof_source_ip | access | spa_server | rand_port | key
  | key_base64 | hmac_digest_type | hmac_key_base64 | hmac_key | use_hmac | use_wget_user_agent | key_file
  | hmac_key_file | nat_access | http_user_agent | resolve_url | server_resolve_ipv4 | nat_local | nat_rand_port
  | nat_port | verbose | resolve_ip_http | resolve_ip_https | resolve_http_only | wget_cmd | no_save_args
  deriving DecidableEq

/-- `fko_var_array`, client/config_init.c:139-185. -/
def fko_var_array : List (Str × RcVar) :=
  [(b!"DIGEST_TYPE", .digest_type), (b!"SPA_SERVER_PROTO", .spa_server_proto), (b!"SPA_SERVER_PORT", .spa_server_port),
   (b!"SPA_SOURCE_PORT", .spa_source_port), (b!"FW_TIMEOUT", .fw_timeout), (b!"ALLOW_IP", .allow_ip),
   (b!"TIME_OFFSET", .time_offset), (b!"ENCRYPTION_MODE", .encryption_mode), (b!"USE_GPG", .use_gpg),
   (b!"USE_GPG_AGENT", .use_gpg_agent), (b!"GPG_RECIPIENT", .gpg_recipient), (b!"GPG_SIGNER", .gpg_signer),
   (b!"GPG_HOMEDIR", .gpg_homedir), (b!"GPG_EXE", .gpg_exe), (b!"GPG_SIGNING_PW", .gpg_signing_pw),
   (b!"GPG_SIGNING_PW_BASE64", .gpg_signing_pw_base64), (b!"GPG_NO_SIGNING_PW", .gpg_no_signing_pw),
   (b!"SPOOF_USER", .spoof_user), (b!"SPOOF_SOURCE_IP", .spoof_source_ip), (b!"ACCESS", .access),
   (b!"SPA_SERVER", .spa_server), (b!"RAND_PORT", .rand_port), (b!"KEY", .key), (b!"KEY_BASE64", .key_base64),
   (b!"HMAC_DIGEST_TYPE", .hmac_digest_type), (b!"HMAC_KEY_BASE64", .hmac_key_base64), (b!"HMAC_KEY", .hmac_key),
   (b!"USE_HMAC", .use_hmac), (b!"USE_WGET_USER_AGENT", .use_wget_user_agent), (b!"KEY_FILE", .key_file),
   (b!"HMAC_KEY_FILE", .hmac_key_file), (b!"NAT_ACCESS", .nat_access), (b!"HTTP_USER_AGENT", .http_user_agent),
   (b!"RESOLVE_URL", .resolve_url), (b!"SERVER_RESOLVE_IPV4", .server_resolve_ipv4), (b!"NAT_LOCAL", .nat_local),
   (b!"NAT_RAND_PORT", .nat_rand_port), (b!"NAT_PORT", .nat_port), (b!"VERBOSE", .verbose),
   (b!"RESOLVE_IP_HTTP", .resolve_ip_http), (b!"RESOLVE_IP_HTTPS", .resolve_ip_https),
   (b!"RESOLVE_HTTP_ONLY", .resolve_http_only), (b!"WGET_CMD", .wget_cmd), (b!"NO_SAVE_ARGS", .no_save_args)]

/-- `lookup_var_by_name`, client/config_init.c:403-420. -/
def lookup_var_by_name (name : Str) : Option RcVar := (fko_var_array.find? fun e => e.1 = name).map (·.2)

/-- `is_rc_section`, client/config_init.c:504-542: the name of the section. -/
def is_rc_section (line : Str) : Option Str :=
  match (cstr line).dropWhile isSpace with
  | 91 :: r => (strchr r 93).map fun i => r.take i
  | _ => none

/-- `sscanf(line, "%s %[^ ;\t\n\r#]", var, val)`, client/config_init.c:561; `none` unless it
returns 2. -/
def scanRc (s : Str) : Option (Str × Str) :=
  let s1 := s.dropWhile isSpace
  let var := s1.takeWhile fun c => !isSpace c
  let s2 := (s1.drop var.length).dropWhile isSpace
  let val := s2.takeWhile fun c => c ≠ 32 ∧ c ≠ 59 ∧ c ≠ 9 ∧ c ≠ 10 ∧ c ≠ 13 ∧ c ≠ 35
  if var = [] ∨ val = [] then none else some (var, val)

/-- `is_rc_param`, client/config_init.c:551-588. -/
def is_rc_param (line : Str) : Option (Str × Str) :=
  (scanRc (cstr line)).map fun p => (cutColon p.1, chop_whitespace p.2)

/-! ## Reading -/

/-- A name of a table, or an error. -/
def rcName (n : Int) (o : CliOpts) (f : Int → CliOpts) : CliOpts × Bool := if n < 0 then (o, false) else (f n, true)

/-- A number in range, or an error. -/
def rcNum (val : Str) (max : Int) (o : CliOpts) (f : Int → CliOpts) : CliOpts × Bool :=
  let r := strtol_wrapper val 0 max
  if r.2 then (f r.1, true) else (o, false)

/-- `is_yes_str`, client/config_init.c:478-489: only `Y` switches an option on, nothing switches it off. -/
def rcYes (val : Str) (o o' : CliOpts) : CliOpts × Bool := (if strcaseeq b!"Y" val then o' else o, true)

/-- ALLOW_IP, client/config_init.c:970-988. -/
def rcAllow (o : CliOpts) (val : Str) : CliOpts × Bool :=
  let o := { o with resolve_ip_http_https := false }
  if strcaseeq val b!"source" then ({ o with allow_ip_str := b!"0.0.0.0" }, true)
  else if strcaseeq val b!"resolve" then ({ o with resolve_ip_http_https := true }, true)
  else
    let ip := strlcpy val MAX_IPV4_STR_LEN
    ({ o with allow_ip_str := ip }, is_valid_ipv4_addr ip ip.length)

/-- One half of TIME_OFFSET, client/config_init.c:990-1006. -/
def rcOffset (val : Str) (o : CliOpts) (f : Int → CliOpts) : Res (CliOpts × Bool) :=
  match parse_time_offset val with
  | .ub => .ub
  | .err => .ok (o, false)
  | .ok n => .ok (f n, true)

/-- TIME_OFFSET, client/config_init.c:990-1006. -/
def rcTime (o : CliOpts) (val : Str) : Res (CliOpts × Bool) :=
  match val with
  | 45 :: v => rcOffset v o fun n => { o with time_offset_minus := n }
  | v => rcOffset v o fun n => { o with time_offset_plus := n }

/-- VERBOSE, client/config_init.c:1245-1260. -/
def rcVerbose (o : CliOpts) (val : Str) : CliOpts × Bool :=
  if strcaseeq b!"Y" val then ({ o with verbose := 1 }, true) else rcNum val 4 o fun n => { o with verbose := n }

/-- `parse_rc_param` for a known variable, client/config_init.c:926-1307; the flag is false for a
parse error. -/
def rcSet (o : CliOpts) (val : Str) : RcVar → Res (CliOpts × Bool)
  | .digest_type => .ok (rcName (digest_strtoint val) o fun n => { o with digest_type := n })
  | .spa_server_proto => .ok (rcName (proto_strtoint val) o fun n => { o with spa_proto := n })
  | .spa_server_port => .ok (rcNum val MAX_PORT o fun n => { o with spa_dst_port := n })
  | .spa_source_port => .ok (rcNum val MAX_PORT o fun n => { o with spa_src_port := n })
  | .fw_timeout => .ok (rcNum val 65536 o fun n => { o with fw_timeout := n })
  | .allow_ip => .ok (rcAllow o val)
  | .time_offset => rcTime o val
  | .encryption_mode => .ok (rcName (enc_mode_strtoint val) o fun n => { o with encryption_mode := n })
  | .use_gpg => .ok (rcYes val o { o with use_gpg := true })
  | .use_gpg_agent => .ok (rcYes val o { o with use_gpg_agent := true })
  | .gpg_no_signing_pw => .ok (rcYes val o { o with gpg_no_signing_pw := true })
  | .gpg_recipient => .ok ({ o with gpg_recipient_key := strlcpy val MAX_GPG_KEY_ID }, true)
  | .gpg_signer => .ok ({ o with gpg_signer_key := strlcpy val MAX_GPG_KEY_ID }, true)
  | .gpg_homedir => .ok ({ o with gpg_home_dir := strlcpy val MAX_PATH_LEN }, true)
  | .gpg_exe => .ok ({ o with gpg_exe := strlcpy val MAX_PATH_LEN }, true)
  | .spoof_user => .ok ({ o with spoof_user := strlcpy val MAX_USERNAME_LEN }, true)
  | .spoof_source_ip => .ok ({ o with spoof_ip_src_str := strlcpy val MAX_IPV4_STR_LEN }, true)
  | .access => .ok ({ o with access_str := strlcpy val MAX_PATH_LEN }, true)
  | .spa_server => .ok ({ o with spa_server_str := strlcpy val MAX_SERVER_STR_LEN }, true)
  | .rand_port => .ok (rcYes val o { o with rand_port := true })
  | .key | .gpg_signing_pw => .ok ({ o with key := strlcpy val (MAX_KEY_LEN + 1), have_key := true }, true)
  | .key_base64 | .gpg_signing_pw_base64 =>
    .ok ({ o with key_base64 := strlcpy val (MAX_B64_KEY_LEN + 1), have_base64_key := true }, Base64.is_base64 val)
  | .hmac_digest_type => .ok (rcName (digest_strtoint val) o fun n => { o with hmac_type := n })
  | .hmac_key_base64 =>
    .ok ({ o with hmac_key_base64 := strlcpy val (MAX_B64_KEY_LEN + 1), have_hmac_base64_key := true, use_hmac := true },
      Base64.is_base64 val)
  | .hmac_key => .ok ({ o with hmac_key := strlcpy val (MAX_KEY_LEN + 1), have_hmac_key := true, use_hmac := true }, true)
  | .use_hmac => .ok (rcYes val o { o with use_hmac := true })
  | .use_wget_user_agent => .ok (rcYes val o { o with use_wget_user_agent := true })
  | .key_file => .ok ({ o with get_key_file := strlcpy val MAX_PATH_LEN }, true)
  | .hmac_key_file => .ok ({ o with get_key_file := strlcpy val MAX_PATH_LEN }, true)
  | .nat_access => .ok ({ o with nat_access_str := strlcpy val MAX_PATH_LEN }, true)
  | .http_user_agent => .ok ({ o with http_user_agent := strlcpy val HTTP_MAX_USER_AGENT_LEN }, true)
  | .resolve_url => .ok ({ o with resolve_url := some val }, true)
  | .server_resolve_ipv4 => .ok (rcYes val o { o with spa_server_resolve_ipv4 := true })
  | .wget_cmd => .ok ({ o with wget_bin := some val }, true)
  | .nat_local => .ok (rcYes val o { o with nat_local := true })
  | .nat_rand_port => .ok (rcYes val o { o with nat_rand_port := true })
  | .nat_port => .ok (rcNum val MAX_PORT o fun n => { o with nat_port := n })
  | .verbose => .ok (rcVerbose o val)
  | .resolve_ip_https | .resolve_ip_http => .ok (rcYes val o { o with resolve_ip_http_https := true })
  | .resolve_http_only => .ok (rcYes val o { o with resolve_http_only := true })
  | .no_save_args => .ok (rcYes val o { o with no_save_args := true })

/-- `parse_rc_param`, client/config_init.c:911-1310. -/
def parse_rc_param (o : CliOpts) (name val : Str) : Res (CliOpts × Bool) :=
  match lookup_var_by_name name with
  | none => .ok (o, false)
  | some v => rcSet o val v

/-- The loop of `process_rc_section`, client/config_init.c:1555-1603: `found` tells whether the
current section is the one looked for, `ok` is `!do_exit`. -/
def rcLoop (sect : Str) : List Str → (found : Bool) → CliOpts → (ok : Bool) → Res CliOpts
  | [], _, o, ok => if ok then .ok o else .err
  | l :: ls, found, o, ok =>
    if isEmptyLine ((cstr l).headD 0) then rcLoop sect ls found o ok
    else match is_rc_section l with
      | some s => rcLoop sect ls (strcaseeq s sect)
          (if strcaseeq s o.use_rc_stanza then { o with got_named_stanza := true } else o) ok
      | none =>
        if found then
          match is_rc_param l with
          | none => .err
          | some p =>
            match parse_rc_param o p.1 p.2 with
            | .ub => .ub
            | .err => .err
            | .ok r => rcLoop sect ls found r.1 (ok && r.2)
        else rcLoop sect ls found o ok

/-- `process_rc_section`, client/config_init.c:1530-1609; a file that is not there is created with
comments only and nothing is read. -/
def process_rc_section (rc : Option Str) (sect : Str) (o : CliOpts) : Res CliOpts :=
  match rc with
  | none => .ok o
  | some content => rcLoop sect (fgetsLines content.length content) false o true

/-- The named stanza is only read when it was found, and not in a run that saves it,
client/config_init.c:2062-2064. -/
def rcNamed (rc : Option Str) (save : Bool) (o : CliOpts) : Res CliOpts :=
  if o.got_named_stanza ∧ !save then process_rc_section rc o.use_rc_stanza o else .ok o

/-- The options before the command line is read the second time, client/config_init.c:1980-2065:
defaults, -n, the rc file. -/
def rcOptions (rc : Option Str) (stanza : Str) (save : Bool) : Res CliOpts := do
  let o ← process_rc_section rc b!"default" { use_rc_stanza := strlcpy stanza MAX_LINE_LEN }
  rcNamed rc save o

/-- The client with an rc file and -n. -/
def clientRc (K : Crypto) (E : CliEnv) (rc : Option Str) (stanza : Str) (args : List CliArg) : Res (Packed × Str) := do
  let o ← rcOptions rc stanza false
  client K E o args

/-! ## Saving a stanza -/

/-- `bool_to_yesno`, client/config_init.c:462-469. -/
def yesno (b : Bool) : Str := if b then b!"Y" else b!"N"

/-- `proto_inttostr`, client/utils.c:238-261. -/
def proto_inttostr (p : Int) : Str :=
  match fko_protocol_array.find? (fun e => e.2 = p) with
  | some e => e.1
  | none => []

/-- TIME_OFFSET, client/config_init.c:1363-1369. -/
def offsetText (o : CliOpts) : Str :=
  if o.time_offset_minus ≠ 0 then b!"-" ++ decStrInt o.time_offset_minus
  else if o.time_offset_plus ≠ 0 then decStrInt o.time_offset_plus
  else []

/-- VERBOSE, client/config_init.c:1451-1456. -/
def verboseText (o : CliOpts) : Str :=
  if o.verbose = 0 then b!"N" else if o.verbose = 1 then b!"Y" else decStrInt o.verbose

/-- The value of a variable, `add_single_var_to_rc`, client/config_init.c:1337-1478; `none` for the
two variables the function does not know. -/
def rcValue (o : CliOpts) : RcVar → Option Str
  | .digest_type => some (digest_inttostr o.digest_type MAX_LINE_LEN).1
  | .spa_server_proto => some (proto_inttostr o.spa_proto)
  | .spa_server_port => some (decStrInt o.spa_dst_port)
  | .spa_source_port => some (decStrInt o.spa_src_port)
  | .fw_timeout => some (decStrInt o.fw_timeout)
  | .allow_ip => some o.allow_ip_str
  | .time_offset => some (offsetText o)
  | .encryption_mode => some (enc_mode_inttostr o.encryption_mode MAX_LINE_LEN).1
  | .use_gpg => some (yesno o.use_gpg)
  | .use_gpg_agent => some (yesno o.use_gpg_agent)
  | .gpg_recipient => some o.gpg_recipient_key
  | .gpg_signer => some o.gpg_signer_key
  | .gpg_homedir => some o.gpg_home_dir
  | .gpg_exe => some o.gpg_exe
  | .gpg_no_signing_pw => some (yesno o.gpg_no_signing_pw)
  | .spoof_user => some o.spoof_user
  | .spoof_source_ip => some o.spoof_ip_src_str
  | .access => some o.access_str
  | .spa_server => some o.spa_server_str
  | .rand_port => some (yesno o.rand_port)
  | .key_file => some o.get_key_file
  | .hmac_key_file => some o.get_hmac_key_file
  | .key => some o.key
  | .key_base64 => some o.key_base64
  | .hmac_key_base64 => some o.hmac_key_base64
  | .hmac_key => some o.hmac_key
  | .hmac_digest_type => some (digest_inttostr o.hmac_type MAX_LINE_LEN).1
  | .use_hmac => some (yesno o.use_hmac)
  | .use_wget_user_agent => some (yesno o.use_wget_user_agent)
  | .nat_access => some o.nat_access_str
  | .http_user_agent => some o.http_user_agent
  | .resolve_url => some ((o.resolve_url.getD []).take (MAX_LINE_LEN - 1))
  | .server_resolve_ipv4 => some (yesno o.spa_server_resolve_ipv4)
  | .nat_local => some (yesno o.nat_local)
  | .nat_rand_port => some (yesno o.nat_rand_port)
  | .nat_port => some (decStrInt o.nat_port)
  | .verbose => some (verboseText o)
  | .resolve_ip_https | .resolve_ip_http => some (yesno o.resolve_ip_http_https)
  | .resolve_http_only => some (yesno o.resolve_http_only)
  | .wget_cmd => some ((o.wget_bin.getD []).take (MAX_LINE_LEN - 1))
  | .no_save_args => some (yesno o.no_save_args)
  | .gpg_signing_pw | .gpg_signing_pw_base64 => none

/-- `fprintf(fhandle, "%-24s    %s\n", var->name, val)`, client/config_init.c:43, 1484. -/
def rcLine (name val : Str) : Str := name ++ List.replicate (24 - name.length) 32 ++ b!"    " ++ val ++ [10]

/-- `add_multiple_vars_to_rc` with `add_single_var_to_rc`, client/config_init.c:1322-1513. -/
def rcLines (o : CliOpts) (mask : RcVar → Bool) : Str :=
  (fko_var_array.map fun e => if mask e.2 then ((rcValue o e.2).map (rcLine e.1)).getD [] else []).flatten

/-- `add_var_to_bitmask` calls of the second pass, client/config_init.c:2074-2475: what an option
marks for saving. -/
def argVars : CliArg → List RcVar
  | .allow_ip _ => [.allow_ip]
  | .access _ => [.access]
  | .server_cmd _ => []
  | .destination _ => [.spa_server]
  | .fw_timeout _ => [.fw_timeout]
  | .get_key _ => [.key_file]
  | .get_hmac_key _ => [.hmac_key_file]
  | .key _ => [.key]
  | .key_base64 _ => [.key_base64]
  | .hmac_key _ => [.hmac_key, .use_hmac]
  | .hmac_key_base64 _ => [.hmac_key_base64, .use_hmac]
  | .hmac_digest _ => [.hmac_digest_type, .use_hmac]
  | .digest _ => [.digest_type]
  | .enc_mode _ => [.encryption_mode]
  | .nat_access _ => [.nat_access]
  | .server_port _ => [.spa_server_port]
  | .server_proto _ => [.spa_server_proto]
  | .spoof_source _ => [.spoof_source_ip]
  | .rand_port => [.rand_port]
  | .resolve => [.resolve_ip_https]
  | .source_ip => []
  | .source_port _ => [.spa_source_port]
  | .test => []
  | .spoof_user _ => [.spoof_user]
  | .nat_local => [.nat_local]
  | .nat_rand_port => [.nat_rand_port]
  | .nat_port _ => [.nat_port]
  | .time_plus _ => [.time_offset]
  | .time_minus _ => [.time_offset]
  | .use_hmac => [.use_hmac]
  | .gpg => [.use_gpg]
  | .gpg_recipient _ => [.use_gpg, .gpg_recipient]

/-- `var_bitmask` after a command line (its 64 bits hold all variables). -/
def argMask (args : List CliArg) (v : RcVar) : Bool := args.any fun a => (argVars a).contains v

/-- `var_is_critical`, client/config_init.c:190-200, 250-270. -/
def var_is_critical (v : RcVar) : Bool :=
  v = .key || v = .key_base64 || v = .hmac_key || v = .hmac_key_base64 || v = .gpg_recipient || v = .gpg_signer ||
    v = .gpg_signing_pw || v = .gpg_signing_pw_base64

/-- What becomes of the loop of `update_rc`. -/
inductive RcUpd where
  /-- end of input in a question: `getchar` returns EOF for ever -/
  | hangs
  /-- a bad line: the function returns and leaves the new file as it is -/
  | bails (written : Str)
  | done (written : Str)
  deriving DecidableEq

/-- `update_rc` after the loop, client/config_init.c:1751-1776. -/
def updEnd (o : CliOpts) (found updated : Bool) (mask : RcVar → Bool) (out : Str) : Str :=
  if updated then out
  else if found then out ++ rcLines o mask
  else out ++ [10] ++ (b!"[" ++ o.use_rc_stanza ++ b!"]" ++ [10]) ++ rcLines o mask

/-- The loop of `update_rc`, client/config_init.c:1667-1749.  `answers` are the lines typed in when
the user is asked (is the first character a `y`?). -/
def updLoop (o : CliOpts) (force : Bool) : List Str → (found updated : Bool) → (mask : RcVar → Bool) → (answers : List Bool) →
    (out : Str) → RcUpd
  | [], found, updated, mask, _, out => .done (updEnd o found updated mask out)
  | l :: ls, found, updated, mask, answers, out =>
    if isEmptyLine ((cstr l).headD 0) then updLoop o force ls found updated mask answers out
    else match is_rc_section l with
      | some s =>
        if found then updLoop o force ls false true mask answers (out ++ rcLines o mask ++ [10] ++ cstr l)
        else updLoop o force ls (strcaseeq s o.use_rc_stanza) updated mask answers (out ++ cstr l)
      | none =>
        if found then
          if force then updLoop o force ls found updated mask answers out
          else match is_rc_param l with
            | none => .bails out
            | some p =>
              match lookup_var_by_name p.1 with
              | none => updLoop o force ls found updated mask answers out
              | some v =>
                if var_is_critical v then
                  match answers with
                  | [] => .hangs
                  | true :: as => updLoop o force ls found updated mask as out
                  | false :: as => updLoop o force ls found updated (fun x => mask x && x ≠ v) as (out ++ cstr l)
                else updLoop o force ls found updated mask answers out
        else updLoop o force ls found updated mask answers (out ++ cstr l)

/-- The text `update_rc` makes of the text of the rc file, client/config_init.c:1665-1776. -/
def updText (o : CliOpts) (force : Bool) (mask : RcVar → Bool) (answers : List Bool) (content : Str) : RcUpd :=
  updLoop o force (fgetsLines content.length content) false false mask answers []

/-- The rc file and the file with `.updated` behind its name. -/
structure RcFs where
  rc : Option Str
  upd : Option Str
  deriving DecidableEq

/-- The states of the disk during `update_rc`, client/config_init.c:1624-1793, when no other
system call fails: `open` with O_EXCL, `fopen` of the two files, the bytes written (a crash may come
after any of them), `remove`, `rename`. -/
def updStates (o : CliOpts) (force : Bool) (mask : RcVar → Bool) (answers : List Bool) (d : RcFs) : List RcFs :=
  match d.upd with
  | some _ => [d]
  | none =>
    match d.rc with
    | none => [d, { d with upd := some [] }]
    | some content =>
      match updText o force mask answers content with
      | .hangs => [d, { d with upd := some [] }]
      | .bails out => d :: (List.range (out.length + 1)).map fun i => { d with upd := some (out.take i) }
      | .done out =>
        (d :: (List.range (out.length + 1)).map fun i => { d with upd := some (out.take i) }) ++
          [⟨none, some out⟩, ⟨some out, none⟩]

/-- The disk after `update_rc`. -/
def updAfter (o : CliOpts) (force : Bool) (mask : RcVar → Bool) (answers : List Bool) (d : RcFs) : RcFs :=
  (updStates o force mask answers d).getLastD d

/-- A run with --save-rc-stanza (without --key-gen): the options, and the disk after it,
client/config_init.c:1811-1822, 2480-2506.  Without -n the stanza has the name of the server. -/
def saveStanza (d : RcFs) (stanza : Str) (force : Bool) (answers : List Bool) (args : List CliArg) : Res (CliOpts × RcFs) := do
  let o ← rcOptions d.rc stanza true
  let o ← applyArgs o args
  Res.guard (o.use_rc_stanza = [] ∧ o.spa_server_str = [])
  let o := if o.use_rc_stanza = [] then { o with use_rc_stanza := o.spa_server_str } else o
  let v ← validate_options { o with got_named_stanza := true }
  return (v, updAfter v force (argMask args) answers d)

end Fwknop
