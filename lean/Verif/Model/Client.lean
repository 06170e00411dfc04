import Verif.Model.Replay
import Verif.Model.Fko
import Verif.Model.Util
import Verif.Model.HttpClient

/-!
# The client: command line, validation, request and packet (client/config_init.c, client/fwknop.c)

`getopt_long` is not modelled: a command line is the list of the options it returns.  Logging,
`--verbose`, `--version`, `--key-gen`, the previous-command options and the sending of the packet
are left out here; GnuPG only appears as the choice of encryption type, mode and passphrase.
Texts are C strings.  Leaving the program is `Res.err`; an access outside an array, and signed
overflow, is `Res.ub`.
-/

namespace Fwknop

/-! Constants: common/common.h:148-163, client/fwknop_common.h:51-67. -/
abbrev MIN_HIGH_PORT : Int := 10000
abbrev MAX_USERNAME_LEN : Nat := 30
abbrev MAX_GPG_KEY_ID : Nat := 128
abbrev MAX_KEY_LEN : Nat := 128
abbrev MAX_B64_KEY_LEN : Nat := 180
abbrev MAX_TIME_STR_LEN : Nat := 9
abbrev MAX_PATH_LEN : Nat := 1024
abbrev HTTP_MAX_USER_AGENT_LEN : Nat := 100

/-- `fko_cli_options_t`, client/fwknop_common.h:72-180: the members that the modelled code uses. -/
structure CliOpts where
  access_str : Str := []
  server_command : Str := []
  get_key_file : Str := []
  get_hmac_key_file : Str := []
  no_save_args : Bool := false
  use_hmac : Bool := false
  spa_server_str : Str := []
  allow_ip_str : Str := []
  spoof_ip_src_str : Str := []
  spoof_user : Str := []
  rand_port : Bool := false
  gpg_recipient_key : Str := []
  gpg_signer_key : Str := []
  gpg_home_dir : Str := []
  gpg_exe : Str := []
  key : Str := []
  key_base64 : Str := []
  hmac_key : Str := []
  hmac_key_base64 : Str := []
  have_key : Bool := false
  have_base64_key : Bool := false
  have_hmac_key : Bool := false
  have_hmac_base64_key : Bool := false
  hmac_type : Int := 0
  nat_access_str : Str := []
  nat_local : Bool := false
  nat_port : Int := 0
  nat_rand_port : Bool := false
  resolve_ip_http_https : Bool := false
  resolve_http_only : Bool := false
  resolve_url : Option Str := none
  http_user_agent : Str := []
  use_wget_user_agent : Bool := false
  wget_bin : Option Str := none
  http_proxy : Str := []
  spa_proto : Int := 0
  spa_dst_port : Int := 62201
  spa_src_port : Int := 0
  digest_type : Int := 0
  encryption_mode : Int := 0
  verbose : Int := 0
  test : Bool := false
  use_gpg : Bool := false
  use_gpg_agent : Bool := false
  gpg_no_signing_pw : Bool := false
  time_offset_plus : Int := 0
  time_offset_minus : Int := 0
  fw_timeout : Int := -1
  use_rc_stanza : Str := []
  got_named_stanza : Bool := false
  spa_server_resolve_ipv4 : Bool := false
  deriving DecidableEq

/-- `NULL`/error results of the setters. -/
def Res.ofOpt {α : Type} : Option α → Res α
  | none => .err
  | some a => .ok a

/-! ## Values -/

/-- The loop of `parse_time_offset`, client/config_init.c:766-785: digits and multiplier. -/
def offsetLoop : Str → (acc : Str) → Option (Str × Int)
  | [], acc => some (acc, 1)
  | c :: cs, acc =>
    if isDigit c then
      if acc.length + 1 ≥ MAX_TIME_STR_LEN then none else offsetLoop cs (acc ++ [c])
    else if c = 109 ∨ c = 77 then some (acc, 60)
    else if c = 104 ∨ c = 72 then some (acc, 3600)
    else if c = 100 ∨ c = 68 then some (acc, 86400)
    else offsetLoop cs acc

/-- `parse_time_offset`, client/config_init.c:756-800.  The product is computed before the error of
`strtol_wrapper` is looked at. -/
def parse_time_offset (s : Str) : Res Int :=
  match offsetLoop s [] with
  | none => .err
  | some (ds, mul) => do
    Res.guard (ds.length < 1)
    let v := strtol_wrapper ds 0 65536
    Res.mem (v.1 * mul > 2147483647)
    Res.guard (!v.2)
    return v.1 * mul

/-- `fko_protocol_array`, client/utils.c:48-56. -/
def fko_protocol_array : List (Str × Int) :=
  [(b!"udpraw", 1), (b!"udp", 0), (b!"tcpraw", 3), (b!"tcp", 2), (b!"icmp", 4), (b!"http", 5)]

/-- `proto_strtoint`, client/utils.c:270-288. -/
def proto_strtoint (s : Str) : Int :=
  match fko_protocol_array.find? (fun e => strcaseeq s e.1) with
  | some e => e.2
  | none => -1

/-! ## The command line -/

/-- An option `getopt_long` returns, with its argument. -/
inductive CliArg where
  | allow_ip (v : Str)             -- -a
  | access (v : Str)               -- -A
  | server_cmd (v : Str)           -- -C
  | destination (v : Str)          -- -D
  | fw_timeout (v : Str)           -- -f
  | get_key (v : Str)              -- -G
  | get_hmac_key (v : Str)         -- --get-hmac-key
  | key (v : Str)                  -- --key-rijndael
  | key_base64 (v : Str)           -- --key-base64-rijndael
  | hmac_key (v : Str)             -- --key-hmac
  | hmac_key_base64 (v : Str)      -- --key-base64-hmac
  | hmac_digest (v : Str)          -- --hmac-digest-type
  | digest (v : Str)               -- -m
  | enc_mode (v : Str)             -- -M
  | nat_access (v : Str)           -- -N
  | server_port (v : Str)          -- -p
  | server_proto (v : Str)         -- -P
  | spoof_source (v : Str)         -- -Q
  | rand_port                      -- -r
  | resolve                        -- -R
  | source_ip                      -- -s
  | source_port (v : Str)          -- -S
  | test                           -- -T
  | spoof_user (v : Str)           -- -U
  | nat_local                      -- --nat-local
  | nat_rand_port                  -- --nat-rand-port
  | nat_port (v : Str)             -- --nat-port
  | time_plus (v : Str)            -- --time-offset-plus
  | time_minus (v : Str)           -- --time-offset-minus
  | use_hmac                       -- --use-hmac
  | gpg                            -- -g
  | gpg_recipient (v : Str)        -- --gpg-recipient-key
  deriving DecidableEq

/-- A number in range, else the program exits. -/
def cliNum (v : Str) (max : Int) : Res Int := do
  let r := strtol_wrapper v 0 max
  Res.guard (!r.2)
  return r.1

/-- A name of a table (-1 for an unknown one), else the program exits. -/
def cliName (n : Int) : Res Int := do
  Res.guard (n < 0)
  return n

/-- The `switch` of the second pass of `config_init`, client/config_init.c:2074-2505. -/
def applyArg (o : CliOpts) : CliArg → Res CliOpts
  | .allow_ip v => .ok { o with allow_ip_str := strlcpy v MAX_IPV4_STR_LEN }
  | .access v => .ok { o with access_str := strlcpy v MAX_PATH_LEN }
  | .server_cmd v => .ok { o with server_command := strlcpy v MAX_LINE_LEN }
  | .destination v => .ok { o with spa_server_str := strlcpy v MAX_SERVER_STR_LEN }
  | .fw_timeout v => do
    let n ← cliNum v 131072
    return { o with fw_timeout := n }
  | .get_key v => .ok { o with get_key_file := strlcpy v MAX_PATH_LEN }
  | .get_hmac_key v => .ok { o with get_hmac_key_file := strlcpy v MAX_PATH_LEN, use_hmac := true }
  | .key v => .ok { o with key := strlcpy v (MAX_KEY_LEN + 1), have_key := true }
  | .key_base64 v => do
    Res.guard (!Base64.is_base64 v)
    return { o with key_base64 := strlcpy v (MAX_B64_KEY_LEN + 1), have_base64_key := true }
  | .hmac_key v => .ok { o with hmac_key := strlcpy v (MAX_KEY_LEN + 1), have_hmac_key := true, use_hmac := true }
  | .hmac_key_base64 v => do
    Res.guard (!Base64.is_base64 v)
    return { o with hmac_key_base64 := strlcpy v (MAX_B64_KEY_LEN + 1), have_hmac_base64_key := true, use_hmac := true }
  | .hmac_digest v => do
    let n ← cliName (digest_strtoint v)
    return { o with hmac_type := n, use_hmac := true }
  | .digest v => do
    let n ← cliName (digest_strtoint v)
    return { o with digest_type := n }
  | .enc_mode v => do
    let n ← cliName (enc_mode_strtoint v)
    return { o with encryption_mode := n }
  | .nat_access v => .ok { o with nat_access_str := strlcpy v MAX_PATH_LEN }
  | .server_port v => do
    let n ← cliNum v MAX_PORT
    return { o with spa_dst_port := n }
  | .server_proto v => do
    let n ← cliName (proto_strtoint v)
    return { o with spa_proto := n }
  | .spoof_source v => .ok { o with spoof_ip_src_str := strlcpy v MAX_IPV4_STR_LEN }
  | .rand_port => .ok { o with rand_port := true }
  | .resolve => .ok { o with resolve_ip_http_https := true }
  | .source_ip => .ok { o with allow_ip_str := b!"0.0.0.0" }
  | .source_port v => do
    let n ← cliNum v MAX_PORT
    return { o with spa_src_port := n }
  | .test => .ok { o with test := true }
  | .spoof_user v => .ok { o with spoof_user := strlcpy v MAX_USERNAME_LEN }
  | .nat_local => .ok { o with nat_local := true }
  | .nat_rand_port => .ok { o with nat_rand_port := true }
  | .nat_port v => do
    let n ← cliNum v MAX_PORT
    return { o with nat_port := n }
  | .time_plus v => do
    let n ← parse_time_offset v
    return { o with time_offset_plus := n }
  | .time_minus v => do
    let n ← parse_time_offset v
    return { o with time_offset_minus := n }
  | .use_hmac => .ok { o with use_hmac := true }
  | .gpg => .ok { o with use_gpg := true }
  | .gpg_recipient v => .ok { o with gpg_recipient_key := strlcpy v MAX_GPG_KEY_ID, use_gpg := true }

/-- The loop over the options. -/
def applyArgs : CliOpts → List CliArg → Res CliOpts
  | o, [] => .ok o
  | o, a :: as => do
    let o' ← applyArg o a
    applyArgs o' as

/-! ## validate_options -/

/-- The destination and address checks, client/config_init.c:1824-1857 (key generation, version and
previous-command runs are not modelled). -/
def validateDest (o : CliOpts) : Res CliOpts :=
  if o.test then .ok o
  else do
    Res.guard (o.spa_server_str = [])
    let o := if o.resolve_url.isSome then { o with resolve_ip_http_https := true } else o
    Res.guard (!o.resolve_ip_http_https ∧ o.allow_ip_str = [])
    return o

/-- "Make sure -a overrides IP resolution", client/config_init.c:1859-1872. -/
def validateAllow (o : CliOpts) : Res CliOpts :=
  if o.allow_ip_str ≠ [] ∧ !hasPrefixI b!"resolve" o.allow_ip_str then do
    Res.guard (!is_valid_ipv4_addr o.allow_ip_str o.allow_ip_str.length)
    return { o with resolve_ip_http_https := false }
  else .ok o

/-- `validate_options`, client/config_init.c:1799-1942, without --save-rc-stanza and the default of
the user agent. -/
def validate_options (o : CliOpts) : Res CliOpts := do
  Res.guard (o.use_rc_stanza ≠ [] ∧ !o.got_named_stanza)
  let o ← validateDest o
  let o ← validateAllow o
  Res.guard (o.spoof_ip_src_str ≠ [] ∧
    (!is_valid_ipv4_addr o.spoof_ip_src_str o.spoof_ip_src_str.length ∨ (o.spa_proto ≠ 3 ∧ o.spa_proto ≠ 1 ∧ o.spa_proto ≠ 4)))
  Res.guard (o.http_proxy ≠ [] ∧ o.spa_proto ≠ 5)
  Res.guard (o.use_gpg ∧ o.gpg_recipient_key = [])
  Res.guard (o.encryption_mode = FKO_ENC_MODE_ASYMMETRIC ∧ !o.use_gpg)
  Res.guard (o.encryption_mode = FKO_ENC_MODE_CBC_LEGACY_IV ∧ o.use_hmac)
  return if o.use_hmac ∧ o.hmac_type = FKO_HMAC_UNKNOWN then { o with hmac_type := 3 } else o

/-! ## The request -/

/-- What the client finds outside: the `rand()` results for the first and for a second random value,
the user name libfko finds, the times of the `time()` calls, the address `resolve_ip_http` or
`resolve_ip_https` finds (`none` if it fails), the two passphrases typed in, readable files, and the
salt of the encryption. -/
structure CliEnv where
  rands : List Nat
  rands2 : List Nat := []
  user : Str
  now : Int
  nowPlus : Int := now
  nowMinus : Int := now
  resolved : Option Str := none
  passwd : Option Str := none
  hmacPasswd : Option Str := none
  file : Str → Option Str := fun _ => none
  salt : Str

/-- `set_message_type`, client/fwknop.c:1040-1071. -/
def set_message_type (c : Ctx) (o : CliOpts) : Option Ctx :=
  fko_set_spa_message_type c <|
    if o.server_command ≠ [] then FKO_COMMAND_MSG
    else if o.nat_local then
      if o.fw_timeout ≥ 0 then FKO_CLIENT_TIMEOUT_LOCAL_NAT_ACCESS_MSG else FKO_LOCAL_NAT_ACCESS_MSG
    else if o.nat_access_str ≠ [] then
      if o.fw_timeout ≥ 0 then FKO_CLIENT_TIMEOUT_NAT_ACCESS_MSG else FKO_NAT_ACCESS_MSG
    else if o.fw_timeout ≥ 0 then FKO_CLIENT_TIMEOUT_ACCESS_MSG else FKO_ACCESS_MSG

/-- `fko_set_rand_value(ctx, NULL)`, lib/fko_rand_value.c:97-156. -/
def newRand (c : Ctx) (rands : List Nat) : Ctx :=
  { c with rand_val := some (randValue rands []) }.setFlag FKO_DATA_MODIFIED

/-- `get_rand_port`, client/fwknop.c:616-660: the port (-1 for an error) and the context, whose
random value is drawn anew. -/
def get_rand_port (c : Ctx) (rands : List Nat) : Res (Int × Ctx) :=
  match c.rand_val with
  | none => .ub
  | some r =>
    let v := strtol_wrapper (strlcpy r (MAX_PORT_STR_LEN + 1)) 0 (-1)
    if !v.2 then .ok (-1, c)
    else .ok (MIN_HIGH_PORT + v.1.tmod (MAX_PORT - MIN_HIGH_PORT), newRand c rands)

/-- The NAT port of `set_access_buf`, client/fwknop.c:671-678 (0 for none). -/
def accessNatPort (c : Ctx) (o : CliOpts) (rands : List Nat) : Res (Int × Ctx) :=
  if o.nat_rand_port then get_rand_port c rands else .ok (o.nat_port, c)

/-- Replacing the port of the access string, client/fwknop.c:690-717; `access_buf` has
MAX_LINE_LEN bytes. -/
def accessWithPort (o : CliOpts) (port : Int) : Res Str :=
  match strchr o.access_str 47 with
  | none => .err
  | some ndx => do
    let b0 := (o.allow_ip_str ++ b!",").take (MAX_LINE_LEN - 1)
    let b1 := strlcat b0 o.access_str (b0.length + ndx + 2)
    Res.mem (b1.length + 1 > MAX_LINE_LEN)
    Res.guard (strchr (o.access_str.drop (ndx + 1)) 47).isSome
    let b2 := strlcat b1 ((decStrInt port).take MAX_PORT_STR_LEN) (b1.length + MAX_PORT_STR_LEN + 1)
    Res.mem (b2.length + 1 > MAX_LINE_LEN)
    return b2

/-- The first branch of `set_access_buf`, client/fwknop.c:680-724. -/
def accessText (o : CliOpts) (port : Int) : Res Str :=
  if port > 0 ∧ port ≤ MAX_PORT then accessWithPort o port
  else .ok ((o.allow_ip_str ++ b!"," ++ o.access_str).take (MAX_LINE_LEN - 1))

/-- `set_access_buf`, client/fwknop.c:664-733. -/
def set_access_buf (c : Ctx) (o : CliOpts) (rands : List Nat) : Res (Str × Ctx) :=
  if o.access_str ≠ [] then do
    let p ← accessNatPort c o rands
    let t ← accessText o p.1
    return (t, p.2)
  else .ok ((o.allow_ip_str ++ b!"," ++ b!"none/0").take (MAX_LINE_LEN - 1), c)

/-- The port of the access string, client/fwknop.c:743-767: at most five digits are read. -/
def accessPort (o : CliOpts) : Res Int :=
  match strchr o.access_str 47 with
  | none => .err
  | some ndx => do
    let v := strtol_wrapper (((o.access_str.drop (ndx + 1)).take MAX_PORT_STR_LEN).takeWhile isDigit) 1 MAX_PORT
    Res.guard (!v.2)
    return v.1

/-- "Force the ':' (if any) to a ','", client/fwknop.c:779-781. -/
def colonToComma (s : Str) : Str :=
  match strchr s 58 with
  | none => s
  | some i => s.take i ++ 44 :: s.drop (i + 1)

/-- Host and port of -N, client/fwknop.c:783-815.  The port digits go to an array of MAX_LINE_LEN
bytes; more than MAX_PORT_STR_LEN+1 are refused. -/
def natHostPort (s : Str) (port : Int) : Res (Str × Int) :=
  match strchr s 44 with
  | none => .ok (s, port)
  | some i => do
    let rest := s.drop (i + 1)
    Res.guard (!rest.all isDigit ∨ rest.length > MAX_PORT_STR_LEN + 1)
    let v := strtol_wrapper rest 1 MAX_PORT
    Res.guard (!v.2)
    return (s.take i, v.1)

/-- `snprintf(nat_access_buf, MAX_LINE_LEN, "%s,%d", host, port)`, client/fwknop.c:74, 771, 825. -/
def natText (host : Str) (port : Int) : Str := (host ++ b!"," ++ decStrInt port).take (MAX_LINE_LEN - 1)

/-- `set_nat_access`, client/fwknop.c:735-846, up to the call of libfko: the text.  The byte before
`nat_access_str` is the last one of the `int` before it, zero. -/
def natAccessText (o : CliOpts) : Res Str := do
  let port ← accessPort o
  if o.nat_local ∧ o.nat_access_str = [] then return natText o.spa_server_str port
  else if o.nat_access_str ≠ [] then
    let hp ← natHostPort (colonToComma o.nat_access_str) port
    Res.guard (hp.2 < 1 ∨ hp.2 > 65535)
    Res.guard (!is_valid_ipv4_addr hp.1 hp.1.length ∧ !is_valid_hostname 0 hp.1 hp.1.length)
    return natText hp.1 hp.2
  else return []

/-- client/fwknop.c:243-253 with `set_nat_access`. -/
def setNat (c : Ctx) (o : CliOpts) : Res Ctx :=
  if o.nat_local ∨ o.nat_access_str ≠ [] then do
    let t ← natAccessText o
    Res.ofOpt (fko_set_spa_nat_access c t)
  else .ok c

/-- client/fwknop.c:145-154. -/
def setTimeout (c : Ctx) (o : CliOpts) : Res Ctx :=
  if o.fw_timeout ≥ 0 then Res.ofOpt (fko_set_spa_client_timeout c o.fw_timeout) else .ok c

/-- client/fwknop.c:169-178. -/
def setPlus (c : Ctx) (E : CliEnv) (o : CliOpts) : Res Ctx :=
  if o.time_offset_plus > 0 then Res.ofOpt (fko_set_timestamp c E.nowPlus o.time_offset_plus) else .ok c

/-- client/fwknop.c:179-188. -/
def setMinus (c : Ctx) (E : CliEnv) (o : CliOpts) : Res Ctx :=
  if o.time_offset_minus > 0 then Res.ofOpt (fko_set_timestamp c E.nowMinus (-o.time_offset_minus)) else .ok c

/-- Resolution of the client's address, client/fwknop.c:203-221. -/
def resolveAllow (E : CliEnv) (o : CliOpts) : Res CliOpts :=
  if o.resolve_ip_http_https then do
    let ip ← Res.ofOpt E.resolved
    return { o with allow_ip_str := ip }
  else .ok o

/-- The message text, client/fwknop.c:190-231. -/
def messageText (c : Ctx) (E : CliEnv) (o : CliOpts) : Res (Str × Ctx) :=
  if o.server_command ≠ [] then
    .ok ((o.allow_ip_str ++ b!"," ++ o.server_command).take (MAX_LINE_LEN - 1), c)
  else do
    let o ← resolveAllow E o
    set_access_buf c o E.rands2

/-- client/fwknop.c:257-266. -/
def setUser (c : Ctx) (o : CliOpts) : Res Ctx :=
  if o.spoof_user ≠ [] then Res.ofOpt (fko_set_username c o.spoof_user) else .ok c

/-- Encryption type and mode, client/fwknop.c:270-360 (the names of the GnuPG keys are not part of
the model). -/
def setEnc (c : Ctx) (o : CliOpts) : Res Ctx :=
  if o.use_gpg then do
    let c ← Res.ofOpt (fko_set_spa_encryption_type c FKO_ENCRYPTION_GPG)
    Res.ofOpt (fko_set_spa_encryption_mode c FKO_ENC_MODE_ASYMMETRIC)
  else if o.encryption_mode ≠ 0 then Res.ofOpt (fko_set_spa_encryption_mode c o.encryption_mode)
  else .ok c

/-- client/fwknop.c:364-373. -/
def setDigest (c : Ctx) (o : CliOpts) : Res Ctx :=
  if o.digest_type ≠ 0 then Res.ofOpt (fko_set_spa_digest_type c o.digest_type) else .ok c

/-- `main`, client/fwknop.c:122-373: the context before the keys are read. -/
def clientCtx (E : CliEnv) (o : CliOpts) : Res Ctx := do
  let c ← Res.ofOpt (fko_new E.rands E.user E.now)
  let c ← setTimeout c o
  let c ← Res.ofOpt (set_message_type c o)
  let c ← setPlus c E o
  let c ← setMinus c E o
  let m ← messageText c E o
  let c ← Res.ofOpt (fko_set_spa_message m.2 m.1)
  let c ← setNat c o
  let c ← setUser c o
  let c ← setEnc c o
  setDigest c o

/-! ## Keys -/

/-- `' '`, `'\t'`, `'='`. -/
def isKeySep (c : Nat) : Bool := c = 32 || c = 9 || c = 61

/-- One line of a key file, client/getpasswd.c:237-278, as it is in a zeroed array: the key stored,
`none` if the line is passed over.  The comparison with the server's name stops nowhere, but a
terminator never equals a character of the name, so what is behind it does not matter; only the
reads must stay in the array.  The key goes to an array of MAX_KEY_LEN+1 bytes. -/
def keyFileLine (server line : Str) : Res (Option Str) :=
  let s := cstr line
  let l := s.dropWhile isKeySep
  if isEmptyLine (l.headD 0) then .ok none
  else do
    Res.mem (s.length - l.length + server.length > MAX_LINE_LEN)
    if !hasPrefix server l then return none
    else match l.drop server.length with
      | 58 :: rest => do
        let k := (rest.dropWhile isKeySep).takeWhile (· ≠ 10)
        Res.mem (k.length + 1 > MAX_KEY_LEN + 1)
        return some k
      | _ => return none

/-- The loop of `get_key_file`: the last matching line counts. -/
def keyFileLoop (server : Str) : List Str → (key : Str) → Res Str
  | [], key => .ok key
  | l :: ls, key => do
    let k ← keyFileLine server l
    keyFileLoop server ls (k.getD key)

/-- `get_key_file`, client/getpasswd.c:216-292. -/
def get_key_file (E : CliEnv) (server name : Str) : Res Str := do
  let content ← Res.ofOpt (E.file name)
  let k ← keyFileLoop server (fgetsLines content.length content) []
  Res.guard (k = [])
  return k

/-- `fko_base64_decode` into `options->key` or `options->hmac_key`, which have MAX_KEY_LEN+1 bytes
(client/fwknop.c:1097-1098, 1161-1162). -/
def decodeKey (s : Str) : Res Str := do
  let k ← Res.ofOpt (Base64.b64_decode s)
  Res.mem (k.length + 1 > MAX_KEY_LEN + 1)
  return k

/-- A passphrase typed in. -/
def typedKey (p : Option Str) : Res Str := do
  let k ← Res.ofOpt p
  return strlcpy k (MAX_KEY_LEN + 1)

/-- The GnuPG passphrase, client/fwknop.c:1119-1143. -/
def gpgKey (E : CliEnv) (o : CliOpts) : Res Str :=
  if o.use_gpg_agent ∨ o.gpg_no_signing_pw ∨ o.gpg_signer_key = [] then .ok [] else typedKey E.passwd

/-- The encryption key, first half of `get_keys`, client/fwknop.c:1085-1157. -/
def getKey (E : CliEnv) (o : CliOpts) : Res Str :=
  if o.have_key then .ok (strlcpy o.key (MAX_KEY_LEN + 1))
  else if o.have_base64_key then do
    let k ← decodeKey o.key_base64
    Res.guard (k.length = 0 ∨ k.length ≥ MAX_KEY_LEN)
    return k
  else if o.get_key_file ≠ [] then get_key_file E o.spa_server_str o.get_key_file
  else if o.use_gpg then gpgKey E o
  else typedKey E.passwd

/-- The HMAC key, client/fwknop.c:1159-1204; `none` if no HMAC is used. -/
def getHmacKey (E : CliEnv) (o : CliOpts) : Res (Option Str) :=
  if o.have_hmac_key then .ok (some (strlcpy o.hmac_key (MAX_KEY_LEN + 1)))
  else if o.have_hmac_base64_key then do
    let k ← decodeKey o.hmac_key_base64
    return some k
  else if o.use_hmac then
    if o.get_hmac_key_file ≠ [] then do
      let k ← get_key_file E o.spa_server_str o.get_hmac_key_file
      return some k
    else do
      let k ← typedKey E.hmacPasswd
      return some k
  else .ok none

/-- The end of `get_keys`, client/fwknop.c:1206-1235. -/
def useHmac (c : Ctx) (o : CliOpts) (key : Str) : Option Str → Res Ctx
  | none => .ok c
  | some h => do
    Res.guard (h = key)
    Res.ofOpt (fko_set_spa_hmac_type c o.hmac_type)

/-- Encryption key as it is used, client/fwknop.c:384-394. -/
def usedKey (o : CliOpts) (key : Str) : Str :=
  if o.encryption_mode = FKO_ENC_MODE_CBC_LEGACY_IV ∧ key.length > 16 then key.take 16 else key

/-- What `main` has when the packet is built: the context, the two keys. -/
structure Packed where
  ctx : Ctx
  key : Str
  hmac : Option Str

/-- `main`, client/fwknop.c:122-404: options to context with the packet.  The array `hmac_key` is
passed (with length 0) also when no HMAC is used. -/
def clientPack (K : Crypto) (E : CliEnv) (o : CliOpts) : Res Packed := do
  let c ← clientCtx E o
  let key ← getKey E o
  let h ← getHmacKey E o
  let c ← useHmac c o key h
  let r ← fko_spa_data_final K E.salt c (some (usedKey o key)) (some (h.getD []))
  Res.guard (!r.1)
  return ⟨r.2, usedKey o key, h⟩

/-- The whole client: a command line gives the packet that is sent and the keys it was made with;
`o0` holds the defaults and what the rc file set. -/
def client (K : Crypto) (E : CliEnv) (o0 : CliOpts) (args : List CliArg) : Res (Packed × Str) := do
  let o ← applyArgs o0 args
  let o ← validate_options o
  let p ← clientPack K E o
  let t ← Res.ofOpt (fko_get_spa_data p.ctx)
  return (p, t)

end Fwknop
