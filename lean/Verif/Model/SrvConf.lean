import Verif.Model.AccessFile
import Verif.Model.IptInit
import Verif.Model.Client

/-!
# The configuration of the server (server/config_init.c)

Modelled: `config_init` with its passes over the command line, `parse_config_file`,
`set_config_entry`, `config_entry_index`, `validate_options`, `validate_int_var_ranges`, and
`fw_config_init` with `set_fw_chain_conf`, for FIREWALL_IPTABLES with USE_FILE_CACHE and USE_LIBPCAP, without
USE_LIBNETFILTER_QUEUE and AFL_FUZZING.

Simplified: the command line is a list of options as `getopt_long` returns them; those that print something or make
keys and exit are not there.  The variables are found by their names instead of numbers.  Whether a file can
be opened and has acceptable permissions, and what `lstat` says about paths, comes from the environment.
-/

namespace Fwknop

/-- `config_map`, server/cmd_opts.h:39-151. -/
def config_map : List Str :=
  [b!"CONFIG_FILE", b!"OVERRIDE_CONFIG", b!"PCAP_INTF", b!"PCAP_FILE", b!"ENABLE_PCAP_PROMISC", b!"PCAP_FILTER",
   b!"PCAP_DISPATCH_COUNT", b!"PCAP_LOOP_SLEEP", b!"ENABLE_PCAP_ANY_DIRECTION", b!"EXIT_AT_INTF_DOWN", b!"MAX_SNIFF_BYTES",
   b!"ENABLE_SPA_PACKET_AGING", b!"MAX_SPA_PACKET_AGE", b!"ENABLE_DIGEST_PERSISTENCE", b!"RULES_CHECK_THRESHOLD",
   b!"CMD_EXEC_TIMEOUT", b!"ENABLE_SPA_OVER_HTTP", b!"ALLOW_ANY_USER_AGENT", b!"ENABLE_TCP_SERVER", b!"TCPSERV_PORT",
   b!"ENABLE_UDP_SERVER", b!"UDPSERV_PORT", b!"UDPSERV_SELECT_TIMEOUT", b!"LOCALE", b!"SYSLOG_IDENTITY", b!"SYSLOG_FACILITY",
   b!"ENABLE_X_FORWARDED_FOR", b!"ENABLE_DESTINATION_RULE", b!"ENABLE_RULE_PREPEND", b!"ENABLE_NAT_DNS", b!"ENABLE_IPT_FORWARDING",
   b!"ENABLE_IPT_LOCAL_NAT", b!"ENABLE_IPT_SNAT", b!"SNAT_TRANSLATE_IP", b!"ENABLE_IPT_OUTPUT", b!"FLUSH_IPT_AT_INIT",
   b!"FLUSH_IPT_AT_EXIT", b!"IPT_INPUT_ACCESS", b!"IPT_OUTPUT_ACCESS", b!"IPT_FORWARD_ACCESS", b!"IPT_DNAT_ACCESS",
   b!"IPT_SNAT_ACCESS", b!"IPT_MASQUERADE_ACCESS", b!"ENABLE_IPT_COMMENT_CHECK", b!"FWKNOP_RUN_DIR", b!"FWKNOP_CONF_DIR",
   b!"ACCESS_FILE", b!"ACCESS_FOLDER", b!"FWKNOP_PID_FILE", b!"DIGEST_FILE", b!"GPG_HOME_DIR", b!"GPG_EXE", b!"SUDO_EXE",
   b!"FIREWALL_EXE", b!"VERBOSE", b!"FAULT_INJECTION_TAG"]

/-- server/fwknopd_common.h:553. -/
abbrev FW_NUM_CHAIN_FIELDS : Nat := 6

/-- `opts->config`: the values of the variables, by name; `none` is NULL. -/
abbrev SrvVars := Str → Option Str

/-- `set_config_entry`, server/config_init.c:66-108, with an index that is valid. -/
def set_config_entry (c : SrvVars) (name value : Str) : SrvVars := fun n => if n = name then some value else c n

/-- The locals of `parse_config_file` that outlive a line: `tmp1` and `tmp2`. -/
structure ConfTmp where
  tmp1 : Str := []
  tmp2 : Str := []

/-- A character of the conversion `%[A-Z_]`. -/
def isRefChar (c : Nat) : Bool := (65 ≤ c && c ≤ 90) || c = 95

/-- `sscanf(val+1, "%[A-Z_]%s", tmp1, tmp2)`, server/config_init.c:350, and whether the result is not 0: it is EOF, and
the arrays keep what they had, if there is nothing to read. -/
def scanRef (s : Str) (t : ConfTmp) : ConfTmp × Bool :=
  if s = [] then (t, true)
  else
    let n := s.takeWhile isRefChar
    if n = [] then (t, false)
    else
      let r := ((s.drop n.length).dropWhile isSpace).takeWhile fun c => !isSpace c
      if r = [] then (⟨n, t.tmp2⟩, true) else (⟨n, r⟩, true)

/-- `config_entry_index` and the value there, server/config_init.c:112-122; only variables that are set
are found. -/
def config_entry (c : SrvVars) (name : Str) : Option Str := if name ∈ config_map then c name else none

/-- The entry of a line, server/config_init.c:339-373. -/
def confEntry (var val : Str) (c : SrvVars) (t : ConfTmp) : SrvVars × ConfTmp :=
  if var ∈ config_map then
    match val with
    | 36 :: s =>
      let r := scanRef s t
      if r.2 then
        match config_entry c r.1.tmp1 with
        | some v => (set_config_entry c var (strlcat (strlcpy v MAX_LINE_LEN) r.1.tmp2 MAX_LINE_LEN), r.1)
        | none => (c, r.1)
      else (set_config_entry c var val, r.1)
    | _ => (set_config_entry c var val, t)
  else (c, t)

/-- One line, server/config_init.c:316-380.  A line that cannot be scanned is reported and ignored.  `var` and `val`
are arrays of MAX_LINE_LEN bytes. -/
def confLine (line : Str) (c : SrvVars) (t : ConfTmp) : Res (SrvVars × ConfTmp) :=
  let s := cstr line
  if isEmptyLine (s.headD 0) then .ok (c, t)
  else match scanLine s with
    | none => .ok (c, t)
    | some (var, val) => do
      Res.mem (var.length + 1 > MAX_LINE_LEN ∨ val.length + 1 > MAX_LINE_LEN)
      return confEntry var (chop_whitespace val) c t

/-- The loop over the lines, server/config_init.c:316-380. -/
def confLoop : List Str → SrvVars → ConfTmp → Res SrvVars
  | [], c, _ => .ok c
  | l :: ls, c, t => do
    let r ← confLine l c t
    confLoop ls r.1 r.2

/-- The surroundings of `config_init`: FIREWALL_EXE, SYSCONFDIR and so on of the build, the files that can be read (and
have acceptable permissions), and `is_valid_file`, `is_valid_dir`, `is_valid_exe`. -/
structure SrvEnv where
  file : Str → Option Str
  isFile : Str → Bool := fun _ => true
  isDir : Str → Bool := fun _ => true
  isExe : Str → Bool := fun _ => true
  firewall_exe : Str := b!"/sbin/iptables"
  conf_dir : Str := b!"/etc/fwknop"
  run_dir : Str := b!"/var/run/fwknop"
  gpg_exe : Str := b!"/usr/bin/gpg"
  sudo_exe : Str := b!"/usr/bin/sudo"

/-- `parse_config_file`, server/config_init.c:280-385. -/
def parse_config_file (env : SrvEnv) (name : Str) (c : SrvVars) : Res SrvVars :=
  match env.file name with
  | none => .err
  | some content => confLoop (fgetsLines content.length content) c {}

/-- Options of fwknopd as `getopt_long` returns them, server/cmd_opts.h:192-242. -/
inductive SrvArg
  | access_file (v : Str) | access_folder (v : Str) | config_file (v : Str) | packet_limit (v : Str) | digest_file (v : Str)
  | dump_config | exit_parse_config | exit_parse_digest_cache | foreground | fw_list | fw_list_all | fw_flush
  | gpg_exe (v : Str) | gpg_home_dir (v : Str) | interface (v : Str) | no_ipt_check_support | kill | locale (v : Str)
  | override_config (v : Str) | pid_file (v : Str) | pcap_filter (v : Str) | pcap_file (v : Str) | pcap_any_direction
  | rotate_digest_cache | restart | run_dir (v : Str) | status | sudo_exe (v : Str) | test | udp_server | verbose | syslog_enable
  deriving DecidableEq

/-- `fko_srv_options_t`, server/fwknopd_common.h:635-733: the variables, the flags of the command line and the
numbers. -/
structure SrvOpts where
  config : SrvVars := fun _ => none
  dump_config : Nat := 0
  kill : Nat := 0
  restart : Nat := 0
  status : Nat := 0
  exit_after_parse_config : Bool := false
  exit_parse_digest_cache : Bool := false
  foreground : Bool := false
  fw_list : Bool := false
  fw_list_all : Bool := false
  fw_flush : Bool := false
  ipt_disable_check_support : Bool := false
  pcap_any_direction : Bool := false
  rotate_digest_cache : Bool := false
  test : Bool := false
  enable_udp_server : Bool := false
  syslog_enable : Bool := false
  verbose : Int := 0
  packet_ctr_limit : Int := 0
  pcap_loop_sleep : Int := 0
  pcap_dispatch_count : Int := 0
  max_spa_packet_age : Int := 0
  max_sniff_bytes : Int := 0
  rules_chk_threshold : Int := 0
  tcpserv_port : Int := 0
  udpserv_port : Int := 0
  udpserv_select_timeout : Int := 0

/-- The second pass over the command line, server/config_init.c:1158-1190.  The case 'c' runs into the case 'O' unless an
override has been given before. -/
def filePass : List SrvArg → SrvVars → (gotOverride : Bool) → SrvVars
  | [], c, _ => c
  | .config_file v :: as, c, g =>
    let c := set_config_entry c b!"CONFIG_FILE" v
    if g then filePass as c g else filePass as (set_config_entry c b!"OVERRIDE_CONFIG" v) true
  | .override_config v :: as, c, _ => filePass as (set_config_entry c b!"OVERRIDE_CONFIG" v) true
  | _ :: as, c, g => filePass as c g

/-- The walk along the commas, server/config_init.c:1210-1235. -/
def splitComma : Str → List Str
  | [] => [[]]
  | 44 :: s => [] :: splitComma s
  | c :: s => match splitComma s with
    | [] => [[c]]
    | w :: ws => (c :: w) :: ws

/-- The files are parsed one after the other. -/
def parseFiles (env : SrvEnv) : List Str → SrvVars → Res SrvVars
  | [], c => .ok c
  | f :: fs, c => do
    let c ← parse_config_file env f c
    parseFiles env fs c

/-- `chop_char(optarg, PATH_SEP)`, common/fko_util.c:730-739. -/
def chop_sep (s : Str) : Str := if s.length > 1 ∧ s.getLast? = some 47 then s.dropLast else s

/-- `set_config_entry` on the options. -/
def SrvOpts.set (o : SrvOpts) (name value : Str) : SrvOpts := { o with config := set_config_entry o.config name value }

/-- One option in the third pass, server/config_init.c:1259-1463.  The bound of -C, `2 << 30`, is taken to be negative, as
with the usual compilers (the shift overflows): no upper bound is checked. -/
def srvArg (env : SrvEnv) : SrvArg → SrvOpts → Res SrvOpts
  | .access_file v, o => do Res.guard (!env.isFile v); return o.set b!"ACCESS_FILE" v
  | .access_folder v, o => do Res.guard (!env.isDir (chop_sep v)); return o.set b!"ACCESS_FOLDER" (chop_sep v)
  | .config_file _, o => .ok o
  | .packet_limit v, o => do
    let r := strtol_wrapper v 0 (-2147483648)
    Res.guard (!r.2)
    return { o with packet_ctr_limit := r.1 }
  | .digest_file v, o => .ok (o.set b!"DIGEST_FILE" v)
  | .dump_config, o => .ok { o with dump_config := 1 }
  | .exit_parse_config, o => .ok { o with exit_after_parse_config := true, foreground := true }
  | .exit_parse_digest_cache, o => .ok { o with exit_parse_digest_cache := true, foreground := true }
  | .foreground, o => .ok { o with foreground := true }
  | .fw_list, o => .ok { o with fw_list := true }
  | .fw_list_all, o => .ok { o with fw_list := true, fw_list_all := true }
  | .fw_flush, o => .ok { o with fw_flush := true }
  | .gpg_exe v, o => do Res.guard (!env.isExe v); return o.set b!"GPG_EXE" v
  | .gpg_home_dir v, o => do Res.guard (!env.isDir (chop_sep v)); return o.set b!"GPG_HOME_DIR" (chop_sep v)
  | .interface v, o => .ok (o.set b!"PCAP_INTF" v)
  | .no_ipt_check_support, o => .ok { o with ipt_disable_check_support := true }
  | .kill, o => .ok { o with kill := 1 }
  | .locale v, o => .ok (o.set b!"LOCALE" v)
  | .override_config _, o => .ok o
  | .pid_file v, o => .ok (o.set b!"FWKNOP_PID_FILE" v)
  | .pcap_filter v, o => .ok (o.set b!"PCAP_FILTER" v)
  | .pcap_file v, o => do Res.guard (!env.isFile v); return o.set b!"PCAP_FILE" v
  | .pcap_any_direction, o => .ok { o with pcap_any_direction := true }
  | .rotate_digest_cache, o => .ok { o with rotate_digest_cache := true }
  | .restart, o => .ok { o with restart := 1 }
  | .run_dir v, o => .ok (o.set b!"FWKNOP_RUN_DIR" v)
  | .status, o => .ok { o with status := 1 }
  | .sudo_exe v, o => do Res.guard (!env.isExe v); return o.set b!"SUDO_EXE" v
  | .test, o => .ok { o with test := true }
  | .udp_server, o => .ok { o with enable_udp_server := true }
  | .verbose, o => .ok { o with verbose := o.verbose + 1 }
  | .syslog_enable, o => .ok { o with syslog_enable := true }

/-- The third pass. -/
def srvArgs (env : SrvEnv) : List SrvArg → SrvOpts → Res SrvOpts
  | [], o => .ok o
  | a :: as, o => do
    let o ← srvArg env a o
    srvArgs env as o

/-- `if(opts->config[X] == NULL) set_config_entry(opts, X, DEF_X)`. -/
def orDefault (name value : Str) (c : SrvVars) : SrvVars := fun n =>
  if n = name then some ((c name).getD value) else c n

/-- A file in the run directory, server/config_init.c:412-445: `tmp_path[strlen(tmp_path)-1]` is before the array if the
name is empty. -/
def runFile (dir name : Str) : Res Str := do
  let p := strlcpy dir MAX_PATH_LEN
  Res.mem (p = [])
  let p := if p.getLast? = some 47 then p else strlcat p b!"/" MAX_PATH_LEN
  return strlcat p name MAX_PATH_LEN

/-- `validate_ipt_chain_conf`, server/fw_util_iptables.c:1900-1931: the loop stops at the first character that is not
allowed. -/
def validate_ipt_chain_conf (s : Str) : Bool :=
  s.all (fun c => c = 32 || c = 44 || c = 95 || isAlnum c) && (s.filter (· = 44)).length + 1 = FW_NUM_CHAIN_FIELDS

/-- `range_check`, server/config_init.c:47-62. -/
def range_check (c : SrvVars) (name : Str) (low high : Int) : Res Int := do
  let r := strtol_wrapper ((c name).getD []) low high
  Res.guard (!r.2)
  return r.1

/-- The default of a file in the run directory, server/config_init.c:409-445. -/
def orRunFile (name dir file : Str) (c : SrvVars) : Res SrvVars :=
  match c name with
  | none => do
    let p ← runFile dir file
    return set_config_entry c name p
  | some _ => .ok c

/-- The defaults before the firewall comes, server/config_init.c:394-527. -/
def defaults1 (env : SrvEnv) (c : SrvVars) : Res SrvVars := do
  let c := orDefault b!"FWKNOP_CONF_DIR" env.conf_dir c
  let c := orDefault b!"ACCESS_FILE" (env.conf_dir ++ b!"/access.conf") c
  let c := orDefault b!"FWKNOP_RUN_DIR" env.run_dir c
  let dir := (c b!"FWKNOP_RUN_DIR").getD []
  let c ← orRunFile b!"FWKNOP_PID_FILE" dir b!"fwknopd.pid" c
  let c ← orRunFile b!"DIGEST_FILE" dir b!"digest.cache" c
  let c := orDefault b!"PCAP_INTF" b!"eth0" c
  let c := orDefault b!"ENABLE_PCAP_PROMISC" b!"N" c
  let c := orDefault b!"PCAP_DISPATCH_COUNT" b!"100" c
  let c := orDefault b!"PCAP_LOOP_SLEEP" b!"100000" c
  let c := orDefault b!"EXIT_AT_INTF_DOWN" b!"Y" c
  let c := orDefault b!"PCAP_FILTER" b!"udp port 62201" c
  let c := orDefault b!"ENABLE_SPA_PACKET_AGING" (if (c b!"PCAP_FILE").isNone then b!"Y" else b!"N") c
  let c := orDefault b!"MAX_SPA_PACKET_AGE" b!"120" c
  let c := orDefault b!"ENABLE_DIGEST_PERSISTENCE" b!"Y" c
  let c := orDefault b!"RULES_CHECK_THRESHOLD" b!"20" c
  let c := orDefault b!"ENABLE_DESTINATION_RULE" b!"N" c
  return orDefault b!"MAX_SNIFF_BYTES" b!"1500" c

/-- The chain settings and their defaults, server/fwknopd_common.h:183-188. -/
def chainDefaults : List (Str × Str) :=
  [(b!"IPT_INPUT_ACCESS", b!"ACCEPT, filter, INPUT, 1, FWKNOP_INPUT, 1"),
   (b!"IPT_OUTPUT_ACCESS", b!"ACCEPT, filter, OUTPUT, 1, FWKNOP_OUTPUT, 1"),
   (b!"IPT_FORWARD_ACCESS", b!"ACCEPT, filter, FORWARD, 1, FWKNOP_FORWARD, 1"),
   (b!"IPT_DNAT_ACCESS", b!"DNAT, nat, PREROUTING, 1, FWKNOP_PREROUTING, 1"),
   (b!"IPT_SNAT_ACCESS", b!"SNAT, nat, POSTROUTING, 1, FWKNOP_POSTROUTING, 1"),
   (b!"IPT_MASQUERADE_ACCESS", b!"MASQUERADE, nat, POSTROUTING, 1, FWKNOP_MASQUERADE, 1")]

/-- Default and check of each chain, server/config_init.c:725-807. -/
def chainChecks : List (Str × Str) → SrvVars → Res SrvVars
  | [], c => .ok c
  | d :: ds, c => do
    let c := orDefault d.1 d.2 c
    Res.guard (!validate_ipt_chain_conf ((c d.1).getD []))
    chainChecks ds c

/-- A switch: `strncasecmp(opts->config[X], "Y", 1) == 0`. -/
def isOn (c : SrvVars) (name : Str) : Bool := hasPrefixI b!"Y" ((c name).getD [])

/-- The part for iptables, server/config_init.c:673-813. -/
def defaultsIpt (c : SrvVars) : Res SrvVars := do
  let c := orDefault b!"ENABLE_IPT_FORWARDING" b!"N" c
  let c := orDefault b!"ENABLE_IPT_LOCAL_NAT" b!"N" c
  let c := orDefault b!"ENABLE_IPT_SNAT" b!"N" c
  Res.guard (isOn c b!"ENABLE_IPT_SNAT" &&
    (match c b!"SNAT_TRANSLATE_IP" with
      | none => false
      | some ip => !is_valid_ipv4_addr ip ip.length))
  let c := orDefault b!"ENABLE_IPT_OUTPUT" b!"N" c
  let c := orDefault b!"FLUSH_IPT_AT_INIT" b!"Y" c
  let c := orDefault b!"FLUSH_IPT_AT_EXIT" b!"Y" c
  let c ← chainChecks chainDefaults c
  return orDefault b!"ENABLE_IPT_COMMENT_CHECK" b!"Y" c

/-- The rest of the defaults, server/config_init.c:881-1010. -/
def defaults2 (env : SrvEnv) (c : SrvVars) : SrvVars :=
  let c := orDefault b!"ENABLE_X_FORWARDED_FOR" b!"N" c
  let c := orDefault b!"ENABLE_RULE_PREPEND" b!"N" c
  let c := orDefault b!"ENABLE_NAT_DNS" b!"Y" c
  let c := orDefault b!"GPG_HOME_DIR" b!"/root/.gnupg" c
  let c := orDefault b!"GPG_EXE" env.gpg_exe c
  let c := orDefault b!"SUDO_EXE" env.sudo_exe c
  let c := orDefault b!"ENABLE_SPA_OVER_HTTP" b!"N" c
  let c := orDefault b!"ALLOW_ANY_USER_AGENT" b!"N" c
  let c := orDefault b!"ENABLE_TCP_SERVER" b!"N" c
  let c := orDefault b!"TCPSERV_PORT" b!"62201" c
  let c := orDefault b!"ENABLE_UDP_SERVER" b!"N" c
  let c := orDefault b!"UDPSERV_PORT" b!"62201" c
  let c := orDefault b!"UDPSERV_SELECT_TIMEOUT" b!"500000" c
  let c := orDefault b!"SYSLOG_IDENTITY" b!"fwknopd" c
  orDefault b!"SYSLOG_FACILITY" b!"LOG_DAEMON" c

/-- `validate_int_var_ranges`, server/config_init.c:138-168, with the bounds of server/fwknopd_common.h:140-150. -/
def validate_int_var_ranges (o : SrvOpts) : Res SrvOpts := do
  let sleep ← range_check o.config b!"PCAP_LOOP_SLEEP" 1 8388608
  let count ← range_check o.config b!"PCAP_DISPATCH_COUNT" 1 8388608
  let age ← range_check o.config b!"MAX_SPA_PACKET_AGE" 1 100000
  let bytes ← range_check o.config b!"MAX_SNIFF_BYTES" 1 32768
  let threshold ← range_check o.config b!"RULES_CHECK_THRESHOLD" 0 131071
  let tcp ← range_check o.config b!"TCPSERV_PORT" 1 131071
  let udp ← range_check o.config b!"UDPSERV_PORT" 1 131071
  let select ← range_check o.config b!"UDPSERV_SELECT_TIMEOUT" 1 8388608
  return { o with
    pcap_loop_sleep := sleep, pcap_dispatch_count := count, max_spa_packet_age := age, max_sniff_bytes := bytes
    rules_chk_threshold := threshold, tcpserv_port := tcp, udpserv_port := udp, udpserv_select_timeout := select }

/-- The variables of `validate_options`, server/config_init.c:389-1010. -/
def srvDefaults (env : SrvEnv) (c : SrvVars) : Res SrvVars := do
  let c ← defaults1 env c
  let c ← defaultsIpt c
  return defaults2 env c

/-- `validate_options`, server/config_init.c:389-1044. -/
def srvValidate (env : SrvEnv) (o : SrvOpts) : Res SrvOpts := do
  let c ← srvDefaults env o.config
  let o ← validate_int_var_ranges { o with config := c }
  let n := o.dump_config + o.kill + o.restart + o.status
  if n = 1 then return o
  Res.guard (n > 1)
  Res.guard (o.config b!"FIREWALL_EXE").isNone
  return o

/-- The variables after the files have been read, server/config_init.c:1046-1236. -/
def readConfig (env : SrvEnv) (args : List SrvArg) : Res SrvVars := do
  let c : SrvVars := set_config_entry (fun _ => none) b!"FIREWALL_EXE" env.firewall_exe
  let c := filePass args c false
  let c := orDefault b!"CONFIG_FILE" (env.conf_dir ++ b!"/fwknopd.conf") c
  let c ← parse_config_file env ((c b!"CONFIG_FILE").getD []) c
  match c b!"OVERRIDE_CONFIG" with
  | none => pure c
  | some l => parseFiles env (splitComma (strlcpy l MAX_LINE_LEN)) c

/-- The verbosity of the files, server/config_init.c:1238-1250. -/
def confVerbose (c : SrvVars) : Res Int :=
  match c b!"VERBOSE" with
  | none => .ok 0
  | some s => do
    let r := strtol_wrapper s 0 (-1)
    Res.guard (!r.2)
    return r.1

/-- `config_init`, server/config_init.c:1066-1471. -/
def srvConfig (env : SrvEnv) (args : List SrvArg) : Res SrvOpts := do
  let c ← readConfig env args
  let v ← confVerbose c
  let o ← srvArgs env args { config := c, verbose := v }
  srvValidate env o

/-! ## The chains of the firewall -/

/-- The loop of `set_fw_chain_conf`, server/fw_util_iptables.c:954-979: the fields that are complete, the field that is
read (both reversed), and the index in `tbuf`. -/
def chainLoop : Str → (fields : List Str) → (field : Str) → (i : Nat) → Res (List Str)
  | [], fields, field, i => do
    Res.mem (i ≥ MAX_LINE_LEN)
    return (field.reverse :: fields).reverse
  | c :: s, fields, field, i =>
    if c = 32 then chainLoop s fields field i
    else do
      Res.mem (i ≥ MAX_LINE_LEN)
      if c = 44 then
        Res.mem (fields.length + 1 ≥ FW_NUM_CHAIN_FIELDS)
        chainLoop s (field.reverse :: fields) [] (i + 1)
      else
        Res.guard (¬ (c = 95 ∨ isAlnum c))
        chainLoop s fields (c :: field) (i + 1)

/-- `set_fw_chain_conf`, server/fw_util_iptables.c:931-1024. -/
def set_fw_chain_conf (conf : Str) : Res FwChain := do
  let fs ← chainLoop conf [] [] 0
  Res.guard (fs.length ≠ FW_NUM_CHAIN_FIELDS)
  let pos := strtol_wrapper (fs.getD 3 []) 0 65536
  Res.guard (!pos.2)
  let rule := strtol_wrapper (fs.getD 5 []) 0 65536
  Res.guard (!rule.2)
  return { target := strlcpy (fs.getD 0 []) 64, table := strlcpy (fs.getD 1 []) 64, from_chain := strlcpy (fs.getD 2 []) 64,
           jump_rule_pos := pos.1, to_chain := strlcpy (fs.getD 4 []) 64 }

/-- A chain that may be switched off: it stays as `memset` left it. -/
def chainIf (on : Bool) (c : SrvVars) (name : Str) : Res FwChain :=
  if on then set_fw_chain_conf ((c name).getD []) else .ok {}

/-- `fw_config_init`, server/fw_util_iptables.c:1026-1090: the six chains, in the order of the access types. -/
def fw_config_init (c : SrvVars) : Res (List FwChain) := do
  let fwd := isOn c b!"ENABLE_IPT_FORWARDING" || isOn c b!"ENABLE_IPT_LOCAL_NAT"
  let snat := fwd && isOn c b!"ENABLE_IPT_SNAT"
  let a ← set_fw_chain_conf ((c b!"IPT_INPUT_ACCESS").getD [])
  let b ← chainIf (isOn c b!"ENABLE_IPT_OUTPUT") c b!"IPT_OUTPUT_ACCESS"
  let d ← chainIf fwd c b!"IPT_FORWARD_ACCESS"
  let e ← chainIf fwd c b!"IPT_DNAT_ACCESS"
  let f ← chainIf snat c b!"IPT_MASQUERADE_ACCESS"
  let g ← chainIf snat c b!"IPT_SNAT_ACCESS"
  return [a, b, d, e, g, f]

/-- What the functions of the firewall get to see of the configuration. -/
def fwConfOf (o : SrvOpts) : FwConf where
  fw_command := strlcpy ((o.config b!"FIREWALL_EXE").getD []) MAX_PATH_LEN
  prepend := isOn o.config b!"ENABLE_RULE_PREPEND"
  use_destination := isOn o.config b!"ENABLE_DESTINATION_RULE"
  snat_translate_ip := o.config b!"SNAT_TRANSLATE_IP"
  snat := isOn o.config b!"ENABLE_IPT_SNAT"
  nat_dns := isOn o.config b!"ENABLE_NAT_DNS"

end Fwknop
