import Verif.Spec.ClientRc
import Verif.Spec.AccessFile
import Verif.Model.SrvConf

/-!
# What a configuration of the server means

The text of a configuration file as a list of settings, what settings, options of the command line and
defaults make of the variables, and the fields of a chain.  The definitions mention no function that reads
the files.
-/

namespace Fwknop.Spec

/-- A value in a configuration file: a text, or the value of another variable with a suffix. -/
inductive ConfVal where
  | text (t : List Nat)
  | ref (name suffix : List Nat)
  deriving DecidableEq

/-- A line of a configuration file. -/
inductive ConfItem where
  | skip
  | set (name : List Nat) (v : ConfVal)
  deriving DecidableEq

/-- A capital letter or an underscore. -/
def NameChar (c : Nat) : Prop := (65 ≤ c ∧ c ≤ 90) ∨ c = 95

/-- No blank of any kind. -/
def NotBlank (c : Nat) : Prop := c ≠ 32 ∧ ¬ (9 ≤ c ∧ c ≤ 13)

/-- How a value is written: a text that does not look like a reference, or `$`, the name and the suffix, which
is not empty and has no blanks. -/
inductive WrittenAs : ConfVal → List Nat → Prop
  | text (c : Nat) (l : List Nat) : (c = 36 → ∃ d t, l = d :: t ∧ ¬ NameChar d) → WrittenAs (.text (c :: l)) (c :: l)
  | ref (name suffix : List Nat) : name ≠ [] → (∀ c ∈ name, NameChar c) → (∀ c ∈ suffix, NotBlank c) →
      (∃ d t, suffix = d :: t ∧ ¬ NameChar d) → WrittenAs (.ref name suffix) (36 :: (name ++ suffix))

/-- What a line (without its newline) means: nothing if it is empty or blank, begins with `#` or `;` or is a name
only; or a name, blanks and a value up to trailing blanks or a semicolon.  (Behind a value of one character
there must be no blanks.) -/
inductive ConfMeans : List Nat → ConfItem → Prop
  | blank (l : List Nat) : (∀ c ∈ l, SpTab c) → ConfMeans l .skip
  | comment (c : Nat) (l : List Nat) : c = 35 ∨ c = 59 → ConfMeans (c :: l) .skip
  | lone (pre name post : List Nat) : (∀ c ∈ pre, SpTab c) → (∀ c ∈ name, NotBlank c) → (∀ c ∈ post, SpTab c) →
      ConfMeans (pre ++ (name ++ post)) .skip
  | set (pre name gap value trail post : List Nat) (v : ConfVal) : (∀ c ∈ pre, SpTab c) →
      (pre = [] → name.headD 0 ≠ 35 ∧ name.headD 0 ≠ 59) → name ≠ [] → (∀ c ∈ name, NotBlank c) →
      gap ≠ [] → (∀ c ∈ gap, SpTab c) → WrittenAs v value → NotBlank (value.headD 0) → NotBlank (value.getLastD 0) →
      (∀ c ∈ value, c ≠ 59 ∧ c ≠ 10 ∧ c ≠ 13) → (∀ c ∈ trail, SpTab c) → (value.length = 1 → trail = []) →
      (post = [] ∨ ∃ t, post = 59 :: t) →
      ConfMeans (pre ++ (name ++ (gap ++ (value ++ (trail ++ post))))) (.set name v)

/-- A file whose lines, each of at most 1022 characters and ended by a newline, mean the given items. -/
def ConfHolds (content : List Nat) (items : List ConfItem) : Prop :=
  ∃ ls : List (List Nat × ConfItem), content = fileOf (ls.map (·.1)) ∧ items = ls.map (·.2) ∧
    ∀ p ∈ ls, ConfMeans p.1 p.2 ∧ IsText p.1 ∧ 10 ∉ p.1 ∧ p.1.length ≤ 1022

/-- Every file that can be read holds the items that are given for it. -/
def FilesHold (env : SrvEnv) (items : List Nat → Option (List ConfItem)) : Prop :=
  ∀ f, (env.file f = none ∧ items f = none) ∨ ∃ content is, env.file f = some content ∧ items f = some is ∧ ConfHolds content is

/-- The values of the variables. -/
abbrev Vars := List Nat → Option (List Nat)

def Vars.put (c : Vars) (name value : List Nat) : Vars := fun n => if n = name then some value else c n

/-- What a line does: unknown names and references to variables without a value have no effect. -/
def applyItem (c : Vars) : ConfItem → Vars
  | .skip => c
  | .set name (.text t) => if name ∈ config_map then c.put name t else c
  | .set name (.ref n suffix) =>
    if name ∈ config_map ∧ n ∈ config_map then
      match c n with
      | some v => c.put name ((v ++ suffix).take 1023)
      | none => c
    else c

/-- What the lines do, one after the other. -/
def applyItems (c : Vars) (items : List ConfItem) : Vars := items.foldl applyItem c

/-- The text that a line gives a variable. -/
def textOf (name : List Nat) : ConfItem → Option (List Nat)
  | .set n (.text t) => if n = name then some t else none
  | _ => none

/-- The value of the last line that sets a variable to a text. -/
def lastText (name : List Nat) : List ConfItem → Option (List Nat)
  | [] => none
  | i :: is => (lastText name is).or (textOf name i)

/-- The configuration file: that of the last -c. -/
def mainFile : List SrvArg → Option (List Nat)
  | [] => none
  | a :: as => (mainFile as).or (match a with
    | .config_file v => some v
    | _ => none)

/-- The list of the last -O. -/
def lastOverride : List SrvArg → Option (List Nat)
  | [] => none
  | a :: as => (lastOverride as).or (match a with
    | .override_config v => some v
    | _ => none)

/-- The file of the first -c. -/
def firstMain : List SrvArg → Option (List Nat)
  | [] => none
  | a :: as => match a with
    | .config_file v => some v
    | _ => firstMain as

/-- The variables before any file is read.  The list of files of -O counts; without -O, the first -c also
stands for one. -/
def before (env : SrvEnv) (args : List SrvArg) : Vars := fun n =>
  if n = b!"FIREWALL_EXE" then some env.firewall_exe
  else if n = b!"CONFIG_FILE" then some ((mainFile args).getD (env.conf_dir ++ b!"/fwknopd.conf"))
  else if n = b!"OVERRIDE_CONFIG" then (lastOverride args).or (firstMain args)
  else none

/-- The names in a list with commas. -/
def names (s : List Nat) : List (List Nat) := s.splitOn 44

/-- Some files are read, in this order; `none` if one of them cannot be read. -/
def readFiles (items : List Nat → Option (List ConfItem)) : List (List Nat) → Vars → Option Vars
  | [], c => some c
  | f :: fs, c => (items f).bind fun is => readFiles items fs (applyItems c is)

/-- The variables when the configuration file and then the files of the list that is then in OVERRIDE_CONFIG have been read. -/
def afterFiles (items : List Nat → Option (List ConfItem)) (env : SrvEnv) (args : List SrvArg) : Option Vars :=
  let c := before env args
  (readFiles items [(c b!"CONFIG_FILE").getD []] c).bind fun c =>
    match c b!"OVERRIDE_CONFIG" with
    | none => some c
    | some l => readFiles items (names (l.take 1023)) c

/-- No line refers to another variable. -/
def NoRefs (items : List ConfItem) : Prop := ∀ n m s, ConfItem.set n (.ref m s) ∉ items

/-- The items of some files, one after the other. -/
def contents (items : List Nat → Option (List ConfItem)) : List (List Nat) → Option (List ConfItem)
  | [] => some []
  | f :: fs => (items f).bind fun a => (contents items fs).map (a ++ ·)

/-- The files that are read: the configuration file and those of -O; without -O, the file of the first -c stands for one. -/
def filesRead (env : SrvEnv) (args : List SrvArg) : List (List Nat) :=
  ((mainFile args).getD (env.conf_dir ++ b!"/fwknopd.conf")) :: (match (lastOverride args).or (firstMain args) with
    | none => []
    | some l => names (l.take 1023))

/-- The last text that is given for a variable, if there is such a variable. -/
def settingOf (is : List ConfItem) : Vars := fun n => if n ∈ config_map then lastText n is else none

/-- Without the slash at the end, if there is something else. -/
def noSlash (s : List Nat) : List Nat := if s.length > 1 ∧ s.getLast? = some 47 then s.dropLast else s

/-- The variable that an option of the command line sets. -/
def argSets : SrvArg → Option (List Nat × List Nat)
  | .access_file v => some (b!"ACCESS_FILE", v)
  | .access_folder v => some (b!"ACCESS_FOLDER", noSlash v)
  | .digest_file v => some (b!"DIGEST_FILE", v)
  | .gpg_exe v => some (b!"GPG_EXE", v)
  | .gpg_home_dir v => some (b!"GPG_HOME_DIR", noSlash v)
  | .interface v => some (b!"PCAP_INTF", v)
  | .locale v => some (b!"LOCALE", v)
  | .pid_file v => some (b!"FWKNOP_PID_FILE", v)
  | .pcap_filter v => some (b!"PCAP_FILTER", v)
  | .pcap_file v => some (b!"PCAP_FILE", v)
  | .run_dir v => some (b!"FWKNOP_RUN_DIR", v)
  | .sudo_exe v => some (b!"SUDO_EXE", v)
  | _ => none

/-- The value that the command line gives a variable: the last option counts. -/
def argValue (name : List Nat) : List SrvArg → Option (List Nat)
  | [] => none
  | a :: as => (argValue name as).or (match argSets a with
    | some (n, v) => if n = name then some v else none
    | none => none)

/-- A file in a directory. -/
def inDir (dir name : List Nat) : List Nat :=
  ((if (dir.take 1023).getLast? = some 47 then dir.take 1023 else (dir.take 1023 ++ b!"/").take 1023) ++ name).take 1023

/-- The defaults of fwknopd.conf. -/
def defaultsOf (env : SrvEnv) (c : Vars) : List (List Nat × List Nat) :=
  [(b!"FWKNOP_CONF_DIR", env.conf_dir), (b!"ACCESS_FILE", env.conf_dir ++ b!"/access.conf"), (b!"FWKNOP_RUN_DIR", env.run_dir),
   (b!"FWKNOP_PID_FILE", inDir ((c b!"FWKNOP_RUN_DIR").getD env.run_dir) b!"fwknopd.pid"),
   (b!"DIGEST_FILE", inDir ((c b!"FWKNOP_RUN_DIR").getD env.run_dir) b!"digest.cache"),
   (b!"PCAP_INTF", b!"eth0"), (b!"ENABLE_PCAP_PROMISC", b!"N"), (b!"PCAP_DISPATCH_COUNT", b!"100"),
   (b!"PCAP_LOOP_SLEEP", b!"100000"), (b!"EXIT_AT_INTF_DOWN", b!"Y"), (b!"PCAP_FILTER", b!"udp port 62201"),
   (b!"ENABLE_SPA_PACKET_AGING", if c b!"PCAP_FILE" = none then b!"Y" else b!"N"), (b!"MAX_SPA_PACKET_AGE", b!"120"),
   (b!"ENABLE_DIGEST_PERSISTENCE", b!"Y"), (b!"RULES_CHECK_THRESHOLD", b!"20"), (b!"ENABLE_DESTINATION_RULE", b!"N"),
   (b!"MAX_SNIFF_BYTES", b!"1500"), (b!"ENABLE_IPT_FORWARDING", b!"N"), (b!"ENABLE_IPT_LOCAL_NAT", b!"N"),
   (b!"ENABLE_IPT_SNAT", b!"N"), (b!"ENABLE_IPT_OUTPUT", b!"N"), (b!"FLUSH_IPT_AT_INIT", b!"Y"), (b!"FLUSH_IPT_AT_EXIT", b!"Y"),
   (b!"IPT_INPUT_ACCESS", b!"ACCEPT, filter, INPUT, 1, FWKNOP_INPUT, 1"),
   (b!"IPT_OUTPUT_ACCESS", b!"ACCEPT, filter, OUTPUT, 1, FWKNOP_OUTPUT, 1"),
   (b!"IPT_FORWARD_ACCESS", b!"ACCEPT, filter, FORWARD, 1, FWKNOP_FORWARD, 1"),
   (b!"IPT_DNAT_ACCESS", b!"DNAT, nat, PREROUTING, 1, FWKNOP_PREROUTING, 1"),
   (b!"IPT_SNAT_ACCESS", b!"SNAT, nat, POSTROUTING, 1, FWKNOP_POSTROUTING, 1"),
   (b!"IPT_MASQUERADE_ACCESS", b!"MASQUERADE, nat, POSTROUTING, 1, FWKNOP_MASQUERADE, 1"),
   (b!"ENABLE_IPT_COMMENT_CHECK", b!"Y"), (b!"ENABLE_X_FORWARDED_FOR", b!"N"), (b!"ENABLE_RULE_PREPEND", b!"N"),
   (b!"ENABLE_NAT_DNS", b!"Y"), (b!"GPG_HOME_DIR", b!"/root/.gnupg"), (b!"GPG_EXE", env.gpg_exe), (b!"SUDO_EXE", env.sudo_exe),
   (b!"ENABLE_SPA_OVER_HTTP", b!"N"), (b!"ALLOW_ANY_USER_AGENT", b!"N"), (b!"ENABLE_TCP_SERVER", b!"N"), (b!"TCPSERV_PORT", b!"62201"),
   (b!"ENABLE_UDP_SERVER", b!"N"), (b!"UDPSERV_PORT", b!"62201"), (b!"UDPSERV_SELECT_TIMEOUT", b!"500000"),
   (b!"SYSLOG_IDENTITY", b!"fwknopd"), (b!"SYSLOG_FACILITY", b!"LOG_DAEMON")]

/-- A value, or the default. -/
def withDefaults (env : SrvEnv) (c : Vars) : Vars := fun n =>
  (c n).or (((defaultsOf env c).find? fun d => d.1 = n).map (·.2))

/-- The fields of a chain setting: separated by commas, blanks do not count. -/
def chainFields (s : List Nat) : List (List Nat) := (s.filter (· ≠ 32)).splitOn 44

/-- A chain setting and the chain that is made of it: six fields, of which the fourth is the position of the jump
rule; names are cut to 63 characters. -/
def ChainMeans (s : List Nat) (ch : FwChain) : Prop :=
  ∃ target table from_ pos to rule : List Nat, chainFields s = [target, table, from_, pos, to, rule] ∧ ∃ p : Int,
    ch = { target := target.take 63, table := table.take 63, from_chain := from_.take 63, jump_rule_pos := p, to_chain := to.take 63 } ∧
    0 ≤ p ∧ p ≤ 65536 ∧ ∀ n : Nat, Decimal pos n → n < 2 ^ 31 → p = n

/-- A switch is on if its value begins with Y or y. -/
def On (c : Vars) (name : List Nat) : Prop := ∃ t, c name = some (89 :: t) ∨ c name = some (121 :: t)

/-- The chains in the order of their use, and when they are used. -/
def chainSlots (c : Vars) : List (List Nat × Prop) :=
  let nat := On c b!"ENABLE_IPT_FORWARDING" ∨ On c b!"ENABLE_IPT_LOCAL_NAT"
  [(b!"IPT_INPUT_ACCESS", True), (b!"IPT_OUTPUT_ACCESS", On c b!"ENABLE_IPT_OUTPUT"), (b!"IPT_FORWARD_ACCESS", nat),
   (b!"IPT_DNAT_ACCESS", nat), (b!"IPT_SNAT_ACCESS", nat ∧ On c b!"ENABLE_IPT_SNAT"),
   (b!"IPT_MASQUERADE_ACCESS", nat ∧ On c b!"ENABLE_IPT_SNAT")]

/-- The chain settings. -/
def chainNames : List (List Nat) :=
  [b!"IPT_INPUT_ACCESS", b!"IPT_OUTPUT_ACCESS", b!"IPT_FORWARD_ACCESS", b!"IPT_DNAT_ACCESS", b!"IPT_SNAT_ACCESS", b!"IPT_MASQUERADE_ACCESS"]

/-- A numeric variable: its name, where its number is kept, and its bounds. -/
structure NumVar where
  name : List Nat
  number : SrvOpts → Int
  low : Int
  high : Int

/-- The numeric variables and their bounds. -/
def numVars : List NumVar :=
  [⟨b!"PCAP_LOOP_SLEEP", (·.pcap_loop_sleep), 1, 8388608⟩, ⟨b!"PCAP_DISPATCH_COUNT", (·.pcap_dispatch_count), 1, 8388608⟩,
   ⟨b!"MAX_SPA_PACKET_AGE", (·.max_spa_packet_age), 1, 100000⟩, ⟨b!"MAX_SNIFF_BYTES", (·.max_sniff_bytes), 1, 32768⟩,
   ⟨b!"RULES_CHECK_THRESHOLD", (·.rules_chk_threshold), 0, 131071⟩, ⟨b!"TCPSERV_PORT", (·.tcpserv_port), 1, 131071⟩,
   ⟨b!"UDPSERV_PORT", (·.udpserv_port), 1, 131071⟩, ⟨b!"UDPSERV_SELECT_TIMEOUT", (·.udpserv_select_timeout), 1, 8388608⟩]

/-- The names of the variables, as server/fwknopd.conf and the manual list them (with libpcap and iptables). -/
def documented : List (List Nat) :=
  [b!"CONFIG_FILE", b!"OVERRIDE_CONFIG", b!"PCAP_INTF", b!"PCAP_FILE", b!"ENABLE_PCAP_PROMISC", b!"PCAP_FILTER",
   b!"PCAP_DISPATCH_COUNT", b!"PCAP_LOOP_SLEEP", b!"ENABLE_PCAP_ANY_DIRECTION", b!"EXIT_AT_INTF_DOWN", b!"MAX_SNIFF_BYTES",
   b!"ENABLE_SPA_PACKET_AGING", b!"MAX_SPA_PACKET_AGE", b!"ENABLE_DIGEST_PERSISTENCE", b!"RULES_CHECK_THRESHOLD",
   b!"CMD_EXEC_TIMEOUT", b!"ENABLE_SPA_OVER_HTTP", b!"ALLOW_ANY_USER_AGENT", b!"ENABLE_TCP_SERVER", b!"TCPSERV_PORT",
   b!"ENABLE_UDP_SERVER", b!"UDPSERV_PORT", b!"UDPSERV_SELECT_TIMEOUT", b!"LOCALE", b!"SYSLOG_IDENTITY", b!"SYSLOG_FACILITY",
   b!"ENABLE_X_FORWARDED_FOR", b!"ENABLE_DESTINATION_RULE", b!"ENABLE_RULE_PREPEND", b!"ENABLE_NAT_DNS", b!"ENABLE_IPT_FORWARDING",
   b!"ENABLE_IPT_LOCAL_NAT", b!"ENABLE_IPT_SNAT", b!"SNAT_TRANSLATE_IP", b!"ENABLE_IPT_OUTPUT", b!"FLUSH_IPT_AT_INIT",
   b!"FLUSH_IPT_AT_EXIT", b!"IPT_INPUT_ACCESS", b!"IPT_OUTPUT_ACCESS", b!"IPT_FORWARD_ACCESS", b!"IPT_DNAT_ACCESS",
   b!"IPT_SNAT_ACCESS", b!"IPT_MASQUERADE_ACCESS", b!"ENABLE_IPT_COMMENT_CHECK", b!"FWKNOP_RUN_DIR", b!"FWKNOP_CONF_DIR",
   b!"ACCESS_FILE", b!"ACCESS_FOLDER", b!"FWKNOP_PID_FILE", b!"DIGEST_FILE", b!"GPG_HOME_DIR", b!"GPG_EXE", b!"SUDO_EXE",
   b!"FIREWALL_EXE", b!"VERBOSE", b!"FAULT_INJECTION_TAG"]

/-- The flags of the command line, each with the options that set it. -/
def flags : List ((SrvOpts → Bool) × List SrvArg) :=
  [(fun o => o.dump_config = 1, [.dump_config]), (fun o => o.kill = 1, [.kill]), (fun o => o.restart = 1, [.restart]),
   (fun o => o.status = 1, [.status]), (fun o => o.exit_after_parse_config, [.exit_parse_config]),
   (fun o => o.exit_parse_digest_cache, [.exit_parse_digest_cache]),
   (fun o => o.foreground, [.foreground, .exit_parse_config, .exit_parse_digest_cache]),
   (fun o => o.fw_list, [.fw_list, .fw_list_all]), (fun o => o.fw_list_all, [.fw_list_all]), (fun o => o.fw_flush, [.fw_flush]),
   (fun o => o.ipt_disable_check_support, [.no_ipt_check_support]), (fun o => o.pcap_any_direction, [.pcap_any_direction]),
   (fun o => o.rotate_digest_cache, [.rotate_digest_cache]), (fun o => o.test, [.test]),
   (fun o => o.enable_udp_server, [.udp_server]), (fun o => o.syslog_enable, [.syslog_enable])]

end Fwknop.Spec
