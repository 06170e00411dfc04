import Verif.Model.Basic

/-!
# The main function of fwknopd (server/fwknopd.c: main; server/utils.c: clean_exit)

The order of the parts of the daemon, the exits between them, and the loop for reloads.  What the parts do is modelled
elsewhere; here each is one act and one answer.  The builds with AFL or libfiu, the logging and the locale are left out.
-/

namespace Fwknop

/-- What `main` does, one act for each call. -/
inductive MainAct where
  /-- `stop_fwknopd`, `status_fwknopd`, `restart_fwknopd` -/
  | stopOther | askOther | restartOther
  /-- `check_dir_path`, `set_sig_handlers`, `fw_config_init`, `fw_dump_rules`, the access files -/
  | runDir | handlers | fwConfig | fwList | access
  /-- `dump_config`, `setup_pid`, `init_digest_cache`, `fw_initialize`, `fw_cleanup` -/
  | dump | pid | cache | fwInit | fwCleanup
  /-- `nfq_capture`, `run_udp_server`, `run_tcp_server`, `pcap_capture`, `handle_signals` -/
  | nfq | udp | tcp | pcap | signals
  | exit (ok : Bool)
deriving DecidableEq

/-- The options of the command line that `main` looks at. -/
structure MainArgs where
  kill : Bool := false
  status : Bool := false
  restart : Bool := false
  fw_list : Bool := false
  fw_flush : Bool := false
  dump_config : Bool := false
  exit_after_parse_config : Bool := false
  exit_parse_digest_cache : Bool := false
  test : Bool := false
  nfq : Bool := false
  udp : Bool := false

/-- USE_LIBPCAP and USE_LIBNETFILTER_QUEUE. -/
structure MainBuild where
  pcap : Bool
  nfq : Bool

/-- What one turn of the loop meets: whether each part succeeds (for `config_init` and the parts that end the program themselves:
whether they return; how `config_init` ends the program is not modelled), whether a stanza needs the firewall, the three settings, and whether `handle_signals` asks for another turn. -/
structure MainTurn where
  config : Bool
  control : Bool
  runDir : Bool
  handlers : Bool
  fwConfig : Bool
  access : Bool
  stanzas : Bool
  needsFw : Bool
  pid : Bool
  cache : Bool
  fwInit : Bool
  confNfq : Str
  confUdp : Str
  confTcp : Str
  nfq : Bool
  udp : Bool
  tcp : Bool
  pcap : Bool
  again : Bool

/-- `strncasecmp(s, "Y", 1) == 0`. -/
def startsY (s : Str) : Bool := s.head? == some 89 || s.head? == some 121

/-- `strncasecmp(s, "N", 1) == 0`. -/
def startsN (s : Str) : Bool := s.head? == some 78 || s.head? == some 110

/-- `clean_exit`, server/utils.c:222-243: `fw` is `enable_fw` and `flag` is FW_CLEANUP. -/
def mainExit (a : MainArgs) (fw flag ok : Bool) : List MainAct × Bool :=
  (if !a.test && fw && flag then [.fwCleanup, .exit ok] else [.exit ok], false)

/-- What was done before. -/
def mainAfter (l : List MainAct) (r : List MainAct × Bool) : List MainAct × Bool := (l ++ r.1, r.2)

/-- server/fwknopd.c:292-310: from the pcap capture to the end of the turn, and :313-331.  (The signals for the TCP server are in Model/TcpServer.) -/
def mainPcap (b : MainBuild) (a : MainArgs) (t : MainTurn) : List MainAct × Bool :=
  let rest : List MainAct × Bool := mainAfter [.signals] (if t.again then ([], true) else mainExit a t.needsFw true true)
  if b.pcap then
    if !a.udp && startsN t.confUdp then
      mainAfter [.pcap] (if t.pcap then rest else mainExit a t.needsFw true false)
    else mainExit a t.needsFw true false
  else rest

/-- server/fwknopd.c:281-288. -/
def mainTcp (b : MainBuild) (a : MainArgs) (t : MainTurn) : List MainAct × Bool :=
  if startsY t.confTcp then
    mainAfter [.tcp] (if t.tcp then mainPcap b a t else mainExit a t.needsFw true false)
  else mainPcap b a t

/-- server/fwknopd.c:247-271: the modes. -/
def mainModes (b : MainBuild) (a : MainArgs) (t : MainTurn) : List MainAct × Bool :=
  if b.nfq && (a.nfq || startsY t.confNfq) then
    mainAfter [.nfq] (if t.nfq then mainTcp b a t else mainExit a t.needsFw true false)
  else if a.udp || startsY t.confUdp then
    mainAfter [.udp] (mainExit a t.needsFw true t.udp)
  else mainTcp b a t

/-- server/fwknopd.c:202-245: from the pid on. -/
def mainStart (b : MainBuild) (a : MainArgs) (t : MainTurn) : List MainAct × Bool :=
  mainAfter (if a.exit_parse_digest_cache then [] else [.pid]) <|
  if !a.exit_parse_digest_cache && !t.pid then mainExit a t.needsFw false false
  else mainAfter [.cache] <|
  if !t.cache then mainExit a t.needsFw false false
  else if a.exit_parse_digest_cache then mainExit a t.needsFw false true
  else if !a.test && t.needsFw then
    mainAfter [.fwInit] (if t.fwInit then mainModes b a t else mainExit a t.needsFw true false)
  else mainModes b a t

/-- One turn of the loop of `main`, server/fwknopd.c:81-311: the acts, and whether another turn follows. -/
def mainTurn (b : MainBuild) (a : MainArgs) (t : MainTurn) : List MainAct × Bool :=
  if !t.config then mainExit a false false false
  else if a.kill then mainAfter [.stopOther] (mainExit a false false t.control)
  else if a.status then mainAfter [.askOther] (mainExit a false false t.control)
  else if a.restart then mainAfter [.restartOther] (mainExit a false false t.control)
  else mainAfter [.runDir] <|
  if !t.runDir then mainExit a false false false
  else mainAfter [.handlers] <|
  if !t.handlers then mainExit a false false false
  else mainAfter [.fwConfig] <|
  if !t.fwConfig then mainExit a false false false
  else if a.fw_list then mainAfter [.fwList] (mainExit a false false true)
  else if a.fw_flush then mainExit a true true true
  else mainAfter [.access] <|
  if !t.access then mainExit a t.needsFw false false
  else if !t.stanzas then mainExit a t.needsFw false false
  else if a.dump_config then mainAfter [.dump] (mainExit a t.needsFw false true)
  else if a.exit_after_parse_config then mainExit a t.needsFw false true
  else mainStart b a t

/-- The loop over what the turns meet; the list is as long as the history is looked at. -/
def mainRun (b : MainBuild) (a : MainArgs) : List MainTurn → List MainAct
  | [] => []
  | t :: ts => (mainTurn b a t).1 ++ if (mainTurn b a t).2 then mainRun b a ts else []

end Fwknop
