import Verif.Model.Pf

/-!
# The ipfw back end (server/fw_util_ipfw.c)

Modelled for a build with `execvp` that is not for an Apple system.  Log messages and the counter
`total_rules`, which only decides whether the purge is worth trying, are left out.
-/

namespace Fwknop

/-- The states of a rule number, server/fw_util_ipfw.h:33-38. -/
inductive RuleState where
  | free | active | expired | marked
  deriving DecidableEq, Repr

/-- The configuration, server/fwknopd_common.h:564-580: FIREWALL_EXE, IPFW_START_RULE_NUM, IPFW_MAX_RULES,
IPFW_ACTIVE_SET_NUM, IPFW_EXPIRE_SET_NUM (all `unsigned short`), ENABLE_DESTINATION_RULE,
FLUSH_IPFW_AT_INIT, FLUSH_IPFW_AT_EXIT and IPFW_ADD_CHECK_STATE. -/
structure IpfwConf where
  fw_command : Str
  start : Nat := 10000
  max_rules : Nat := 65535
  active_set : Nat := 1
  expire_set : Nat := 2
  use_destination : Bool := false
  flush_at_init : Bool := true
  flush_at_exit : Bool := true
  check_state : Bool := false

/-- What changes: the rule map, the number of active rules, the time of the next check and the world. -/
structure IpfwSt (σ : Type) where
  map : List RuleState
  active_rules : Nat
  next_expire : Int
  world : σ
  deriving DecidableEq, Repr

/-- A command line: the program and a text after it. -/
def ipfwCmd (cf : IpfwConf) (args : Str) : Str := cmdBuf (cf.fw_command ++ b!" " ++ args)

/-- `get_next_rule_num`, server/fw_util_ipfw.c:45-57; the sum is an `unsigned short`. -/
def get_next_rule_num (start : Nat) : (i : Nat) → List RuleState → Nat
  | _, [] => 0
  | i, m :: ms => if m = .free then (start + i) % 2 ^ 16 else get_next_rule_num start (i + 1) ms

/-- `fwc.rule_map[num - fwc.start_rule_num] = v`. -/
def setMap (cf : IpfwConf) (map : List RuleState) (num : Nat) (v : RuleState) : Res (List RuleState) := do
  Res.mem (num < cf.start ∨ num ≥ cf.start + map.length)
  return map.set (num - cf.start) v

/-- `ipfw_set_exists`, server/fw_util_ipfw.c:69-95, IPFW_LIST_SET_RULES_ARGS. -/
def ipfw_set_exists {σ : Type} (cf : IpfwConf) (T : Tool σ) (set : Nat) (w : σ) : Res (Bool × σ) := do
  let r ← run_extcmd T (ipfwCmd cf (b!"set " ++ decStr set ++ b!" list")) STANDARD_CMD_OUT_BUFSIZE w
  return (r.1.success && r.1.buf != [], r.2)

/-- `fw_cleanup`, server/fw_util_ipfw.c:405-474, IPFW_DEL_RULE_SET_ARGS: true if the return value is 0. -/
def ipfw_cleanup {σ : Type} (cf : IpfwConf) (T : Tool σ) (w : σ) : Res (Bool × σ) := do
  if !cf.flush_at_exit then return (true, w)
  else if cf.active_set > 0 then do
    let r ← ipfw_set_exists cf T cf.active_set w
    if r.1 then do
      let x ← run_extcmd T (ipfwCmd cf (b!"delete set " ++ decStr cf.active_set)) 1 r.2
      return (x.1.success, x.2)
    else return (true, r.2)
  else return (true, w)

/-- The check-state rule, server/fw_util_ipfw.c:283-310, IPFW_ADD_CHECK_STATE_ARGS. -/
def ipfwCheckState {σ : Type} (cf : IpfwConf) (T : Tool σ) (map : List RuleState) (w : σ) :
    Res (List RuleState × σ) := do
  if cf.check_state then do
    let r ← run_extcmd T (ipfwCmd cf (b!"add " ++ decStr cf.start ++ b!" set " ++ decStr cf.active_set
      ++ b!" check-state")) CMD_BUFSIZE w
    if r.1.success then do
      let map ← setMap cf map cf.start .active
      return (map, r.2)
    else return (map, r.2)
  else return (map, w)

/-- Disabling the expire set, server/fw_util_ipfw.c:312-335, IPFW_DISABLE_SET_ARGS. -/
def ipfwDisable {σ : Type} (cf : IpfwConf) (T : Tool σ) (w : σ) : Res σ := do
  if cf.expire_set > 0 ∧ cf.flush_at_init then do
    let r ← run_extcmd T (ipfwCmd cf (b!"set disable " ++ decStr cf.expire_set)) CMD_BUFSIZE w
    return r.2
  else return w

/-- A rule number is read from a listing and entered in the map if it is in range,
server/fw_util_ipfw.c:381-391 and 889-896; the number is stored in an `unsigned short`. -/
def enter (cf : IpfwConf) (s : Str) (v : RuleState) (map : List RuleState) : Res (List RuleState) :=
  let r := strtol_wrapper s 0 (-1)
  let n := (r.1 % 2 ^ 16).toNat
  if r.2 ∧ n ≥ cf.start ∧ n < cf.start + cf.max_rules then setMap cf map n v else .ok map

/-- The loop over the lines of the expire set, server/fw_util_ipfw.c:373-400, on the text that is left;
its length is fuel enough. -/
def initLoop (cf : IpfwConf) : (fuel : Nat) → Str → List RuleState → Res (List RuleState)
  | 0, _, map => .ok map
  | fuel + 1, s, map =>
    match findSuffix (hasPrefix b!"# DISABLED ") s with
    | none => .ok map
    | some p =>
      let t := s.drop (p + 11)
      if isDigit (t.headD 0) then do
        let map ← enter cf t .expired map
        initLoop cf fuel t map
      else initLoop cf fuel t map

/-- `fw_initialize`, server/fw_util_ipfw.c:253-403, IPFW_LIST_EXP_SET_RULES_ARGS, after `fw_config_init`,
which clears the other fields; `none` if it fails. -/
def ipfw_initialize {σ : Type} (cf : IpfwConf) (T : Tool σ) (w : σ) : Res (Option (IpfwSt σ)) := do
  let c ← if cf.flush_at_init then ipfw_cleanup cf T w else pure (true, w)
  if !c.1 then return none
  else do
    let m ← ipfwCheckState cf T (List.replicate cf.max_rules .free) c.2
    let w ← ipfwDisable cf T m.2
    let r ← run_extcmd T (ipfwCmd cf (b!"-S set " ++ decStr cf.expire_set ++ b!" list")) STANDARD_CMD_OUT_BUFSIZE w
    if !r.1.success then return none
    else do
      let map ← initLoop cf (r.1.buf.length + 1) r.1.buf m.1
      return some ⟨map, 0, 0, r.2⟩

/-- The destination of a rule, server/fw_util_ipfw.c:539. -/
def ipfwDst (cf : IpfwConf) (sp : SpaData) : Str := if cf.use_destination then sp.pkt_destination_ip else b!"me"

/-- IPFW_ADD_RULE_ARGS, server/fw_util_ipfw.c:533-542. -/
def ipfwAddArgs (cf : IpfwConf) (num proto : Nat) (src dst : Str) (port : Int) (exp_ts : Nat) : Str :=
  b!"add " ++ decStr num ++ b!" set " ++ decStr cf.active_set ++ b!" pass " ++ decStr proto ++ b!" from " ++ src
    ++ b!" to " ++ dst ++ b!" dst-port " ++ decStr (port % 2 ^ 32).toNat ++ b!" setup keep-state // _exp_"
    ++ decStr exp_ts

/-- The loop over the ports, server/fw_util_ipfw.c:529-573. -/
def ipfwPorts {σ : Type} (cf : IpfwConf) (T : Tool σ) (sp : SpaData) (num exp_ts : Nat) (now : Int) :
    List PortEnt → IpfwSt σ → Res (IpfwSt σ)
  | [], s => .ok s
  | p :: ps, s => do
    let r ← run_extcmd T (ipfwCmd cf (ipfwAddArgs cf num p.proto sp.use_src_ip (ipfwDst cf sp) p.port exp_ts))
      CMD_BUFSIZE s.world
    if r.1.success then do
      let map ← setMap cf s.map num .active
      ipfwPorts cf T sp num exp_ts now ps
        ⟨map, (s.active_rules + 1) % 2 ^ 16, nextExpire s.next_expire exp_ts now, r.2⟩
    else ipfwPorts cf T sp num exp_ts now ps { s with world := r.2 }

/-- `process_spa_request`, server/fw_util_ipfw.c:480-597.  The caller ignores the return value, and the
result of `expand_acc_port_list` is not looked at. -/
def ipfw_process_spa_request {σ : Type} (cf : IpfwConf) (T : Tool σ) (sp : SpaData) (now : Int)
    (s : IpfwSt σ) : Res (IpfwSt σ) :=
  if sp.message_type = FKO_ACCESS_MSG ∨ sp.message_type = FKO_CLIENT_TIMEOUT_ACCESS_MSG then
    let num := get_next_rule_num cf.start 0 s.map
    if num = 0 then .ok s
    else ipfwPorts cf T sp num (expTs now sp.fw_access_timeout) now (portsRead sp.spa_message_remain []) s
  else .ok s

/-! ## Expiry -/

/-- What the loop of `check_firewall_rules` comes to. -/
inductive Found where
  /-- no rule to move -/
  | nothing
  /-- a line that is not understood -/
  | error
  /-- the number of a rule to move -/
  | rule (num : Nat)
  deriving DecidableEq, Repr

/-- The rule number at the start of the line of position `k`, server/fw_util_ipfw.c:698-745: it is copied to
`rule_num_str[6]`, whatever its length, and stored in an `unsigned short`.  The branch of lines 711-723 is
never taken: the loop before it ends at a line feed or at the start.  A number that `strtol_wrapper` refuses
is `none`. -/
def ipfwRuleNum (buf : Str) (k : Nat) : Res (Option (Option Nat)) :=
  let a := pfLineStart buf k
  match strchr (buf.drop a) 32 with
  | none => .ok none
  | some n => do
    Res.mem (n + 1 > 6)
    let r := strtol_wrapper ((buf.drop a).take n) 0 (-1)
    return some (if r.2 then some (r.1 % 2 ^ 16).toNat else none)

/-- The loop of `check_firewall_rules`, server/fw_util_ipfw.c:672-794, from the position `ndx` of a mark.
`zero_cmd_buffers` clears the listing as well, so that the loop ends after the first rule it moves.
`min_exp` stays 0: it is the smaller of 0 and a time. -/
def ipfwScan (now : Int) (buf : Str) : (fuel : Nat) → (ndx : Option Nat) → Res Found
  | 0, _ => .ok .nothing
  | _ + 1, none => .ok .nothing
  | fuel + 1, some p =>
    let k := p + EXPIRE_COMMENT_PREFIX.length
    let next := (findExp (buf.drop k)).map (· + k)
    let e := chop_spaces ((buf.drop k).take 11)
    if !is_digits e then ipfwScan now buf fuel next
    else if (digitsVal 10 e : Int) ≤ now then do
      let n ← ipfwRuleNum buf k
      match n with
      | none => return .error
      | some none => ipfwScan now buf fuel next
      | some (some n) => return .rule n
    else ipfwScan now buf fuel next

/-- `fwc.next_expire` at the end, server/fw_util_ipfw.c:799-802, `min_exp` being 0. -/
def ipfwDone {σ : Type} (s : IpfwSt σ) : IpfwSt σ :=
  if s.active_rules < 1 then { s with next_expire := 0 } else s

/-- Moving a rule to the expire set, server/fw_util_ipfw.c:747-775, IPFW_MOVE_RULE_ARGS. -/
def ipfwMove {σ : Type} (cf : IpfwConf) (T : Tool σ) (num : Nat) (s : IpfwSt σ) : Res (IpfwSt σ) := do
  let r ← run_extcmd T (ipfwCmd cf (b!"set move rule " ++ decStr num ++ b!" to " ++ decStr cf.expire_set))
    CMD_BUFSIZE s.world
  if r.1.success then do
    let map ← setMap cf s.map num .expired
    return { s with map := map, active_rules := s.active_rules - 1, world := r.2 }
  else return { s with world := r.2 }

/-- The active rules are listed and one that has expired is moved, server/fw_util_ipfw.c:630-803. -/
def ipfwCheckDue {σ : Type} (cf : IpfwConf) (T : Tool σ) (now : Int) (s : IpfwSt σ) : Res (IpfwSt σ) := do
  let r ← run_extcmd T (ipfwCmd cf (b!"set " ++ decStr cf.active_set ++ b!" list")) STANDARD_CMD_OUT_BUFSIZE s.world
  let buf := chop_newline r.1.buf
  if !r.1.success then return { s with world := r.2 }
  else
    match findExp buf with
    | none => return { s with active_rules := s.active_rules - 1, world := r.2 }
    | some p => do
      let f ← ipfwScan now buf (buf.length + 1) (some p)
      match f with
      | .nothing => return ipfwDone { s with world := r.2 }
      | .error => return ipfwDone { s with active_rules := s.active_rules - 1, world := r.2 }
      | .rule n => do
        let s ← ipfwMove cf T n { s with world := r.2 }
        return ipfwDone s

/-- `check_firewall_rules`, server/fw_util_ipfw.c:602-803; its second argument is not used. -/
def ipfw_check_firewall_rules {σ : Type} (cf : IpfwConf) (T : Tool σ) (now : Int) (s : IpfwSt σ) :
    Res (IpfwSt σ) :=
  let s := if s.active_rules > cf.max_rules then { s with active_rules := 0 } else s
  if s.active_rules = 0 ∨ s.next_expire > now then .ok s
  else ipfwCheckDue cf T now s

/-! ## Purging -/

/-- The loop over the dynamic rules, server/fw_util_ipfw.c:873-900, on the text after a line feed; its
length is fuel enough. -/
def dynLoop (cf : IpfwConf) : (fuel : Nat) → Str → List RuleState → Res (List RuleState)
  | 0, _, map => .ok map
  | fuel + 1, s, map =>
    let t := s.dropWhile (fun c => !isDigit c)
    if t = [] then .ok map
    else do
      let map ← enter cf t .marked map
      match strchr t 10 with
      | none => return map
      | some n => dynLoop cf fuel (t.drop (n + 1)) map

/-- The rules with dynamic rules are marked, server/fw_util_ipfw.c:838-901; `none`: give up. -/
def ipfwMark (cf : IpfwConf) (buf : Str) (map : List RuleState) : Res (Option (List RuleState)) :=
  if buf = [] then .ok (some map)
  else
    match findSuffix (hasPrefixI b!"## Dynamic rules") buf with
    | none => .ok none
    | some p =>
      match strchr (buf.drop p) 10 with
      | none => .ok none
      | some n => do
        let map ← dynLoop cf (buf.length + 1) (buf.drop (p + n + 1)) map
        return some map

/-- One rule number, server/fw_util_ipfw.c:909-950, IPFW_DEL_RULE_ARGS; the number is an
`unsigned short`. -/
def ipfwPurge1 {σ : Type} (cf : IpfwConf) (T : Tool σ) (i : Nat) (s : IpfwSt σ) : Res (IpfwSt σ) :=
  match s.map.getD i .free with
  | .marked => .ok { s with map := s.map.set i .expired }
  | .expired => do
    let num := (cf.start + i) % 2 ^ 16
    let r ← run_extcmd T (ipfwCmd cf (b!"set " ++ decStr cf.expire_set ++ b!" delete " ++ decStr num))
      STANDARD_CMD_OUT_BUFSIZE s.world
    if r.1.success then do
      let map ← setMap cf s.map num .free
      return { s with map := map, world := r.2 }
    else return { s with world := r.2 }
  | _ => .ok s

/-- The loop over the rule map, server/fw_util_ipfw.c:905-951: `n` numbers from `i` on. -/
def ipfwPurgeLoop {σ : Type} (cf : IpfwConf) (T : Tool σ) : (i n : Nat) → IpfwSt σ → Res (IpfwSt σ)
  | _, 0, s => .ok s
  | i, n + 1, s => do
    let s ← ipfwPurge1 cf T i s
    ipfwPurgeLoop cf T (i + 1) n s

/-- `ipfw_purge_expired_rules`, server/fw_util_ipfw.c:808-952, IPFW_LIST_SET_DYN_RULES_ARGS. -/
def ipfw_purge_expired_rules {σ : Type} (cf : IpfwConf) (T : Tool σ) (s : IpfwSt σ) : Res (IpfwSt σ) := do
  let r ← run_extcmd T (ipfwCmd cf (b!"-d set " ++ decStr cf.expire_set ++ b!" list")) STANDARD_CMD_OUT_BUFSIZE s.world
  if !r.1.success then return { s with world := r.2 }
  else do
    let m ← ipfwMark cf r.1.buf s.map
    match m with
    | none => return { s with world := r.2 }
    | some map => ipfwPurgeLoop cf T 0 cf.max_rules { s with map := map, world := r.2 }

end Fwknop
