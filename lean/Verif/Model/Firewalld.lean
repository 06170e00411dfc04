import Verif.Model.IptInit

/-!
# The firewalld back end (server/fw_util_firewalld.c)

The file is fw_util_iptables.c with other names, except for what is defined here.  The following functions
are the same text but for names and log messages, so that the definitions of Model/Iptables and
Model/IptInit, with the command of `fdConf`, model both:

* `add_jump_rule` 401-434 (`add_jump_rule`), `create_chain` 778-808 (`create_chain`),
  `create_rule` 1166-1199 (`create_rule`),
* the rule texts FIREWD_RULE_ARGS … of fw_util_firewalld.h:47-54 (`iptRuleArgs`, `iptOutRuleArgs`,
  `ruleEnd`),
* `rm_expired_rules` 1676-1828 (`rm_expired_rules`), `check_firewall_rules` 1834-1913
  (`check_firewall_rules`).

Modelled for a build with `execvp`, without libnetfilter_queue, and a firewalld whose iptables supports
`-C` (have_firewd_chk_support = 1).
-/

namespace Fwknop

abbrev FIREWD_CMD_PREFIX : Str := b!"--direct --passthrough ipv4"
abbrev FIREWD_CMD_FAIL_STR : Str := b!"COMMAND_FAILED"

/-- The configuration with the command of `fw_config_init`, server/fw_util_firewalld.c:1043-1048:
`cf.fw_command` is FIREWALL_EXE, a buffer of 512 bytes holds it with the prefix. -/
def fdConf (cf : FwConf) : FwConf :=
  { cf with fw_command := (cf.fw_command ++ b!" " ++ FIREWD_CMD_PREFIX ++ b!" ").take 511 }

/-- A program with an exit status: is `pid_status` 0? -/
structure StatusTool (σ : Type) extends Tool σ where
  status0 : List Str → σ → Bool

/-- `rule_exists_chk_support`, server/fw_util_firewalld.c:187-222, FIREWD_CHK_RULE_ARGS. -/
def fd_rule_exists {σ : Type} (cf : FwConf) (T : Tool σ) (chain rule : Str) (w : σ) : Res (Bool × σ) := do
  let r ← run_extcmd T (cmdBuf (cf.fw_command ++ b!" -C " ++ chain ++ b!" " ++ rule)) CMD_BUFSIZE w
  return (hasPrefix b!"success" (chop_newline r.1.buf), r.2)

/-- `chain_exists`, server/fw_util_firewalld.c:436-469, FIREWD_CHAIN_EXISTS_ARGS. -/
def fd_chain_exists {σ : Type} (cf : FwConf) (T : Tool σ) (ch : FwChain) (w : σ) : Res (Bool × σ) := do
  let r ← run_extcmd T (cmdBuf (cf.fw_command ++ b!" -t " ++ ch.table ++ b!" -L " ++ ch.to_chain ++ b!" -n"))
    CMD_BUFSIZE w
  return (!strIn (chop_newline r.1.buf) FIREWD_CMD_FAIL_STR, r.2)

/-- `jump_rule_exists_chk_support`, server/fw_util_firewalld.c:471-491, FIREWD_CHK_JUMP_RULE_ARGS. -/
def fd_jump_rule_exists {σ : Type} (cf : FwConf) (T : Tool σ) (ch : FwChain) (w : σ) : Res (Bool × σ) :=
  fd_rule_exists cf T ch.from_chain (cmdBuf (b!"-t " ++ ch.table ++ b!" -j " ++ ch.to_chain)) w

/-- `mk_chain`, server/fw_util_firewalld.c:810-826. -/
def fd_mk_chain {σ : Type} (cf : FwConf) (T : Tool σ) (ch : FwChain) (w : σ) : Res σ := do
  let e ← fd_chain_exists cf T ch w
  let w ← if e.1 then .ok e.2 else create_chain cf T ch e.2
  let j ← fd_jump_rule_exists cf T ch w
  if j.1 then return j.2 else add_jump_rule cf T ch j.2

/-- `firewd_rule`, server/fw_util_firewalld.c:1201-1262, for the rule text `rule` in the chain of type
`i`, as `ipt_rule`. -/
def firewd_rule {σ : Type} (cf : FwConf) (T : Tool σ) (i : Nat) (rule : Str) (exp_ts : Nat) (now : Int)
    (s : FwSt σ) : Res (FwSt σ) := do
  let ch := s.at i
  let w ← fd_mk_chain cf T ch s.world
  let e ← fd_rule_exists cf T ch.to_chain (cmdBuf rule) w
  if e.1 then return { s with world := e.2 }
  else do
    let c ← create_rule cf T ch.to_chain (cmdBuf rule) e.2
    if c.1 then
      return { chain := s.chain.set i { ch with active_rules := ch.active_rules + 1,
                                                next_expire := nextExpire ch.next_expire exp_ts now }
               world := c.2 }
    else return { s with world := c.2 }

/-- The rules for one port of an ordinary request, server/fw_util_firewalld.c:1650-1664. -/
def fdPortRules {σ : Type} (cf : FwConf) (T : Tool σ) (sp : SpaData) (exp_ts : Nat) (now : Int) (p : PortEnt)
    (s : FwSt σ) : Res (FwSt σ) := do
  let s ← firewd_rule cf T IPT_INPUT_ACCESS
    (iptRuleArgs (s.at IPT_INPUT_ACCESS) p.proto sp.use_src_ip (dstOf cf sp) p.port exp_ts) exp_ts now s
  if (s.at IPT_OUTPUT_ACCESS).to_chain ≠ [] then
    firewd_rule cf T IPT_OUTPUT_ACCESS
      (iptOutRuleArgs (s.at IPT_OUTPUT_ACCESS) p.proto sp.use_src_ip (dstOf cf sp) p.port exp_ts) exp_ts now s
  else return s

/-- The loop over the ports, server/fw_util_firewalld.c:1648-1666. -/
def fdPortLoop {σ : Type} (cf : FwConf) (T : Tool σ) (sp : SpaData) (exp_ts : Nat) (now : Int) :
    List PortEnt → FwSt σ → Res (FwSt σ)
  | [], s => .ok s
  | p :: ps, s => do
    let s ← fdPortRules cf T sp exp_ts now p s
    fdPortLoop cf T sp exp_ts now ps s

/-- `forward_access_rule`, server/fw_util_firewalld.c:1265-1316, FIREWD_FWD_RULE_ARGS and
FIREWD_FWD_ALL_RULE_ARGS. -/
def fd_forward_access_rule {σ : Type} (cf : FwConf) (T : Tool σ) (acc : Stanza) (nat_port : Int) (fst_proto : Nat)
    (sp : SpaData) (exp_ts : Nat) (now : Int) (s : FwSt σ) : Res (FwSt σ) :=
  let ch := s.at IPT_FORWARD_ACCESS
  let rule := if acc.forward_all then
      b!"-t " ++ ch.table ++ b!" -s " ++ sp.use_src_ip ++ ruleEnd exp_ts ch.target
    else
      b!"-t " ++ ch.table ++ b!" -p " ++ decStr fst_proto ++ b!" -s " ++ sp.use_src_ip ++ b!" --dport "
        ++ decStrInt nat_port ++ ruleEnd exp_ts ch.target
  firewd_rule cf T IPT_FORWARD_ACCESS rule exp_ts now s

/-- `dnat_rule`, server/fw_util_firewalld.c:1318-1375, FIREWD_DNAT_RULE_ARGS and
FIREWD_DNAT_ALL_RULE_ARGS. -/
def fd_dnat_rule {σ : Type} (cf : FwConf) (T : Tool σ) (acc : Stanza) (nat_ip : Str) (nat_port : Int)
    (fst : PortEnt) (sp : SpaData) (exp_ts : Nat) (now : Int) (s : FwSt σ) : Res (FwSt σ) :=
  let ch := s.at IPT_DNAT_ACCESS
  let rule := if acc.forward_all then
      b!"-t " ++ ch.table ++ b!" -s " ++ sp.use_src_ip ++ b!" -d " ++ dstOf cf sp ++ ruleEnd exp_ts ch.target
        ++ b!" --to-destination " ++ nat_ip
    else
      b!"-t " ++ ch.table ++ b!" -p " ++ decStr fst.proto ++ b!" -s " ++ sp.use_src_ip ++ b!" -d " ++ dstOf cf sp
        ++ b!" --dport " ++ decStrInt fst.port ++ ruleEnd exp_ts ch.target ++ b!" --to-destination " ++ nat_ip
        ++ b!":" ++ decStrInt nat_port
  firewd_rule cf T IPT_DNAT_ACCESS rule exp_ts now s

/-- `snat_rule`, server/fw_util_firewalld.c:1377-1492, FIREWD_SNAT_RULE_ARGS and
FIREWD_SNAT_ALL_RULE_ARGS; the target is that of `snatTarget` (1399-1420, 1438-1468). -/
def fd_snat_rule {σ : Type} (cf : FwConf) (T : Tool σ) (acc : Stanza) (nat_ip : Str) (nat_port : Int)
    (fst : PortEnt) (sp : SpaData) (exp_ts : Nat) (now : Int) (s : FwSt σ) : Res (FwSt σ) :=
  let t := snatTarget cf acc fst.port
  let ch := s.at t.1
  let rule := if acc.forward_all then
      b!"-t " ++ ch.table ++ b!" -s " ++ sp.use_src_ip ++ ruleEnd exp_ts ch.target ++ b!" " ++ t.2
    else
      b!"-t " ++ ch.table ++ b!" -p " ++ decStr fst.proto ++ b!" -d " ++ nat_ip ++ b!" --dport "
        ++ decStrInt nat_port ++ ruleEnd exp_ts ch.target ++ b!" " ++ t.2
  firewd_rule cf T t.1 rule exp_ts now s

/-- The rule that lets the packets of a NAT request in or through, server/fw_util_firewalld.c:1616-1630. -/
def fdNatAccessRule {σ : Type} (cf : FwConf) (T : Tool σ) (acc : Stanza) (sp : SpaData) (fst : PortEnt)
    (nat_port : Int) (exp_ts : Nat) (now : Int) (s : FwSt σ) : Res (FwSt σ) :=
  if sp.message_type = FKO_LOCAL_NAT_ACCESS_MSG ∨ sp.message_type = FKO_CLIENT_TIMEOUT_LOCAL_NAT_ACCESS_MSG then
    firewd_rule cf T IPT_INPUT_ACCESS
      (iptRuleArgs (s.at IPT_INPUT_ACCESS) fst.proto sp.use_src_ip (dstOf cf sp) nat_port exp_ts) exp_ts now s
  else if (s.at IPT_FORWARD_ACCESS).to_chain ≠ [] then
    fd_forward_access_rule cf T acc nat_port fst.proto sp exp_ts now s
  else .ok s

/-- The rule that changes the destination, server/fw_util_firewalld.c:1632-1636. -/
def fdNatDestRule {σ : Type} (cf : FwConf) (T : Tool σ) (acc : Stanza) (sp : SpaData) (fst : PortEnt)
    (nat_ip : Str) (nat_port : Int) (exp_ts : Nat) (now : Int) (s : FwSt σ) : Res (FwSt σ) :=
  if (s.at IPT_DNAT_ACCESS).to_chain ≠ [] ∧ !acc.disable_dnat then
    fd_dnat_rule cf T acc nat_ip nat_port fst sp exp_ts now s
  else .ok s

/-- The rules of a NAT request, server/fw_util_firewalld.c:1616-1642. -/
def fdNatRules {σ : Type} (cf : FwConf) (T : Tool σ) (acc : Stanza) (sp : SpaData) (fst : PortEnt)
    (nat_ip : Str) (nat_port : Int) (exp_ts : Nat) (now : Int) (s : FwSt σ) : Res (FwSt σ) := do
  let s ← fdNatAccessRule cf T acc sp fst nat_port exp_ts now s
  let s ← fdNatDestRule cf T acc sp fst nat_ip nat_port exp_ts now s
  if acc.force_snat ∨ cf.snat then fd_snat_rule cf T acc nat_ip nat_port fst sp exp_ts now s
  else return s

/-- `process_spa_request`, server/fw_util_firewalld.c:1493-1674; where a NAT request goes (1552-1614) is
`natTarget`. -/
def fd_process_spa_request {σ : Type} (cf : FwConf) (T : Tool σ) (acc : Stanza) (sp : SpaData) (now : Int)
    (s : FwSt σ) : Res (FwSt σ) :=
  match expand_acc_port_list sp.spa_message_remain with
  | none => .ok s
  | some [] => .ub
  | some (fst :: more) =>
    if wantsNat acc sp then do
      let t ← natTarget cf acc sp
      match t with
      | none => return s
      | some (ip, port) => fdNatRules cf T acc sp fst ip port (expTs now sp.fw_access_timeout) now s
    else fdPortLoop cf T sp (expTs now sp.fw_access_timeout) now (fst :: more) s

/-! ## Start and end -/

/-- `firewd_chk_support`, server/fw_util_firewalld.c:255-325. -/
def firewd_chk_support {σ : Type} (cf : FwConf) (T : Tool σ) (ch : FwChain) (w : σ) : Res (Bool × σ) := do
  let r1 ← iptCmd cf T (b!" -t " ++ ch.table ++ b!" -I " ++ ch.from_chain ++ b!" 1 -s " ++ DUMMY_IP ++ b!" -p udp -j " ++ ch.target) w
  let r2 ← iptCmd cf T (b!" -t " ++ ch.table ++ b!" -C " ++ ch.from_chain ++ b!" -s " ++ DUMMY_IP ++ b!" -p udp -j " ++ ch.target) r1.2
  let r3 ← iptCmd cf T (b!" -t " ++ ch.table ++ b!" -D " ++ ch.from_chain ++ b!" 1") r2.2
  return (hasPrefix b!"success" (chop_newline r2.1.buf), r3.2)

/-- Is `pid_status` 0 after a command?  (If there are too many words, no program is started and
`pid_status` is what it was; `run_extcmd` fails then, so it does not matter.) -/
def cmdStatus0 {σ : Type} (T : StatusTool σ) (cmd : Str) (w : σ) : Bool :=
  match strtoargv cmd with
  | .ok (some argv) => T.status0 argv w
  | _ => false

/-- `comment_match_exists`, server/fw_util_firewalld.c:327-399. -/
def fd_comment_match_exists {σ : Type} (cf : FwConf) (T : StatusTool σ) (ch : FwChain) (w : σ) : Res (Bool × σ) := do
  let cmd := cmdBuf (cf.fw_command ++ (b!" -t " ++ ch.table ++ b!" -I " ++ ch.from_chain ++ b!" 1 -s " ++ DUMMY_IP ++
    b!" -m comment --comment " ++ TMP_COMMENT ++ b!" -j " ++ ch.target))
  let r1 ← run_extcmd T.toTool cmd CMD_BUFSIZE w
  if !r1.1.success ∨ !cmdStatus0 T cmd w then return (false, r1.2)
  else do
    let r2 ← run_extcmd T.toTool (cmdBuf (cf.fw_command ++ b!" -t " ++ ch.table ++ b!" -L " ++ ch.from_chain ++
      b!" --line-numbers -n")) STANDARD_CMD_OUT_BUFSIZE r1.2
    if strIn (chop_newline r2.1.buf) TMP_COMMENT then do
      let r3 ← iptCmd cf T.toTool (b!" -t " ++ ch.table ++ b!" -D " ++ ch.from_chain ++ b!" 1") r2.2
      return (true, r3.2)
    else return (false, r2.2)

/-- The loop that deletes jump rules, server/fw_util_firewalld.c:640-665, FIREWD_DEL_JUMP_RULE_ARGS. -/
def fdDelJumps {σ : Type} (cf : FwConf) (T : Tool σ) (ch : FwChain) : (tries : Nat) → σ → Res σ
  | 0, w => .ok w
  | n + 1, w => do
    let e ← fd_jump_rule_exists cf T ch w
    if e.1 then do
      let r ← iptCmd cf T (b!" -t " ++ ch.table ++ b!" -D " ++ ch.from_chain ++ b!" -j " ++ ch.to_chain) e.2
      fdDelJumps cf T ch n r.2
    else return e.2

/-- One pass of the loop of `delete_all_chains`, server/fw_util_firewalld.c:632-709, and the whole of it
627-775. -/
def fdDeleteChain {σ : Type} (cf : FwConf) (T : Tool σ) (ch : FwChain) (w : σ) : Res σ :=
  if ch.target = [] then .ok w
  else do
    let w ← fdDelJumps cf T ch CMD_LOOP_TRIES w
    let r ← iptCmd cf T (b!" -t " ++ ch.table ++ b!" -F " ++ ch.to_chain) w
    let r ← iptCmd cf T (b!" -t " ++ ch.table ++ b!" -X " ++ ch.to_chain) r.2
    return r.2

@[inherit_doc fdDeleteChain]
def fd_delete_all_chains {σ : Type} (cf : FwConf) (T : Tool σ) : List FwChain → σ → Res σ
  | [], w => .ok w
  | ch :: chs, w => do
    let w ← fdDeleteChain cf T ch w
    fd_delete_all_chains cf T chs w

/-- `mk_chain` with its return value, the number of errors, server/fw_util_firewalld.c:810-826. -/
def fdMkChain {σ : Type} (cf : FwConf) (T : Tool σ) (ch : FwChain) (w : σ) : Res (Nat × σ) := do
  let e ← fd_chain_exists cf T ch w
  let c ← if e.1 then Res.ok (0, e.2) else createChain cf T ch e.2
  let j ← fd_jump_rule_exists cf T ch c.2
  if j.1 then return (c.1, j.2)
  else do
    let r ← iptCmd cf T (b!" -t " ++ ch.table ++ b!" -I " ++ ch.from_chain ++ b!" " ++ decStrInt ch.jump_rule_pos ++ b!" -j " ++
      ch.to_chain) j.2
    return (c.1 + if r.1.success then 0 else 1, r.2)

/-- `create_fw_chains`, server/fw_util_firewalld.c:830-844: the number of errors. -/
def fd_create_fw_chains {σ : Type} (cf : FwConf) (T : Tool σ) : List FwChain → σ → Res (Nat × σ)
  | [], w => .ok (0, w)
  | ch :: chs, w =>
    if ch.target = [] then fd_create_fw_chains cf T chs w
    else do
      let r ← fdMkChain cf T ch w
      let s ← fd_create_fw_chains cf T chs r.2
      return (r.1 + s.1, s.2)

/-- `fw_initialize`, server/fw_util_firewalld.c:1110-1153, with `-C`: is the result 1, and the world.
If `-C` does not work or --no-firewd-check-support is given, what follows is not modelled (`none`). -/
def fd_fw_initialize {σ : Type} (cf : FwConf) (o : FwInit) (T : StatusTool σ) (chs : List FwChain) (w : σ) :
    Res (Option (Bool × σ)) :=
  if o.disable_check then .ok none
  else do
  let c ← firewd_chk_support cf T.toTool (chs.getD IPT_INPUT_ACCESS {}) w
  if !c.1 then return none
  else do
    let w ← if o.flush_at_init then fd_delete_all_chains cf T.toTool chs c.2 else Res.ok c.2
    let r ← fd_create_fw_chains cf T.toTool chs w
    if o.comment_check then do
      let m ← fd_comment_match_exists cf T (chs.getD IPT_INPUT_ACCESS {}) r.2
      return some (r.1 == 0 && m.1, m.2)
    else return some (r.1 == 0, r.2)

/-- `fw_cleanup`, server/fw_util_firewalld.c:1155-1164. -/
def fd_fw_cleanup {σ : Type} (cf : FwConf) (o : FwInit) (T : Tool σ) (chs : List FwChain) (w : σ) : Res σ :=
  if o.keep_at_exit ∧ ¬ o.fw_flush then .ok w else fd_delete_all_chains cf T chs w

end Fwknop
