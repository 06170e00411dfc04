import Verif.Model.IptInit

/-!
# Looking for rules in a listing (server/fw_util_iptables.c)

What the daemon does when iptables does not know `-C` (before 1.4.11, or --no-ipt-check-support): it
prints the chain and looks for texts in one line of it.  Log messages are left out.
-/

namespace Fwknop

abbrev ANY_PORT : Int := 0
abbrev ANY_PROTO : Nat := 0
abbrev NAT_ANY_PORT : Int := 0

/-- `search_extcmd_getline`, server/extcmd.c:725-733, 76-110, 188-308, with a buffer that holds every
line: the buffer if the return value is not 0.  (Too many words give a negative value and an empty
buffer.) -/
def search_extcmd_getline {σ : Type} (T : Tool σ) (cmd t : Str) (w : σ) : Res (Option Str × σ) := do
  let a ← strtoargv cmd
  match a with
  | none => return (some [], w)
  | some argv =>
    let r := T.exec argv w
    return (((outLines (r.1.out.length + 1) r.1.out).find? fun l => !isEmptyLine (l.headD 0) && strIn l t).map
      truncate_partial_line, r.2)

/-- The arguments of `rule_exists` that describe the rule, server/fw_util_iptables.c:224-234. -/
structure RuleQuery where
  proto : Nat
  src : Option Str
  dst : Option Str
  port : Int
  nat_ip : Option Str
  nat_port : Int
  exp_ts : Nat

/-- The text for the protocol, server/fw_util_iptables.c:99-106. -/
def protoSearch (proto : Nat) : Str :=
  if proto = 6 then b!" tcp " else if proto = 17 then b!" udp " else if proto = 1 then b!" icmp "
  else b!" " ++ decStr proto ++ b!" "

/-- The text for the destination, server/fw_util_iptables.c:115-119: the address of the NAT target is
printed over it. -/
def dstSearch (q : RuleQuery) : Str :=
  match q.nat_ip with
  | some ip => b!" to:" ++ ip
  | none =>
    match q.dst with
    | some d => b!" " ++ d ++ b!" "
    | none => []

/-- Is there no text to look for, or is it in the line? -/
def wanted (l : Str) (a : Option Str) (t : Str) : Bool := a.isNone || strIn l (cmdBuf t)

/-- The tests on the line with the expiry time, server/fw_util_iptables.c:135-140.  The text for the
address of the NAT target was never written. -/
def lineFits (ch : FwChain) (q : RuleQuery) (l : Str) : Bool :=
  (q.proto == ANY_PROTO || strIn l (cmdBuf (protoSearch q.proto)))
    && wanted l q.src (b!" " ++ q.src.getD [] ++ b!" ")
    && wanted l q.dst (dstSearch q)
    && wanted l q.nat_ip []
    && strIn l (cmdBuf (b!" " ++ ch.target ++ b!" "))
    && (q.port == ANY_PORT || strIn l (cmdBuf (b!"dpt:" ++ decStrInt q.port ++ b!" ")))

/-- The tests on the port of the NAT target, server/fw_util_iptables.c:149-171. -/
def natPortFits (port : Int) (l : Str) : Bool :=
  match findSuffix (hasPrefix b!" to:") l with
  | none => false
  | some i =>
    let r := l.drop (i + 4)
    if strIn r b!" to:" then false
    else
      let t := b!":" ++ decStrInt port
      match findSuffix (hasPrefix t) r with
      | none => false
      | some j =>
        let c := (r.drop (j + t.length)).headD 0
        c == 0 || c == 32

/-- `rule_exists_no_chk_support`, server/fw_util_iptables.c:61-184, IPT_LIST_RULES_ARGS. -/
def rule_exists_no_chk_support {σ : Type} (cf : FwConf) (T : Tool σ) (ch : FwChain) (q : RuleQuery) (w : σ) :
    Res (Bool × σ) := do
  let g ← search_extcmd_getline T
    (cmdBuf (cf.fw_command ++ b!" -t " ++ ch.table ++ b!" -L " ++ ch.to_chain ++ b!" --line-numbers -n"))
    (cmdBuf (decStr q.exp_ts ++ b!" ")) w
  match g.1 with
  | none => return (false, g.2)
  | some l =>
    let l := chop_newline l
    return (lineFits ch q l && (q.nat_port == NAT_ANY_PORT || natPortFits q.nat_port l), g.2)

/-- `rule_exists`, server/fw_util_iptables.c:224-253. -/
def rule_exists {σ : Type} (cf : FwConf) (T : Tool σ) (chk : Bool) (ch : FwChain) (rule : Str) (q : RuleQuery) (w : σ) :
    Res (Bool × σ) :=
  if chk then rule_exists_chk_support cf T ch.to_chain rule w
  else rule_exists_no_chk_support cf T ch { q with dst := if cf.use_destination then q.dst else none } w

/-- `ipt_rule`, server/fw_util_iptables.c:1184-1245, with or without `-C`. -/
def iptRule {σ : Type} (cf : FwConf) (T : Tool σ) (chk : Bool) (i : Nat) (rule : Str) (q : RuleQuery) (now : Int)
    (s : FwSt σ) : Res (FwSt σ) := do
  let ch := s.at i
  let m ← mkChain cf T chk ch s.world
  let e ← rule_exists cf T chk ch (cmdBuf rule) q m.2
  if e.1 then return { s with world := e.2 }
  else do
    let c ← create_rule cf T ch.to_chain (cmdBuf rule) e.2
    if c.1 then
      return { chain := s.chain.set i { ch with active_rules := ch.active_rules + 1,
                                                next_expire := nextExpire ch.next_expire q.exp_ts now }
               world := c.2 }
    else return { s with world := c.2 }

/-- The rules for one port of an ordinary request, server/fw_util_iptables.c:1629-1645. -/
def portRulesL {σ : Type} (cf : FwConf) (T : Tool σ) (chk : Bool) (sp : SpaData) (exp_ts : Nat) (now : Int) (p : PortEnt)
    (s : FwSt σ) : Res (FwSt σ) := do
  let q : RuleQuery := { proto := p.proto, src := some sp.use_src_ip, dst := some (dstOf cf sp), port := p.port,
                         nat_ip := none, nat_port := NAT_ANY_PORT, exp_ts := exp_ts }
  let s ← iptRule cf T chk IPT_INPUT_ACCESS
    (iptRuleArgs (s.at IPT_INPUT_ACCESS) p.proto sp.use_src_ip (dstOf cf sp) p.port exp_ts) q now s
  if (s.at IPT_OUTPUT_ACCESS).to_chain ≠ [] then
    iptRule cf T chk IPT_OUTPUT_ACCESS
      (iptOutRuleArgs (s.at IPT_OUTPUT_ACCESS) p.proto sp.use_src_ip (dstOf cf sp) p.port exp_ts) q now s
  else return s

/-- The loop over the ports, server/fw_util_iptables.c:1627-1646. -/
def portLoopL {σ : Type} (cf : FwConf) (T : Tool σ) (chk : Bool) (sp : SpaData) (exp_ts : Nat) (now : Int) :
    List PortEnt → FwSt σ → Res (FwSt σ)
  | [], s => .ok s
  | p :: ps, s => do
    let s ← portRulesL cf T chk sp exp_ts now p s
    portLoopL cf T chk sp exp_ts now ps s

/-- `dnat_rule`, server/fw_util_iptables.c:1303-1358, without FORWARD_ALL. -/
def dnatRuleL {σ : Type} (cf : FwConf) (T : Tool σ) (chk : Bool) (nat_ip : Str) (nat_port : Int) (fst : PortEnt)
    (sp : SpaData) (exp_ts : Nat) (now : Int) (s : FwSt σ) : Res (FwSt σ) :=
  let ch := s.at IPT_DNAT_ACCESS
  iptRule cf T chk IPT_DNAT_ACCESS
    (b!"-t " ++ ch.table ++ b!" -p " ++ decStr fst.proto ++ b!" -s " ++ sp.use_src_ip ++ b!" -d " ++ dstOf cf sp
      ++ b!" --dport " ++ decStrInt fst.port ++ ruleEnd exp_ts ch.target ++ b!" --to-destination " ++ nat_ip
      ++ b!":" ++ decStrInt nat_port)
    { proto := fst.proto, src := some sp.use_src_ip, dst := some (dstOf cf sp), port := fst.port,
      nat_ip := some nat_ip, nat_port := nat_port, exp_ts := exp_ts } now s

/-- `process_spa_request`, server/fw_util_iptables.c:1475-1655, for requests that are not for NAT. -/
def processAccessL {σ : Type} (cf : FwConf) (T : Tool σ) (chk : Bool) (sp : SpaData) (now : Int) (s : FwSt σ) : Res (FwSt σ) :=
  match expand_acc_port_list sp.spa_message_remain with
  | none => .ok s
  | some [] => .ub
  | some (fst :: more) => portLoopL cf T chk sp (expTs now sp.fw_access_timeout) now (fst :: more) s

end Fwknop
