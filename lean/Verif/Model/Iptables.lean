import Verif.Model.Extcmd
import Verif.Model.Incoming

/-!
# The iptables back end (server/fw_util_iptables.c)

Modelled for a build with `execvp` (SH_REDIR is empty) and an iptables that supports `-C`
(have_ipt_chk_support = 1, what `ipt_chk_support` finds with every iptables since 1.4.11).
Log messages are left out.
-/

namespace Fwknop

abbrev IPT_INPUT_ACCESS : Nat := 0
abbrev IPT_OUTPUT_ACCESS : Nat := 1
abbrev IPT_FORWARD_ACCESS : Nat := 2
abbrev IPT_DNAT_ACCESS : Nat := 3
abbrev IPT_SNAT_ACCESS : Nat := 4
abbrev IPT_MASQUERADE_ACCESS : Nat := 5
abbrev NUM_FWKNOP_ACCESS_TYPES : Nat := 6
abbrev RCHK_MAX_IPT_RULE_NUM : Int := 65536

/-- `struct fw_chain`, server/fwknopd_common.h:538-549, without the unused rule_pos.  The counter
is an `int` that never wraps here. -/
structure FwChain where
  target : Str := []
  table : Str := []
  from_chain : Str := []
  jump_rule_pos : Int := 0
  to_chain : Str := []
  active_rules : Nat := 0
  next_expire : Int := 0
  deriving DecidableEq, Repr

/-- The configuration the functions below look at: FIREWALL_EXE, ENABLE_RULE_PREPEND,
ENABLE_DESTINATION_RULE, SNAT_TRANSLATE_IP, ENABLE_IPT_SNAT, ENABLE_NAT_DNS, and what resolving a
name gives (`ipv4_resolve`). -/
structure FwConf where
  fw_command : Str
  prepend : Bool := false
  use_destination : Bool := false
  snat_translate_ip : Option Str := none
  snat : Bool := false
  nat_dns : Bool := false
  resolve : Str → Option Str := fun _ => none

/-- What changes: the six chains of the configuration and the world. -/
structure FwSt (σ : Type) where
  chain : List FwChain
  world : σ

/-- The chain of an access type. -/
def FwSt.at {σ : Type} (s : FwSt σ) (i : Nat) : FwChain := s.chain.getD i {}

/-- `snprintf(buf, CMD_BUFSIZE-1, …)`: the text, without what does not fit. -/
def cmdBuf (s : Str) : Str := s.take (CMD_BUFSIZE - 2)

/-- `rule_exists_chk_support`, server/fw_util_iptables.c:187-223, IPT_CHK_RULE_ARGS. -/
def rule_exists_chk_support {σ : Type} (cf : FwConf) (T : Tool σ) (chain rule : Str) (w : σ) :
    Res (Bool × σ) := do
  let r ← run_extcmd T (cmdBuf (cf.fw_command ++ b!" -C " ++ chain ++ b!" " ++ rule)) CMD_BUFSIZE w
  return (!(r.1.success && chop_newline r.1.buf != []), r.2)

/-- `create_rule`, server/fw_util_iptables.c:1149-1182: true if the return value is not 0.  When
the command did not exit normally the return value is the error code, which is not 0 either. -/
def create_rule {σ : Type} (cf : FwConf) (T : Tool σ) (chain rule : Str) (w : σ) : Res (Bool × σ) := do
  let r ← run_extcmd T (cmdBuf (cf.fw_command ++ (if cf.prepend then b!" -I " else b!" -A ") ++ chain
    ++ b!" " ++ rule)) CMD_BUFSIZE w
  return (true, r.2)

/-- `chain_exists`, server/fw_util_iptables.c:431-461, IPT_CHAIN_EXISTS_ARGS: true if the return
value is not 0, that is if the listing did *not* succeed. -/
def chain_exists {σ : Type} (cf : FwConf) (T : Tool σ) (ch : FwChain) (w : σ) : Res (Bool × σ) := do
  let r ← run_extcmd T (cmdBuf (cf.fw_command ++ b!" -t " ++ ch.table ++ b!" -L " ++ ch.to_chain ++ b!" -n"))
    CMD_BUFSIZE w
  return (!r.1.success, r.2)

/-- `create_chain`, server/fw_util_iptables.c:766-796, IPT_NEW_CHAIN_ARGS.  The return value is only
counted and the count is ignored by `ipt_rule`. -/
def create_chain {σ : Type} (cf : FwConf) (T : Tool σ) (ch : FwChain) (w : σ) : Res σ := do
  let r ← run_extcmd T (cmdBuf (cf.fw_command ++ b!" -t " ++ ch.table ++ b!" -N " ++ ch.to_chain)) CMD_BUFSIZE w
  return r.2

/-- `jump_rule_exists_chk_support`, server/fw_util_iptables.c:463-483, IPT_CHK_JUMP_RULE_ARGS. -/
def jump_rule_exists {σ : Type} (cf : FwConf) (T : Tool σ) (ch : FwChain) (w : σ) : Res (Bool × σ) :=
  rule_exists_chk_support cf T ch.from_chain (cmdBuf (b!"-t " ++ ch.table ++ b!" -j " ++ ch.to_chain)) w

/-- `add_jump_rule`, server/fw_util_iptables.c:396-429, IPT_ADD_JUMP_RULE_ARGS. -/
def add_jump_rule {σ : Type} (cf : FwConf) (T : Tool σ) (ch : FwChain) (w : σ) : Res σ := do
  let r ← run_extcmd T (cmdBuf (cf.fw_command ++ b!" -t " ++ ch.table ++ b!" -I " ++ ch.from_chain ++ b!" "
    ++ decStrInt ch.jump_rule_pos ++ b!" -j " ++ ch.to_chain)) CMD_BUFSIZE w
  return r.2

/-- `mk_chain`, server/fw_util_iptables.c:798-814. -/
def mk_chain {σ : Type} (cf : FwConf) (T : Tool σ) (ch : FwChain) (w : σ) : Res σ := do
  let e ← chain_exists cf T ch w
  let w ← if e.1 then .ok e.2 else create_chain cf T ch e.2
  let j ← jump_rule_exists cf T ch w
  if j.1 then return j.2 else add_jump_rule cf T ch j.2

/-- `chain->next_expire` after a rule was added, server/fw_util_iptables.c:1238-1239. -/
def nextExpire (old : Int) (exp_ts : Nat) (now : Int) : Int :=
  if old < now ∨ (exp_ts : Int) < old then exp_ts else old

/-- `ipt_rule`, server/fw_util_iptables.c:1184-1245, for the rule text `rule` in the chain of type
`i`: the text is copied to or printed into a buffer of CMD_BUFSIZE bytes. -/
def ipt_rule {σ : Type} (cf : FwConf) (T : Tool σ) (i : Nat) (rule : Str) (exp_ts : Nat) (now : Int)
    (s : FwSt σ) : Res (FwSt σ) := do
  let ch := s.at i
  let w ← mk_chain cf T ch s.world
  let e ← rule_exists_chk_support cf T ch.to_chain (cmdBuf rule) w
  if e.1 then return { s with world := e.2 }
  else do
    let c ← create_rule cf T ch.to_chain (cmdBuf rule) e.2
    if c.1 then
      return { chain := s.chain.set i { ch with active_rules := ch.active_rules + 1,
                                                next_expire := nextExpire ch.next_expire exp_ts now }
               world := c.2 }
    else return { s with world := c.2 }

abbrev IPT_ANY_IP : Str := b!"0.0.0.0/0"

/-- ` -m comment --comment _exp_%u -j %s`, the end of the rule texts,
server/fw_util_iptables.h:44-51. -/
def ruleEnd (exp_ts : Nat) (target : Str) : Str :=
  b!" -m comment --comment _exp_" ++ decStr exp_ts ++ b!" -j " ++ target

/-- IPT_RULE_ARGS, server/fw_util_iptables.h:44. -/
def iptRuleArgs (ch : FwChain) (proto : Nat) (src dst : Str) (port : Int) (exp_ts : Nat) : Str :=
  b!"-t " ++ ch.table ++ b!" -p " ++ decStr proto ++ b!" -s " ++ src ++ b!" -d " ++ dst ++ b!" --dport "
    ++ decStrInt port ++ ruleEnd exp_ts ch.target

/-- IPT_OUT_RULE_ARGS, server/fw_util_iptables.h:45, with the arguments of `ipt_rule`: source and
destination change places. -/
def iptOutRuleArgs (ch : FwChain) (proto : Nat) (src dst : Str) (port : Int) (exp_ts : Nat) : Str :=
  b!"-t " ++ ch.table ++ b!" -p " ++ decStr proto ++ b!" -d " ++ src ++ b!" -s " ++ dst ++ b!" --sport "
    ++ decStrInt port ++ ruleEnd exp_ts ch.target

/-- `exp_ts = now + spadat->fw_access_timeout`, an `unsigned int`,
server/fw_util_iptables.c:1521-1524. -/
def expTs (now : Int) (timeout : Nat) : Nat := ((now + timeout) % 2 ^ 32).toNat

/-- `fwc.use_destination ? spadat->pkt_destination_ip : IPT_ANY_IP`. -/
def dstOf (cf : FwConf) (sp : SpaData) : Str := if cf.use_destination then sp.pkt_destination_ip else IPT_ANY_IP

/-- The rules for one port of an ordinary request, server/fw_util_iptables.c:1629-1645. -/
def portRules {σ : Type} (cf : FwConf) (T : Tool σ) (sp : SpaData) (exp_ts : Nat) (now : Int) (p : PortEnt)
    (s : FwSt σ) : Res (FwSt σ) := do
  let s ← ipt_rule cf T IPT_INPUT_ACCESS
    (iptRuleArgs (s.at IPT_INPUT_ACCESS) p.proto sp.use_src_ip (dstOf cf sp) p.port exp_ts) exp_ts now s
  if (s.at IPT_OUTPUT_ACCESS).to_chain ≠ [] then
    ipt_rule cf T IPT_OUTPUT_ACCESS
      (iptOutRuleArgs (s.at IPT_OUTPUT_ACCESS) p.proto sp.use_src_ip (dstOf cf sp) p.port exp_ts) exp_ts now s
  else return s

/-- The loop over the ports, server/fw_util_iptables.c:1627-1646. -/
def portLoopRules {σ : Type} (cf : FwConf) (T : Tool σ) (sp : SpaData) (exp_ts : Nat) (now : Int) :
    List PortEnt → FwSt σ → Res (FwSt σ)
  | [], s => .ok s
  | p :: ps, s => do
    let s ← portRules cf T sp exp_ts now p s
    portLoopRules cf T sp exp_ts now ps s

/-- `forward_access_rule`, server/fw_util_iptables.c:1247-1301, IPT_FWD_RULE_ARGS and
IPT_FWD_ALL_RULE_ARGS. -/
def forward_access_rule {σ : Type} (cf : FwConf) (T : Tool σ) (acc : Stanza) (nat_port : Int) (fst_proto : Nat)
    (sp : SpaData) (exp_ts : Nat) (now : Int) (s : FwSt σ) : Res (FwSt σ) :=
  let ch := s.at IPT_FORWARD_ACCESS
  let rule := if acc.forward_all then
      b!"-t " ++ ch.table ++ b!" -s " ++ sp.use_src_ip ++ ruleEnd exp_ts ch.target
    else
      b!"-t " ++ ch.table ++ b!" -p " ++ decStr fst_proto ++ b!" -s " ++ sp.use_src_ip ++ b!" --dport "
        ++ decStrInt nat_port ++ ruleEnd exp_ts ch.target
  ipt_rule cf T IPT_FORWARD_ACCESS rule exp_ts now s

/-- `dnat_rule`, server/fw_util_iptables.c:1303-1358, IPT_DNAT_RULE_ARGS and
IPT_DNAT_ALL_RULE_ARGS. -/
def dnat_rule {σ : Type} (cf : FwConf) (T : Tool σ) (acc : Stanza) (nat_ip : Str) (nat_port : Int)
    (fst : PortEnt) (sp : SpaData) (exp_ts : Nat) (now : Int) (s : FwSt σ) : Res (FwSt σ) :=
  let ch := s.at IPT_DNAT_ACCESS
  let rule := if acc.forward_all then
      b!"-t " ++ ch.table ++ b!" -s " ++ sp.use_src_ip ++ b!" -d " ++ dstOf cf sp ++ ruleEnd exp_ts ch.target
        ++ b!" --to-destination " ++ nat_ip
    else
      b!"-t " ++ ch.table ++ b!" -p " ++ decStr fst.proto ++ b!" -s " ++ sp.use_src_ip ++ b!" -d " ++ dstOf cf sp
        ++ b!" --dport " ++ decStrInt fst.port ++ ruleEnd exp_ts ch.target ++ b!" --to-destination " ++ nat_ip
        ++ b!":" ++ decStrInt nat_port
  ipt_rule cf T IPT_DNAT_ACCESS rule exp_ts now s

/-- Is there a text and is it an IPv4 address? -/
def validIp : Option Str → Bool
  | none => false
  | some a => is_valid_ipv4_addr a a.length

/-- The chain type and the target options of an SNAT rule, server/fw_util_iptables.c:1384-1405,
1426-1456.  The 64 bytes of snat_target hold every such text. -/
def snatTarget (cf : FwConf) (acc : Stanza) (fst_port : Int) : Nat × Str :=
  if acc.force_snat ∧ validIp acc.force_snat_ip then
    (IPT_SNAT_ACCESS, b!"--to-source " ++ acc.force_snat_ip.getD [])
  else if !acc.forward_all ∧ acc.force_snat ∧ acc.force_masquerade then
    (IPT_MASQUERADE_ACCESS, b!"--to-ports " ++ decStrInt fst_port)
  else if validIp cf.snat_translate_ip then
    (IPT_SNAT_ACCESS, b!"--to-source " ++ cf.snat_translate_ip.getD [])
  else if acc.forward_all then (IPT_MASQUERADE_ACCESS, b!" ")
  else (IPT_MASQUERADE_ACCESS, b!"--to-ports " ++ decStrInt fst_port)

/-- `snat_rule`, server/fw_util_iptables.c:1360-1477, IPT_SNAT_RULE_ARGS and
IPT_SNAT_ALL_RULE_ARGS. -/
def snat_rule {σ : Type} (cf : FwConf) (T : Tool σ) (acc : Stanza) (nat_ip : Str) (nat_port : Int)
    (fst : PortEnt) (sp : SpaData) (exp_ts : Nat) (now : Int) (s : FwSt σ) : Res (FwSt σ) :=
  let t := snatTarget cf acc fst.port
  let ch := s.at t.1
  let rule := if acc.forward_all then
      b!"-t " ++ ch.table ++ b!" -s " ++ sp.use_src_ip ++ ruleEnd exp_ts ch.target ++ b!" " ++ t.2
    else
      b!"-t " ++ ch.table ++ b!" -p " ++ decStr fst.proto ++ b!" -d " ++ nat_ip ++ b!" --dport "
        ++ decStrInt nat_port ++ ruleEnd exp_ts ch.target ++ b!" " ++ t.2
  ipt_rule cf T t.1 rule exp_ts now s

/-- The address a name or address in a NAT request stands for, server/fw_util_iptables.c:1545-1577;
`none`: give up.  With an empty name `is_valid_hostname` looks at the byte before the array, taken
to be 0. -/
def natAddr (cf : FwConf) (host : Str) : Option Str :=
  if is_valid_ipv4_addr host host.length then some (host.take (MAX_IPV4_STR_LEN - 1))
  else if cf.nat_dns then
    if !is_valid_hostname 0 host host.length then none else cf.resolve host
  else none

/-- Where a NAT request goes, server/fw_util_iptables.c:1534-1594; `none`: the request is dropped.
The name is copied to nat_dst[MAX_HOSTNAME_LEN]. -/
def natTarget (cf : FwConf) (acc : Stanza) (sp : SpaData) : Res (Option (Str × Int)) :=
  if acc.force_nat then
    match acc.force_nat_ip with
    | none => .ub
    | some ip => .ok (some (ip.take (MAX_IPV4_STR_LEN - 1), acc.force_nat_port))
  else
    match sp.nat_access with
    | none => .ub
    | some na =>
      match strchr na 44 with
      | none => .ok none
      | some n =>
        if n ≤ MAX_HOSTNAME_LEN then do
          Res.mem (n + 1 > MAX_HOSTNAME_LEN)
          match natAddr cf (na.take n) with
          | none => return none
          | some ip =>
            let p := strtol_wrapper (na.drop (n + 1)) 0 MAX_PORT
            return (if p.2 then some (ip, p.1) else none)
        else .ok none

/-- A request for NAT, or a stanza that forces it, server/fw_util_iptables.c:1527-1533. -/
def wantsNat (acc : Stanza) (sp : SpaData) : Bool :=
  sp.message_type = FKO_LOCAL_NAT_ACCESS_MSG || sp.message_type = FKO_CLIENT_TIMEOUT_LOCAL_NAT_ACCESS_MSG
    || sp.message_type = FKO_NAT_ACCESS_MSG || sp.message_type = FKO_CLIENT_TIMEOUT_NAT_ACCESS_MSG
    || acc.force_nat

/-- The rule that lets the packets of a NAT request in or through, server/fw_util_iptables.c:1596-1610. -/
def natAccessRule {σ : Type} (cf : FwConf) (T : Tool σ) (acc : Stanza) (sp : SpaData) (fst : PortEnt)
    (nat_port : Int) (exp_ts : Nat) (now : Int) (s : FwSt σ) : Res (FwSt σ) :=
  if sp.message_type = FKO_LOCAL_NAT_ACCESS_MSG ∨ sp.message_type = FKO_CLIENT_TIMEOUT_LOCAL_NAT_ACCESS_MSG then
    ipt_rule cf T IPT_INPUT_ACCESS
      (iptRuleArgs (s.at IPT_INPUT_ACCESS) fst.proto sp.use_src_ip (dstOf cf sp) nat_port exp_ts) exp_ts now s
  else if (s.at IPT_FORWARD_ACCESS).to_chain ≠ [] then
    forward_access_rule cf T acc nat_port fst.proto sp exp_ts now s
  else .ok s

/-- The rule that changes the destination, server/fw_util_iptables.c:1612-1616. -/
def natDestRule {σ : Type} (cf : FwConf) (T : Tool σ) (acc : Stanza) (sp : SpaData) (fst : PortEnt)
    (nat_ip : Str) (nat_port : Int) (exp_ts : Nat) (now : Int) (s : FwSt σ) : Res (FwSt σ) :=
  if (s.at IPT_DNAT_ACCESS).to_chain ≠ [] ∧ !acc.disable_dnat then
    dnat_rule cf T acc nat_ip nat_port fst sp exp_ts now s
  else .ok s

/-- The rules of a NAT request, server/fw_util_iptables.c:1596-1622. -/
def natRules {σ : Type} (cf : FwConf) (T : Tool σ) (acc : Stanza) (sp : SpaData) (fst : PortEnt)
    (nat_ip : Str) (nat_port : Int) (exp_ts : Nat) (now : Int) (s : FwSt σ) : Res (FwSt σ) := do
  let s ← natAccessRule cf T acc sp fst nat_port exp_ts now s
  let s ← natDestRule cf T acc sp fst nat_ip nat_port exp_ts now s
  if acc.force_snat ∨ cf.snat then snat_rule cf T acc nat_ip nat_port fst sp exp_ts now s
  else return s

/-- `process_spa_request`, server/fw_util_iptables.c:1475-1655.  The caller ignores the return
value. -/
def process_spa_request {σ : Type} (cf : FwConf) (T : Tool σ) (acc : Stanza) (sp : SpaData) (now : Int)
    (s : FwSt σ) : Res (FwSt σ) :=
  match expand_acc_port_list sp.spa_message_remain with
  | none => .ok s
  | some [] => .ub
  | some (fst :: more) =>
    if wantsNat acc sp then do
      let t ← natTarget cf acc sp
      match t with
      | none => return s
      | some (ip, port) => natRules cf T acc sp fst ip port (expTs now sp.fw_access_timeout) now s
    else portLoopRules cf T sp (expTs now sp.fw_access_timeout) now (fst :: more) s

/-! ## Expiry -/

abbrev EXPIRE_COMMENT_PREFIX : Str := b!"_exp_"

/-- `strstr(s, "_exp_")`. -/
def findExp (s : Str) : Option Nat := findSuffix (hasPrefix EXPIRE_COMMENT_PREFIX) s

/-- `chop_spaces`, common/fko_util.c:748-761: the first character stays. -/
def chop_spaces : Str → Str
  | [] => []
  | c :: cs => c :: (cs.reverse.dropWhile (· = 32)).reverse

/-- The text of an expiry time, server/fw_util_iptables.c:1684-1688 (`exp_str[12]`). -/
def expStr (s : Str) : Str := chop_spaces ((s.take 11).takeWhile (· ≠ 42))

/-- `is_digits`, server/utils.c:207-220. -/
def is_digits (s : Str) : Bool := s.all isDigit

/-- Where the line of position `k` starts, server/fw_util_iptables.c:1703-1721; `none` if no line
ends before it. -/
def lineStart (buf : Str) (k : Nat) : Option Nat :=
  let before := (buf.take k).reverse
  if before.contains 10 then some (k - (before.takeWhile (· ≠ 10)).length) else none

/-- The number at the start of the line of position `k`, server/fw_util_iptables.c:1699-1755: it is
copied to `rule_num_str[6]`, whatever its length.  `none`: give up. -/
def ruleNum (buf : Str) (k off : Nat) : Res (Option Int) :=
  match lineStart buf k with
  | none => .ok none
  | some a =>
    match strchr (buf.drop a) 32 with
    | none => .ok none
    | some n => do
      Res.mem (n + 1 > 6)
      let r := strtol_wrapper ((buf.drop a).take n) off RCHK_MAX_IPT_RULE_NUM
      return (if r.2 then some r.1 else none)

/-- What changes during `rm_expired_rules`. -/
structure RmSt (σ : Type) where
  off : Nat
  active : Nat
  min_exp : Int
  world : σ

/-- Deleting the rule with number `n`, server/fw_util_iptables.c:1757-1787, IPT_DEL_RULE_ARGS. -/
def rmRule {σ : Type} (cf : FwConf) (T : Tool σ) (ch : FwChain) (n : Int) (s : RmSt σ) : Res (RmSt σ) := do
  let r ← run_extcmd T (cmdBuf (cf.fw_command ++ b!" -t " ++ ch.table ++ b!" -D " ++ ch.to_chain ++ b!" "
    ++ decStrInt (n - s.off))) CMD_BUFSIZE s.world
  if r.1.success then return { s with off := s.off + 1, active := s.active - 1, world := r.2 }
  else return { s with world := r.2 }

/-- The loop of `rm_expired_rules`, server/fw_util_iptables.c:1674-1801, from the position `ndx` of
a comment; it moves forward in the buffer, whose length is fuel enough. -/
def rmLoop {σ : Type} (cf : FwConf) (T : Tool σ) (ch : FwChain) (now : Int) (buf : Str) :
    (fuel : Nat) → (ndx : Option Nat) → RmSt σ → Res (RmSt σ)
  | 0, _, s => .ok s
  | _ + 1, none, s => .ok s
  | fuel + 1, some p, s =>
    let k := p + EXPIRE_COMMENT_PREFIX.length
    let next := (findExp (buf.drop k)).map (· + k)
    let e := expStr (buf.drop k)
    if !is_digits e then rmLoop cf T ch now buf fuel next s
    else if (digitsVal 10 e : Int) ≤ now then do
      let n ← ruleNum buf k s.off
      match n with
      | none => return { s with active := s.active - 1 }
      | some n => do
        let s ← rmRule cf T ch n s
        rmLoop cf T ch now buf fuel next s
    else rmLoop cf T ch now buf fuel next
      { s with min_exp := if s.min_exp < digitsVal 10 e then s.min_exp else digitsVal 10 e }

/-- `ch[cpos].next_expire` at the end of `rm_expired_rules`, server/fw_util_iptables.c:1803-1809. -/
def nextAfter {σ : Type} (old : Int) (s : RmSt σ) : Int :=
  if s.active < 1 then 0 else if s.min_exp ≠ 0 then s.min_exp else old

/-- `rm_expired_rules`, server/fw_util_iptables.c:1657-1812. -/
def rm_expired_rules {σ : Type} (cf : FwConf) (T : Tool σ) (buf : Str) (ndx : Nat) (ch : FwChain) (now : Int)
    (w : σ) : Res (FwChain × σ) := do
  let r ← rmLoop cf T ch now buf (buf.length + 1) (some ndx) ⟨0, ch.active_rules, 0, w⟩
  return ({ ch with active_rules := r.active, next_expire := nextAfter ch.next_expire r }, r.world)

/-- One pass of the loop of `check_firewall_rules`, server/fw_util_iptables.c:1834-1893,
IPT_LIST_RULES_ARGS.  The byte tested for a missing chain name is the one with the number of the
chain; the bytes after the name are 0. -/
def checkChain {σ : Type} (cf : FwConf) (T : Tool σ) (all : Bool) (now : Int) (i : Nat) (ch : FwChain) (w : σ) :
    Res (FwChain × σ) :=
  if !all ∧ (ch.active_rules = 0 ∨ ch.next_expire > now) then .ok (ch, w)
  else if ch.table = [] ∨ ch.to_chain.getD i 0 = 0 then .ok (ch, w)
  else do
    let r ← run_extcmd T (cmdBuf (cf.fw_command ++ b!" -t " ++ ch.table ++ b!" -L " ++ ch.to_chain
      ++ b!" --line-numbers -n")) STANDARD_CMD_OUT_BUFSIZE w
    if !r.1.success then return (ch, r.2)
    else
      let buf := chop_newline r.1.buf
      match findExp buf with
      | none => return ({ ch with active_rules := ch.active_rules - 1 }, r.2)
      | some p => rm_expired_rules cf T buf p ch now r.2

/-- The loop of `check_firewall_rules`, server/fw_util_iptables.c:1834. -/
def checkChains {σ : Type} (cf : FwConf) (T : Tool σ) (all : Bool) (now : Int) :
    (i : Nat) → List FwChain → σ → Res (List FwChain × σ)
  | _, [], w => .ok ([], w)
  | i, ch :: chs, w => do
    let r ← checkChain cf T all now i ch w
    let rest ← checkChains cf T all now (i + 1) chs r.2
    return (r.1 :: rest.1, rest.2)

/-- `check_firewall_rules`, server/fw_util_iptables.c:1817-1896. -/
def check_firewall_rules {σ : Type} (cf : FwConf) (T : Tool σ) (all : Bool) (now : Int) (s : FwSt σ) :
    Res (FwSt σ) := do
  let r ← checkChains cf T all now 0 s.chain s.world
  return ⟨r.1, r.2⟩

/-- The counter of the main loop, server/pcap_capture.c:299-307 (server/udp_server.c:132-140): is
everything to be looked at, and the new value. -/
def checkCtr (thr ctr : Nat) : Bool × Nat :=
  if thr > 0 then (if (ctr + 1) % thr = 0 then (true, 0) else (false, ctr + 1)) else (false, ctr)

/-- One iteration of the main loop, server/pcap_capture.c:228-310 (server/udp_server.c:126-215), as far
as the firewall is concerned: the packets that came in are handled, which does `it.1` to the
firewall, then the firewall is checked, at time `it.2`.  `st.1` is check_rules_ctr. -/
def fwIter {σ : Type} (cf : FwConf) (T : Tool σ) (thr : Nat) (it : (FwSt σ → Res (FwSt σ)) × Int)
    (st : Nat × FwSt σ) : Res (Nat × FwSt σ) := do
  let s ← it.1 st.2
  let s ← check_firewall_rules cf T (checkCtr thr st.1).1 it.2 s
  return ((checkCtr thr st.1).2, s)

/-- The main loop. -/
def fwRun {σ : Type} (cf : FwConf) (T : Tool σ) (thr : Nat) :
    List ((FwSt σ → Res (FwSt σ)) × Int) → Nat × FwSt σ → Res (Nat × FwSt σ)
  | [], st => .ok st
  | it :: its, st => do
    let st ← fwIter cf T thr it st
    fwRun cf T thr its st

end Fwknop
