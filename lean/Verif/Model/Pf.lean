import Verif.Model.Iptables

/-!
# The pf back end (server/fw_util_pf.c)

Modelled for a build with `execvp`.  Log messages are left out.
-/

namespace Fwknop

abbrev MAX_PF_NEW_RULE_LEN : Nat := 140

/-- The configuration, server/fwknopd_common.h:585-591: FIREWALL_EXE, PF_ANCHOR_NAME and
ENABLE_DESTINATION_RULE. -/
structure PfConf where
  fw_command : Str
  anchor : Str
  use_destination : Bool := false

/-- What changes: the number of active rules, an `unsigned short`, the time of the next check and the
world. -/
structure PfSt (σ : Type) where
  active_rules : Nat
  next_expire : Int
  world : σ

/-- A program that reads a text from its standard input. -/
structure PipeTool (σ : Type) where
  exec : List Str → (stdin : Str) → σ → ToolOut × σ

/-- The same program with nothing on its standard input. -/
def PipeTool.plain {σ : Type} (T : PipeTool σ) : Tool σ := ⟨fun argv w => T.exec argv [] w⟩

/-- `_run_extcmd_write`, server/extcmd.c:580-680: true for EXTCMD_SUCCESS_ALL_OUTPUT.  `pipe`, `fork` and
`write` do not fail; whether the program succeeded makes no difference. -/
def run_extcmd_write {σ : Type} (T : PipeTool σ) (cmd text : Str) (w : σ) : Res (Bool × σ) := do
  let a ← strtoargv cmd
  match a with
  | none => return (false, w)
  | some argv => return (true, (T.exec argv text w).2)

/-- PF_LIST_ANCHOR_RULES_ARGS, server/fw_util_pf.h:47. -/
def pfListCmd (cf : PfConf) : Str := cmdBuf (cf.fw_command ++ b!" -a " ++ cf.anchor ++ b!" -s rules")

/-- PF_WRITE_ANCHOR_RULES_ARGS, server/fw_util_pf.h:45. -/
def pfWriteCmd (cf : PfConf) : Str := cmdBuf (cf.fw_command ++ b!" -a " ++ cf.anchor ++ b!" -f -")

/-- PF_DEL_ALL_ANCHOR_RULES, server/fw_util_pf.h:52. -/
def pfFlushCmd (cf : PfConf) : Str := cmdBuf (cf.fw_command ++ b!" -a " ++ cf.anchor ++ b!" -F all")

/-- `delete_all_anchor_rules`, server/fw_util_pf.c:119-139. -/
def delete_all_anchor_rules {σ : Type} (cf : PfConf) (T : PipeTool σ) (w : σ) : Res σ := do
  let r ← run_extcmd T.plain (pfFlushCmd cf) CMD_BUFSIZE w
  return r.2

/-- `fw_cleanup`, server/fw_util_pf.c:184-189. -/
def pf_cleanup {σ : Type} (cf : PfConf) (T : PipeTool σ) (s : PfSt σ) : Res (PfSt σ) := do
  let w ← delete_all_anchor_rules cf T s.world
  return { s with world := w }

/-- The destination of a rule, server/fw_util_pf.c:253. -/
def pfDst (cf : PfConf) (sp : SpaData) : Str := if cf.use_destination then sp.pkt_destination_ip else b!"any"

/-- The text of the new rule, server/fw_util_pf.c:248-256, PF_ADD_RULE_ARGS, in the buffer
`new_rule[MAX_PF_NEW_RULE_LEN]`. -/
def pfRuleText (proto : Nat) (src dst : Str) (port : Int) (exp_ts : Nat) : Str :=
  (b!"pass in quick proto " ++ decStr proto ++ b!" from " ++ src ++ b!" to " ++ dst ++ b!" port "
    ++ decStr (port % 2 ^ 32).toNat ++ b!" keep state label _exp_" ++ decStr exp_ts ++ [10]).take
    (MAX_PF_NEW_RULE_LEN - 2)

/-- Adding the rule for one port, server/fw_util_pf.c:230-313.  The result of listing the rules is not
looked at.  False: leave the loop. -/
def pfPort {σ : Type} (cf : PfConf) (T : PipeTool σ) (sp : SpaData) (exp_ts : Nat) (now : Int) (p : PortEnt)
    (s : PfSt σ) : Res (Bool × PfSt σ) := do
  let r ← run_extcmd T.plain (pfListCmd cf) STANDARD_CMD_OUT_BUFSIZE s.world
  let rule := pfRuleText p.proto sp.use_src_ip (pfDst cf sp) p.port exp_ts
  if r.1.buf.length + rule.length < STANDARD_CMD_OUT_BUFSIZE then do
    let x ← run_extcmd_write T (pfWriteCmd cf) (r.1.buf ++ rule) r.2
    if x.1 then
      return (true, ⟨(s.active_rules + 1) % 2 ^ 16, nextExpire s.next_expire exp_ts now, x.2⟩)
    else return (false, { s with world := x.2 })
  else return (false, { s with world := r.2 })

/-- The loop over the ports, server/fw_util_pf.c:230-313. -/
def pfPorts {σ : Type} (cf : PfConf) (T : PipeTool σ) (sp : SpaData) (exp_ts : Nat) (now : Int) :
    List PortEnt → PfSt σ → Res (PfSt σ)
  | [], s => .ok s
  | p :: ps, s => do
    let r ← pfPort cf T sp exp_ts now p s
    if r.1 then pfPorts cf T sp exp_ts now ps r.2 else return r.2

/-- The entries `expand_acc_port_list` has added to the list when it returns, server/access.c:703-747:
all of them, or the ones before the first it does not understand. -/
def portsRead : Str → (cur : Str) → List PortEnt
  | [], cur => ((listItem cur).bind parse_proto_and_port).toList
  | c :: cs, cur =>
    if c = 44 then
      match (listItem cur).bind parse_proto_and_port with
      | none => []
      | some x => x :: portsRead cs []
    else portsRead cs (cur ++ [c])

/-- `process_spa_request`, server/fw_util_pf.c:191-332.  The caller ignores the return value, and the
result of `expand_acc_port_list` is not looked at. -/
def pf_process_spa_request {σ : Type} (cf : PfConf) (T : PipeTool σ) (sp : SpaData) (now : Int)
    (s : PfSt σ) : Res (PfSt σ) :=
  if sp.message_type = FKO_ACCESS_MSG ∨ sp.message_type = FKO_CLIENT_TIMEOUT_ACCESS_MSG then
    pfPorts cf T sp (expTs now sp.fw_access_timeout) now (portsRead sp.spa_message_remain []) s
  else .ok s

/-! ## Expiry -/

/-- `chop_char`, common/fko_util.c:730-739. -/
def chop_char (s : Str) (c : Nat) : Str :=
  if s.length > 1 ∧ s.getLast? = some c then s.dropLast else s

/-- The text of an expiry time, server/fw_util_pf.c:409-411 (`exp_str[12]`). -/
def pfExpStr (s : Str) : Str := chop_char (chop_spaces (s.take 11)) 34

/-- Where the line of position `k` starts, server/fw_util_pf.c:447-456. -/
def pfLineStart (buf : Str) (k : Nat) : Nat := k - ((buf.take k).reverse.takeWhile (· ≠ 10)).length

/-- What changes in the loop of `check_firewall_rules`. -/
structure PfScan where
  copy : Str := []
  active : Nat
  min_exp : Int := 0
  is_delete : Bool := false

/-- Copy the line at `a` to `anchor_rules_copy[STANDARD_CMD_OUT_BUFSIZE]`, server/fw_util_pf.c:465-482. -/
def pfCopy (buf : Str) (a : Nat) (copy : Str) : Res Str := do
  let c := copy ++ ((buf.drop a).takeWhile (· ≠ 10)).take (STANDARD_CMD_OUT_BUFSIZE - copy.length)
  Res.mem (c.length ≥ STANDARD_CMD_OUT_BUFSIZE)
  return c ++ [10]

/-- The loop of `check_firewall_rules`, server/fw_util_pf.c:396-492, from the position `ndx` of a mark;
it moves forward in the buffer, whose length is fuel enough. -/
def pfScan (now : Int) (buf : Str) : (fuel : Nat) → (ndx : Option Nat) → PfScan → Res PfScan
  | 0, _, s => .ok s
  | _ + 1, none, s => .ok s
  | fuel + 1, some p, s =>
    let k := p + EXPIRE_COMMENT_PREFIX.length
    let next := (findExp (buf.drop k)).map (· + k)
    let e := pfExpStr (buf.drop k)
    if !is_digits e then pfScan now buf fuel next s
    else if (digitsVal 10 e : Int) ≤ now then
      pfScan now buf fuel next { s with active := s.active - 1, is_delete := true }
    else if (buf.drop (pfLineStart buf k)).length ≤ 4 ∨ !hasPrefix b!"pass" (buf.drop (pfLineStart buf k)) then .ok s
    else do
      let c ← pfCopy buf (pfLineStart buf k) s.copy
      pfScan now buf fuel next
        { s with
          copy := c
          min_exp := if s.min_exp ≠ 0 ∧ s.min_exp < digitsVal 10 e then s.min_exp else digitsVal 10 e }

/-- Writing the remaining rules back, server/fw_util_pf.c:494-523; false: return at once.  `strlen` reads
`anchor_rules_copy[STANDARD_CMD_OUT_BUFSIZE]`. -/
def pfRewrite {σ : Type} (cf : PfConf) (T : PipeTool σ) (r : PfScan) (w : σ) : Res (Bool × σ) := do
  if r.is_delete then do
    Res.mem (r.copy.length ≥ STANDARD_CMD_OUT_BUFSIZE)
    if r.copy.length > 4 ∧ hasPrefix b!"pass" r.copy then run_extcmd_write T (pfWriteCmd cf) r.copy w
    else do
      let w ← delete_all_anchor_rules cf T w
      return (true, w)
  else return (true, w)

/-- `fwc.next_expire` at the end, server/fw_util_pf.c:525-531. -/
def pfNext (old : Int) (r : PfScan) : Int :=
  if r.active < 1 then 0 else if r.min_exp ≠ 0 then r.min_exp else old

/-- `check_firewall_rules`, server/fw_util_pf.c:335-534; its second argument is not used. -/
def pf_check_firewall_rules {σ : Type} (cf : PfConf) (T : PipeTool σ) (now : Int) (s : PfSt σ) : Res (PfSt σ) :=
  if s.next_expire = 0 ∨ s.next_expire > now then .ok s
  else do
    let r ← run_extcmd T.plain (pfListCmd cf) STANDARD_CMD_OUT_BUFSIZE s.world
    let buf := chop_newline r.1.buf
    if !r.1.success then return { s with world := r.2 }
    else
      match findExp buf with
      | none => return { s with world := r.2 }
      | some p => do
        let q ← pfScan now buf (buf.length + 1) (some p) { active := s.active_rules }
        let x ← pfRewrite cf T q r.2
        if x.1 then return ⟨q.active, pfNext s.next_expire q, x.2⟩
        else return { s with active_rules := q.active, world := x.2 }

end Fwknop
