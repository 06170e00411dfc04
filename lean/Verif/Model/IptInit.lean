import Verif.Model.Iptables
import Verif.Model.Replay

/-!
# Setting up and cleaning up iptables (server/fw_util_iptables.c)

`fw_initialize` and `fw_cleanup`, for a build with `execvp` and without libnetfilter_queue.  Log
messages are left out.  `chk` is `have_ipt_chk_support`: does iptables know `-C`?
-/

namespace Fwknop

abbrev CMD_LOOP_TRIES : Nat := 10
abbrev IO_READ_BUF_LEN : Nat := 256
abbrev TMP_COMMENT : Str := b!"__TMPCOMMENT__"
abbrev DUMMY_IP : Str := b!"127.0.0.2"

/-- The configuration `fw_initialize` and `fw_cleanup` look at: --no-ipt-check-support,
FLUSH_IPT_AT_INIT, ENABLE_IPT_COMMENT_CHECK (begin with Y), FLUSH_IPT_AT_EXIT (begins with N) and
--fw-flush. -/
structure FwInit where
  disable_check : Bool := false
  flush_at_init : Bool := true
  comment_check : Bool := true
  keep_at_exit : Bool := false
  fw_flush : Bool := false

/-- The successive results of `fgets(so_read_buf, IO_READ_BUF_LEN, output)`. -/
def outLines : (fuel : Nat) → Str → List Str
  | 0, _ => []
  | _ + 1, [] => []
  | f + 1, c :: cs =>
    let r := fgetsOne (IO_READ_BUF_LEN - 1) (c :: cs)
    r.1 :: outLines f r.2

/-- `strstr(s, t) != NULL`. -/
def strIn (s t : Str) : Bool := (findSuffix (hasPrefix t) s).isSome

/-- `search_extcmd`, server/extcmd.c:713-723, 76-110, 188-308: is the return value positive, that is,
is the text in a line of the output?  (Too many words give a negative value.) -/
def search_extcmd {σ : Type} (T : Tool σ) (cmd t : Str) (w : σ) : Res (Bool × σ) := do
  let a ← strtoargv cmd
  match a with
  | none => return (false, w)
  | some argv =>
    let r := T.exec argv w
    return ((outLines (r.1.out.length + 1) r.1.out).any fun l => !isEmptyLine (l.headD 0) && strIn l t, r.2)

/-- `jump_rule_exists`, server/fw_util_iptables.c:462-527.  Without `-C` the listing is searched for the
name between two spaces. -/
def jumpRuleExists {σ : Type} (cf : FwConf) (T : Tool σ) (chk : Bool) (ch : FwChain) (w : σ) : Res (Bool × σ) :=
  if chk then jump_rule_exists cf T ch w
  else search_extcmd T
    (cmdBuf (cf.fw_command ++ b!" -t " ++ ch.table ++ b!" -L " ++ ch.from_chain ++ b!" --line-numbers -n"))
    (cmdBuf (b!" " ++ ch.to_chain ++ b!" ")) w

/-- A command with the buffer `err_buf`. -/
def iptCmd {σ : Type} (cf : FwConf) (T : Tool σ) (args : Str) (w : σ) : Res (ExtOut × σ) :=
  run_extcmd T (cmdBuf (cf.fw_command ++ args)) CMD_BUFSIZE w

/-- `ipt_chk_support`, server/fw_util_iptables.c:255-325: insert a rule into the chain from which
the input chain is jumped to, look for it with `-C`, delete rule number 1. -/
def ipt_chk_support {σ : Type} (cf : FwConf) (T : Tool σ) (ch : FwChain) (w : σ) : Res (Bool × σ) := do
  let r1 ← iptCmd cf T (b!" -t " ++ ch.table ++ b!" -I " ++ ch.from_chain ++ b!" 1 -s " ++ DUMMY_IP ++ b!" -p udp -j " ++ ch.target) w
  let r2 ← iptCmd cf T (b!" -t " ++ ch.table ++ b!" -C " ++ ch.from_chain ++ b!" -s " ++ DUMMY_IP ++ b!" -p udp -j " ++ ch.target) r1.2
  let r3 ← iptCmd cf T (b!" -t " ++ ch.table ++ b!" -D " ++ ch.from_chain ++ b!" 1") r2.2
  return (!(r2.1.success && chop_newline r2.1.buf != []), r3.2)

/-- `comment_match_exists`, server/fw_util_iptables.c:327-394. -/
def comment_match_exists {σ : Type} (cf : FwConf) (T : Tool σ) (ch : FwChain) (w : σ) : Res (Bool × σ) := do
  let r1 ← iptCmd cf T (b!" -t " ++ ch.table ++ b!" -I " ++ ch.from_chain ++ b!" 1 -s " ++ DUMMY_IP ++ b!" -m comment --comment " ++
    TMP_COMMENT ++ b!" -j " ++ ch.target) w
  let r2 ← run_extcmd T (cmdBuf (cf.fw_command ++ b!" -t " ++ ch.table ++ b!" -L " ++ ch.from_chain ++ b!" --line-numbers -n"))
    STANDARD_CMD_OUT_BUFSIZE r1.2
  if strIn (chop_newline r2.1.buf) TMP_COMMENT then do
    let r3 ← iptCmd cf T (b!" -t " ++ ch.table ++ b!" -D " ++ ch.from_chain ++ b!" 1") r2.2
    return (true, r3.2)
  else return (false, r2.2)

/-- The loop that deletes jump rules, server/fw_util_iptables.c:628-649, IPT_DEL_JUMP_RULE_ARGS. -/
def delJumps {σ : Type} (cf : FwConf) (T : Tool σ) (chk : Bool) (ch : FwChain) : (tries : Nat) → σ → Res σ
  | 0, w => .ok w
  | n + 1, w => do
    let e ← jumpRuleExists cf T chk ch w
    if e.1 then do
      let r ← iptCmd cf T (b!" -t " ++ ch.table ++ b!" -D " ++ ch.from_chain ++ b!" -j " ++ ch.to_chain) e.2
      delJumps cf T chk ch n r.2
    else return e.2

/-- One pass of the loop of `delete_all_chains`, server/fw_util_iptables.c:620-690. -/
def deleteChain {σ : Type} (cf : FwConf) (T : Tool σ) (chk : Bool) (ch : FwChain) (w : σ) : Res σ :=
  if ch.target = [] then .ok w
  else do
    let w ← delJumps cf T chk ch CMD_LOOP_TRIES w
    let r ← iptCmd cf T (b!" -t " ++ ch.table ++ b!" -F " ++ ch.to_chain) w
    let r ← iptCmd cf T (b!" -t " ++ ch.table ++ b!" -X " ++ ch.to_chain) r.2
    return r.2

/-- `delete_all_chains`, server/fw_util_iptables.c:615-764. -/
def delete_all_chains {σ : Type} (cf : FwConf) (T : Tool σ) (chk : Bool) : List FwChain → σ → Res σ
  | [], w => .ok w
  | ch :: chs, w => do
    let w ← deleteChain cf T chk ch w
    delete_all_chains cf T chk chs w

/-- `create_chain` with its return value, as 0 or 1 errors, server/fw_util_iptables.c:766-796. -/
def createChain {σ : Type} (cf : FwConf) (T : Tool σ) (ch : FwChain) (w : σ) : Res (Nat × σ) := do
  let r ← iptCmd cf T (b!" -t " ++ ch.table ++ b!" -N " ++ ch.to_chain) w
  return (if r.1.success then 0 else 1, r.2)

/-- `mk_chain` with its return value, the number of errors, server/fw_util_iptables.c:798-814. -/
def mkChain {σ : Type} (cf : FwConf) (T : Tool σ) (chk : Bool) (ch : FwChain) (w : σ) : Res (Nat × σ) := do
  let e ← chain_exists cf T ch w
  let c ← if e.1 then Res.ok (0, e.2) else createChain cf T ch e.2
  let j ← jumpRuleExists cf T chk ch c.2
  if j.1 then return (c.1, j.2)
  else do
    let r ← iptCmd cf T (b!" -t " ++ ch.table ++ b!" -I " ++ ch.from_chain ++ b!" " ++ decStrInt ch.jump_rule_pos ++ b!" -j " ++
      ch.to_chain) j.2
    return (c.1 + if r.1.success then 0 else 1, r.2)

/-- `create_fw_chains`, server/fw_util_iptables.c:816-834: the number of errors. -/
def create_fw_chains {σ : Type} (cf : FwConf) (T : Tool σ) (chk : Bool) : List FwChain → σ → Res (Nat × σ)
  | [], w => .ok (0, w)
  | ch :: chs, w =>
    if ch.target = [] then create_fw_chains cf T chk chs w
    else do
      let r ← mkChain cf T chk ch w
      let s ← create_fw_chains cf T chk chs r.2
      return (r.1 + s.1, s.2)

/-- `fw_initialize`, server/fw_util_iptables.c:1093-1136: is the result 1, the new
have_ipt_chk_support, and the world. -/
def fw_initialize {σ : Type} (cf : FwConf) (o : FwInit) (T : Tool σ) (chs : List FwChain) (w : σ) : Res (Bool × Bool × σ) := do
  let c ← if o.disable_check then Res.ok (false, w) else ipt_chk_support cf T (chs.getD IPT_INPUT_ACCESS {}) w
  let w ← if o.flush_at_init then delete_all_chains cf T c.1 chs c.2 else Res.ok c.2
  let r ← create_fw_chains cf T c.1 chs w
  if o.comment_check then do
    let m ← comment_match_exists cf T (chs.getD IPT_INPUT_ACCESS {}) r.2
    return (r.1 == 0 && m.1, c.1, m.2)
  else return (r.1 == 0, c.1, r.2)

/-- `fw_cleanup`, server/fw_util_iptables.c:1138-1147. -/
def fw_cleanup {σ : Type} (cf : FwConf) (o : FwInit) (T : Tool σ) (chk : Bool) (chs : List FwChain) (w : σ) : Res σ :=
  if o.keep_at_exit ∧ ¬ o.fw_flush then .ok w else delete_all_chains cf T chk chs w

end Fwknop
