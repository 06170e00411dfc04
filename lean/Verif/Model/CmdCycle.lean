import Verif.Model.Access
import Verif.Model.Ctx

/-!
# Command cycles (server/cmd_cycle.c)

The process that runs a command is outside the model: running it is recorded as an effect and
its result, which the code ignores, is not modelled.  Logging, memory exhaustion and freeing
are not modelled.
-/

namespace Fwknop

/-- `spa_data_t`, server/fwknopd_common.h:614-631.  The character arrays are C strings; that what
is copied into them fits is checked where the copy happens. -/
structure SpaData where
  username : Option Str := none
  timestamp : Int := 0
  message_type : Int := 0
  spa_message : Option Str := none
  spa_message_src_ip : Str := []
  pkt_source_ip : Str := []
  pkt_source_xff_ip : Str := []
  pkt_destination_ip : Str := []
  spa_message_remain : Str := []
  nat_access : Option Str := none
  client_timeout : Nat := 0
  fw_access_timeout : Nat := 0
  use_src_ip : Str := []
  deriving DecidableEq, Repr

/-- The text of a character array: what is before the first NUL. -/
def cstr (buf : Str) : Str := buf.takeWhile (· ≠ 0)

/-- The texts the variables of a cycle command stand for. -/
structure CycleVals where
  ip : Str
  pkt_src : Str
  dst : Str
  port : Str
  proto : Str
  timeout : Str
  client_timeout : Str

/-- The variable at the start of a text, with the length of its name and its value: the tests of
server/cmd_cycle.c:98-163 (`is_var`, 51-60), in their order. -/
def cycleVar (v : CycleVals) (s : Str) : Option (Nat × Str) :=
  if hasPrefix b!"IP" s then some (2, v.ip)
  else if hasPrefix b!"SRC" s then some (3, v.ip)
  else if hasPrefix b!"PKT_SRC" s then some (7, v.pkt_src)
  else if hasPrefix b!"DST" s then some (3, v.dst)
  else if hasPrefix b!"PORT" s then some (4, v.port)
  else if hasPrefix b!"PROTO" s then some (5, v.proto)
  else if hasPrefix b!"TIMEOUT" s then some (7, v.timeout)
  else if hasPrefix b!"CLIENT_TIMEOUT" s then some (14, v.client_timeout)
  else none

/-- `strlcat(cmd_buf, s, CMD_CYCLE_BUFSIZE)` on the buffer of that size, common/strlcat.c. -/
def strlcatBuf (buf s : Str) : Str :=
  let n := (cstr buf).length
  if n ≥ CMD_CYCLE_BUFSIZE then buf
  else
    let s' := s.take (CMD_CYCLE_BUFSIZE - 1 - n)
    buf.take n ++ s' ++ 0 :: buf.drop (n + s'.length + 1)

/-- The loop of `build_cmd`, server/cmd_cycle.c:91-175: `i` and `buf_idx` are the code's; `none`
is the return value 0. -/
def buildLoop (v : CycleVals) (t : Str) : (fuel i buf_idx : Nat) → (buf : Str) → Res (Option Str)
  | 0, _, _, buf => .ok (some (cstr buf))
  | fuel + 1, i, buf_idx, buf =>
    if i < min t.length CMD_CYCLE_BUFSIZE then
      if t.getD i 0 = 36 then
        match cycleVar v (t.drop (i + 1)) with
        | some (n, x) => buildLoop v t fuel (i + n + 1) (buf_idx + x.length) (strlcatBuf buf x)
        | none => buildLoop v t fuel (i + 1) buf_idx buf
      else do
        Res.mem (buf_idx ≥ CMD_CYCLE_BUFSIZE)
        if buf_idx + 1 = CMD_CYCLE_BUFSIZE then return none
        else buildLoop v t fuel (i + 1) (buf_idx + 1) (buf.set buf_idx (t.getD i 0))
    else .ok (some (cstr buf))

/-- `client_timeout == 0 ? timer : client_timeout`, an unsigned int. -/
def cycleTime (sp : SpaData) (timer : Int) : Int :=
  if sp.client_timeout = 0 then timer % 2 ^ 32 else sp.client_timeout

/-- The values of the variables, server/cmd_cycle.c:66-88, 98-158: the buffers for port, protocol,
timestamp and client timeout have 6, 5, 20 and 10 bytes. -/
def cycleVals (sp : SpaData) (p : PortEnt) (timer : Int) : CycleVals where
  ip := sp.use_src_ip
  pkt_src := sp.pkt_source_ip
  dst := sp.pkt_destination_ip
  port := (decStrInt p.port).take 5
  proto := (decStr p.proto).take 4
  timeout := (decStrInt (sp.timestamp + cycleTime sp timer)).take 19
  client_timeout := (decStrInt (cycleTime sp timer)).take 9

/-- `build_cmd`, server/cmd_cycle.c:62-181: the text left in cmd_buf, or `none` for 0. -/
def build_cmd (sp : SpaData) (t : Str) (timer : Int) : Res (Option Str) :=
  match expand_acc_port_list sp.spa_message_remain with
  | none => .ok none
  | some [] => .ub
  | some (p :: _) =>
    buildLoop (cycleVals sp p timer) t (t.length + 1) 0 0 (List.replicate CMD_CYCLE_BUFSIZE 0)

/-- `cmd_cycle_list_t`, server/fwknopd_common.h:459-466, without the link. -/
structure CycleEnt where
  src_ip : Str
  close_cmd : Str
  expire : Int
  stanza_num : Nat
  deriving DecidableEq, Repr

/-- `add_cmd_close`, server/cmd_cycle.c:212-292: the list with the new entry at its end, `none` for
the return value 0. -/
def add_cmd_close (now : Int) (acc : Stanza) (sp : SpaData) (stanza_num : Nat)
    (l : List CycleEnt) : Res (Option (List CycleEnt)) := do
  let r ← build_cmd sp (acc.cmd_cycle_close.getD []) acc.cmd_cycle_timer
  match r with
  | none => return none
  | some c => return some (l ++ [{
      src_ip := strlcpy sp.use_src_ip MAX_IPV4_STR_LEN
      close_cmd := c.take (CMD_CYCLE_BUFSIZE - 1)
      expire := now + cycleTime sp acc.cmd_cycle_timer
      stanza_num := stanza_num }])

/-- What `cmd_cycle_open` (server/cmd_cycle.c:183-210, 294-308) did: the command it ran, the new
list and its return value. -/
structure CycleOpened where
  ran : Option Str
  list : List CycleEnt
  ret : Bool
  deriving DecidableEq, Repr

/-- `cmd_cycle_open`, server/cmd_cycle.c:294-308. -/
def cmd_cycle_open (now : Int) (acc : Stanza) (sp : SpaData) (stanza_num : Nat)
    (l : List CycleEnt) : Res CycleOpened := do
  let r ← build_cmd sp (acc.cmd_cycle_open.getD []) acc.cmd_cycle_timer
  match r with
  | none => return ⟨none, l, false⟩
  | some cmd =>
    if acc.cmd_cycle_do_close then do
      let r2 ← add_cmd_close now acc sp stanza_num l
      match r2 with
      | none => return ⟨some cmd, l, false⟩
      | some l2 => return ⟨some cmd, l2, true⟩
    else return ⟨some cmd, l, true⟩

/-- The `for` loop of `cmd_cycle_close`, server/cmd_cycle.c:343-371, over the nodes from position
`i`: the position of the first node whose time has come with the value of `prev` there (a
position, `none` is NULL), or `none` if there is no such node. -/
def cycleScan (now : Int) : (i : Nat) → (prev : Option Nat) → List CycleEnt →
    Option (Nat × Option Nat)
  | _, _, [] => none
  | i, prev, e :: es => if e.expire ≤ now then some (i, prev) else cycleScan now (i + 1) (some i) es

/-- Unlinking the node at position `i`, server/cmd_cycle.c:362-367: `prev` NULL makes the next
node the head, otherwise the next node follows `prev`.  A `prev` at or after the node would leave
the list malformed. -/
def cycleUnlink (l : List CycleEnt) (i : Nat) : (prev : Option Nat) → Res (List CycleEnt)
  | none => .ok (l.drop (i + 1))
  | some p => do
    Res.mem (p ≥ i)
    return l.take (p + 1) ++ l.drop (i + 1)

/-- The `while` loop of `cmd_cycle_close`, server/cmd_cycle.c:336-372.  `prev` keeps its value
from one pass to the next.  Result: the list and the entries whose command was run, in order. -/
def closeLoop (now : Int) : (fuel : Nat) → (prev : Option Nat) → List CycleEnt →
    Res (List CycleEnt × List CycleEnt)
  | 0, _, l => .ok (l, [])
  | fuel + 1, prev, l =>
    match cycleScan now 0 prev l with
    | none => .ok (l, [])
    | some (i, p) => do
      let l' ← cycleUnlink l i p
      let r ← closeLoop now fuel p l'
      return (r.1, l.drop i |>.take 1 |>.append r.2)

/-- `cmd_cycle_close`, server/cmd_cycle.c:322-375.  Each pass of the outer loop but the last
removes a node, so the length bounds the passes. -/
def cmd_cycle_close (now : Int) (l : List CycleEnt) : Res (List CycleEnt × List CycleEnt) :=
  closeLoop now (l.length + 1) none l

end Fwknop
