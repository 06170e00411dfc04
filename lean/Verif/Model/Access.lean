import Verif.Model.Util

/-!
# Access stanzas (server/access.c)

Texts are C strings.  Logging, memory exhaustion and freeing are not modelled.
-/

namespace Fwknop

/-! Constants: server/access.h:33-41, server/fwknopd_common.h:73-120. -/
abbrev PROTO_TCP : Nat := 6
abbrev PROTO_UDP : Nat := 17
abbrev ACCESS_BUF_LEN : Nat := 33
abbrev DEF_FW_ACCESS_TIMEOUT : Int := 30
abbrev DEF_MAX_FW_TIMEOUT : Int := 300
abbrev CMD_CYCLE_BUFSIZE : Nat := 256
abbrev FKO_DEFAULT_ENC_MODE : Int := 2
abbrev FKO_DEFAULT_HMAC_MODE : Int := 3

/-- `acc_int_list_t`, server/fwknopd_common.h:361-366. -/
structure AddrEnt where
  maddr : Nat
  mask : Nat
  deriving DecidableEq, Repr

/-- `acc_port_list_t`, server/fwknopd_common.h:370-375. -/
structure PortEnt where
  proto : Nat
  port : Int
  deriving DecidableEq, Repr

/-- The mask of `add_int_ent`, server/access.c:380-437: the number `mask` and `need_shift`, for
the text after the slash. -/
def parseMask (m : Str) : Option (Nat × Bool) :=
  if m.length > 2 then
    if m.length ≥ MIN_IPV4_STR_LEN ∧ m.length < MAX_IPV4_STR_LEN then
      (inet_aton m).map fun x => (x, false)
    else none
  else if m.length > 0 then
    let r := strtol_wrapper m 1 32
    if r.2 then some (r.1.toNat, true) else none
  else none

/-- server/access.c:467-472. -/
def maskBits (mask : Nat) (need_shift : Bool) : Nat :=
  if mask = 32 then 0xFFFFFFFF
  else if need_shift ∧ 0 < mask ∧ mask < 32 then (0xFFFFFFFF <<< (32 - mask)) % 2 ^ 32
  else mask

/-- The address and the mask of one entry, server/access.c:376-455: `ip_str`, `mask`,
`need_shift`. -/
def splitEnt (ip : Str) : Option (Str × Nat × Bool) :=
  match strchr ip 47 with
  | some n =>
    if n ≥ MAX_IPV4_STR_LEN then none
    else (parseMask (ip.drop (n + 1))).map fun m => (ip.take n, m.1, m.2)
  | none => if min ip.length (MAX_IPV4_STR_LEN + 1) ≥ MAX_IPV4_STR_LEN then none else some (ip, 32, true)

/-- `add_int_ent`, server/access.c:348-506: the entry appended to the list, `none` on error. -/
def add_int_ent (ip : Str) : Option AddrEnt :=
  if strcaseeq ip b!"ANY" then some ⟨0, 0⟩
  else match splitEnt ip with
    | none => none
    | some (ip_str, mask, need_shift) =>
      match inet_aton ip_str with
      | none => none
      | some v => some ⟨v &&& maskBits mask need_shift, maskBits mask need_shift⟩

/-- One entry of a comma separated list, server/access.c:525-535 and 545-553 (712-732 for
ports): leading white space is skipped, the rest must fit the buffer. -/
def listItem (cur : Str) : Option Str :=
  let e := cur.dropWhile isSpace
  if e.length + 1 ≥ ACCESS_BUF_LEN then none else some e

/-- The loop of `expand_acc_int_list` and `expand_acc_port_list`; `cur` is the text from `start`
to `ndx`. -/
def expandLoop {α : Type} (add : Str → Option α) : Str → (cur : Str) → Option (List α)
  | [], cur => do
    let e ← listItem cur
    let x ← add e
    return [x]
  | c :: cs, cur =>
    if c = 44 then do
      let e ← listItem cur
      let x ← add e
      let rest ← expandLoop add cs []
      return x :: rest
    else expandLoop add cs (cur ++ [c])

/-- `expand_acc_int_list`, server/access.c:510-554. -/
def expand_acc_int_list (s : Str) : Option (List AddrEnt) := expandLoop add_int_ent s []

/-- The protocol of a specification, server/access.c:591-602. -/
def protoOf (p : Str) : Option Nat :=
  if strcaseeq p b!"tcp" then some PROTO_TCP
  else if strcaseeq p b!"udp" then some PROTO_UDP
  else none

/-- `parse_proto_and_port`, server/access.c:556-605. -/
def parse_proto_and_port (s : Str) : Option PortEnt :=
  match strchr s 47 with
  | none => none
  | some n =>
    if n + 1 ≥ ACCESS_BUF_LEN then none
    else
      let r := strtol_wrapper (s.drop (n + 1)) 0 MAX_PORT
      if r.2 then (protoOf (s.take n)).map fun p => ⟨p, r.1⟩ else none

/-- `expand_acc_port_list`, server/access.c:703-747. -/
def expand_acc_port_list (s : Str) : Option (List PortEnt) := expandLoop parse_proto_and_port s []

/-- `compare_addr_list`, server/access.c:2045-2062. -/
def compare_addr_list : List AddrEnt → (ip : Nat) → Bool
  | [], _ => false
  | e :: es, ip => if ip &&& e.mask = e.maddr &&& e.mask then true else compare_addr_list es ip

/-- The inner loop of `compare_port_list`: how often `p` occurs in `ac`. -/
def countPort (p : PortEnt) : List PortEnt → Nat
  | [] => 0
  | q :: qs => if p.proto = q.proto ∧ p.port = q.port then countPort p qs + 1 else countPort p qs

/-- The loop of `compare_port_list` with match_any = 0, server/access.c:2085-2104: `a_cnt` and
`i_cnt` at the end. -/
def countAll : List PortEnt → List PortEnt → Nat × Nat
  | [], _ => (0, 0)
  | p :: ps, ac => ((countAll ps ac).1 + countPort p ac, (countAll ps ac).2 + 1)

/-- `compare_port_list(in, ac, 0)`, server/access.c:2079-2107. -/
def compare_port_list_all (in_ ac : List PortEnt) : Bool := (countAll in_ ac).2 = (countAll in_ ac).1

/-- `compare_port_list(in, ac, 1)`, server/access.c:2079-2107: the first match returns 1; without
one both counters are compared at the end. -/
def compare_port_list_any (in_ ac : List PortEnt) : Bool :=
  if in_.any (fun p => countPort p ac ≠ 0) then true else compare_port_list_all in_ ac

/-- The parsing loop of `acc_check_port_access`, server/access.c:2129-2172: `cur` is the text from
`start` to `ndx`. -/
def requestPorts : Str → (cur : Str) → (ctr : Nat) → Option (List PortEnt)
  | [], cur, ctr =>
    if ctr ≥ ACCESS_BUF_LEN ∨ cur.length + 1 ≥ ACCESS_BUF_LEN then none
    else (parse_proto_and_port cur).map fun p => [p]
  | c :: cs, cur, ctr =>
    if c = 44 then
      if ctr ≥ ACCESS_BUF_LEN ∨ cur.length + 1 ≥ ACCESS_BUF_LEN then none
      else match parse_proto_and_port cur with
        | none => none
        | some p => (requestPorts cs [] 1).map fun ps => p :: ps
    else requestPorts cs (cur ++ [c]) (ctr + 1)

/-- The fields of `acc_stanza_t` (server/fwknopd_common.h:389-455) that decisions depend on.
Absent strings and lists are `none`/`[]`; key lengths are the lengths of the lists. -/
structure Stanza where
  source_list : List AddrEnt := []
  destination : Option Str := none
  destination_list : List AddrEnt := []
  oport_list : List PortEnt := []
  rport_list : List PortEnt := []
  key : Option Str := none
  hmac_key : Option Str := none
  hmac_type : Int := 0
  use_rijndael : Bool := false
  fw_access_timeout : Int := 0
  max_fw_timeout : Int := 0
  enable_cmd_exec : Bool := false
  enable_cmd_sudo_exec : Bool := false
  cmd_sudo_exec_user : Option Str := none
  cmd_sudo_exec_group : Option Str := none
  cmd_exec_user : Option Str := none
  cmd_exec_group : Option Str := none
  cmd_exec_uid : Nat := 0
  cmd_exec_gid : Nat := 0
  cmd_sudo_exec_uid : Nat := 0
  cmd_sudo_exec_gid : Nat := 0
  cmd_cycle_open : Option Str := none
  cmd_cycle_close : Option Str := none
  cmd_cycle_do_close : Bool := false
  cmd_cycle_timer : Int := 0
  require_username : Option Str := none
  require_source_address : Bool := false
  gpg_home_dir : Option Str := none
  gpg_exe : Option Str := none
  gpg_decrypt_id : Option Str := none
  gpg_decrypt_pw : Option Str := none
  gpg_require_sig : Bool := false
  gpg_disable_sig : Bool := false
  gpg_ignore_sig_error : Bool := false
  use_gpg : Bool := false
  gpg_allow_no_pw : Bool := false
  gpg_remote_id_list : List Str := []
  gpg_remote_fpr_list : List Str := []
  access_expire_time : Int := 0
  expired : Bool := false
  encryption_mode : Int := 0
  force_nat : Bool := false
  force_nat_ip : Option Str := none
  force_nat_proto : Option Str := none
  force_nat_port : Nat := 0
  forward_all : Bool := false
  disable_dnat : Bool := false
  force_snat : Bool := false
  force_snat_ip : Option Str := none
  force_masquerade : Bool := false
  deriving DecidableEq, Repr

/-- `acc_check_port_access`, server/access.c:2112-2201. -/
def acc_check_port_access (acc : Stanza) (port_str : Str) : Bool :=
  match requestPorts port_str [] 0 with
  | none => false
  | some in_pl =>
    if acc.rport_list ≠ [] ∧ compare_port_list_any in_pl acc.rport_list then false
    else if acc.oport_list ≠ [] ∧ !compare_port_list_all in_pl acc.oport_list then false
    else true

/-- server/access.c:1176-1184: the access timeout and its maximum. -/
def timeoutDefaults (a : Stanza) : Stanza :=
  { a with
    fw_access_timeout := if a.fw_access_timeout < 1 then DEF_FW_ACCESS_TIMEOUT else a.fw_access_timeout
    max_fw_timeout := if a.max_fw_timeout < 1 then DEF_MAX_FW_TIMEOUT else a.max_fw_timeout }

/-- server/access.c:1194-1239: GPG; `none` is the exit for a stanza without signature
identities (the code tests the texts GPG_REMOTE_ID and GPG_FINGERPRINT_ID, which the parser never
leaves empty, so they are NULL exactly when the lists are). -/
def gpgDefaults (gpg_home : Str) (a : Stanza) : Option Stanza :=
  if a.gpg_decrypt_pw ≠ none then
    if !a.gpg_disable_sig ∧ a.gpg_remote_id_list = [] ∧ a.gpg_remote_fpr_list = [] then none
    else some { a with
      gpg_home_dir := if a.gpg_home_dir = none then some gpg_home else a.gpg_home_dir
      gpg_require_sig := if !a.gpg_require_sig ∧ !a.gpg_disable_sig then true else a.gpg_require_sig }
  else some a

/-- server/access.c:1241-1252: encryption mode and HMAC type. -/
def modeDefaults (a : Stanza) : Stanza :=
  { a with
    encryption_mode := if a.encryption_mode = 0 then FKO_DEFAULT_ENC_MODE else a.encryption_mode
    hmac_type := if a.hmac_type = 0 ∧ (a.hmac_key.getD []).length > 0 ∧ a.hmac_key ≠ none
      then FKO_DEFAULT_HMAC_MODE else a.hmac_type }

/-- `set_acc_defaults` on one stanza, server/access.c:1161-1260; `gpg_home` is the value of
GPG_HOME_DIR in fwknopd.conf. -/
def set_acc_defaults (gpg_home : Str) (a : Stanza) : Option Stanza :=
  (gpgDefaults gpg_home (timeoutDefaults a)).map modeDefaults

/-- server/access.c:1285-1297: in legacy mode the encryption key is cut to 16 bytes. -/
def legacyKey (a : Stanza) : Stanza :=
  match a.key with
  | some k => if a.use_rijndael ∧ a.encryption_mode = 8 ∧ k.length > 16 then { a with key := some (k.take 16) } else a
  | none => a

/-- server/access.c:1274-1283: no usable key. -/
def noKeys (a : Stanza) : Bool :=
  ((a.key.getD []) = [] ∧ ((a.gpg_decrypt_pw.getD []) = [] ∧ !a.gpg_allow_no_pw))
    ∨ (!a.use_rijndael ∧ !a.use_gpg ∧ !a.gpg_allow_no_pw)

/-- server/access.c:1299-1329: the comparison of the HMAC key with the encryption key or the GPG
passphrase. -/
def sameKeys (a : Stanza) : Bool :=
  match a.hmac_key with
  | none => false
  | some h =>
    if h = [] then false
    else
      let k := a.key.getD []
      if k ≠ [] ∧ k.length = h.length then k = h
      else if !a.gpg_allow_no_pw ∧ (a.gpg_decrypt_pw ≠ none ∧ (a.gpg_decrypt_pw.getD []).length = h.length) then
        a.gpg_decrypt_pw.getD [] = h
      else false

/-- server/access.c:1331-1349. -/
def forceNatDefault (a : Stanza) : Option Stanza :=
  if (a.force_snat ∨ a.force_masquerade) ∧ !a.force_nat then
    if a.forward_all then some { a with force_nat := true, force_nat_ip := some b!"0.0.0.0", force_nat_port := 0 }
    else none
  else some a

/-- server/access.c:1359-1379, with the group ids of the two users if they were looked up.
(`getpwnam` returns static storage, so both pointers designate the entry of the user looked up
last: `pw_gid` is the group of that user.  A simplification is that this is a parameter.) -/
def setGids (user_pw sudo_user_pw : Option Nat) (a : Stanza) : Stanza :=
  let a := match user_pw with
    | some gid => if a.cmd_exec_uid ≠ 0 ∧ a.cmd_exec_gid = 0 then { a with cmd_exec_gid := gid } else a
    | none => a
  match sudo_user_pw with
    | some gid => if a.cmd_sudo_exec_uid ≠ 0 ∧ a.cmd_sudo_exec_gid = 0 then { a with cmd_sudo_exec_gid := gid } else a
    | none => a

/-- server/access.c:1381-1428. -/
def cycleCheck (a : Stanza) : Option Stanza :=
  let r : Option Stanza := match a.cmd_cycle_open with
    | none => some a
    | some o => match a.cmd_cycle_close with
      | none => none
      | some c =>
        let a := if hasPrefix b!"NONE" c then { a with cmd_cycle_do_close := false } else a
        if a.cmd_cycle_timer = 0 ∧ a.cmd_cycle_do_close then none
        else if o.length ≥ CMD_CYCLE_BUFSIZE then none
        else some a
  match r with
  | none => none
  | some a => match a.cmd_cycle_close with
    | none => some a
    | some c =>
      if a.cmd_cycle_open = none then none
      else if c.length ≥ CMD_CYCLE_BUFSIZE then none
      else some a

/-- `acc_data_is_valid`, server/access.c:1262-1435: the stanza as adjusted, `none` when it is
rejected. -/
def acc_data_is_valid (user_pw sudo_user_pw : Option Nat) (a : Stanza) : Option Stanza :=
  if noKeys a then none
  else
    let a := legacyKey a
    if sameKeys a then none
    else match forceNatDefault a with
      | none => none
      | some a => cycleCheck (setGids user_pw sudo_user_pw a)

example : add_int_ent b!"192.168.10.0/24" = some ⟨0xC0A80A00, 0xFFFFFF00⟩ := by decide +kernel
example : add_int_ent b!"any" = some ⟨0, 0⟩ := by decide +kernel
example : add_int_ent b!"10.0.0.0/255.0.0.0" = some ⟨0x0A000000, 0xFF000000⟩ := by decide +kernel
example : expand_acc_port_list b!"tcp/22, UDP/53" = some [⟨6, 22⟩, ⟨17, 53⟩] := by decide +kernel

end Fwknop
