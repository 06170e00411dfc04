import Verif.Model.Access
import Verif.Model.Replay
import Verif.Model.CmdCycle
import Verif.Model.Pf

/-!
# Reading access.conf (server/access.c:76-346, 749-800, 963-1158, 1436-2042, 2316-2480)

What the parser finds outside itself (files, directories, the password database, `mktime`, three
settings of fwknopd.conf) is `AccEnv`.  Logging, memory exhaustion and the freeing of strings are
not modelled.  The build is the iptables one (FIREWALL_IPTABLES).

Every outcome that ends the program (`clean_exit`, `exit`, EXIT_FAILURE returned to `main`) is
`Res.err`; an access outside an object, or to a stanza that was freed, is `Res.ub`.
-/

namespace Fwknop

/-! Constants: server/access.h:51, server/fwknopd_common.h:147-149, lib/fko_limits.h (MAX_PORT). -/
abbrev MAX_DEPTH : Nat := 3
abbrev RCHK_MAX_FW_TIMEOUT : Int := 8388608
abbrev RCHK_MAX_CMD_CYCLE_TIMER : Int := 8388608
abbrev RCHK_MIN_CMD_CYCLE_TIMER : Int := 1
abbrev ACC_PATH_LEN : Nat := 1024

/-- What the parser is given: the contents of a file that can be opened (and is a regular file,
`verify_file_perms_ownership`), the names in a directory in the order `readdir` returns them,
`is_valid_dir`, `getpwnam` (user and group number), `mktime` (month, day, year as in `struct tm`),
whether ENABLE_IPT_FORWARDING or ENABLE_IPT_LOCAL_NAT is set, and GPG_HOME_DIR. -/
structure AccEnv where
  file : Str → Option Str
  dir : Str → Option (List Str) := fun _ => none
  isDir : Str → Bool := fun _ => false
  passwd : Str → Option (Nat × Nat) := fun _ => none
  mktime : Int → Int → Int → Int := fun _ _ _ => 0
  nat_enabled : Bool := false
  gpg_home : Str := []

/-- An `acc_stanza_t` while it is read: the members of `Stanza` and the texts that are expanded
later (server/fwknopd_common.h:389-455; `key_base64` and `hmac_key_base64`, which are only freed,
are left out). -/
structure AccEnt where
  st : Stanza := {}
  source : Str := []
  open_ports : Option Str := none
  restrict_ports : Option Str := none
  gpg_remote_id : Option Str := none
  gpg_remote_fpr : Option Str := none
  deriving DecidableEq

/-- `user_pw` and `sudo_user_pw` of `parse_access_file` (are they set?) and the group number in the
static entry both point to: `getpwnam` overwrites it at each call. -/
structure Pw where
  user : Bool := false
  sudo : Bool := false
  gid : Nat := 0
  deriving DecidableEq

/-! ## Lines -/

/-- `sscanf(line, "%s %[^;\n\r]", var, val)`, server/access.c:1545; `none` unless it returns 2. -/
def scanLine (s : Str) : Option (Str × Str) :=
  let s1 := s.dropWhile isSpace
  let var := s1.takeWhile fun c => !isSpace c
  let s2 := (s1.drop var.length).dropWhile isSpace
  let val := s2.takeWhile fun c => c ≠ 59 ∧ c ≠ 10 ∧ c ≠ 13
  if var = [] ∨ val = [] then none else some (var, val)

/-- server/access.c:1557-1558 and 2361-2362: `strrchr(var, ':')` is where the name ends. -/
def cutColon (s : Str) : Str :=
  match s.reverse.dropWhile (· ≠ 58) with
  | [] => s
  | _ :: r => r.reverse

/-- `chop_whitespace`, common/fko_util.c:567-581: the loop stops before the first character. -/
def chop_whitespace : Str → Str
  | [] => []
  | c :: cs => if cs.all isSpace then c :: cs else c :: (cs.reverse.dropWhile isSpace).reverse

/-- One line as `fgets` returns it, server/access.c:1536-1558 (2342-2362 in a keys file): `none`
for a comment or an empty line, otherwise name and value, which are stored in arrays of
MAX_LINE_LEN bytes. -/
def accLine (line : Str) : Res (Option (Str × Str)) :=
  let s := cstr line
  if isEmptyLine (s.headD 0) then .ok none
  else match scanLine s with
    | none => .err
    | some (var, val) => do
      Res.mem (var.length + 1 > MAX_LINE_LEN ∨ val.length + 1 > MAX_LINE_LEN)
      return some (cutColon var, val)

/-- The lines of a file: the results of `fgets(access_line_buf, MAX_LINE_LEN, file_ptr)`. -/
def accLines (content : Str) : List Str := fgetsLines content.length content

/-! ## Values -/

/-- `add_acc_bool`, server/access.c:199-205. -/
def acc_bool (val : Str) : Bool := hasPrefixI b!"Y" val

/-- The `sscanf` conversion `%wd`: number and what is left. -/
def scanD (w : Nat) (s : Str) : Option (Int × Str) :=
  let s1 := s.dropWhile isSpace
  let r := splitSign (s1.take w)
  let ds := r.2.takeWhile isDigit
  if ds = [] then none
  else
    let v : Int := digitsVal 10 ds
    some (if r.1 then -v else v, s1.drop (((s1.take w).length - r.2.length) + ds.length))

/-- A character of a `sscanf` format. -/
def scanLit (c : Nat) : Str → Option Str
  | [] => none
  | x :: xs => if x = c then some xs else none

/-- `sscanf(val, "%2d/%2d/%4d", ...)`, server/access.c:216. -/
def scanDate (val : Str) : Option (Int × Int × Int) := do
  let (m, r) ← scanD 2 val
  let r ← scanLit 47 r
  let (d, r) ← scanD 2 r
  let r ← scanLit 47 r
  let (y, _) ← scanD 4 r
  return (m, d, y)

/-- `add_acc_expire_time`, server/access.c:209-243. -/
def acc_expire_time (mktime : Int → Int → Int → Int) (val : Str) : Option Int :=
  match scanDate val with
  | none => none
  | some (mon, mday, year) =>
    let mon := if mon > 0 then mon - 1 else mon
    let year := if year > 1900 then year - 1900 else if year < 100 then year + 100 else year
    some (mktime mon mday year)

/-- `add_acc_expire_time_epoch`, server/access.c:247-272: glibc `strtoul(val, &endptr, 10)`
stored in a `time_t`; `none` is ERANGE. -/
def acc_expire_epoch (val : Str) : Option Int :=
  let r := splitSign (val.dropWhile isSpace)
  let v := digitsVal 10 (r.2.takeWhile isDigit)
  if v ≥ 2 ^ 64 then none
  else
    let x : Int := if r.1 then -v else v
    some ((x + 2 ^ 63) % 2 ^ 64 - 2 ^ 63)

/-- `add_acc_force_nat`, server/access.c:275-315: address and port; `%5u` reads at most five
characters and accepts a sign. -/
def acc_force_nat (val : Str) : Option (Str × Nat) :=
  match scanStr 15 val with
  | none => none
  | some (ip, rest) => match scanD 5 rest with
    | none => none
    | some (p, _) =>
      let port : Nat := (p % 2 ^ 32).toNat
      if port > MAX_PORT then none
      else if is_valid_ipv4_addr ip ip.length then some (ip, port) else none

/-- `add_acc_force_snat`, server/access.c:317-344. -/
def acc_force_snat (val : Str) : Option Str :=
  match scanStr 15 val with
  | none => none
  | some (ip, _) => if is_valid_ipv4_addr ip ip.length then some ip else none

/-- The value the sample files contain. -/
abbrev CHANGEME : Str := b!"__CHANGEME__"

/-! ## Options -/

/-- The options of a stanza. -/
inductive Opt where
  | destination | open_ports | restrict_ports | key | key_base64 | hmac_digest_type
  | hmac_key_base64 | hmac_key | fw_access_timeout | max_fw_timeout | encryption_mode
  | enable_cmd_exec | enable_cmd_sudo_exec | cmd_sudo_exec_user | cmd_sudo_exec_group
  | cmd_exec_user | cmd_exec_group | cmd_cycle_open | cmd_cycle_close | cmd_cycle_timer
  | require_username | require_source_address | gpg_home_dir | gpg_exe | gpg_decrypt_id
  | gpg_decrypt_pw | gpg_allow_no_pw | gpg_require_sig | gpg_disable_sig | gpg_ignore_sig_error
  | gpg_remote_id | gpg_fingerprint_id | access_expire | access_expire_epoch | force_nat
  | force_snat | force_masquerade | disable_dnat | forward_all
  deriving DecidableEq

/-- The names compared in turn, server/access.c:1634-1972. -/
def optNames : List (Str × Opt) := [
  (b!"DESTINATION", .destination), (b!"OPEN_PORTS", .open_ports),
  (b!"RESTRICT_PORTS", .restrict_ports), (b!"KEY", .key), (b!"KEY_BASE64", .key_base64),
  (b!"HMAC_DIGEST_TYPE", .hmac_digest_type), (b!"HMAC_KEY_BASE64", .hmac_key_base64),
  (b!"HMAC_KEY", .hmac_key), (b!"FW_ACCESS_TIMEOUT", .fw_access_timeout),
  (b!"MAX_FW_TIMEOUT", .max_fw_timeout), (b!"ENCRYPTION_MODE", .encryption_mode),
  (b!"ENABLE_CMD_EXEC", .enable_cmd_exec), (b!"ENABLE_CMD_SUDO_EXEC", .enable_cmd_sudo_exec),
  (b!"CMD_SUDO_EXEC_USER", .cmd_sudo_exec_user), (b!"CMD_SUDO_EXEC_GROUP", .cmd_sudo_exec_group),
  (b!"CMD_EXEC_USER", .cmd_exec_user), (b!"CMD_EXEC_GROUP", .cmd_exec_group),
  (b!"CMD_CYCLE_OPEN", .cmd_cycle_open), (b!"CMD_CYCLE_CLOSE", .cmd_cycle_close),
  (b!"CMD_CYCLE_TIMER", .cmd_cycle_timer), (b!"REQUIRE_USERNAME", .require_username),
  (b!"REQUIRE_SOURCE_ADDRESS", .require_source_address), (b!"REQUIRE_SOURCE", .require_source_address),
  (b!"GPG_HOME_DIR", .gpg_home_dir), (b!"GPG_EXE", .gpg_exe), (b!"GPG_DECRYPT_ID", .gpg_decrypt_id),
  (b!"GPG_DECRYPT_PW", .gpg_decrypt_pw), (b!"GPG_ALLOW_NO_PW", .gpg_allow_no_pw),
  (b!"GPG_REQUIRE_SIG", .gpg_require_sig), (b!"GPG_DISABLE_SIG", .gpg_disable_sig),
  (b!"GPG_IGNORE_SIG_VERIFY_ERROR", .gpg_ignore_sig_error), (b!"GPG_REMOTE_ID", .gpg_remote_id),
  (b!"GPG_FINGERPRINT_ID", .gpg_fingerprint_id), (b!"ACCESS_EXPIRE", .access_expire),
  (b!"ACCESS_EXPIRE_EPOCH", .access_expire_epoch), (b!"FORCE_NAT", .force_nat),
  (b!"FORCE_SNAT", .force_snat), (b!"FORCE_MASQUERADE", .force_masquerade),
  (b!"DISABLE_DNAT", .disable_dnat), (b!"FORWARD_ALL", .forward_all)]

/-- The option a name selects; unknown names are reported and ignored (server/access.c:1973-1979). -/
def optOf (var : Str) : Option Opt := (optNames.find? fun e => e.1 = var).map (·.2)

/-- The names compared by `include_keys_file`, server/access.c:2364-2475. -/
def keyFileOpt (o : Opt) : Bool := match o with
  | .key | .key_base64 | .hmac_key_base64 | .hmac_key | .gpg_decrypt_id | .gpg_decrypt_pw
  | .gpg_allow_no_pw | .gpg_require_sig | .gpg_disable_sig | .gpg_ignore_sig_error
  | .gpg_remote_id | .gpg_fingerprint_id => true
  | _ => false

/-- Values that are refused before anything is stored: server/access.c:1642-1649, 1656-1672,
1692-1708, 1715-1722, 1832-1839, and the same in `include_keys_file`. -/
def keyRefused (o : Opt) (val : Str) : Bool := match o with
  | .key | .hmac_key | .gpg_decrypt_pw => strcaseeq val CHANGEME
  | .key_base64 | .hmac_key_base64 => strcaseeq val CHANGEME || !Base64.is_base64 val
  | _ => false

/-- A setting that is refused (the program ends) or stored. -/
def orFail {α : Type} : Option α → Res α
  | none => .err
  | some a => .ok a

/-- `add_acc_b64_string`, server/access.c:157-195: the value is decoded into a copy of itself (the
decoder writes a terminator). -/
def accB64 (val : Str) : Res Str := do
  let k ← orFail (Base64.b64_decode val)
  Res.mem (k.length + 1 > val.length + 1)
  return k

/-- A number read with `strtol_wrapper`. -/
def accNum (val : Str) (min max : Int) : Res Int :=
  let r := strtol_wrapper val min max
  if r.2 then .ok r.1 else .err

/-- A name looked up in a table; a negative number is refused. -/
def accName (n : Int) : Res Int := if n < 0 then .err else .ok n

/-- One option of the current stanza, server/access.c:1634-1972, with `add_acc_string`,
`add_acc_user`, `add_acc_group`, `add_acc_b64_string` (server/access.c:78-197). -/
def setOption (env : AccEnv) (o : Opt) (val : Str) (x : Pw × AccEnt) : Res (Pw × AccEnt) :=
  let pw := x.1
  let e := x.2
  let st := x.2.st
  if keyRefused o val then .err
  else match o with
  | .destination => .ok (pw, { e with st := { st with destination := some val } })
  | .open_ports => .ok (pw, { e with open_ports := some val })
  | .restrict_ports => .ok (pw, { e with restrict_ports := some val })
  | .key => .ok (pw, { e with st := { st with key := some val, use_rijndael := true } })
  | .key_base64 => do
    let k ← accB64 val
    return (pw, { e with st := { st with key := some k, use_rijndael := true } })
  | .hmac_digest_type => do
    let t ← accName (digest_strtoint val)
    return (pw, { e with st := { st with hmac_type := t } })
  | .hmac_key_base64 => do
    let k ← accB64 val
    return (pw, { e with st := { st with hmac_key := some k } })
  | .hmac_key => .ok (pw, { e with st := { st with hmac_key := some val } })
  | .fw_access_timeout => do
    let n ← accNum val 0 RCHK_MAX_FW_TIMEOUT
    return (pw, { e with st := { st with fw_access_timeout := n } })
  | .max_fw_timeout => do
    let n ← accNum val 0 RCHK_MAX_FW_TIMEOUT
    return (pw, { e with st := { st with max_fw_timeout := n } })
  | .encryption_mode => do
    let m ← accName (enc_mode_strtoint val)
    return (pw, { e with st := { st with encryption_mode := m } })
  | .enable_cmd_exec => .ok (pw, { e with st := { st with enable_cmd_exec := acc_bool val } })
  | .enable_cmd_sudo_exec => .ok (pw, { e with st := { st with enable_cmd_sudo_exec := acc_bool val } })
  | .cmd_sudo_exec_user => do
    let u ← orFail (env.passwd val)
    return ({ pw with sudo := true, gid := u.2 },
      { e with st := { st with cmd_sudo_exec_user := some val, cmd_sudo_exec_uid := u.1 } })
  | .cmd_sudo_exec_group => do
    let u ← orFail (env.passwd val)
    return ({ pw with gid := u.2 },
      { e with st := { st with cmd_sudo_exec_group := some val, cmd_sudo_exec_gid := u.2 } })
  | .cmd_exec_user => do
    let u ← orFail (env.passwd val)
    return ({ pw with user := true, gid := u.2 },
      { e with st := { st with cmd_exec_user := some val, cmd_exec_uid := u.1 } })
  | .cmd_exec_group => do
    let u ← orFail (env.passwd val)
    return ({ pw with gid := u.2 },
      { e with st := { st with cmd_exec_group := some val, cmd_exec_gid := u.2 } })
  | .cmd_cycle_open =>
    .ok (pw, { e with st := { st with cmd_cycle_open := some val, cmd_cycle_do_close := true } })
  | .cmd_cycle_close => .ok (pw, { e with st := { st with cmd_cycle_close := some val } })
  | .cmd_cycle_timer => do
    let n ← accNum val RCHK_MIN_CMD_CYCLE_TIMER RCHK_MAX_CMD_CYCLE_TIMER
    return (pw, { e with st := { st with cmd_cycle_timer := n } })
  | .require_username => .ok (pw, { e with st := { st with require_username := some val } })
  | .require_source_address => .ok (pw, { e with st := { st with require_source_address := acc_bool val } })
  | .gpg_home_dir => do
    Res.guard (!env.isDir val)
    return (pw, { e with st := { st with gpg_home_dir := some val } })
  | .gpg_exe => .ok (pw, { e with st := { st with gpg_exe := some val } })
  | .gpg_decrypt_id => .ok (pw, { e with st := { st with gpg_decrypt_id := some val } })
  | .gpg_decrypt_pw => .ok (pw, { e with st := { st with gpg_decrypt_pw := some val, use_gpg := true } })
  | .gpg_allow_no_pw =>
    if acc_bool val then
      .ok (pw, { e with st := { st with gpg_allow_no_pw := true, use_gpg := true, gpg_decrypt_pw := some [] } })
    else .ok (pw, { e with st := { st with gpg_allow_no_pw := false } })
  | .gpg_require_sig => .ok (pw, { e with st := { st with gpg_require_sig := acc_bool val } })
  | .gpg_disable_sig => .ok (pw, { e with st := { st with gpg_disable_sig := acc_bool val } })
  | .gpg_ignore_sig_error => .ok (pw, { e with st := { st with gpg_ignore_sig_error := acc_bool val } })
  | .gpg_remote_id => .ok (pw, { e with gpg_remote_id := some val })
  | .gpg_fingerprint_id => .ok (pw, { e with gpg_remote_fpr := some val })
  | .access_expire => do
    let t ← orFail (acc_expire_time env.mktime val)
    return (pw, { e with st := { st with access_expire_time := t } })
  | .access_expire_epoch => do
    let t ← orFail (acc_expire_epoch val)
    return (pw, { e with st := { st with access_expire_time := t } })
  | .force_nat => do
    Res.guard (!env.nat_enabled)
    let n ← orFail (acc_force_nat val)
    return (pw, { e with st := { st with force_nat := true, force_nat_ip := some n.1, force_nat_port := n.2 } })
  | .force_snat => do
    Res.guard (!env.nat_enabled)
    let ip ← orFail (acc_force_snat val)
    return (pw, { e with st := { st with force_snat := true, force_snat_ip := some ip } })
  | .force_masquerade =>
    .ok (pw, { e with st := { st with force_masquerade := acc_bool val, force_snat := acc_bool val } })
  | .disable_dnat => .ok (pw, { e with st := { st with disable_dnat := acc_bool val } })
  | .forward_all => .ok (pw, { e with st := { st with forward_all := acc_bool val } })

/-! ## Files -/

/-- `opts->acc_stanzas`, `*depth` and the static entry of `getpwnam`. -/
structure AccState where
  stanzas : List AccEnt := []
  depth : Nat := 0
  gid : Nat := 0
  deriving DecidableEq

/-- The variables of one call of `parse_access_file`: `curr_acc` (the number of the stanza it
points to), `user_pw` and `sudo_user_pw`. -/
structure AccFrame where
  curr : Option Nat := none
  user : Bool := false
  sudo : Bool := false
  deriving DecidableEq

/-- The loop of `include_keys_file`, server/access.c:2342-2478.  It does not remove trailing white
space.  A bad line ends the reading, and the caller does not look at the result; a value that is
not decoded ends the program. -/
def keyLines (env : AccEnv) : List Str → AccEnt → Res AccEnt
  | [], e => .ok e
  | l :: ls, e =>
    match accLine l with
    | .ub => .ub
    | .err => .ok e
    | .ok none => keyLines env ls e
    | .ok (some (var, val)) =>
      match optOf var with
      | none => keyLines env ls e
      | some o =>
        if keyFileOpt o then
          if keyRefused o val then .ok e
          else do
            let r ← setOption env o val ({}, e)
            keyLines env ls r.2
        else keyLines env ls e

/-- `include_keys_file`, server/access.c:2316-2480; `can` tells whether a file can be opened. -/
def include_keys_file (env : AccEnv) (can : Bool) (name : Str) (e : AccEnt) : Res AccEnt :=
  match env.file name with
  | none => .ok e
  | some content => if can then keyLines env (accLines content) e else .ok e

/-- `acc_data_is_valid(opts, user_pw, sudo_user_pw, curr_acc)` on stanza `i`: the list with the
stanza as adjusted; `none` when it is rejected.  (What the function has changed in a stanza before
it rejects it is not kept.) -/
def validEnt (fr : AccFrame) (s : AccState) (e : AccEnt) : Option AccEnt :=
  (acc_data_is_valid (if fr.user then some s.gid else none) (if fr.sudo then some s.gid else none) e.st).map
    fun st => { e with st := st }

/-- The stanza `curr_acc` points to; it is gone if it has been freed. -/
def entAt (s : AccState) (i : Nat) : Res AccEnt :=
  match s.stanzas[i]? with
  | some e => .ok e
  | none => .ub

def setEnt (s : AccState) (i : Nat) (e : AccEnt) : AccState := { s with stanzas := s.stanzas.set i e }

/-- The check of the stanza that ends, server/access.c:1608-1616, 1986-1994 and 2009-2017. -/
def closeStanza (fr : AccFrame) (s : AccState) : Res AccState :=
  match fr.curr with
  | none => .ok s
  | some i => do
    let e ← entAt s i
    let e' ← orFail (validEnt fr s e)
    return setEnt s i e'

/-- `%include_keys`, server/access.c:1631-1641: the stanza is dropped when it is not usable —
`free_last_acc_stanza` (server/access.c:1073-1099) frees the last one of the list. -/
def includeKeys (env : AccEnv) (can : Bool) (fr : AccFrame) (s : AccState) (i : Nat) (val : Str) :
    Res (AccFrame × AccState) := do
  let e ← entAt s i
  let e1 ← include_keys_file env can val e
  match validEnt fr s e1 with
  | some e2 => return (fr, setEnt s i e2)
  | none => return ({ fr with curr := none }, { setEnt s i e1 with stanzas := (setEnt s i e1).stanzas.dropLast })

/-- One option line of the current stanza. -/
def optionLine (env : AccEnv) (fr : AccFrame) (s : AccState) (i : Nat) (o : Opt) (val : Str) :
    Res (AccFrame × AccState) := do
  let e ← entAt s i
  let r ← setOption env o val (⟨fr.user, fr.sudo, s.gid⟩, e)
  return ({ fr with user := r.1.user, sudo := r.1.sudo }, { setEnt s i r.2 with gid := r.1.gid })

/-- One line, server/access.c:1572-1979.  `incl` and `folder` are `parse_access_file` and
`parse_access_folder` for the nested files. -/
def accEntry (env : AccEnv) (incl folder : Str → AccState → Res AccState) (can : Bool)
    (var val : Str) (x : AccFrame × AccState) : Res (AccFrame × AccState) :=
  let fr := x.1
  let s := x.2
  if var = b!"%include" then
    if s.depth < MAX_DEPTH then do
      let s' ← incl val s
      return (fr, s')
    else .err
  else if var = b!"%include_folder" then do
    let s' ← folder val s
    return (fr, s')
  else if var = b!"SOURCE" then do
    let s' ← closeStanza fr s
    return ({ fr with curr := some s'.stanzas.length }, { s' with stanzas := s'.stanzas ++ [{ source := val }] })
  else match fr.curr with
    | none => .ok x
    | some i =>
      if var = b!"%include_keys" then includeKeys env can fr s i val
      else match optOf var with
        | none => .ok x
        | some o => optionLine env fr s i o val

/-- The loop of `parse_access_file`, server/access.c:1534-1980. -/
def accLoop (env : AccEnv) (incl folder : Str → AccState → Res AccState) (can : Bool) :
    List Str → AccFrame × AccState → Res (AccFrame × AccState)
  | [], x => .ok x
  | l :: ls, x => do
    let en ← accLine l
    match en with
    | none => accLoop env incl folder can ls x
    | some (var, val) => do
      let x' ← accEntry env incl folder can var (chop_whitespace val) x
      accLoop env incl folder can ls x'

/-- One entry of `expand_acc_string_list`, server/access.c:749-790: leading white space is skipped,
the rest must fit the buffer. -/
def strItem (cur : Str) : Option Str :=
  let e := cur.dropWhile isSpace
  if e.length + 1 ≥ MAX_LINE_LEN then none else some e

/-- The loop of `expand_acc_string_list`, server/access.c:749-790. -/
def expandStr : Str → (cur : Str) → Option (List Str)
  | [], cur => (strItem cur).map fun x => [x]
  | c :: cs, cur =>
    if c = 44 then do
      let x ← strItem cur
      let rest ← expandStr cs []
      return x :: rest
    else expandStr cs (cur ++ [c])

/-- A text that is expanded when it is there and not empty; the entries are added to the list. -/
def expandOpt {α : Type} (f : Str → Option (List α)) (t : Option Str) (l : List α) : Option (List α) :=
  match t with
  | none => some l
  | some t => if t = [] then some l else (f t).map (l ++ ·)

/-- `expand_acc_ent_lists` on one stanza, server/access.c:966-1038. -/
def expandEnt (e : AccEnt) : Option AccEnt := do
  let src ← (expand_acc_int_list e.source).map (e.st.source_list ++ ·)
  let dst ← expandOpt expand_acc_int_list e.st.destination e.st.destination_list
  let op ← expandOpt expand_acc_port_list e.open_ports e.st.oport_list
  let rp ← expandOpt expand_acc_port_list e.restrict_ports e.st.rport_list
  let ids ← expandOpt (fun s => expandStr s []) e.gpg_remote_id e.st.gpg_remote_id_list
  let fprs ← expandOpt (fun s => expandStr s []) e.gpg_remote_fpr e.st.gpg_remote_fpr_list
  return { e with
    st := { e.st with
      source_list := src
      destination_list := dst
      oport_list := op
      rport_list := rp
      gpg_remote_id_list := ids
      gpg_remote_fpr_list := fprs } }

/-- `expand_acc_ent_lists` and `set_acc_defaults` on one stanza, server/access.c:2003-2008. -/
def finishEnt (gpg_home : Str) (e : AccEnt) : Option AccEnt := do
  let e ← expandEnt e
  let st ← set_acc_defaults gpg_home e.st
  return { e with st := st }

/-- `List.mapM` in `Option`. -/
def mapOpt {α β : Type} (f : α → Option β) : List α → Option (List β)
  | [] => some []
  | a :: as => do
    let b ← f a
    let bs ← mapOpt f as
    return b :: bs

/-- server/access.c:1982-2019: the end of a file.  (`expand_acc_ent_lists` runs over the whole list
before `set_acc_defaults` does; as both only end the program or succeed, the order does not
matter.) -/
def endFile (env : AccEnv) (fr : AccFrame) (s : AccState) : Res AccState := do
  let s := { s with depth := s.depth - 1 }
  if s.depth = 0 then do
    Res.guard (fr.curr = none ∧ s.stanzas = [])
    let s ← closeStanza fr s
    let l ← orFail (mapOpt (finishEnt env.gpg_home) s.stanzas)
    return { s with stanzas := l }
  else closeStanza fr s

/-- server/access.c:1453-1463: files whose name has an extension that begins with `.conf`. -/
def isConfName (name : Str) : Bool :=
  match name.reverse.takeWhile (· ≠ 46) with
  | ext => ext.length < name.length ∧ hasPrefix b!"conf" ext.reverse

/-- The loop of `parse_access_folder`, server/access.c:1452-1475; `incl` is `parse_access_file`. -/
def folderLoop (incl : Str → AccState → Res AccState) (folder : Str) : List Str → AccState → Res AccState
  | [], s => .ok s
  | n :: ns, s =>
    if isConfName n then
      if folder.length + 1 + n.length > ACC_PATH_LEN - 1 then .err
      else do
        let s' ← incl (folder ++ 47 :: n) s
        folderLoop incl folder ns s'
    else folderLoop incl folder ns s

/-- `parse_access_folder`, server/access.c:1437-1478. -/
def accFolder (env : AccEnv) (incl : Str → AccState → Res AccState) (folder : Str) (s : AccState) : Res AccState :=
  let folder := chop_char folder 47
  match env.dir folder with
  | none => .err
  | some names => folderLoop incl folder names s

/-- `parse_access_file`, server/access.c:1480-2020, when `fds` more files can be open at a time
(`fopen` fails when the process has no file descriptor left; `opendir` needs one as well). -/
def parse_access_file (env : AccEnv) : (fds : Nat) → Str → AccState → Res AccState
  | 0, _, _ => .err
  | 1, name, s => match env.file name with
    | none => .err
    | some content => do
      let x ← accLoop env (fun _ _ => .err) (fun _ _ => .err) false (accLines content)
        ({}, { s with depth := s.depth + 1 })
      endFile env x.1 x.2
  | f + 2, name, s => match env.file name with
    | none => .err
    | some content => do
      let x ← accLoop env (parse_access_file env (f + 1)) (accFolder env (parse_access_file env f)) true
        (accLines content) ({}, { s with depth := s.depth + 1 })
      endFile env x.1 x.2

/-- `parse_access_folder` for ACCESS_FOLDER, server/access.c:1437-1478. -/
def parse_access_folder (env : AccEnv) : (fds : Nat) → Str → AccState → Res AccState
  | 0, _, _ => .err
  | f + 1, folder, s => accFolder env (parse_access_file env f) folder s

/-- `valid_access_stanzas`, server/access.c:2022-2042. -/
def valid_access_stanzas (l : List AccEnt) : Bool := l ≠ [] ∧ l.all fun e => e.source ≠ []

/-- Where the stanzas come from: ACCESS_FILE or ACCESS_FOLDER. -/
inductive AccSource where
  | file (name : Str)
  | folder (name : Str)

/-- server/fwknopd.c:162-174. -/
def parseSource (env : AccEnv) (fds : Nat) : AccSource → Res AccState
  | .file n => parse_access_file env fds n {}
  | .folder n => parse_access_folder env fds n {}

/-- The start of fwknopd up to the list of stanzas, server/fwknopd.c:162-183 (`config_init` has
cleared the options, server/config_init.c:1077). -/
def load_access (env : AccEnv) (fds : Nat) (src : AccSource) : Res (List AccEnt) := do
  let s ← parseSource env fds src
  Res.guard (!valid_access_stanzas s.stanzas)
  return s.stanzas

end Fwknop
