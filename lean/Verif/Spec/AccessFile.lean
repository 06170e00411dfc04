import Verif.Model.AccessFile
import Verif.Spec.Access
import Verif.Spec.Message

/-!
# What an access.conf means

Entries are pairs of a name and a value.  The constants and the password database come from the
environment.  `Spec` definitions mention no function of the parser; the readers of addresses, port
lists, numbers, dates and base64 texts that appear in `Configured` are specified elsewhere
(properties C28-C30 and C01).
-/

namespace Fwknop.Spec

abbrev Entry := List Nat × List Nat

/-- Space or tab. -/
def SpTab (c : Nat) : Prop := c = 32 ∨ c = 9

/-- The entry a line stands for: a name, perhaps a colon, blanks, and a value up to trailing blanks
or a semicolon.  (Behind a value of one character there must be no blanks.) -/
def LineHolds (line : List Nat) (name value : List Nat) : Prop :=
  ∃ (lead colon gap trail rest : List Nat),
    line = lead ++ (name ++ (colon ++ (gap ++ (value ++ (trail ++ rest))))) ∧
    (∀ c ∈ lead, SpTab c) ∧ (lead = [] → name.headD 0 ≠ 35 ∧ name.headD 0 ≠ 59) ∧
    name ≠ [] ∧ (∀ c ∈ name, c ≠ 32 ∧ ¬ (9 ≤ c ∧ c ≤ 13) ∧ c ≠ 58 ∧ c ≠ 0) ∧
    (colon = [] ∨ colon = [58]) ∧
    gap ≠ [] ∧ (∀ c ∈ gap, SpTab c) ∧
    value ≠ [] ∧ ¬ isSpace (value.headD 0) ∧ ¬ isSpace (value.getLastD 0) ∧
    (∀ c ∈ value, c ≠ 59 ∧ c ≠ 10 ∧ c ≠ 13 ∧ c ≠ 0) ∧
    (∀ c ∈ trail, SpTab c) ∧ (value.length = 1 → trail = []) ∧
    (rest = [] ∨ ∃ c t, rest = c :: t ∧ (c = 59 ∨ c = 10 ∨ c = 13 ∨ c = 0))

/-- The value of the last entry with one of the names. -/
def lastOf (names : List (List Nat)) (es : List Entry) : Option (List Nat) :=
  ((es.filter fun e => e.1 ∈ names).getLast?).map (·.2)

/-- The last entry with one of the names. -/
def lastEntry (names : List (List Nat)) (es : List Entry) : Option Entry :=
  (es.filter fun e => e.1 ∈ names).getLast?

/-- A value that begins with `y` or `Y` switches an option on. -/
def yes (v : Option (List Nat)) : Bool :=
  match v with
  | some (c :: _) => c = 89 ∨ c = 121
  | _ => false

/-- The entries before the first SOURCE, and for each SOURCE its value and the entries up to the
next one. -/
def splitSources : List Entry → List Entry × List (List Nat × List Entry)
  | [] => ([], [])
  | e :: es =>
    let r := splitSources es
    if e.1 = b!"SOURCE" then ([], (e.2, r.1) :: r.2) else (e :: r.1, r.2)

/-- The stanzas of a file: the value of each SOURCE with the entries up to the next one. -/
def stanzasOf (es : List Entry) : List (List Nat × List Entry) := (splitSources es).2

/-- A key given as text or in base64; the last entry counts. -/
def keyOf (plain base64 : List Nat) (es : List Entry) : Option (List Nat) :=
  match lastEntry [plain, base64] es with
  | none => none
  | some (n, v) => if n = plain then some v else Base64.b64_decode v

/-- The entry of a line, if it has one (C78 says which). -/
def entryOf (line : List Nat) : Option Entry :=
  match accLine line with
  | .ok (some (n, v)) => some (n, chop_whitespace v)
  | _ => none

/-- The entries of a file, in order. -/
def entriesOf (content : List Nat) : List Entry := (accLines content).filterMap entryOf

/-- The name of an entry that is not a directive. -/
def Plain (name : List Nat) : Prop :=
  name ≠ b!"%include" ∧ name ≠ b!"%include_folder" ∧ name ≠ b!"%include_keys"

/-- The entries behind the last SOURCE. -/
def sinceSource (es : List Entry) : List Entry := (es.reverse.takeWhile fun e => e.1 ≠ b!"SOURCE").reverse

/-- In no stanza does `%include_keys` follow `%include` or `%include_folder`. -/
def KeysFirst (es : List Entry) : Prop :=
  ∀ pre v post, es = pre ++ (b!"%include_keys", v) :: post →
    ∀ e ∈ sinceSource pre, e.1 ≠ b!"%include" ∧ e.1 ≠ b!"%include_folder"

end Fwknop.Spec

namespace Fwknop.Spec

/-- The stanza can authenticate somebody: it has an encryption key that is used, or a GPG
passphrase that is used, or GPG without passphrase was allowed explicitly; and the HMAC key is not
the encryption key. -/
structure Usable (a : Stanza) : Prop where
  key : (a.use_rijndael = true ∧ ∃ k, a.key = some k ∧ k ≠ []) ∨
    (a.use_gpg = true ∧ ((∃ p, a.gpg_decrypt_pw = some p ∧ p ≠ []) ∨ a.gpg_allow_no_pw = true))
  differ : ∀ h, a.hmac_key = some h → h ≠ [] → a.key ≠ some h

/-- A stanza that decrypts with Rijndael has a key and the other way round; a stanza with a GPG
passphrase, even an empty one, uses GPG. -/
structure KeysPresent (a : Stanza) : Prop where
  rijndael : a.use_rijndael = true ↔ a.key ≠ none
  gpg : a.gpg_decrypt_pw ≠ none → a.use_gpg = true
  no_pw : a.gpg_allow_no_pw = true → a.use_gpg = true

/-- Numbers and addresses of a stanza in effect. -/
structure InRange (a : Stanza) : Prop where
  keys : KeysPresent a
  timeout : 1 ≤ a.fw_access_timeout ∧ a.fw_access_timeout ≤ 2 ^ 23
  max_timeout : 1 ≤ a.max_fw_timeout ∧ a.max_fw_timeout ≤ 2 ^ 23
  mode : a.encryption_mode ∈ [1, 2, 3, 5, 6, 7, 8]
  hmac_type : 0 ≤ a.hmac_type ∧ a.hmac_type ≤ 7
  hmac_set : ∀ h, a.hmac_key = some h → h ≠ [] → 1 ≤ a.hmac_type
  nat : a.force_nat_port ≤ 65535 ∧ (∀ ip, a.force_nat_ip = some ip → IsIPv4 ip) ∧ ∀ ip, a.force_snat_ip = some ip → IsIPv4 ip
  cycle : 0 ≤ a.cmd_cycle_timer ∧ a.cmd_cycle_timer ≤ 2 ^ 23
  signer : a.gpg_decrypt_pw ≠ none → a.gpg_disable_sig = false →
    a.gpg_require_sig = true ∧ (a.gpg_remote_id_list ≠ [] ∨ a.gpg_remote_fpr_list ≠ [])

/-- The GPG passphrase: GPG_DECRYPT_PW, or the empty one with `GPG_ALLOW_NO_PW Y`; the last of
them counts. -/
def gpgPw (es : List Entry) : Option (List Nat) :=
  ((es.filter fun e => e.1 = b!"GPG_DECRYPT_PW" ∨ (e.1 = b!"GPG_ALLOW_NO_PW" ∧ yes (some e.2) = true)).getLast?).map
    fun e => if e.1 = b!"GPG_DECRYPT_PW" then e.2 else []

/-- Source addresses are translated: FORCE_SNAT, or FORCE_MASQUERADE switched on; the last of them
counts. -/
def snat (es : List Entry) : Bool :=
  match lastEntry [b!"FORCE_SNAT", b!"FORCE_MASQUERADE"] es with
  | none => false
  | some (n, v) => n = b!"FORCE_SNAT" ∨ yes (some v)

/-- The numbers of the encryption modes. -/
def modeNames : List (List Nat × Int) :=
  [(b!"ECB", 1), (b!"CBC", 2), (b!"CFB", 3), (b!"OFB", 5), (b!"CTR", 6), (b!"Asymmetric", 7), (b!"legacy", 8)]

/-- The numbers of the HMAC types. -/
def hmacNames : List (List Nat × Int) :=
  [(b!"md5", 1), (b!"sha1", 2), (b!"sha256", 3), (b!"sha384", 4), (b!"sha512", 5), (b!"sha3_256", 6), (b!"sha3_512", 7)]

/-- A number written in decimal digits. -/
def Decimal (v : List Nat) (n : Nat) : Prop := v ≠ [] ∧ (∀ c ∈ v, IsDigitChar c) ∧ number 10 v = n

/-- The number of seconds an option gives: the default without the option or with 0.  (Numbers from
2^31 on are read modulo 2^32.) -/
def Seconds (v : Option (List Nat)) (dflt : Int) (x : Int) : Prop :=
  (v = none → x = dflt) ∧ ∀ t n, v = some t → Decimal t n → n < 2 ^ 31 → x = if n = 0 then dflt else n

/-- The stanza in effect is the one that was written: `src` is the value of SOURCE, `es` are the
entries of the stanza. -/
structure Configured (env : AccEnv) (src : List Nat) (es : List Entry) (a : Stanza) : Prop where
  source : ∀ A, Networks src A → ∀ x < 2 ^ 32, compare_addr_list a.source_list x = true ↔ A x
  destination : a.destination = lastOf [b!"DESTINATION"] es
  no_destination : lastOf [b!"DESTINATION"] es = none → a.destination_list = []
  destinations : ∀ v A, lastOf [b!"DESTINATION"] es = some v → Networks v A →
    ∀ x < 2 ^ 32, compare_addr_list a.destination_list x = true ↔ A x
  no_open : lastOf [b!"OPEN_PORTS"] es = none → a.oport_list = []
  open_ports : ∀ v ps, lastOf [b!"OPEN_PORTS"] es = some v → ProtoPorts v ps →
    a.oport_list = ps.map fun p => ⟨p.1, p.2⟩
  no_restrict : lastOf [b!"RESTRICT_PORTS"] es = none → a.rport_list = []
  restrict_ports : ∀ v ps, lastOf [b!"RESTRICT_PORTS"] es = some v → ProtoPorts v ps →
    a.rport_list = ps.map fun p => ⟨p.1, p.2⟩
  /-- in legacy mode the key is cut to 16 bytes -/
  key : a.key = (keyOf b!"KEY" b!"KEY_BASE64" es).map fun k => if a.encryption_mode = 8 then k.take 16 else k
  rijndael : a.use_rijndael = true ↔ lastOf [b!"KEY", b!"KEY_BASE64"] es ≠ none
  hmac_key : a.hmac_key = keyOf b!"HMAC_KEY" b!"HMAC_KEY_BASE64" es
  hmac_default : lastOf [b!"HMAC_DIGEST_TYPE"] es = none → ∀ k, a.hmac_key = some k → k ≠ [] → a.hmac_type = 3
  hmac_type : ∀ n k, (n, k) ∈ hmacNames → ∀ v, lastOf [b!"HMAC_DIGEST_TYPE"] es = some v → v.map lower = n.map lower →
    a.hmac_type = k
  mode_default : lastOf [b!"ENCRYPTION_MODE"] es = none → a.encryption_mode = 2
  mode : ∀ n k, (n, k) ∈ modeNames → ∀ v, lastOf [b!"ENCRYPTION_MODE"] es = some v → v.map lower = n.map lower →
    a.encryption_mode = k
  timeout : Seconds (lastOf [b!"FW_ACCESS_TIMEOUT"] es) 30 a.fw_access_timeout
  max_timeout : Seconds (lastOf [b!"MAX_FW_TIMEOUT"] es) 300 a.max_fw_timeout
  cmd_exec : a.enable_cmd_exec = yes (lastOf [b!"ENABLE_CMD_EXEC"] es)
  cmd_sudo_exec : a.enable_cmd_sudo_exec = yes (lastOf [b!"ENABLE_CMD_SUDO_EXEC"] es)
  cmd_exec_user : a.cmd_exec_user = lastOf [b!"CMD_EXEC_USER"] es
  cmd_exec_uid : ∀ v, a.cmd_exec_user = some v → ∃ g, env.passwd v = some (a.cmd_exec_uid, g)
  cmd_exec_root : a.cmd_exec_user = none → a.cmd_exec_uid = 0
  cmd_sudo_exec_user : a.cmd_sudo_exec_user = lastOf [b!"CMD_SUDO_EXEC_USER"] es
  cmd_sudo_exec_uid : ∀ v, a.cmd_sudo_exec_user = some v → ∃ g, env.passwd v = some (a.cmd_sudo_exec_uid, g)
  cmd_sudo_exec_group : a.cmd_sudo_exec_group = lastOf [b!"CMD_SUDO_EXEC_GROUP"] es
  cmd_exec_group : a.cmd_exec_group = lastOf [b!"CMD_EXEC_GROUP"] es
  cycle_open : a.cmd_cycle_open = lastOf [b!"CMD_CYCLE_OPEN"] es
  cycle_close : a.cmd_cycle_close = lastOf [b!"CMD_CYCLE_CLOSE"] es
  cycle_runs : a.cmd_cycle_do_close = true ↔
    ∃ o c, lastOf [b!"CMD_CYCLE_OPEN"] es = some o ∧ lastOf [b!"CMD_CYCLE_CLOSE"] es = some c ∧ c.take 4 ≠ b!"NONE"
  cycle_timer : Seconds (lastOf [b!"CMD_CYCLE_TIMER"] es) 0 a.cmd_cycle_timer
  username : a.require_username = lastOf [b!"REQUIRE_USERNAME"] es
  require_source : a.require_source_address = yes (lastOf [b!"REQUIRE_SOURCE_ADDRESS", b!"REQUIRE_SOURCE"] es)
  gpg_pw : a.gpg_decrypt_pw = gpgPw es
  gpg : a.use_gpg = true ↔ gpgPw es ≠ none
  gpg_no_pw : a.gpg_allow_no_pw = yes (lastOf [b!"GPG_ALLOW_NO_PW"] es)
  gpg_id : a.gpg_decrypt_id = lastOf [b!"GPG_DECRYPT_ID"] es
  gpg_home : ∀ v, lastOf [b!"GPG_HOME_DIR"] es = some v → a.gpg_home_dir = some v
  gpg_home_default : gpgPw es ≠ none → lastOf [b!"GPG_HOME_DIR"] es = none → a.gpg_home_dir = some env.gpg_home
  gpg_exe : a.gpg_exe = lastOf [b!"GPG_EXE"] es
  gpg_disable : a.gpg_disable_sig = yes (lastOf [b!"GPG_DISABLE_SIG"] es)
  gpg_require : gpgPw es ≠ none → (a.gpg_require_sig = true ↔
    a.gpg_disable_sig = false ∨ yes (lastOf [b!"GPG_REQUIRE_SIG"] es) = true)
  gpg_ignore : a.gpg_ignore_sig_error = yes (lastOf [b!"GPG_IGNORE_SIG_VERIFY_ERROR"] es)
  no_ids : lastOf [b!"GPG_REMOTE_ID"] es = none → a.gpg_remote_id_list = []
  ids : ∀ (v : List Nat) (l : List (List Nat × List Nat)), lastOf [b!"GPG_REMOTE_ID"] es = some v → l ≠ [] →
    v = commaJoin (l.map fun i => i.1 ++ i.2) →
    (∀ i ∈ l, (∀ c ∈ i.1, IsBlank c) ∧ i.2 ≠ [] ∧ (∀ c ∈ i.2, c ≠ 44) ∧ ¬ IsBlank (i.2.headD 0)) →
    a.gpg_remote_id_list = l.map (·.2)
  no_fprs : lastOf [b!"GPG_FINGERPRINT_ID"] es = none → a.gpg_remote_fpr_list = []
  fprs : ∀ (v : List Nat) (l : List (List Nat × List Nat)), lastOf [b!"GPG_FINGERPRINT_ID"] es = some v → l ≠ [] →
    v = commaJoin (l.map fun i => i.1 ++ i.2) →
    (∀ i ∈ l, (∀ c ∈ i.1, IsBlank c) ∧ i.2 ≠ [] ∧ (∀ c ∈ i.2, c ≠ 44) ∧ ¬ IsBlank (i.2.headD 0)) →
    a.gpg_remote_fpr_list = l.map (·.2)
  never_expires : lastEntry [b!"ACCESS_EXPIRE", b!"ACCESS_EXPIRE_EPOCH"] es = none → a.access_expire_time = 0
  expire_epoch : ∀ v n, lastEntry [b!"ACCESS_EXPIRE", b!"ACCESS_EXPIRE_EPOCH"] es = some (b!"ACCESS_EXPIRE_EPOCH", v) →
    Decimal v n → n < 2 ^ 63 → a.access_expire_time = n
  /-- `MM/DD/YYYY` is midnight of that day as the system computes it; months count from 0 -/
  expire_date : ∀ m d y : List Nat, ∀ mon day year : Nat,
    lastEntry [b!"ACCESS_EXPIRE", b!"ACCESS_EXPIRE_EPOCH"] es = some (b!"ACCESS_EXPIRE", m ++ 47 :: (d ++ 47 :: y)) →
    Decimal m mon → Decimal d day → Decimal y year → m.length ≤ 2 → d.length ≤ 2 → y.length = 4 →
    1 ≤ mon → 1900 < year → a.access_expire_time = env.mktime (mon - 1) day (year - 1900)
  nat : ∀ v, lastOf [b!"FORCE_NAT"] es = some v → ∀ ip gap port n tail, v = ip ++ (gap ++ (port ++ tail)) →
    (∃ x, IsAddr ip x) → gap ≠ [] → (∀ c ∈ gap, IsBlank c) → Decimal port n → port.length ≤ 5 →
    (tail = [] ∨ IsBlank (tail.headD 0)) →
    a.force_nat = true ∧ a.force_nat_ip = some ip ∧ a.force_nat_port = n
  no_nat : lastOf [b!"FORCE_NAT"] es = none → snat es = false → yes (lastOf [b!"FORCE_MASQUERADE"] es) = false →
    a.force_nat = false
  snat : a.force_snat = snat es
  snat_ip : ∀ v, lastOf [b!"FORCE_SNAT"] es = some v → (∃ x, IsAddr v x) → a.force_snat_ip = some v
  no_snat_ip : lastOf [b!"FORCE_SNAT"] es = none → a.force_snat_ip = none
  masquerade : a.force_masquerade = yes (lastOf [b!"FORCE_MASQUERADE"] es)
  dnat : a.disable_dnat = yes (lastOf [b!"DISABLE_DNAT"] es)
  forward : a.forward_all = yes (lastOf [b!"FORWARD_ALL"] es)

end Fwknop.Spec

namespace Fwknop.Spec

/-- What a line (with its newline) stands for: an entry, or nothing if it is a comment or empty. -/
inductive LineMeans : List Nat → Option Entry → Prop where
  | entry (line name value : List Nat) : LineHolds line name value → LineMeans line (some (name, value))
  | skip (c : Nat) (t : List Nat) : c = 35 ∨ c = 59 ∨ c = 10 ∨ c = 13 → LineMeans (c :: t) none

/-- A file of lines of at most 1022 characters, each of which is an entry, a comment or empty; `es`
are its entries. -/
def FileHolds (content : List Nat) (es : List Entry) : Prop :=
  ∃ lines : List (List Nat × Option Entry),
    content = (lines.map fun l => l.1 ++ [10]).flatten ∧
    (∀ l ∈ lines, 10 ∉ l.1 ∧ l.1.length ≤ 1022 ∧ LineMeans (l.1 ++ [10]) l.2) ∧
    es = lines.filterMap (·.2)

/-- `name` has a line that includes the file `name'`, directly or as a file of a folder. -/
def Includes (env : AccEnv) (name name' : List Nat) : Prop :=
  ∃ content v, env.file name = some content ∧
    ((b!"%include", v) ∈ entriesOf content ∧ name' = v ∨
     (b!"%include_folder", v) ∈ entriesOf content ∧ ∃ dir names n,
       (v = dir ++ b!"/" ∧ dir ≠ [] ∨ v = dir ∧ (dir.getLast? ≠ some 47 ∨ dir.length = 1)) ∧
       env.dir dir = some names ∧ n ∈ names ∧ (∃ base ext, n = base ++ b!".conf" ++ ext ∧ 46 ∉ ext) ∧ name' = dir ++ b!"/" ++ n)

end Fwknop.Spec
