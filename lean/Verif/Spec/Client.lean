import Verif.Spec.Spa
import Verif.Spec.AccessFile
import Verif.Model.Client

/-!
# What the options of the client ask for

Independent of how the client builds its texts: the request that a set of options stands for.
`CliOpts` is the record of option values (`access_str` is the text given with -A, and so on),
`CliEnv` what the client finds outside.
-/

namespace Fwknop.Spec

/-- Texts and numbers as the option parser stores them. -/
structure OptsOk (o : CliOpts) : Prop where
  allow : IsText o.allow_ip_str ∧ o.allow_ip_str.length ≤ 15
  access : IsText o.access_str ∧ o.access_str.length ≤ 1023
  command : IsText o.server_command ∧ o.server_command.length ≤ 1023
  server : IsText o.spa_server_str ∧ o.spa_server_str.length ≤ 49
  nat : IsText o.nat_access_str ∧ o.nat_access_str.length ≤ 1023
  user : IsText o.spoof_user ∧ o.spoof_user.length ≤ 29
  key : IsText o.key ∧ o.key.length ≤ 128
  hmac_key : IsText o.hmac_key ∧ o.hmac_key.length ≤ 128
  nat_port : 0 ≤ o.nat_port ∧ o.nat_port ≤ 65535
  timeout : -1 ≤ o.fw_timeout
  mode : 0 ≤ o.encryption_mode ∧ o.encryption_mode ≤ 8 ∧ o.encryption_mode ≠ 4
  digest : 0 ≤ o.digest_type ∧ o.digest_type ≤ 7
  hmac_type : 0 ≤ o.hmac_type ∧ o.hmac_type ≤ 7
  use_hmac : o.have_hmac_key ∨ o.have_hmac_base64_key → o.use_hmac = true

/-- The address access is asked for: the one found by resolution, or the one given with -a. -/
def AskedIp (E : CliEnv) (o : CliOpts) (ip : List Nat) : Prop :=
  if o.resolve_ip_http_https then E.resolved = some ip else ip = o.allow_ip_str

/-- The port a NAT request opens on the server, when it is not the one of -A: a random high port
made from a random value that is used for nothing else, or the one given with --nat-port. -/
def AskedNatPort (E : CliEnv) (o : CliOpts) : Option Nat → Prop
  | some p => if o.nat_rand_port then ∃ five rest, randValue E.rands [] = five ++ rest ∧ five.length = 5 ∧
      p = 10000 + number 10 five % 55535 else o.nat_port = p ∧ p ≠ 0
  | none => o.nat_rand_port = false ∧ o.nat_port = 0

/-- The ports asked for: the text of -A; a NAT port replaces the port in it. -/
inductive AskedPorts (access : List Nat) : Option Nat → List Nat → Prop
  | given : AskedPorts access none access
  | replaced (proto port : List Nat) (p : Nat) : access = proto ++ 47 :: port → 47 ∉ proto → 47 ∉ port →
      AskedPorts access (some p) (proto ++ 47 :: decimal p)

/-- The number the text of -A has after its first slash; only five digits are read. -/
def AccessPort (access : List Nat) (p : Nat) : Prop :=
  ∃ proto digits rest, access = proto ++ 47 :: (digits ++ rest) ∧ 47 ∉ proto ∧ (∀ c ∈ digits, IsDigitChar c) ∧
    digits.length ≤ 5 ∧ (digits.length = 5 ∨ ∀ c, rest.head? = some c → ¬ IsDigitChar c) ∧
    p = number 10 digits ∧ 1 ≤ p ∧ p ≤ 65535

/-- The NAT target: the one of -N, `host`, `host:port` or `host,port`; with --nat-local alone the
server itself.  Without a port, the port of -A. -/
inductive AskedNat (o : CliOpts) : Option (List Nat) → Prop
  | no : o.nat_local = false → o.nat_access_str = [] → AskedNat o none
  | server (p : Nat) : o.nat_local = true → o.nat_access_str = [] → AccessPort o.access_str p →
      AskedNat o (some (o.spa_server_str ++ 44 :: decimal p))
  | host (p : Nat) : o.nat_access_str ≠ [] → 44 ∉ o.nat_access_str → 58 ∉ o.nat_access_str →
      AccessPort o.access_str p → AskedNat o (some (o.nat_access_str ++ 44 :: decimal p))
  | target (host digits : List Nat) (sep : Nat) : sep = 44 ∨ sep = 58 →
      o.nat_access_str = host ++ sep :: digits → 44 ∉ host → 58 ∉ host → digits ≠ [] →
      (∀ c ∈ digits, IsDigitChar c) → 1 ≤ number 10 digits → number 10 digits ≤ 65535 →
      AskedNat o (some (host ++ 44 :: decimal (number 10 digits)))

/-- The documented message types (fwknop protocol): 0 command, 1 access, 2 NAT access, 3 access with
timeout, 4 NAT access with timeout, 5 local NAT access, 6 local NAT access with timeout. -/
def askedType (o : CliOpts) : Nat :=
  if o.server_command ≠ [] then 0
  else if o.nat_local then (if o.fw_timeout > 0 then 6 else 5)
  else if o.nat_access_str ≠ [] then (if o.fw_timeout > 0 then 4 else 2)
  else if o.fw_timeout > 0 then 3 else 1

/-- The time in the request. -/
def askedTime (E : CliEnv) (o : CliOpts) : Int :=
  if o.time_offset_minus > 0 then E.nowMinus - o.time_offset_minus
  else if o.time_offset_plus > 0 then E.nowPlus + o.time_offset_plus
  else E.now

/-- The request that the options ask for. -/
structure Asks (E : CliEnv) (o : CliOpts) (r : Request) : Prop where
  rand : r.rand.length = 16 ∧ ∀ c ∈ r.rand, IsDigitChar c
  user : r.user = if o.spoof_user = [] then E.user.take 63 else o.spoof_user
  ts : (r.ts : Int) = askedTime E o
  version : r.version = b!"3.0.0"
  type : r.type = askedType o
  command : o.server_command ≠ [] → r.msg = o.allow_ip_str ++ 44 :: o.server_command
  access : o.server_command = [] → ∃ ip port ports, AskedIp E o ip ∧ AskedNatPort E o port ∧
    AskedPorts o.access_str port ports ∧ r.msg = ip ++ 44 :: ports ∧ IsAccessMsg r.msg ∧
    r.rand = if o.nat_rand_port then randValue E.rands2 [] else randValue E.rands []
  nat : AskedNat o r.nat
  auth : r.auth = none
  timeout : r.timeout = if o.fw_timeout > 0 then o.fw_timeout.toNat else 0

/-! ## The command line -/

/-- What the last option of a kind gives, where `f` says what an option of that kind gives. -/
def given {α : Type} (f : CliArg → Option α) (args : List CliArg) : Option α := (args.filterMap f).getLast?

/-- -a ADDRESS, or -s, which stands for 0.0.0.0.  The option record keeps 15 characters. -/
def argAllow : CliArg → Option (List Nat)
  | .allow_ip v => some (v.take 15)
  | .source_ip => some b!"0.0.0.0"
  | _ => none

def argAccess : CliArg → Option (List Nat) | .access v => some (v.take 1023) | _ => none
def argCommand : CliArg → Option (List Nat) | .server_cmd v => some (v.take 1023) | _ => none
def argServer : CliArg → Option (List Nat) | .destination v => some (v.take 49) | _ => none
def argNat : CliArg → Option (List Nat) | .nat_access v => some (v.take 1023) | _ => none
def argUser : CliArg → Option (List Nat) | .spoof_user v => some (v.take 29) | _ => none
def argSource : CliArg → Option (List Nat) | .spoof_source v => some (v.take 15) | _ => none
def argKeyFile : CliArg → Option (List Nat) | .get_key v => some (v.take 1023) | _ => none
def argHmacFile : CliArg → Option (List Nat) | .get_hmac_key v => some (v.take 1023) | _ => none
def argKey : CliArg → Option (List Nat) | .key v => some (v.take 128) | _ => none
def argKey64 : CliArg → Option (List Nat) | .key_base64 v => some (v.take 180) | _ => none
def argHmac : CliArg → Option (List Nat) | .hmac_key v => some (v.take 128) | _ => none
def argHmac64 : CliArg → Option (List Nat) | .hmac_key_base64 v => some (v.take 180) | _ => none
def argTimeout : CliArg → Option (List Nat) | .fw_timeout v => some v | _ => none
def argNatPort : CliArg → Option (List Nat) | .nat_port v => some v | _ => none
def argPort : CliArg → Option (List Nat) | .server_port v => some v | _ => none
def argSrcPort : CliArg → Option (List Nat) | .source_port v => some v | _ => none
def argDigest : CliArg → Option (List Nat) | .digest v => some v | _ => none
def argHmacType : CliArg → Option (List Nat) | .hmac_digest v => some v | _ => none
def argMode : CliArg → Option (List Nat) | .enc_mode v => some v | _ => none
def argProto : CliArg → Option (List Nat) | .server_proto v => some v | _ => none
def argPlus : CliArg → Option (List Nat) | .time_plus v => some v | _ => none
def argMinus : CliArg → Option (List Nat) | .time_minus v => some v | _ => none

def argRecipient : CliArg → Option (List Nat) | .gpg_recipient v => some (v.take 127) | _ => none

/-- Options that ask for an HMAC. -/
def asksHmac : CliArg → Bool
  | .get_hmac_key _ | .hmac_key _ | .hmac_key_base64 _ | .hmac_digest _ | .use_hmac => true
  | _ => false

/-- Options that ask for GnuPG. -/
def asksGpg : CliArg → Bool
  | .gpg | .gpg_recipient _ => true
  | _ => false

/-- The protocols of -P. -/
def protoNames : List (List Nat × Int) :=
  [(b!"udp", 0), (b!"udpraw", 1), (b!"tcp", 2), (b!"tcpraw", 3), (b!"icmp", 4), (b!"http", 5)]

/-- A number option: without it the default; written in decimal, it is the number, and this is at
most `max`. -/
def Numeric (v : Option (List Nat)) (dflt max x : Int) : Prop :=
  (v = none → x = dflt) ∧ ∀ t n, v = some t → Decimal t n → n < 2 ^ 31 → x = n ∧ x ≤ max

/-- An option whose value is a name of a table: without it 0; the case of letters does not count,
and other names are refused. -/
def Named (names : List (List Nat × Int)) (v : Option (List Nat)) (x : Int) : Prop :=
  (v = none → x = 0) ∧ ∀ t, v = some t → ∃ n, (n, x) ∈ names ∧ t.map lower = n.map lower

/-- A time offset: seconds, or minutes, hours or days with the letter m, h or d. -/
def Offset (v : Option (List Nat)) (x : Int) : Prop :=
  (v = none → x = 0) ∧ ∀ t n, v = some t → Decimal t n → n < 2 ^ 31 → x = n

def OffsetUnit (v : Option (List Nat)) (x : Int) : Prop :=
  ∀ t n u, v = some (t ++ [u]) → Decimal t n → n < 2 ^ 31 →
    (u = 109 ∨ u = 77 → x = n * 60) ∧ (u = 104 ∨ u = 72 → x = n * 3600) ∧ (u = 100 ∨ u = 68 → x = n * 86400)

/-- The options record for a command line without an rc file. -/
structure Meant (args : List CliArg) (o : CliOpts) : Prop where
  allow : o.allow_ip_str = (given argAllow args).getD []
  access : o.access_str = (given argAccess args).getD []
  command : o.server_command = (given argCommand args).getD []
  server : o.spa_server_str = (given argServer args).getD []
  nat : o.nat_access_str = (given argNat args).getD []
  user : o.spoof_user = (given argUser args).getD []
  source : o.spoof_ip_src_str = (given argSource args).getD []
  key_file : o.get_key_file = (given argKeyFile args).getD []
  hmac_file : o.get_hmac_key_file = (given argHmacFile args).getD []
  key : o.have_key = (given argKey args).isSome ∧ o.key = (given argKey args).getD []
  key64 : o.have_base64_key = (given argKey64 args).isSome ∧ o.key_base64 = (given argKey64 args).getD []
  hmac : o.have_hmac_key = (given argHmac args).isSome ∧ o.hmac_key = (given argHmac args).getD []
  hmac64 : o.have_hmac_base64_key = (given argHmac64 args).isSome ∧ o.hmac_key_base64 = (given argHmac64 args).getD []
  timeout : Numeric (given argTimeout args) (-1) 131072 o.fw_timeout
  nat_port : Numeric (given argNatPort args) 0 65535 o.nat_port
  port : Numeric (given argPort args) 62201 65535 o.spa_dst_port
  src_port : Numeric (given argSrcPort args) 0 65535 o.spa_src_port
  digest : Named hmacNames (given argDigest args) o.digest_type
  hmac_type : Named hmacNames (given argHmacType args) o.hmac_type
  mode : Named modeNames (given argMode args) o.encryption_mode
  proto : Named protoNames (given argProto args) o.spa_proto
  plus : Offset (given argPlus args) o.time_offset_plus ∧ OffsetUnit (given argPlus args) o.time_offset_plus
  minus : Offset (given argMinus args) o.time_offset_minus ∧ OffsetUnit (given argMinus args) o.time_offset_minus
  nat_local : o.nat_local = args.contains .nat_local
  nat_rand_port : o.nat_rand_port = args.contains .nat_rand_port
  rand_port : o.rand_port = args.contains .rand_port
  resolve : o.resolve_ip_http_https = args.contains .resolve
  test : o.test = args.contains .test
  use_hmac : o.use_hmac = args.any asksHmac
  use_gpg : o.use_gpg = args.any asksGpg
  recipient : o.gpg_recipient_key = (given argRecipient args).getD []

/-- What the checks of the client do to the options: an HMAC without a type is of type SHA256, and
an address given with -a switches resolution off. -/
structure Settled (o o' : CliOpts) : Prop where
  same : { o with resolve_ip_http_https := false, hmac_type := 0 } = { o' with resolve_ip_http_https := false, hmac_type := 0 }
  hmac_type : o'.hmac_type = if o.use_hmac = true ∧ o.hmac_type = 0 then 3 else o.hmac_type
  resolve : IsIPv4 o.allow_ip_str → o'.resolve_ip_http_https = false
  still : o.allow_ip_str = [] → o.resolve_ip_http_https = true → o'.resolve_ip_http_https = true

/-- The word that asks for resolution in place of an address, in any case. -/
def IsResolve (s : List Nat) : Prop := ∃ t, (s.map lower) = b!"resolve" ++ t

/-- What the client insists on before it makes a packet. -/
structure SendChecked (o : CliOpts) : Prop where
  server : o.test = true ∨ o.spa_server_str ≠ []
  address : o.test = true ∨ o.resolve_ip_http_https = true ∨ o.allow_ip_str ≠ []
  allow : o.allow_ip_str = [] ∨ IsResolve o.allow_ip_str ∨ IsIPv4 o.allow_ip_str
  /-- a forged source address needs a protocol that is sent through a raw socket -/
  source : o.spoof_ip_src_str = [] ∨ (IsIPv4 o.spoof_ip_src_str ∧ (o.spa_proto = 1 ∨ o.spa_proto = 3 ∨ o.spa_proto = 4))
  recipient : o.use_gpg = true → o.gpg_recipient_key ≠ []
  asymmetric : o.encryption_mode = 7 → o.use_gpg = true
  legacy : o.encryption_mode = 8 → o.use_hmac = false

/-- The characters of host names and addresses, and the separators before a port. -/
def IsHostChar (c : Nat) : Prop :=
  (48 ≤ c ∧ c ≤ 57) ∨ (65 ≤ c ∧ c ≤ 90) ∨ (97 ≤ c ∧ c ≤ 122) ∨ c = 45 ∨ c = 46

/-- The limits of a receiver that the client does not check. -/
structure FitsReceiver (r : Request) : Prop where
  user : r.user.length ≤ 48
  ts : r.ts < 2 ^ 31
  msg : r.msg.length ≤ 192
  timeout : r.timeout ≤ 65536

/-! ## Keys -/

/-- Blanks and equal signs. -/
def IsKeySep (c : Nat) : Prop := c = 32 ∨ c = 9 ∨ c = 61

/-- A line of a key file: `server: key`. -/
def KeyLine (server line key : List Nat) : Prop :=
  ∃ pre gap, line = pre ++ (server ++ 58 :: (gap ++ key)) ∧ (∀ c ∈ pre, IsKeySep c) ∧ (∀ c ∈ gap, IsKeySep c) ∧
    ∀ c, key.head? = some c → ¬ IsKeySep c

/-- A file of lines, each ended by a newline. -/
def fileOf (lines : List (List Nat)) : List Nat := (lines.map fun l => l ++ [10]).flatten

/-- The key a list of lines has for a server: the one of the last line for the server. -/
def FileKey (server : List Nat) (lines : List (List Nat)) (key : List Nat) : Prop :=
  ∃ before line after, lines = before ++ line :: after ∧ KeyLine server line key ∧
    ∀ l ∈ after, ¬ ∃ k, KeyLine server l k

/-- The encryption key: --key-rijndael before --key-base64-rijndael before -G before what is typed
in.  (Only what a well-formed base64 text and a well-formed file give is said.) -/
def GivenKey (E : CliEnv) (o : CliOpts) (k : List Nat) : Prop :=
  if o.have_key then k = o.key
  else if o.have_base64_key then ∀ b, o.key_base64 = b64 b → (∀ c ∈ b, c < 256) → k = b
  else if o.get_key_file ≠ [] then ∃ content, E.file o.get_key_file = some content ∧ k ≠ [] ∧
    ∀ ls key, content = fileOf ls → (∀ l ∈ ls, IsText l ∧ 10 ∉ l ∧ l.length ≤ 1022) → FileKey o.spa_server_str ls key → k = key
  else ∃ pw, E.passwd = some pw ∧ k = pw.take 128

/-- The HMAC key, in the same order; none if no option asks for an HMAC. -/
def GivenHmac (E : CliEnv) (o : CliOpts) : Option (List Nat) → Prop
  | none => o.use_hmac = false
  | some k =>
    if o.have_hmac_key then k = o.hmac_key
    else if o.have_hmac_base64_key then ∀ b, o.hmac_key_base64 = b64 b → (∀ c ∈ b, c < 256) → k = b
    else if o.get_hmac_key_file ≠ [] then ∃ content, E.file o.get_hmac_key_file = some content ∧ k ≠ [] ∧
      ∀ ls key, content = fileOf ls → (∀ l ∈ ls, IsText l ∧ 10 ∉ l ∧ l.length ≤ 1022) → FileKey o.spa_server_str ls key → k = key
    else ∃ pw, E.hmacPasswd = some pw ∧ k = pw.take 128

/-- The text of an option. -/
def argText : CliArg → List Nat
  | .allow_ip v | .access v | .server_cmd v | .destination v | .fw_timeout v | .get_key v | .get_hmac_key v | .key v
  | .key_base64 v | .hmac_key v | .hmac_key_base64 v | .hmac_digest v | .digest v | .enc_mode v | .nat_access v
  | .server_port v | .server_proto v | .spoof_source v | .source_port v | .spoof_user v | .nat_port v | .time_plus v
  | .time_minus v | .gpg_recipient v => v
  | .rand_port | .resolve | .source_ip | .test | .nat_local | .nat_rand_port | .use_hmac | .gpg => []

end Fwknop.Spec
