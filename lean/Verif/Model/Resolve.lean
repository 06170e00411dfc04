import Verif.Model.Client
import Verif.Model.Incoming
import Verif.Model.Replay
import Verif.Model.Extcmd
import Verif.Model.Spa

/-!
# The client's own address by HTTP: client/http_resolve_host.c
-/

namespace Fwknop

abbrev HTTP_MAX_RESPONSE_LEN : Nat := 2000
abbrev MAX_URL_HOST_LEN : Nat := 256
abbrev MAX_URL_PATH_LEN : Nat := 1024
abbrev URL_PORT_SIZE : Nat := 6
abbrev HTTP_RESOLVE_HOST : Str := b!"www.cipherdyne.org"
abbrev HTTP_BACKUP_RESOLVE_HOST : Str := b!"www.cipherdyne.com"
abbrev HTTP_RESOLVE_URL : Str := b!"/cgi-bin/myip"
abbrev WGET_RESOLVE_URL_SSL : Str := b!"https://www.cipherdyne.org/cgi-bin/myip"

/-- `struct url`, client/http_resolve_host.c:51-56. -/
structure Url where
  port : Str
  host : Str
  path : Str
deriving DecidableEq

/-! ## try_url -/

/-- The request, client/http_resolve_host.c:84-90. -/
def resolveRequest (url : Url) (agent : Str) : Str :=
  (b!"GET " ++ url.path ++ b!" HTTP/1.1\r\nUser-Agent: " ++ agent ++ b!"\r\nAccept: */*\r\nHost: " ++ url.host ++
    b!"\r\nConnection: close\r\n\r\n").take (HTTP_MAX_REQUEST_LEN - 1)

/-- The loop around `recv`, client/http_resolve_host.c:167-178: `chunks` are what the calls give, one after
the other; an empty one, or the end of the list, stands for 0 and for -1. -/
def recvLoop : (chunks : List Str) → (resp : Str) → (position : Nat) → Res Str
  | [], resp, _ => .ok resp
  | c :: cs, resp, position =>
    if c = [] then .ok resp
    else if position + c.length ≥ HTTP_MAX_RESPONSE_LEN then .ok resp
    else do
      Res.mem (position + c.length > resp.length)
      recvLoop cs (resp.take position ++ c ++ resp.drop (position + c.length)) (position + c.length)

/-- The walk to the end of the address, client/http_resolve_host.c:203-206, 535-538: where it stops. -/
def walkIp (buf : Str) (ndx : Nat) : (fuel i : Nat) → Res Nat
  | 0, i => .ok i
  | fuel + 1, i => do
    Res.mem (ndx + i ≥ buf.length)
    if !isDigit (buf.getD (ndx + i) 0) && buf.getD (ndx + i) 0 ≠ 46 then return i else walkIp buf ndx fuel (i + 1)

/-- The conversion `%u` of `sscanf` into an `int`, as glibc does it (the standard leaves a number that does
not fit undefined; no text here has more than 16 digits). -/
def scanU (s : Str) : Option (Int × Str) :=
  let s1 := s.dropWhile isSpace
  let r := splitSign s1
  let ds := r.2.takeWhile isDigit
  if ds = [] then none
  else
    let v : Int := digitsVal 10 ds
    some (toInt32 (if r.1 then -v else v), r.2.drop ds.length)

/-- A dot in the format of `sscanf`. -/
def scanDot : Str → Option Str
  | 46 :: s => some s
  | _ => none

/-- Is a number a byte? -/
def isOctet (o : Int) : Bool := 0 ≤ o && o ≤ 255

/-- The condition on the text, client/http_resolve_host.c:216-220, 541-545. -/
def saneIp (s : Str) : Bool :=
  ((do
    let a ← scanU s
    let r ← scanDot a.2
    let b ← scanU r
    let r ← scanDot b.2
    let c ← scanU r
    let r ← scanDot c.2
    let d ← scanU r
    return isOctet a.1 && isOctet b.1 && isOctet c.1 && isOctet d.1) : Option Bool).getD false

/-- From the start of the content to the new `allow_ip_str`, client/http_resolve_host.c:198-238, 533-557. -/
def ipAt (buf : Str) (ndx : Nat) : Res (Option Str) := do
  let i ← walkIp buf ndx MAX_IPV4_STR_LEN 0
  Res.mem (ndx + i ≥ buf.length)
  let s := ((buf.set (ndx + i) 0).drop ndx).takeWhile (· ≠ 0)
  return if saneIp s then some (strlcpy s MAX_IPV4_STR_LEN) else none

/-- What is made of an answer, client/http_resolve_host.c:167-238. -/
def readAnswer (chunks : List Str) : Res (Option Str) := do
  let resp ← recvLoop chunks (List.replicate HTTP_MAX_RESPONSE_LEN 0) 0
  let resp := resp.set (HTTP_MAX_RESPONSE_LEN - 1) 0
  match findSuffix (hasPrefix b!"\r\n\r\n") (resp.takeWhile (· ≠ 0)) with
  | none => return none
  | some n => ipAt resp (n + 4)

/-- What answers the client: a web server for each attempt, host, port and request (`none` if it cannot be
found or reached), the output of `wget` (`none` if it could not be started), the program that was found when
the client was built, and its version. -/
structure ResolveEnv where
  http : (attempt : Nat) → (host port request : Str) → Option (List Str)
  wget : List Str → Option Str
  wget_exe : Option Str
  version : Str

/-- The user agent with its default, client/config_init.c:1893-1896. -/
def agentOf (R : ResolveEnv) (o : CliOpts) : Str :=
  if o.http_user_agent = [] then (b!"Fwknop/" ++ R.version).take 99 else o.http_user_agent

/-- `try_url`, client/http_resolve_host.c:58-239.  A request that could not be sent is not told from one
that was. -/
def try_url (R : ResolveEnv) (attempt : Nat) (url : Url) (agent : Str) : Res (Option Str) :=
  match R.http attempt url.host url.port (resolveRequest url agent) with
  | none => .ok none
  | some chunks => readAnswer chunks

/-! ## parse_url -/

/-- The URL without its scheme, client/http_resolve_host.c:249-254. -/
def urlRest (res_url : Str) : Str :=
  if hasPrefixI b!"https://" res_url then res_url.drop 8
  else if hasPrefixI b!"http://" res_url then res_url.drop 7
  else res_url

/-- The port and the characters to leave out, client/http_resolve_host.c:258-283.  `snprintf` has one byte
less than the array. -/
def urlPort (s : Str) : Res (Str × Nat) :=
  match strchr s 58 with
  | none => .ok (b!"80", 0)
  | some i => do
    let p := strtol_wrapper (s.drop (i + 1)) 1 65535
    Res.guard (!p.2)
    let port := (decStrInt p.1).take (URL_PORT_SIZE - 1 - 1)
    return (port, port.length + 1)

/-- A trailing slash is overwritten, client/http_resolve_host.c:287-288. -/
def noSlash (s : Str) : Str := if s.getLast? = some 47 then s.dropLast else s

/-- `strlcpy(dst, src, size)` with an `int` for the size and `cap` bytes at `dst`, which are zero before: a
negative number is a very large one. -/
def strlcpyInt (src : Str) (size : Int) (cap : Nat) : Res Str :=
  if size = 0 then .ok []
  else do
    let n := if size < 0 then src.length else min src.length (size.toNat - 1)
    Res.mem (n + 1 > cap)
    return src.take n

/-- `parse_url`, client/http_resolve_host.c:241-321: the parts, and the URL as it is left. -/
def parse_url (res_url : Str) : Res (Url × Str) := do
  let p ← urlPort (urlRest res_url)
  Res.mem (res_url = [])
  let s := noSlash (urlRest res_url)
  let e := strchr s 47
  let tlen : Int := ((e.getD s.length : Nat) : Int) + 1 - p.2
  Res.guard (tlen > MAX_URL_HOST_LEN)
  let host ← strlcpyInt s tlen (MAX_URL_HOST_LEN + 1)
  match e with
  | none => return (⟨p.1, host, b!"/"⟩, noSlash res_url)
  | some j => do
    Res.guard ((s.drop j).length > MAX_URL_PATH_LEN)
    return (⟨p.1, host, s.drop j⟩, noSlash res_url)

/-! ## resolve_ip_http and resolve_ip_https -/

/-- `resolve_ip_http`, client/http_resolve_host.c:563-606: the new `allow_ip_str`; an error is -1. -/
def resolve_ip_http (R : ResolveEnv) (o : CliOpts) : Res Str :=
  match o.resolve_url with
  | some u => do
    Res.guard (hasPrefixI b!"https" u)
    let p ← parse_url u
    let r ← try_url R 0 p.1 (agentOf R o)
    Res.ofOpt r
  | none => do
    let r ← try_url R 0 ⟨b!"80", HTTP_RESOLVE_HOST, HTTP_RESOLVE_URL⟩ (agentOf R o)
    match r with
    | some ip => return ip
    | none => do
      let r ← try_url R 1 ⟨b!"80", HTTP_BACKUP_RESOLVE_HOST, HTTP_RESOLVE_URL⟩ (agentOf R o)
      Res.ofOpt r

/-- client/http_resolve_host.c:371-372. -/
def wgetOptions : Str := b!" --secure-protocol=auto --quiet -O - "

/-- The command line of `wget`, client/http_resolve_host.c:347-395. -/
def wgetCmd (R : ResolveEnv) (o : CliOpts) : Res Str := do
  let bin ← Res.ofOpt (o.wget_bin.or R.wget_exe)
  let c := strlcpy bin MAX_URL_PATH_LEN
  let c := if o.use_wget_user_agent then c
    else strlcat (strlcat c b!" -U " MAX_URL_PATH_LEN) (agentOf R o) MAX_URL_PATH_LEN
  let c := strlcat c wgetOptions MAX_URL_PATH_LEN
  match o.resolve_url with
  | none => return strlcat c WGET_RESOLVE_URL_SSL MAX_URL_PATH_LEN
  | some u => do
    let p ← parse_url u
    return strlcat c p.2 MAX_URL_PATH_LEN

/-- `resolve_ip_https`, client/http_resolve_host.c:323-561, with execvp. -/
def resolve_ip_https (R : ResolveEnv) (o : CliOpts) : Res Str := do
  let c ← wgetCmd R o
  let a ← strtoargv c
  let argv ← Res.ofOpt a
  let out ← Res.ofOpt (R.wget argv)
  Res.guard (out = [])
  let line := (fgetsOne MAX_IPV4_STR_LEN out).1
  let r ← ipAt (line ++ List.replicate (MAX_IPV4_STR_LEN + 1 - line.length) 0) 0
  Res.ofOpt r

/-- client/fwknop.c:203-221. -/
def resolveIp (R : ResolveEnv) (o : CliOpts) : Res Str :=
  if o.resolve_http_only then resolve_ip_http R o else resolve_ip_https R o

/-- The world with the address that was found. -/
def withResolved (E : CliEnv) (R : ResolveEnv) (o : CliOpts) : Res CliEnv :=
  match resolveIp R o with
  | .ub => .ub
  | .err => .ok { E with resolved := none }
  | .ok ip => .ok { E with resolved := some ip }

end Fwknop
