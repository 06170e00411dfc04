import Verif.Model.CLib

/-!
# Validators of message fields (lib/fko_message.c, lib/fko_user.c, common/fko_util.c)

`true` stands for the return value FKO_SUCCESS; which error code an invalid text produces is
not modelled.  All texts are C strings.
-/

namespace Fwknop

/-! Limits, lib/fko_limits.h:34-69. -/
abbrev MAX_SPA_CMD_LEN : Nat := 1400
abbrev MAX_SPA_USERNAME_SIZE : Nat := 64
abbrev MAX_SPA_MESSAGE_SIZE : Nat := 256
abbrev MAX_SPA_NAT_ACCESS_SIZE : Nat := 128
abbrev MAX_IPV4_STR_LEN : Nat := 16
abbrev MIN_IPV4_STR_LEN : Nat := 7
abbrev MAX_PROTO_STR_LEN : Nat := 4
abbrev MAX_PORT_STR_LEN : Nat := 5
abbrev MAX_PORT : Int := 65535
/-- common/fko_util.h:37 -/
abbrev MAX_HOSTNAME_LEN : Nat := 70

/-- `count_characters(s, match, len)`, common/fko_util.c:1155-1165. -/
def count_characters (s : Str) (m : Nat) (len : Nat) : Nat := (s.take len).countP (· = m)

/-- The character loop of `is_valid_ipv4_addr`, common/fko_util.c:141-157, over the first `len`
characters: number of dots, or `none` if the loop ends with `res = 0` (a NUL before `len` or a
character that is neither a digit nor a dot). -/
def ipv4Loop : Str → (len dots : Nat) → Option Nat
  | _, 0, dots => some dots
  | [], _ + 1, _ => none
  | c :: cs, len + 1, dots =>
    if c = 46 then ipv4Loop cs len (dots + 1)
    else if !isDigit c then none
    else ipv4Loop cs len dots

/-- `is_valid_ipv4_addr(ip_str, len)`, common/fko_util.c:124-173 (with HAVE_SYS_SOCKET_H). -/
def is_valid_ipv4_addr (ip : Str) (len : Nat) : Bool :=
  if len > MAX_IPV4_STR_LEN || len < MIN_IPV4_STR_LEN then false
  else match ipv4Loop ip len 0 with
    | none => false
    | some dots => if dots ≠ 3 then false else (inet_aton (ip.take len)).isSome

/-- The loop of `have_allow_ip`, lib/fko_message.c:42-59: the characters stored in `ip_str`
(most recent last), or `none` when `res` becomes an error.  `acc` is what has been stored, so
`acc.length` is `char_ctr`. -/
def allowIpLoop : Str → (acc : Str) → Option Str
  | [], acc => some acc
  | c :: cs, acc =>
    if c = 44 then some acc
    else
      let acc' := acc ++ [c]
      if acc'.length ≥ MAX_IPV4_STR_LEN then none
      else if c = 46 then allowIpLoop cs acc'
      else if !isDigit c then none
      else allowIpLoop cs acc'

/-- `have_allow_ip`, lib/fko_message.c:34-71.  The last stored index is at most 15 and the
terminator goes to index `char_ctr < 16`, so `ip_str[16]` is never overrun. -/
def have_allow_ip (msg : Str) : Bool :=
  match allowIpLoop msg [] with
  | none => false
  | some ip => is_valid_ipv4_addr ip ip.length

/-- The loop of `have_port`, lib/fko_message.c:89-97, with `port_str_len = i = acc.length`. -/
def portLoop : Str → (acc : Str) → Option Str
  | [], acc => some acc
  | c :: cs, acc =>
    if c = 44 then some acc
    else if !isDigit c || acc.length + 1 > MAX_PORT_STR_LEN then none
    else portLoop cs (acc ++ [c])

/-- `have_port`, lib/fko_message.c:73-105. -/
def have_port (msg : Str) : Bool :=
  if min msg.length MAX_SPA_MESSAGE_SIZE = MAX_SPA_MESSAGE_SIZE then false
  else match msg with
    | [] => false
    | c :: _ =>
      if !isDigit c then false
      else match portLoop msg [] with
        | none => false
        | some p => (strtol_wrapper p 1 MAX_PORT).2

/-- `validate_proto_port_spec`, lib/fko_message.c:346-372.  Called on the whole rest of the
message, so text after a comma is in view of `strchr`. -/
def validate_proto_port_spec (msg : Str) : Bool :=
  if min msg.length MAX_SPA_MESSAGE_SIZE = MAX_SPA_MESSAGE_SIZE then false
  else if !hasPrefix b!"tcp" msg && !hasPrefix b!"udp" msg && !hasPrefix b!"icmp" msg
      && !hasPrefix b!"none" msg then false
  else match strchr msg 47 with
    | none => false
    | some i => if 1 + i > MAX_PROTO_STR_LEN then false else have_port (msg.drop (i + 1))

/-- The suffixes of a string that follow a comma, in order: the positions the
`do ... while((ndx = strchr(ndx, ',')))` loop of validate_access_msg visits. -/
def commaSuffixes : Str → List Str
  | [] => []
  | c :: cs => if c = 44 then cs :: commaSuffixes cs else commaSuffixes cs

/-- `validate_access_msg`, lib/fko_message.c:267-299. -/
def validate_access_msg (msg : Str) : Bool :=
  let startlen := min msg.length MAX_SPA_MESSAGE_SIZE
  if startlen = MAX_SPA_MESSAGE_SIZE then false
  else if !have_allow_ip msg then false
  else match strchr msg 44 with
    | none => false
    | some i => if 1 + i ≥ startlen then false
      else (commaSuffixes msg).all validate_proto_port_spec

/-- `validate_cmd_msg`, lib/fko_message.c:241-265. -/
def validate_cmd_msg (msg : Str) : Bool :=
  let startlen := min msg.length MAX_SPA_CMD_LEN
  if startlen = MAX_SPA_CMD_LEN then false
  else if !have_allow_ip msg then false
  else match strchr msg 44 with
    | none => false
    | some i => if 1 + i ≥ startlen then false else true

/-- `strcspn(s, set)`. -/
def strcspn (s set : Str) : Nat := (s.takeWhile (fun c => !set.contains c)).length

/-- `validate_nat_access_msg`, lib/fko_message.c:301-344. -/
def validate_nat_access_msg (msg : Str) : Bool :=
  let startlen := min msg.length MAX_SPA_MESSAGE_SIZE
  if startlen = MAX_SPA_MESSAGE_SIZE then false
  else if count_characters msg 44 startlen ≠ 1 then false
  else
    let host_len := strcspn msg [44]
    if host_len > MAX_HOSTNAME_LEN then false
    else if strcspn msg b!" /?\"'\\" < host_len then false
    else match strchr msg 44 with
      | none => false
      | some i =>
        if 1 + i ≥ startlen then false
        else if !have_port (msg.drop (i + 1)) then false
        else if msg.getD (startlen - 1) 0 = 44 then false
        else true

/-- The characters refused by `validate_username`, lib/fko_user.c:178-196 (a `char` above 127
is negative, hence below 0x20). -/
def badUserChar (c : Nat) : Bool :=
  !isAlnum c && ((c < 0x20 || c > 0x7e) ||
    b!"\"/\\[]:;|=,+*?<>".contains c)

/-- `validate_username`, lib/fko_user.c:164-210 (non-NULL argument). -/
def validate_username (u : Str) : Bool :=
  if min u.length MAX_SPA_USERNAME_SIZE = 0 then false
  else (u.take MAX_SPA_USERNAME_SIZE).all (fun c => !badUserChar c)

/-- The loop of `is_valid_hostname`, common/fko_util.c:189-219, from label size `lab` and
previous character `prev`: the final label size and last character, or `none` for `return 0`.
-/
def hostnameLoop : Str → (len lab prev : Nat) → Option (Nat × Nat)
  | _, 0, lab, prev => some (lab, prev)
  | [], _ + 1, _, _ => none
  | c :: cs, len + 1, lab, prev =>
    if (if lab = 0 then !isAlnum c else !(isAlnum c || c = 46 || c = 45)) then none
    else if c = 46 then
      if lab > 63 then none
      else if !isAlnum prev then none
      else hostnameLoop cs len 0 c
    else hostnameLoop cs len (lab + 1) c

/-- `is_valid_hostname`, common/fko_util.c:177-235.  With `len = 0` the code reads
`hostname_str[-1]`; that value is the argument `before` here. -/
def is_valid_hostname (before : Nat) (h : Str) (len : Nat) : Bool :=
  if len > 254 then false
  else match hostnameLoop h len 0 before with
    | none => false
    | some (lab, last) => if last = 45 then false else !(lab > 63)

example : validate_access_msg b!"1.2.3.4,tcp/22,udp/53" = true := by decide
example : validate_access_msg b!"1.2.3.4,none/0" = false := by decide
example : validate_nat_access_msg b!"10.0.0.1,22" = true := by decide
example : validate_username b!"mbr" = true := by decide
example : is_valid_hostname 0 b!"a-b.c." 6 = true := by decide
example : is_valid_hostname 0 b!"a-.c" 4 = false := by decide

end Fwknop
