import Verif.Model.Ctx

/-!
# Encoding and decoding of SPA messages (lib/fko_encode.c, lib/fko_decode.c)
-/

namespace Fwknop

/-- `strlcat(dst, src, size)`, lib/strlcat.c: the resulting string. -/
def strlcat (dst src : Str) (size : Nat) : Str :=
  if dst.length ≥ size then dst else dst ++ src.take (size - 1 - dst.length)

/-- `append_b64`, lib/fko_encode.c:40-74. -/
def append_b64 (tbuf str : Str) : Option Str :=
  if min str.length MAX_SPA_ENCODED_MSG_SIZE ≥ MAX_SPA_ENCODED_MSG_SIZE then none
  else some (strlcat tbuf (Base64.strip_b64_eq (Base64.b64_encode str)) FKO_ENCODE_TMP_BUF_SIZE)

/-- `append_b64` after a colon, when the field is present (lib/fko_encode.c:173-194). -/
def appendOpt (tbuf : Str) : Option Str → Option Str
  | none => some tbuf
  | some f => append_b64 (strlcat tbuf b!":" FKO_ENCODE_TMP_BUF_SIZE) f

/-- The text assembled by `fko_encode_spa_data`, lib/fko_encode.c:122-204; the message type is
the one after the timeout check.  The `snprintf` at the end of the text has the effect of
`strlcat`.  `none` is an error of `append_b64`. -/
def encodeText (rand user : Str) (ts : Int) (ver : Str) (mt : Int) (msg : Str)
    (nat auth : Option Str) (timeout : Nat) : Option Str :=
  let t0 := strlcat (strlcpy rand FKO_ENCODE_TMP_BUF_SIZE) b!":" FKO_ENCODE_TMP_BUF_SIZE
  match append_b64 t0 user with
  | none => none
  | some t1 =>
    let t2 := strlcat t1 (b!":" ++ decStr (ts % 2 ^ 32).toNat ++ b!":") FKO_ENCODE_TMP_BUF_SIZE
    let t3 := strlcat t2 ver FKO_ENCODE_TMP_BUF_SIZE
    let t4 := strlcat t3 (b!":" ++ decStrInt mt ++ b!":") FKO_ENCODE_TMP_BUF_SIZE
    match append_b64 t4 msg with
    | none => none
    | some t5 =>
      match appendOpt t5 nat with
      | none => none
      | some t6 =>
        match appendOpt t6 auth with
        | none => none
        | some t7 =>
          if timeout > 0 ∧ mt ≠ FKO_COMMAND_MSG then
            some (strlcat t7 (b!":" ++ decStr timeout) FKO_ENCODE_TMP_BUF_SIZE)
          else some t7

/-- `set_digest`, lib/fko_digest.c:125-231: the digest, or `none` for an error. -/
def set_digest (H : Hash) (data : Str) (t : Int) : Option Str :=
  if min data.length MAX_SPA_ENCODED_MSG_SIZE = MAX_SPA_ENCODED_MSG_SIZE then none
  else if t < 1 ∨ t ≥ FKO_LAST_DIGEST_TYPE then none
  else some (digest_base64 H t data)

/-- Length of the base64 digest of a type (MD5_B64_LEN and so on). -/
def b64DigestLen (t : Int) : Nat :=
  if t = FKO_DIGEST_MD5 then 22
  else if t = FKO_DIGEST_SHA1 then 27
  else if t = FKO_DIGEST_SHA256 ∨ t = FKO_DIGEST_SHA3_256 then 43
  else if t = FKO_DIGEST_SHA384 then 64
  else 86

/-- The length of the NAT message as `strnlen` sees it, lib/fko_encode.c:107-111. -/
def natLen : Option Str → Nat
  | none => 0
  | some n => min n.length MAX_SPA_MESSAGE_SIZE

/-- `fko_encode_spa_data`, lib/fko_encode.c:78-235: success flag and resulting context (the
context can change before an error).  A NULL `rand_val` is dereferenced by `strlcpy`. -/
def fko_encode_spa_data (H : Hash) (c : Ctx) : Res (Bool × Ctx) :=
  match c.username, c.version, c.message with
  | some user, some ver, some msg =>
    if !validate_username user ∨ min ver.length MAX_SPA_VERSION_SIZE = 0
        ∨ min msg.length MAX_SPA_MESSAGE_SIZE = 0 then .ok (false, c)
    else if c.message_type = FKO_NAT_ACCESS_MSG ∧
        natLen c.nat_access = 0 then .ok (false, c)
    else match c.rand_val with
      | none => .ub
      | some rand =>
        -- lib/fko_encode.c:154 (the call comes after the first fields are written, which is
        -- immaterial: it changes none of them)
        let c1 := (fko_set_spa_client_timeout c c.client_timeout).getD c
        match encodeText rand user c.timestamp ver c1.message_type msg c.nat_access
            c.server_auth c1.client_timeout with
        | none => .ok (false, c1)
        | some t =>
          let c2 := { c1 with encoded_msg := some (t ++ [0]),
                              encoded_msg_len := (min t.length MAX_SPA_ENCODED_MSG_SIZE : Nat) }
          if !is_valid_encoded_msg_len c2.encoded_msg_len then .ok (false, c2)
          else match set_digest H t c2.digest_type with
            | none => .ok (false, c2)
            | some d =>
              .ok (true, { c2 with digest := some d,
                                   digest_len := b64DigestLen c2.digest_type }.clearModified)
  | _, _, _ => .ok (false, c)

/-! ## Decoding -/

/-- The C string at index `i` of an allocation; `none` when no terminator follows inside the
allocation, so that a string function would read past its end. -/
def cstrAt (buf : Str) (i : Nat) : Option Str :=
  if 0 ∈ buf.drop i then some ((buf.drop i).takeWhile (· ≠ 0)) else none

/-- `num_fields`, lib/fko_decode.c:45-60; the fuel is MAX_SPA_FIELDS+2. -/
def numFields : (fuel : Nat) → Str → Nat
  | 0, _ => 0
  | fuel + 1, s =>
    match strchr s 58 with
    | none => 0
    | some i => 1 + numFields fuel (s.drop (i + 1))

/-- `last_field`, lib/fko_decode.c:62-79. -/
def lastField : (fuel : Nat) → Str → Nat
  | 0, _ => 0
  | fuel + 1, s =>
    match strchr s 58 with
    | none => 0
    | some i => (i + 1) + lastField fuel (s.drop (i + 1))

/-- `is_valid_digest_len`, lib/fko_decode.c:164-204: the assumed digest type. -/
def digestTypeOfLen (n : Nat) : Option Int :=
  if n = 22 then some FKO_DIGEST_MD5
  else if n = 27 then some FKO_DIGEST_SHA1
  else if n = 43 then some FKO_DIGEST_SHA256
  else if n = 64 then some FKO_DIGEST_SHA384
  else if n = 86 then some FKO_DIGEST_SHA512
  else none

/-- `verify_digest`, lib/fko_decode.c:81-162 (without AFL_FUZZING): the digest type that
matched. -/
def verify_digest (H : Hash) (digest : Str) (t_size : Nat) (dtype : Int) (data : Str) :
    Option Int :=
  if constant_runtime_cmp digest (digest_base64 H dtype data) t_size ≠ 0 then
    if dtype = FKO_DIGEST_SHA256 then
      if constant_runtime_cmp digest (digest_base64 H FKO_DIGEST_SHA3_256 data) t_size ≠ 0
      then none else some FKO_DIGEST_SHA3_256
    else if dtype = FKO_DIGEST_SHA512 then
      if constant_runtime_cmp digest (digest_base64 H FKO_DIGEST_SHA3_512 data) t_size ≠ 0
      then none else some FKO_DIGEST_SHA3_512
    else none
  else some dtype

/-- A C string read at the current position. -/
def readStr (buf : Str) (ndx : Nat) : Res Str :=
  match cstrAt buf ndx with
  | none => .ub
  | some s => .ok s

/-- `strlcpy(tbuf, *ndx, *t_size+1)` into the 1024-byte scratch buffer. -/
def copyField (s : Str) (t_size : Nat) : Res Str :=
  if t_size + 1 > FKO_ENCODE_TMP_BUF_SIZE then .ub else .ok (s.take t_size)

/-- `b64_decode` of the scratch buffer into a zeroed allocation of `t_size+1` bytes, then read
as a C string. -/
def decodeField (f : Str) (t_size : Nat) : Res Str :=
  match Base64.b64_decode f with
  | none => .err
  | some d => if d.length + 1 > t_size + 1 then .ub else .ok (d.takeWhile (· ≠ 0))

/-- Length of the field at the head of the string: `strcspn(*ndx, ":")`. -/
def fieldLen (s : Str) : Nat := strcspn s [58]

/-- `parse_rand_val`, lib/fko_decode.c:507-525. -/
def parse_rand_val (buf : Str) (ndx : Nat) (c : Ctx) : Res (Nat × Ctx) := do
  let s ← readStr buf ndx
  Res.guard (fieldLen s < FKO_RAND_VAL_SIZE)
  return (ndx + fieldLen s + 1, { c with rand_val := some (s.take FKO_RAND_VAL_SIZE) })

/-- `parse_username`, lib/fko_decode.c:478-505. -/
def parse_username (buf : Str) (ndx : Nat) (c : Ctx) : Res (Nat × Ctx) := do
  let s ← readStr buf ndx
  Res.guard (fieldLen s < 1)
  Res.guard (fieldLen s > MAX_SPA_USERNAME_SIZE)
  let f ← copyField s (fieldLen s)
  let u ← decodeField f (fieldLen s)
  Res.guard (!validate_username u)
  return (ndx + fieldLen s + 1, { c with username := some u })

/-- `parse_timestamp`, lib/fko_decode.c:455-476 (`int` to `unsigned int` to `time_t`: the value
accepted is never negative). -/
def parse_timestamp (buf : Str) (ndx : Nat) (c : Ctx) : Res (Nat × Ctx) := do
  let s ← readStr buf ndx
  Res.guard (fieldLen s < 1)
  Res.guard (fieldLen s > MAX_SPA_TIMESTAMP_SIZE)
  let f ← copyField s (fieldLen s)
  let r := strtol_wrapper f 0 (-1)
  Res.guard (!r.2)
  return (ndx + fieldLen s + 1, { c with timestamp := r.1 % 2 ^ 32 })

/-- `parse_version`, lib/fko_decode.c:433-453. -/
def parse_version (buf : Str) (ndx : Nat) (c : Ctx) : Res (Nat × Ctx) := do
  let s ← readStr buf ndx
  Res.guard (fieldLen s < 1)
  Res.guard (fieldLen s > MAX_SPA_VERSION_SIZE)
  return (ndx + fieldLen s + 1, { c with version := some (s.take (fieldLen s)) })

/-- The largest number of colons that may follow, by message type, lib/fko_decode.c:401-427. -/
def maxRemaining (t : Int) : Nat :=
  if t = FKO_COMMAND_MSG ∨ t = FKO_ACCESS_MSG then 2
  else if t = FKO_NAT_ACCESS_MSG ∨ t = FKO_LOCAL_NAT_ACCESS_MSG
      ∨ t = FKO_CLIENT_TIMEOUT_ACCESS_MSG then 3
  else 4

/-- `parse_msg_type`, lib/fko_decode.c:377-431. -/
def parse_msg_type (buf : Str) (ndx : Nat) (c : Ctx) : Res (Nat × Ctx) := do
  let s ← readStr buf ndx
  Res.guard (fieldLen s < 1)
  Res.guard (fieldLen s > MAX_SPA_MESSAGE_TYPE_SIZE)
  let f ← copyField s (fieldLen s)
  let r := strtol_wrapper f 0 (FKO_LAST_MSG_TYPE - 1)
  Res.guard (!r.2)
  Res.guard (numFields (MAX_SPA_FIELDS + 2) s > maxRemaining r.1)
  return (ndx + fieldLen s + 1, { c with message_type := r.1 })

/-- `parse_msg`, lib/fko_decode.c:206-249. -/
def parse_msg (buf : Str) (ndx : Nat) (c : Ctx) : Res (Nat × Ctx) := do
  let s ← readStr buf ndx
  Res.guard (fieldLen s < 1)
  Res.guard (fieldLen s > MAX_SPA_MESSAGE_SIZE)
  let f ← copyField s (fieldLen s)
  let m ← decodeField f (fieldLen s)
  Res.guard (!(if c.message_type = FKO_COMMAND_MSG then validate_cmd_msg m
    else validate_access_msg m))
  return (ndx + fieldLen s + 1, { c with message := some m })

/-- Does the type carry NAT data?  lib/fko_decode.c:254-257. -/
def isNatType (t : Int) : Bool :=
  t = FKO_NAT_ACCESS_MSG || t = FKO_LOCAL_NAT_ACCESS_MSG
    || t = FKO_CLIENT_TIMEOUT_NAT_ACCESS_MSG || t = FKO_CLIENT_TIMEOUT_LOCAL_NAT_ACCESS_MSG

/-- Does the type carry a timeout?  lib/fko_decode.c:299-301, 353-355. -/
def isTimeoutType (t : Int) : Bool :=
  t = FKO_CLIENT_TIMEOUT_ACCESS_MSG || t = FKO_CLIENT_TIMEOUT_NAT_ACCESS_MSG
    || t = FKO_CLIENT_TIMEOUT_LOCAL_NAT_ACCESS_MSG

/-- `parse_nat_msg`, lib/fko_decode.c:251-284. -/
def parse_nat_msg (buf : Str) (ndx : Nat) (c : Ctx) : Res (Nat × Ctx) :=
  if isNatType c.message_type then do
    let s ← readStr buf ndx
    Res.guard (fieldLen s < 1)
    Res.guard (fieldLen s > MAX_SPA_MESSAGE_SIZE)
    let f ← copyField s (fieldLen s)
    let m ← decodeField f (fieldLen s)
    Res.guard (!validate_nat_access_msg m)
    return (ndx + fieldLen s + 1, { c with nat_access := some m })
  else .ok (ndx, c)

/-- `parse_server_auth`, lib/fko_decode.c:286-346. -/
def parse_server_auth (buf : Str) (ndx : Nat) (c : Ctx) : Res (Nat × Ctx) := do
  let s ← readStr buf ndx
  if s.length > 0 then
    Res.guard (s.length > MAX_SPA_MESSAGE_SIZE)
    if isTimeoutType c.message_type then
      if (strchr s 58).isSome then
        Res.guard (fieldLen s > MAX_SPA_MESSAGE_SIZE)
        let f ← copyField s (fieldLen s)
        let a ← decodeField f (fieldLen s)
        return (ndx + fieldLen s + 1, { c with server_auth := some a })
      else return (ndx, c)
    else
      let f ← copyField s s.length
      let a ← decodeField f s.length
      return (ndx, { c with server_auth := some a })
  else return (ndx, c)

/-- `parse_client_timeout`, lib/fko_decode.c:348-375. -/
def parse_client_timeout (buf : Str) (ndx : Nat) (c : Ctx) : Res (Nat × Ctx) :=
  if isTimeoutType c.message_type then do
    let s ← readStr buf ndx
    Res.guard (s.length < 1)
    Res.guard (s.length > MAX_SPA_MESSAGE_SIZE)
    Res.guard ((s.takeWhile isDigit).length ≠ s.length)
    let r := strtol_wrapper s 0 65536
    Res.guard (!r.2)
    return (ndx, { c with client_timeout := r.1.toNat })
  else .ok (ndx, c)

/-- The nine field parsers in order, lib/fko_decode.c:535-547, 612-622. -/
def parseFields (buf : Str) (c : Ctx) : Res Ctx := do
  let r ← parse_rand_val buf 0 c
  let r ← parse_username buf r.1 r.2
  let r ← parse_timestamp buf r.1 r.2
  let r ← parse_version buf r.1 r.2
  let r ← parse_msg_type buf r.1 r.2
  let r ← parse_msg buf r.1 r.2
  let r ← parse_nat_msg buf r.1 r.2
  let r ← parse_server_auth buf r.1 r.2
  let r ← parse_client_timeout buf r.1 r.2
  return r.2

/-- `isprint` in the C locale. -/
def isPrint (c : Nat) : Bool := 32 ≤ c && c ≤ 126

/-- `bzero(buf + pos, n)`. -/
def zeroRange (buf : Str) (pos n : Nat) : Str :=
  buf.take pos ++ List.replicate n 0 ++ buf.drop (pos + n)

/-- `fko_decode_spa_data`, lib/fko_decode.c:529-634. -/
def fko_decode_spa_data (H : Hash) (c : Ctx) : Res Ctx :=
  match c.encoded_msg with
  | none => .ub
  | some buf => do
    Res.guard (!is_valid_encoded_msg_len c.encoded_msg_len)
    let s ← readStr buf 0
    Res.guard (!(s.take MAX_SPA_ENCODED_MSG_SIZE).all isPrint)
    Res.guard (numFields (MAX_SPA_FIELDS + 2) s < MIN_SPA_FIELDS)
    let pos := lastField (MAX_SPA_FIELDS + 2) s
    let dig ← readStr buf pos
    let t_size := min dig.length 87
    match digestTypeOfLen t_size with
    | none => .err
    | some dtype =>
      Res.guard (c.encoded_msg_len - t_size < 0)
      -- bzero((ndx-1), t_size)
      Res.mem (pos = 0 ∨ pos - 1 + t_size > buf.length)
      let buf' := zeroRange buf (pos - 1) t_size
      let len' := c.encoded_msg_len - (t_size + 1)
      -- the digest functions read `len'` bytes, as a size_t
      Res.mem (len' < 0 ∨ len' > buf'.length)
      match verify_digest H dig t_size dtype (buf'.take len'.toNat) with
      | none => .err
      | some dt =>
        parseFields buf' { c with digest := some dig, digest_type := dt, digest_len := t_size,
                                  encoded_msg := some buf', encoded_msg_len := len' }

end Fwknop
