import Verif.Model.Ctx

/-!
# Name tables (common/fko_util.c) and context creation (lib/fko_funcs.c)
-/

namespace Fwknop

/-- `strcasecmp(a, b) == 0` in the C locale. -/
def strcaseeq (a b : Str) : Bool := a.map toLower = b.map toLower

/-- `digest_strtoint`, common/fko_util.c:238-258; `hmac_digest_strtoint`,
common/fko_util.c:312-332, is the same table with FKO_HMAC_* numbers, which coincide. -/
def digest_strtoint (s : Str) : Int :=
  if strcaseeq s b!"md5" then FKO_DIGEST_MD5
  else if strcaseeq s b!"sha1" then FKO_DIGEST_SHA1
  else if strcaseeq s b!"sha256" then FKO_DIGEST_SHA256
  else if strcaseeq s b!"sha384" then FKO_DIGEST_SHA384
  else if strcaseeq s b!"sha512" then FKO_DIGEST_SHA512
  else if strcaseeq s b!"sha3_256" then FKO_DIGEST_SHA3_256
  else if strcaseeq s b!"sha3_512" then FKO_DIGEST_SHA3_512
  else -1

/-- `digest_inttostr`, common/fko_util.c:272-310; `hmac_digest_inttostr`,
common/fko_util.c:384-421, is the same.  The string is the one written to a buffer of `size`
bytes, the flag is the return value 0. -/
def digest_inttostr (d : Int) (size : Nat) : Str × Bool :=
  if d = FKO_DIGEST_MD5 then (strlcpy b!"MD5" size, true)
  else if d = FKO_DIGEST_SHA1 then (strlcpy b!"SHA1" size, true)
  else if d = FKO_DIGEST_SHA256 then (strlcpy b!"SHA256" size, true)
  else if d = FKO_DIGEST_SHA384 then (strlcpy b!"SHA384" size, true)
  else if d = FKO_DIGEST_SHA512 then (strlcpy b!"SHA512" size, true)
  else if d = FKO_DIGEST_SHA3_256 then (strlcpy b!"SHA3_256" size, true)
  else if d = FKO_DIGEST_SHA3_512 then (strlcpy b!"SHA3_512" size, true)
  else (strlcpy b!"Unknown" size, false)

/-- `fko_enc_mode_strs`, common/fko_util.c:70-80: name, value, supported. -/
def fko_enc_mode_strs : List (Str × Int × Bool) := [
  (b!"CBC", FKO_ENC_MODE_CBC, true),
  (b!"ECB", FKO_ENC_MODE_ECB, true),
  (b!"CFB", FKO_ENC_MODE_CFB, true),
  (b!"PCBC", FKO_ENC_MODE_PCBC, false),
  (b!"OFB", FKO_ENC_MODE_OFB, true),
  (b!"CTR", FKO_ENC_MODE_CTR, true),
  (b!"Asymmetric", FKO_ENC_MODE_ASYMMETRIC, true),
  (b!"legacy", FKO_ENC_MODE_CBC_LEGACY_IV, true)]

/-- `enc_mode_strtoint`, common/fko_util.c:443-464. -/
def enc_mode_strtoint (s : Str) : Int :=
  match fko_enc_mode_strs.find? (fun e => strcaseeq s e.1 && e.2.2) with
  | some e => e.2.1
  | none => -1

/-- `enc_mode_inttostr`, common/fko_util.c:478-505. -/
def enc_mode_inttostr (m : Int) (size : Nat) : Str × Bool :=
  match fko_enc_mode_strs.find? (fun e => e.2.1 = m && e.2.2) with
  | some e => (strlcpy e.1 size, true)
  | none => ([], false)

/-- `msg_type_inttostr`, common/fko_util.c:351-372. -/
def msg_type_inttostr (t : Int) : Str :=
  if t = FKO_COMMAND_MSG then b!"Command msg"
  else if t = FKO_ACCESS_MSG then b!"Access msg"
  else if t = FKO_NAT_ACCESS_MSG then b!"NAT access msg"
  else if t = FKO_CLIENT_TIMEOUT_ACCESS_MSG then b!"Client timeout access msg"
  else if t = FKO_CLIENT_TIMEOUT_NAT_ACCESS_MSG then b!"Client timeout NAT access msg"
  else if t = FKO_LOCAL_NAT_ACCESS_MSG then b!"Local NAT access msg"
  else if t = FKO_CLIENT_TIMEOUT_LOCAL_NAT_ACCESS_MSG then b!"Client timeout local NAT access msg"
  else b!"Unknown message type"

/-- `fko_new`, lib/fko_funcs.c:38-147, with the random value drawn, the user name found and the
time; `none` when a setter fails. -/
def fko_new (rands : List Nat) (user : Str) (now : Int) : Option Ctx :=
  let c : Ctx := { version := some FKO_PROTOCOL_VERSION,
                   rand_val := some (randValue rands []), state := FKO_DATA_MODIFIED }
  (fko_set_username c user).bind fun c =>
  (fko_set_timestamp c now 0).bind fun c =>
  (fko_set_spa_digest_type c FKO_DIGEST_SHA256).bind fun c =>
  (fko_set_spa_message_type c FKO_ACCESS_MSG).bind fun c =>
  (fko_set_spa_encryption_type c FKO_ENCRYPTION_RIJNDAEL).bind fun c =>
  (fko_set_spa_encryption_mode c FKO_ENC_MODE_CBC).bind fun c =>
  some (c.setFlag FKO_CTX_INITIALIZED)

/-- The setter calls of the public API (lib/fko.h:460-665). -/
inductive Setter where
  | msgType (t : Int)
  | message (m : Str)
  | timeout (t : Int)
  | natAccess (m : Str)
  | serverAuth (m : Str)
  | username (u : Str)
  | randValue (v : Str)
  | timestamp (now offset : Int)
  | digestType (t : Int)
  | encType (t : Int)
  | encMode (t : Int)
  | hmacType (t : Int)
  deriving DecidableEq

/-- The result of one setter call, `none` for an error. -/
def Setter.run (c : Ctx) : Setter → Option Ctx
  | .msgType t => fko_set_spa_message_type c t
  | .message m => fko_set_spa_message c m
  | .timeout t => fko_set_spa_client_timeout c t
  | .natAccess m => fko_set_spa_nat_access c m
  | .serverAuth m => fko_set_spa_server_auth c m
  | .username u => fko_set_username c u
  | .randValue v => fko_set_rand_value c v
  | .timestamp n o => fko_set_timestamp c n o
  | .digestType t => fko_set_spa_digest_type c t
  | .encType t => fko_set_spa_encryption_type c t
  | .encMode t => fko_set_spa_encryption_mode c t
  | .hmacType t => fko_set_spa_hmac_type c t

/-- A sequence of setter calls; a failing call changes nothing. -/
def runSetters (c : Ctx) (ss : List Setter) : Ctx := ss.foldl (fun c s => (s.run c).getD c) c

end Fwknop
