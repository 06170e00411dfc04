import Verif.Model.Message
import Verif.Model.Base64

/-!
# The libfko context and its setters (lib/fko_context.h, lib/fko_*.c)

Memory exhaustion (a NULL from calloc/strdup) and the fault-injection hooks (HAVE_LIBFIU) are
not modelled.  All functions here assume an initialised context (CTX_INITIALIZED), which is
what the fko_new* functions return.
-/

namespace Fwknop

/-- Result of a C function that may access memory outside its objects. -/
inductive Res (α : Type) where
  /-- undefined behaviour: a read or write outside the object -/
  | ub
  /-- an error code is returned -/
  | err
  | ok (a : α)
  deriving DecidableEq, Repr

namespace Res

@[inline] def bind {α β : Type} : Res α → (α → Res β) → Res β
  | ub, _ => ub
  | err, _ => err
  | ok a, f => f a

instance : Monad Res where
  pure := ok
  bind := bind

@[simp] theorem bind_ok {α β : Type} (a : α) (f : α → Res β) : (ok a >>= f) = f a := rfl
@[simp] theorem bind_err {α β : Type} (f : α → Res β) : ((err : Res α) >>= f) = err := rfl
@[simp] theorem bind_ub {α β : Type} (f : α → Res β) : ((ub : Res α) >>= f) = ub := rfl
@[simp] theorem pure_eq {α : Type} (a : α) : (pure a : Res α) = ok a := rfl

/-- `if c return(error);` -/
def guard (c : Bool) : Res Unit := if c then err else ok ()

/-- An access that is outside the object when `c` holds. -/
def mem (c : Bool) : Res Unit := if c then ub else ok ()

@[simp] theorem guard_false : guard false = ok () := rfl
@[simp] theorem guard_true : guard true = err := rfl
@[simp] theorem mem_false : mem false = ok () := rfl
@[simp] theorem mem_true : mem true = ub := rfl

end Res

/-! ## Constants: lib/fko.h:106-175, lib/fko_limits.h:34-69 -/
abbrev FKO_COMMAND_MSG : Int := 0
abbrev FKO_ACCESS_MSG : Int := 1
abbrev FKO_NAT_ACCESS_MSG : Int := 2
abbrev FKO_CLIENT_TIMEOUT_ACCESS_MSG : Int := 3
abbrev FKO_CLIENT_TIMEOUT_NAT_ACCESS_MSG : Int := 4
abbrev FKO_LOCAL_NAT_ACCESS_MSG : Int := 5
abbrev FKO_CLIENT_TIMEOUT_LOCAL_NAT_ACCESS_MSG : Int := 6
abbrev FKO_LAST_MSG_TYPE : Int := 7

abbrev FKO_DIGEST_MD5 : Int := 1
abbrev FKO_DIGEST_SHA1 : Int := 2
abbrev FKO_DIGEST_SHA256 : Int := 3
abbrev FKO_DIGEST_SHA384 : Int := 4
abbrev FKO_DIGEST_SHA512 : Int := 5
abbrev FKO_DIGEST_SHA3_256 : Int := 6
abbrev FKO_DIGEST_SHA3_512 : Int := 7
abbrev FKO_LAST_DIGEST_TYPE : Int := 8

abbrev FKO_ENCRYPTION_UNKNOWN : Int := 0
abbrev FKO_ENCRYPTION_RIJNDAEL : Int := 1
abbrev FKO_ENCRYPTION_GPG : Int := 2
abbrev FKO_LAST_ENCRYPTION_TYPE : Int := 3

abbrev FKO_ENC_MODE_ECB : Int := 1
abbrev FKO_ENC_MODE_CBC : Int := 2
abbrev FKO_ENC_MODE_CFB : Int := 3
abbrev FKO_ENC_MODE_PCBC : Int := 4
abbrev FKO_ENC_MODE_OFB : Int := 5
abbrev FKO_ENC_MODE_CTR : Int := 6
abbrev FKO_ENC_MODE_ASYMMETRIC : Int := 7
abbrev FKO_ENC_MODE_CBC_LEGACY_IV : Int := 8
abbrev FKO_LAST_ENC_MODE : Int := 9

abbrev FKO_HMAC_UNKNOWN : Int := 0
abbrev FKO_LAST_HMAC_MODE : Int := 8

abbrev MIN_SPA_ENCODED_MSG_SIZE : Int := 36
abbrev MAX_SPA_ENCODED_MSG_SIZE : Nat := 1500
abbrev MAX_SPA_SERVER_AUTH_SIZE : Nat := 64
abbrev MAX_SPA_TIMESTAMP_SIZE : Nat := 12
abbrev MAX_SPA_VERSION_SIZE : Nat := 8
abbrev MAX_SPA_MESSAGE_TYPE_SIZE : Nat := 2
abbrev MIN_SPA_FIELDS : Nat := 6
abbrev MAX_SPA_FIELDS : Nat := 9
abbrev FKO_ENCODE_TMP_BUF_SIZE : Nat := 1024
abbrev FKO_RAND_VAL_SIZE : Nat := 16
abbrev FKO_PROTOCOL_VERSION : Str := b!"3.0.0"

/-! ## State flags, lib/fko_state.h:35-54, 70-85 -/
abbrev FKO_DATA_MODIFIED : Nat := 2
abbrev FKO_SPA_MSG_TYPE_MODIFIED : Nat := 64
abbrev FKO_CTX_INITIALIZED : Nat := 129
abbrev FKO_DIGEST_TYPE_MODIFIED : Nat := 4096
abbrev FKO_ENCRYPT_TYPE_MODIFIED : Nat := 8192
abbrev FKO_ENCRYPT_MODE_MODIFIED : Nat := 65536
abbrev FKO_HMAC_MODE_MODIFIED : Nat := 131072
abbrev FKO_SPA_DATA_MODIFIED : Nat := 2 + 64 + 4096 + 8192

/-- `struct fko_context`, lib/fko_context.h:65-133, without the GPG members.  A NULL pointer is
`none`; strings are C strings except `encoded_msg`, which holds the whole allocation including
the terminator (the decoder's pointers run over it). -/
structure Ctx where
  rand_val : Option Str := none
  username : Option Str := none
  timestamp : Int := 0
  message_type : Int := 0
  message : Option Str := none
  nat_access : Option Str := none
  server_auth : Option Str := none
  client_timeout : Nat := 0
  digest_type : Int := 0
  encryption_type : Int := 0
  encryption_mode : Int := 0
  hmac_type : Int := 0
  version : Option Str := none
  digest : Option Str := none
  digest_len : Int := 0
  raw_digest : Option Str := none
  raw_digest_type : Int := 0
  encoded_msg : Option Str := none
  encoded_msg_len : Int := 0
  encrypted_msg : Option Str := none
  encrypted_msg_len : Int := 0
  msg_hmac : Option Str := none
  msg_hmac_len : Int := 0
  added_salted_str : Bool := false
  added_gpg_prefix : Bool := false
  state : Nat := 0
  deriving DecidableEq, Repr

/-- `FKO_IS_SPA_DATA_MODIFIED`, lib/fko_state.h:79. -/
def Ctx.isModified (c : Ctx) : Bool := c.state &&& FKO_SPA_DATA_MODIFIED ≠ 0

/-- `FKO_CLEAR_SPA_DATA_MODIFIED`, lib/fko_state.h:84-85 (the mask also drops bits 16 up). -/
def Ctx.clearModified (c : Ctx) : Ctx :=
  { c with state := c.state &&& (0xffff - FKO_SPA_DATA_MODIFIED) }

/-- `ctx->state |= flag`. -/
def Ctx.setFlag (c : Ctx) (flag : Nat) : Ctx := { c with state := c.state ||| flag }

/-! Setters: `none` is an error return, which leaves the context unchanged. -/

/-- `is_valid_encoded_msg_len`, common/fko_util.c:110-120; `is_valid_pt_msg_len` has the same
limits (common/fko_util.c:423-433, lib/fko_limits.h:52-53). -/
def is_valid_encoded_msg_len (len : Int) : Bool :=
  !(len < MIN_SPA_ENCODED_MSG_SIZE || len ≥ (1500 : Int))

/-- `fko_set_spa_message_type`, lib/fko_message.c:109-133. -/
def fko_set_spa_message_type (c : Ctx) (t : Int) : Option Ctx :=
  if t < 0 ∨ t ≥ FKO_LAST_MSG_TYPE then none
  else some ({ c with message_type := t }.setFlag FKO_SPA_MSG_TYPE_MODIFIED)

/-- `fko_set_spa_message`, lib/fko_message.c:165-210. -/
def fko_set_spa_message (c : Ctx) (msg : Str) : Option Ctx :=
  if min msg.length MAX_SPA_MESSAGE_SIZE = 0 then none
  else if min msg.length MAX_SPA_MESSAGE_SIZE = MAX_SPA_MESSAGE_SIZE then none
  else if (if c.message_type = FKO_COMMAND_MSG then validate_cmd_msg msg
      else validate_access_msg msg) then
    some ({ c with message := some msg }.setFlag FKO_DATA_MODIFIED)
  else none

/-- The message type the timeout calls for, lib/fko_client_timeout.c:59-92. -/
def timeoutType (t : Int) (timeout : Nat) : Int :=
  if timeout > 0 then
    if t = FKO_ACCESS_MSG then FKO_CLIENT_TIMEOUT_ACCESS_MSG
    else if t = FKO_NAT_ACCESS_MSG then FKO_CLIENT_TIMEOUT_NAT_ACCESS_MSG
    else if t = FKO_LOCAL_NAT_ACCESS_MSG then FKO_CLIENT_TIMEOUT_LOCAL_NAT_ACCESS_MSG
    else t
  else
    if t = FKO_CLIENT_TIMEOUT_ACCESS_MSG then FKO_ACCESS_MSG
    else if t = FKO_CLIENT_TIMEOUT_NAT_ACCESS_MSG then FKO_NAT_ACCESS_MSG
    else if t = FKO_CLIENT_TIMEOUT_LOCAL_NAT_ACCESS_MSG then FKO_LOCAL_NAT_ACCESS_MSG
    else t

/-- `fko_set_spa_client_timeout`, lib/fko_client_timeout.c:35-98. -/
def fko_set_spa_client_timeout (c : Ctx) (timeout : Int) : Option Ctx :=
  if timeout < 0 then none
  else
    let t := timeoutType c.message_type timeout.toNat
    let c1 := { c with client_timeout := timeout.toNat, message_type := t }.setFlag FKO_DATA_MODIFIED
    some (if t ≠ c.message_type then c1.setFlag FKO_SPA_MSG_TYPE_MODIFIED else c1)

/-- `fko_set_spa_nat_access`, lib/fko_nat_access.c:35-100. -/
def fko_set_spa_nat_access (c : Ctx) (msg : Str) : Option Ctx :=
  if min msg.length MAX_SPA_NAT_ACCESS_SIZE = 0 then none
  else if min msg.length MAX_SPA_NAT_ACCESS_SIZE = MAX_SPA_NAT_ACCESS_SIZE then none
  else if !validate_nat_access_msg msg then none
  else
    let t :=
      if c.client_timeout > 0 then
        if c.message_type ≠ FKO_CLIENT_TIMEOUT_LOCAL_NAT_ACCESS_MSG
        then FKO_CLIENT_TIMEOUT_NAT_ACCESS_MSG else c.message_type
      else if c.message_type ≠ FKO_LOCAL_NAT_ACCESS_MSG
          ∧ c.message_type ≠ FKO_CLIENT_TIMEOUT_LOCAL_NAT_ACCESS_MSG
        then FKO_NAT_ACCESS_MSG else c.message_type
    some ({ c with nat_access := some msg, message_type := t }.setFlag FKO_DATA_MODIFIED)

/-- `fko_set_spa_server_auth`, lib/fko_server_auth.c:35-85. -/
def fko_set_spa_server_auth (c : Ctx) (msg : Str) : Option Ctx :=
  if min msg.length MAX_SPA_SERVER_AUTH_SIZE = 0 then none
  else if min msg.length MAX_SPA_SERVER_AUTH_SIZE = MAX_SPA_SERVER_AUTH_SIZE then none
  else some ({ c with server_auth := some msg }.setFlag FKO_DATA_MODIFIED)

/-- `fko_set_username`, lib/fko_user.c:41-135, once the name has been found (the argument, or
SPOOF_USER, LOGNAME, cuserid, USER, "NO_USER"). -/
def fko_set_username (c : Ctx) (name : Str) : Option Ctx :=
  let u := if min name.length MAX_SPA_USERNAME_SIZE = MAX_SPA_USERNAME_SIZE
    then name.take (MAX_SPA_USERNAME_SIZE - 1) else name
  if validate_username u then some ({ c with username := some u }.setFlag FKO_DATA_MODIFIED)
  else none

/-- `fko_set_rand_value` with a caller-supplied value, lib/fko_rand_value.c:73-95. -/
def fko_set_rand_value (c : Ctx) (v : Str) : Option Ctx :=
  if min v.length (FKO_RAND_VAL_SIZE + 1) ≠ FKO_RAND_VAL_SIZE then none
  else some ({ c with rand_val := some v }.setFlag FKO_DATA_MODIFIED)

/-- The loop generating a random value, lib/fko_rand_value.c:147-153, from the successive
results of `rand()` (each `snprintf` keeps at most 15 characters, all of a 32-bit number):
append decimal numbers until 16 characters are there. -/
def randValue : List Nat → Str → Str
  | [], acc => acc
  | r :: rs, acc =>
    if acc.length < FKO_RAND_VAL_SIZE then
      randValue rs (acc ++ (decStr r).take (FKO_RAND_VAL_SIZE - acc.length))
    else acc

/-- `fko_set_timestamp`, lib/fko_timestamp.c:36-64, at time `now`. -/
def fko_set_timestamp (c : Ctx) (now offset : Int) : Option Ctx :=
  if now + offset < 0 then none
  else some ({ c with timestamp := now + offset }.setFlag FKO_DATA_MODIFIED)

/-- `fko_set_spa_digest_type`, lib/fko_digest.c:38-68. -/
def fko_set_spa_digest_type (c : Ctx) (t : Int) : Option Ctx :=
  if t < 1 ∨ t ≥ FKO_LAST_DIGEST_TYPE then none
  else some ({ c with digest_type := t }.setFlag FKO_DIGEST_TYPE_MODIFIED)

/-- `fko_set_spa_encryption_type`, lib/fko_encryption.c:498-522. -/
def fko_set_spa_encryption_type (c : Ctx) (t : Int) : Option Ctx :=
  if t < 0 ∨ t ≥ FKO_LAST_ENCRYPTION_TYPE then none
  else some ({ c with encryption_type := t }.setFlag FKO_ENCRYPT_TYPE_MODIFIED)

/-- `fko_set_spa_encryption_mode`, lib/fko_encryption.c:541-565. -/
def fko_set_spa_encryption_mode (c : Ctx) (t : Int) : Option Ctx :=
  if t < 0 ∨ t ≥ FKO_LAST_ENC_MODE then none
  else some ({ c with encryption_mode := t }.setFlag FKO_ENCRYPT_MODE_MODIFIED)

/-- `fko_set_spa_hmac_type`, lib/fko_hmac.c:190-216. -/
def fko_set_spa_hmac_type (c : Ctx) (t : Int) : Option Ctx :=
  if t < 0 ∨ t ≥ FKO_LAST_HMAC_MODE then none
  else some ({ c with hmac_type := t }.setFlag FKO_HMAC_MODE_MODIFIED)

/-! ## Hash functions

The digest algorithms are a parameter: `H t m` is the raw digest of type `t` (the numbering of
FKO_DIGEST_* and FKO_HMAC_* coincides, lib/fko.h:121-160). -/

abbrev Hash := Int → Str → Str

/-- Digest length in bytes (lib/md5.h:40, sha1.h:48, sha2.h:70-80, sha3.h:9-10). -/
def digestLen (t : Int) : Nat :=
  if t = FKO_DIGEST_MD5 then 16
  else if t = FKO_DIGEST_SHA1 then 20
  else if t = FKO_DIGEST_SHA256 ∨ t = FKO_DIGEST_SHA3_256 then 32
  else if t = FKO_DIGEST_SHA384 then 48
  else 64

/-- What is assumed of the digest algorithms: the output is `digestLen` bytes. -/
structure Hash.Lawful (H : Hash) : Prop where
  len : ∀ t m, (H t m).length = digestLen t
  bytes : ∀ t m, IsBytes (H t m)

/-- `md5_base64`, `sha1_base64`, ..., lib/digest.c:49-58 and following: the digest in base64
without '='. -/
def digest_base64 (H : Hash) (t : Int) (m : Str) : Str :=
  Base64.strip_b64_eq (Base64.b64_encode (H t m))

/-- `constant_runtime_cmp`, common/fko_util.c:88-106, on arrays of at least `len` bytes:
counts of equal and different positions. -/
def cmpCounts : (a b : Str) → (len : Nat) → (good bad : Int) → Int × Int
  | _, _, 0, good, bad => (good, bad)
  | a, b, len + 1, good, bad =>
    if a.headD 0 = b.headD 0 then cmpCounts a.tail b.tail len (good + 1) bad
    else cmpCounts a.tail b.tail len good (bad + 1)

/-- `constant_runtime_cmp`, common/fko_util.c:88-106. -/
def constant_runtime_cmp (a b : Str) (len : Nat) : Int :=
  let r := cmpCounts a b len 0 0
  if r.1 = len then 0 else 0 - r.2

example : (fko_set_spa_client_timeout { message_type := 1 } 10).map (·.message_type) = some 3 := by
  decide
example : randValue [1804289383, 846930886] [] = b!"1804289383846930" := by decide
example : constant_runtime_cmp b!"abc" b!"abd" 3 = -1 := by decide

end Fwknop
