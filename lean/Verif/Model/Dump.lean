import Verif.Model.Util
import Verif.Model.Fko

/-!
# The listing of a context (common/fko_util.c: dump_ctx_to_buffer)

What the client shows with --verbose and --test and the daemon writes to its log.  Not modelled: the lines about
GnuPG (for the mode `Asymmetric` of a build with GnuPG), a context that is not initialised.
-/

namespace Fwknop

/-- Writing `l` at position `i` of an array. -/
def putAt (buf : Str) (i : Nat) (l : Str) : Res Str :=
  if i + l.length ≤ buf.length then .ok (buf.take i ++ l ++ buf.drop (i + l.length)) else .ub

/-- `vsnprintf(buf + cp, size, ...)` of a text: at most `size - 1` of its characters, and a NUL. -/
def snprintfAt (buf : Str) (cp size : Nat) (text : Str) : Res Str := putAt buf cp (text.take (size - 1) ++ [0])

/-- `append_msg_to_buf`, common/fko_util.c:675-707, at `dump_buf+cp` with `dump_buf_len-cp`: the array and the number
of bytes it returns.  The difference is a `size_t`: it must not be negative. -/
def append_msg_to_buf (buf : Str) (cp : Nat) (text : Str) : Res (Str × Nat) := do
  Res.mem (cp > buf.length)
  let size := buf.length - cp
  if size > 0 then
    let b ← snprintfAt buf cp size text
    return (b, if text.length ≥ size then size else text.length)
  else return (buf, 0)

/-- The calls one after another, `cp += append_msg_to_buf(...)`. -/
def appendAll : List Str → Str → Nat → Res Str
  | [], buf, _ => .ok buf
  | t :: ts, buf, cp => do
    let r ← append_msg_to_buf buf cp t
    appendAll ts r.1 (cp + r.2)

/-- `x == NULL ? NULL_STRING : x`, common/fko_util.c:50. -/
def orNull (x : Option Str) : Str := x.getD b!"<NULL>"

/-- `%u` of an `int`. -/
def asUnsigned (z : Int) : Str := decStr (z % 4294967296).toNat

/-- `enc_type_inttostr`, common/fko_util.c:334-345. -/
def enc_type_inttostr (t : Int) : Str :=
  if t = 0 then b!"Unknown encryption type"
  else if t = FKO_ENCRYPTION_RIJNDAEL then b!"Rijndael"
  else if t = FKO_ENCRYPTION_GPG then b!"GPG"
  else b!"Unknown encryption type"

/-- The texts given to `append_msg_to_buf`, common/fko_util.c:1006-1038. -/
def dumpLines (c : Ctx) (digest_str hmac_str mode_str spa_data : Str) : List Str := [
  b!"SPA Field Values:\n=================\n",
  b!"   Random Value: " ++ orNull c.rand_val ++ [10],
  b!"       Username: " ++ orNull c.username ++ [10],
  b!"      Timestamp: " ++ asUnsigned c.timestamp ++ [10],
  b!"    FKO Version: " ++ orNull c.version ++ [10],
  b!"   Message Type: " ++ decStrInt c.message_type ++ b!" (" ++ msg_type_inttostr c.message_type ++ b!")" ++ [10],
  b!" Message String: " ++ orNull c.message ++ [10],
  b!"     Nat Access: " ++ orNull c.nat_access ++ [10],
  b!"    Server Auth: " ++ orNull c.server_auth ++ [10],
  b!" Client Timeout: " ++ asUnsigned c.client_timeout ++ [10],
  b!"    Digest Type: " ++ asUnsigned c.digest_type ++ b!" (" ++ digest_str ++ b!")" ++ [10],
  b!"      HMAC Type: " ++ asUnsigned c.hmac_type ++ b!" (" ++ (if c.hmac_type = 0 then b!"None" else hmac_str) ++ b!")" ++ [10],
  b!"Encryption Type: " ++ decStrInt c.encryption_type ++ b!" (" ++ enc_type_inttostr c.encryption_type ++ b!")" ++ [10],
  b!"Encryption Mode: " ++ decStrInt c.encryption_mode ++ b!" (" ++ mode_str ++ b!")" ++ [10],
  b!"   Encoded Data: " ++ orNull (c.encoded_msg.map fun m => m.takeWhile (· ≠ 0)) ++ [10],
  b!"SPA Data Digest: " ++ orNull c.digest ++ [10],
  b!"           HMAC: " ++ orNull c.msg_hmac ++ [10],
  b!" Final SPA Data: " ++ spa_data ++ [10]]

/-- `dump_ctx_to_buffer`, common/fko_util.c:901-1044, for an array of `n` bytes: what is in it afterwards. -/
def dump_ctx_to_buffer (c : Ctx) (n : Nat) : Res Str := do
  let buf := List.replicate n 0
  match fko_get_spa_data c with
  | none => .err
  | some spa_data =>
    let d := digest_inttostr c.digest_type 24
    Res.guard !d.2
    let m := enc_mode_inttostr c.encryption_mode 16
    Res.guard !m.2
    let h := digest_inttostr c.hmac_type 24
    Res.guard (c.msg_hmac_len ≠ 0 && !h.2)
    appendAll (dumpLines c d.1 (if c.msg_hmac_len ≠ 0 then h.1 else []) m.1 spa_data) buf 0

end Fwknop
