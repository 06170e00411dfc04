import Verif.Model.Ctx

/-!
# What the listing of a context says

A name, a colon and a value on each line.
-/

namespace Fwknop.Spec

/-- The names on the lines, right-aligned to 15 characters. -/
def dumpNames : List Str := [b!"   Random Value", b!"       Username", b!"      Timestamp", b!"    FKO Version",
  b!"   Message Type", b!" Message String", b!"     Nat Access", b!"    Server Auth", b!" Client Timeout", b!"    Digest Type",
  b!"      HMAC Type", b!"Encryption Type", b!"Encryption Mode", b!"   Encoded Data", b!"SPA Data Digest", b!"           HMAC",
  b!" Final SPA Data"]

/-- The dumpText with these values. -/
def dumpText (values : List Str) : Str :=
  b!"SPA Field Values:\n=================\n" ++ ((dumpNames.zip values).map fun x => x.1 ++ b!": " ++ x.2 ++ [10]).flatten

/-- The text of a member, or a mark that there is none. -/
def shown : Option Str → Str
  | none => b!"<NULL>"
  | some s => s

/-- The number before the parenthesis of values like `1 (Access msg)`. -/
def IsNumbered (value : Str) (z : Int) : Prop := ∃ name, value = decStrInt z ++ b!" (" ++ name ++ b!")"

/-- The values of a context. -/
structure ValuesOf (c : Ctx) (spa_data : Str) (v : List Str) : Prop where
  length : v.length = 17
  rand : v[0]? = some (shown c.rand_val)
  user : v[1]? = some (shown c.username)
  time : v[2]? = some (decStrInt (c.timestamp % 2 ^ 32))
  version : v[3]? = some (shown c.version)
  type : ∃ x, v[4]? = some x ∧ IsNumbered x c.message_type
  message : v[5]? = some (shown c.message)
  nat : v[6]? = some (shown c.nat_access)
  auth : v[7]? = some (shown c.server_auth)
  timeout : v[8]? = some (decStrInt (c.client_timeout % 2 ^ 32))
  digest_type : ∃ x, v[9]? = some x ∧ IsNumbered x c.digest_type
  hmac_type : ∃ x, v[10]? = some x ∧ IsNumbered x (c.hmac_type % 2 ^ 32)
  enc_type : ∃ x, v[11]? = some x ∧ IsNumbered x c.encryption_type
  enc_mode : ∃ x, v[12]? = some x ∧ IsNumbered x c.encryption_mode
  encoded : v[13]? = some (shown (c.encoded_msg.map fun m => m.takeWhile (· ≠ 0)))
  digest : v[14]? = some (shown c.digest)
  hmac : v[15]? = some (shown c.msg_hmac)
  data : v[16]? = some spa_data

end Fwknop.Spec
