import Verif.Spec.Spa
import Verif.Model.Ctx

/-!
# Reading a request off a library context

`Carries c r` is what the getter functions of the library (fko_get_rand_value, fko_get_username,
fko_get_timestamp, fko_get_version, fko_get_spa_message_type, fko_get_spa_message,
fko_get_spa_nat_access, fko_get_spa_server_auth, fko_get_spa_client_timeout) report.
-/

namespace Fwknop
open Fwknop.Spec

/-- The context holds exactly the request. -/
def Carries (c : Ctx) (r : Request) : Prop :=
  c.rand_val = some r.rand ∧ c.username = some r.user ∧ c.timestamp = r.ts ∧
  c.version = some r.version ∧ c.message_type = r.type ∧ c.message = some r.msg ∧
  c.nat_access = r.nat ∧ c.server_auth = r.auth ∧ c.client_timeout = r.timeout

/-- Everything a caller can set on a context, as the getter functions report it: the nine values of
the request and the digest type, encryption type and mode, and HMAC type. -/
def Ctx.values (c : Ctx) : Option Str × Option Str × Int × Option Str × Int × Option Str × Option Str ×
    Option Str × Nat × Int × Int × Int × Int :=
  (c.rand_val, c.username, c.timestamp, c.version, c.message_type, c.message, c.nat_access,
    c.server_auth, c.client_timeout, c.digest_type, c.encryption_type, c.encryption_mode, c.hmac_type)

end Fwknop
