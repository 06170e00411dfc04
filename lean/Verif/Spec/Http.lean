import Verif.Model.Incoming
import Verif.Spec.Access
import Verif.Spec.Base64

/-!
# Requests over HTTP
-/

namespace Fwknop.Spec

/-- The URL-safe base64 alphabet of RFC 4648 section 5. -/
def urlSafe (text : List Nat) : List Nat :=
  text.map fun c => if c = 43 then 45 else if c = 47 then 95 else c

/-- A GET request for the resource `path` of the server, followed by anything. -/
def getRequest (path rest : List Nat) : List Nat := b!"GET /" ++ path ++ b!" " ++ rest

/-- The packet's bytes start with `text`, which a NUL follows. -/
def Carrying (p : Pkt) (text : List Nat) : Prop :=
  p.len = text.length ∧ 0 ∉ text ∧ ∃ junk, p.data = text ++ 0 :: junk

/-- The request has the header `X-Forwarded-For: ` (in upper or lower case) and it is the first
such; `before` is what precedes it and `after` what follows the colon and the blank. -/
def FirstForwarded (text before after : List Nat) : Prop :=
  (∃ name, name.map lower = b!"x-forwarded-for: " ∧ text = before ++ name ++ after) ∧
  ∀ i < before.length, ¬ b!"x-forwarded-for: " <+: (text.drop i).map lower

end Fwknop.Spec
