import Verif.Model.Basic
import Verif.Spec.Base64

/-!
# Independent specification of HMAC (RFC 2104) and of an authentic packet
-/

namespace Fwknop.Spec

/-- RFC 2104 section 2: `H` is the hash, `B` its block length. -/
def rfc2104 (H : List Nat → List Nat) (B : Nat) (key text : List Nat) : List Nat :=
  let k0 := if key.length > B then H key else key
  let kpad := k0 ++ List.replicate (B - k0.length) 0
  H (kpad.map (· ^^^ 0x5c) ++ H (kpad.map (· ^^^ 0x36) ++ text))

/-- Block lengths of MD5, SHA1, SHA256, SHA384, SHA512, SHA3-256, SHA3-512 (RFC 1321, FIPS 180-4,
FIPS 202), numbered 1 to 7. -/
def hashBlock (t : Nat) : Nat :=
  match t with
  | 4 => 128
  | 5 => 128
  | 6 => 136
  | 7 => 72
  | _ => 64

/-- The constant text a sender leaves out in front of the base64 ciphertext. -/
def omitted (gpg : Bool) : List Nat := if gpg then b!"hQ" else b!"U2FsdGVkX1"

/-- The ciphertext text with the constant part put back, unless it is there. -/
def restored (gpg : Bool) (body : List Nat) : List Nat :=
  if omitted gpg <+: body then body else omitted gpg ++ body

/-- The packet ends in the HMAC of the restored ciphertext text, in base64 without padding. -/
def Authentic (H : List Nat → List Nat) (B : Nat) (key : List Nat) (gpg : Bool)
    (packet : List Nat) : Prop :=
  ∃ body tag, packet = body ++ tag ∧ tag = b64NoPad (rfc2104 H B key (restored gpg body))

end Fwknop.Spec
