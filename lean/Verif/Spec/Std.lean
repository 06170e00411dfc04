import Verif.Spec.Digest
import Verif.Spec.Sha3
import Verif.Spec.Hmac

/-!
# The standard digest functions by number
-/

namespace Fwknop.Spec

/-- MD5, SHA1, SHA256, SHA384, SHA512, SHA3-256, SHA3-512, numbered 1 to 7 in the API. -/
def digest (t : Nat) : List Nat → List Nat :=
  match t with
  | 1 => md5
  | 2 => sha1
  | 3 => sha256
  | 4 => sha384
  | 5 => sha512
  | 6 => sha3_256
  | _ => sha3_512

/-- Their lengths in bytes. -/
def digestBytes (t : Nat) : Nat :=
  match t with
  | 1 => 16
  | 2 => 20
  | 3 => 32
  | 4 => 48
  | 5 => 64
  | 6 => 32
  | _ => 64

end Fwknop.Spec
