import Verif.Model.KeyGen
import Verif.Spec.AccessAccept

/-!
# What key generation is asked for and what it writes
-/

namespace Fwknop.Spec

/-- The value of the last option of a kind. -/
def genGiven (f : GenArg → Option (List Nat)) (args : List GenArg) : Option (List Nat) := (args.filterMap f).getLast?

def genKeyLen : GenArg → Option (List Nat) | .key_len v => some v | _ => none
def genHmacLen : GenArg → Option (List Nat) | .hmac_key_len v => some v | _ => none
def genType : GenArg → Option (List Nat) | .hmac_digest v => some v | _ => none

/-- An option as the help text describes it: a length from 1 to 128, or the name of a digest. -/
def GoodGenArg : GenArg → Prop
  | .key_len v | .hmac_key_len v => NumberIn 1 128 v
  | .hmac_digest v => OneOf hmacNames v

/-- The lengths of HMAC keys if none is asked for: the block length of the SHA-2 digests, the digest
length of the older ones. -/
def defaultHmacLen : List (List Nat × Nat) :=
  [(b!"md5", 16), (b!"sha1", 20), (b!"sha256", 64), (b!"sha384", 128), (b!"sha512", 128)]

/-- The lengths that the options ask for: `n` for the encryption key, `m` for the HMAC key. -/
structure AsksFor (args : List GenArg) (n m : Nat) : Prop where
  key : match genGiven genKeyLen args with
    | some v => Decimal v n
    | none => n = 32
  hmac : match genGiven genHmacLen args with
    | some v => Decimal v m
    | none => match genGiven genType args with
      | some t => ∃ name, (name, m) ∈ defaultHmacLen ∧ t.map lower = name.map lower
      | none => m = 64

/-- The two lines for access.conf or .fwknoprc. -/
def twoLines (k h : List Nat) : List Nat :=
  b!"KEY_BASE64: " ++ b64 k ++ b!"\n" ++ (b!"HMAC_KEY_BASE64: " ++ b64 h ++ b!"\n")

/-- /dev/urandom gives bytes, as many as are read. -/
def GivesBytes (E : RandEnv) : Prop := ∀ i len d, E.urandom i len = some d → d.length = len ∧ IsBytes d

/-- The file says where packets may come from, and has the two lines. -/
def keyFile (src k h : List Nat) : List Nat := b!"SOURCE: " ++ src ++ b!"\n" ++ twoLines k h

end Fwknop.Spec
