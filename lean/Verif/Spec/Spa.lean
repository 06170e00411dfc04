import Verif.Spec.Base64
import Verif.Spec.Message

/-!
# Independent description of an SPA request and of its wire text

A request is what the user of libfko puts in and takes out.  Its text is documented as
`rand:user:timestamp:version:type:message[:nat][:auth][:timeout]`, the free-text fields in
unpadded base64, numbers in decimal.
-/

namespace Fwknop.Spec

structure Request where
  rand : List Nat
  user : List Nat
  ts : Nat
  version : List Nat
  type : Nat
  msg : List Nat
  nat : Option (List Nat)
  auth : Option (List Nat)
  timeout : Nat
  deriving DecidableEq

/-- Message types that carry a NAT target: NAT, timeout+NAT, local NAT, timeout+local NAT. -/
def HasNat (t : Nat) : Prop := t = 2 ∨ t = 4 ∨ t = 5 ∨ t = 6

/-- Message types that carry a client timeout. -/
def HasTimeout (t : Nat) : Prop := t = 3 ∨ t = 4 ∨ t = 6

instance (t : Nat) : Decidable (HasNat t) := by unfold HasNat; infer_instance
instance (t : Nat) : Decidable (HasTimeout t) := by unfold HasTimeout; infer_instance

/-- A printable ASCII text without the separator ':'. -/
def IsPlainField (s : List Nat) : Prop := ∀ c ∈ s, 32 ≤ c ∧ c ≤ 126 ∧ c ≠ 58

/-- A text without NUL bytes. -/
def IsText (s : List Nat) : Prop := ∀ c ∈ s, 0 < c ∧ c < 256

/-- The requests that fit the receiver's limits. -/
structure Request.WellFormed (r : Request) : Prop where
  rand_len : r.rand.length = 16
  rand_chars : IsPlainField r.rand
  user_ne : r.user ≠ []
  user_len : r.user.length ≤ 48
  user_chars : ∀ c ∈ r.user, IsUserChar c
  ts_lt : r.ts < 2 ^ 31
  version_len : 1 ≤ r.version.length ∧ r.version.length ≤ 8
  version_chars : IsPlainField r.version
  type_le : r.type ≤ 6
  msg_text : IsText r.msg
  msg_len : r.msg.length ≤ 192
  msg_cmd : r.type = 0 → IsCommandMsg r.msg
  msg_access : r.type ≠ 0 → IsAccessMsg r.msg
  nat_some : HasNat r.type → ∃ n, r.nat = some n ∧ IsText n ∧ IsNatTarget n ∧ n.length ≤ 192
  nat_none : ¬ HasNat r.type → r.nat = none
  auth_ok : ∀ a, r.auth = some a → IsText a ∧ a ≠ [] ∧ a.length ≤ 63
  timeout_some : HasTimeout r.type → 1 ≤ r.timeout ∧ r.timeout ≤ 65536
  timeout_none : ¬ HasTimeout r.type → r.timeout = 0

/-- What a receiver may rely on once decoding has reported success. -/
structure Request.Accepted (r : Request) : Prop where
  rand_len : r.rand.length = 16
  rand_chars : IsPlainField r.rand
  user_ne : r.user ≠ []
  user_len : r.user.length ≤ 48
  user_chars : ∀ c ∈ r.user, IsUserChar c
  ts_lt : r.ts < 2 ^ 31
  version_len : 1 ≤ r.version.length ∧ r.version.length ≤ 8
  version_chars : IsPlainField r.version
  type_le : r.type ≤ 6
  msg_len : r.msg.length ≤ 192
  msg_cmd : r.type = 0 → IsCommandMsg r.msg
  msg_access : r.type ≠ 0 → IsAccessMsg r.msg
  nat_some : HasNat r.type → ∃ n, r.nat = some n ∧ IsNatTarget n ∧ n.length ≤ 192
  nat_none : ¬ HasNat r.type → r.nat = none
  auth_len : ∀ a, r.auth = some a → a.length ≤ 192
  timeout_le : r.timeout ≤ 65536
  timeout_none : ¬ HasTimeout r.type → r.timeout = 0

/-- Decimal digits of a number. -/
def decimal (n : Nat) : List Nat := (Nat.toDigits 10 n).map Char.toNat

/-- A colon and a base64 field, when present. -/
def optField : Option (List Nat) → List Nat
  | none => []
  | some f => 58 :: b64NoPad f

/-- The documented text of a request. -/
def Request.wire (r : Request) : List Nat :=
  r.rand ++ 58 :: (b64NoPad r.user ++ 58 :: (decimal r.ts ++ 58 :: (r.version ++
    58 :: (decimal r.type ++ 58 :: (b64NoPad r.msg ++ (optField r.nat ++ (optField r.auth ++
      if r.timeout = 0 then [] else 58 :: decimal r.timeout)))))))

end Fwknop.Spec
