import Verif.Model.Basic

/-!
# Independent grammar of the messages a user can write

Only elementary list notions are used; nothing here refers to the model of the code.
-/

namespace Fwknop.Spec

/-- A decimal digit character. -/
def IsDigitChar (c : Nat) : Prop := 48 ≤ c ∧ c ≤ 57

/-- The number written by a list of digit characters in base `b`. -/
def number (b : Nat) : List Nat → Nat
  | [] => 0
  | d :: ds => (d - 48) * b ^ ds.length + number b ds

/-- `tcp/<port>` or `udp/<port>` with one to five digits denoting 1..65535. -/
def IsProtoPort (s : List Nat) : Prop :=
  ∃ proto digits, (proto = b!"tcp" ∨ proto = b!"udp") ∧ s = proto ++ 47 :: digits ∧
    1 ≤ digits.length ∧ digits.length ≤ 5 ∧ (∀ c ∈ digits, IsDigitChar c) ∧
    1 ≤ number 10 digits ∧ number 10 digits ≤ 65535

/-- One part of a dotted quad as the C library reads it: a decimal number up to 255, or, when
it has a leading zero, an octal number up to 255. -/
def IsOctet (p : List Nat) : Prop :=
  p ≠ [] ∧
  ((p.head? ≠ some 48 ∧ (∀ c ∈ p, IsDigitChar c) ∧ number 10 p ≤ 255) ∨
   (p.head? = some 48 ∧ (∀ c ∈ p, 48 ≤ c ∧ c ≤ 55) ∧ number 8 p ≤ 255))

/-- The value of such a part. -/
def octetVal (p : List Nat) : Nat := if p.head? = some 48 then number 8 p else number 10 p

/-- Four octets separated by dots, at most 15 characters. -/
def IsIPv4 (s : List Nat) : Prop :=
  ∃ a b c d, IsOctet a ∧ IsOctet b ∧ IsOctet c ∧ IsOctet d ∧
    s = a ++ 46 :: (b ++ 46 :: (c ++ 46 :: d)) ∧ s.length ≤ 15

/-- `<IPv4>,<proto/port>(,<proto/port>)*`, shorter than 256 characters. -/
def IsAccessMsg (s : List Nat) : Prop :=
  ∃ ip spec specs, IsIPv4 ip ∧ IsProtoPort spec ∧ (∀ x ∈ specs, IsProtoPort x) ∧
    s = ip ++ ((spec :: specs).map (44 :: ·)).flatten ∧ s.length < 256

/-- `<IPv4>,<anything non-empty>`, shorter than 1400 characters. -/
def IsCommandMsg (s : List Nat) : Prop :=
  ∃ ip cmd, IsIPv4 ip ∧ cmd ≠ [] ∧ s = ip ++ 44 :: cmd ∧ s.length < 1400

/-- `<host>,<port>` with a host of at most 70 characters none of which is a comma, blank,
slash, question mark, quote or backslash, and a port in 1..65535. -/
def IsNatTarget (s : List Nat) : Prop :=
  ∃ host digits, s = host ++ 44 :: digits ∧ host.length ≤ 70 ∧
    (∀ c ∈ host, c ∉ b!", /?\"'\\") ∧
    1 ≤ digits.length ∧ digits.length ≤ 5 ∧ (∀ c ∈ digits, IsDigitChar c) ∧
    1 ≤ number 10 digits ∧ number 10 digits ≤ 65535

/-- A printable ASCII character that is not one of `" / \ [ ] : ; | = , + * ? < >`. -/
def IsUserChar (c : Nat) : Prop := 32 ≤ c ∧ c ≤ 126 ∧ c ∉ b!"\"/\\[]:;|=,+*?<>"

end Fwknop.Spec
