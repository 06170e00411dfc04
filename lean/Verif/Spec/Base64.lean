import Verif.Model.Basic

/-!
# Independent specification of base64 (RFC 4648 section 4)
-/

namespace Fwknop.Spec

/-- The RFC 4648 character for a 6-bit value. -/
def b64Char (k : Nat) : Nat :=
  if k < 26 then 65 + k            -- 'A'..'Z'
  else if k < 52 then 97 + (k - 26) -- 'a'..'z'
  else if k < 62 then 48 + (k - 52) -- '0'..'9'
  else if k = 62 then 43 else 47    -- '+', '/'

/-- RFC 4648 base64 with padding. -/
def b64 : List Nat → List Nat
  | a :: b :: c :: r =>
    b64Char (a / 4) :: b64Char (a % 4 * 16 + b / 16) ::
      b64Char (b % 16 * 4 + c / 64) :: b64Char (c % 64) :: b64 r
  | [a, b] => [b64Char (a / 4), b64Char (a % 4 * 16 + b / 16), b64Char (b % 16 * 4), 61]
  | [a] => [b64Char (a / 4), b64Char (a % 4 * 16), 61, 61]
  | [] => []

/-- The same without padding. -/
def b64NoPad : List Nat → List Nat
  | a :: b :: c :: r =>
    b64Char (a / 4) :: b64Char (a % 4 * 16 + b / 16) ::
      b64Char (b % 16 * 4 + c / 64) :: b64Char (c % 64) :: b64NoPad r
  | [a, b] => [b64Char (a / 4), b64Char (a % 4 * 16 + b / 16), b64Char (b % 16 * 4)]
  | [a] => [b64Char (a / 4), b64Char (a % 4 * 16)]
  | [] => []

/-- One of the 64 base64 characters (no '='). -/
def IsB64Char (c : Nat) : Prop :=
  (65 ≤ c ∧ c ≤ 90) ∨ (97 ≤ c ∧ c ≤ 122) ∨ (48 ≤ c ∧ c ≤ 57) ∨ c = 43 ∨ c = 47

/-- The bytes that a sequence of 6-bit values denotes: three for each group of four; of an
incomplete group the complete bytes. -/
def b64Bytes : List Nat → List Nat
  | a :: b :: c :: d :: r => (a * 4 + b / 16) :: (b % 16 * 16 + c / 4) :: (c % 4 * 64 + d) :: b64Bytes r
  | [a, b, c] => [a * 4 + b / 16, b % 16 * 16 + c / 4]
  | [a, b] => [a * 4 + b / 16]
  | [_] => []
  | [] => []

end Fwknop.Spec
