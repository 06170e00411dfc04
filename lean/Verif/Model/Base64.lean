import Verif.Model.Basic

/-!
# Base64 (lib/base64.c)
-/

namespace Fwknop.Base64

/-- `map2`, lib/base64.c:39-51. -/
def map2 : List Nat := [
  0x3e, 0xff, 0xff, 0xff, 0x3f, 0x34, 0x35, 0x36,
  0x37, 0x38, 0x39, 0x3a, 0x3b, 0x3c, 0x3d, 0xff,
  0xff, 0xff, 0xff, 0xff, 0xff, 0xff, 0x00, 0x01,
  0x02, 0x03, 0x04, 0x05, 0x06, 0x07, 0x08, 0x09,
  0x0a, 0x0b, 0x0c, 0x0d, 0x0e, 0x0f, 0x10, 0x11,
  0x12, 0x13, 0x14, 0x15, 0x16, 0x17, 0x18, 0x19,
  0xff, 0xff, 0xff, 0xff, 0xff, 0xff, 0x1a, 0x1b,
  0x1c, 0x1d, 0x1e, 0x1f, 0x20, 0x21, 0x22, 0x23,
  0x24, 0x25, 0x26, 0x27, 0x28, 0x29, 0x2a, 0x2b,
  0x2c, 0x2d, 0x2e, 0x2f, 0x30, 0x31, 0x32, 0x33]

/-- Value of one input character, lib/base64.c:77-80: `index = in[i]-43` as an unsigned
int, rejected when it is past the table (which includes characters below '+', whose index
wraps to a huge value, and characters above 127, which are negative as `char`) or maps to
0xff. -/
def charVal (c : Nat) : Option Nat :=
  if c < 43 then none
  else match map2[c - 43]? with
    | none => none
    | some v => if v = 0xff then none else some v

/-- Decoding loop, lib/base64.c:75-91.  `i` is the loop index and `v` the accumulator.
The C accumulator is an `int` that overflows on inputs longer than five characters (formally
undefined for a signed type); it is modelled as wrapping modulo 2^32, and only its low 12 bits
ever reach the output.  `none` is the return value -1. -/
def decodeLoop : Str → (i v : Nat) → Option Str
  | [], _, _ => some []
  | c :: cs, i, v =>
    if c = 0 ∨ c = 61 then some []
    else match charVal c with
      | none => none
      | some x =>
        let v' := ((v <<< 6) + x) % 2 ^ 32
        match decodeLoop cs (i + 1) v' with
        | none => none
        | some out =>
          if i &&& 3 = 0 then some out
          else some ((v' >>> (6 - 2 * (i &&& 3))) % 256 :: out)

/-- `b64_decode`, lib/base64.c:59-92 (without AFL_FUZZING): the decoded bytes, or `none` for
the return value -1. -/
def b64_decode (s : Str) : Option Str := decodeLoop s 0 0

/-- The alphabet, lib/base64.c:103-104. -/
def alphabet : Str := b!"ABCDEFGHIJKLMNOPQRSTUVWXYZabcdefghijklmnopqrstuvwxyz0123456789+/"

/-- `b64[(i_bits << 6 >> i_shift) & 0x3f]` on a 32-bit unsigned `i_bits`, lib/base64.c:118. -/
def emitChar (bits shift : Nat) : Nat :=
  alphabet.getD ((((bits <<< 6) % 2 ^ 32) >>> shift) &&& 0x3f) 0

/-- The inner do/while, lib/base64.c:117-120, returning the characters written and the final
`i_shift`.  `last` is `bytes_remaining == 0`; the first argument is recursion fuel, the
caller passes `i_shift` itself, which suffices because every round lowers it by 6.
`i_shift - 6` can become negative only on the last byte, where it is not used again. -/
def encodeDo (bits : Nat) (last : Bool) : (fuel shift : Nat) → Str × Nat
  | 0, shift => ([], shift)
  | fuel + 1, shift =>
    let c := emitChar bits shift
    if shift > 12 ∨ (last = true ∧ shift > 6) then
      let r := encodeDo bits last fuel (shift - 6)
      (c :: r.1, r.2)
    else ([c], shift - 6)

/-- The outer loop, lib/base64.c:112-121. -/
def encodeLoop : Str → (bits shift : Nat) → Str
  | [], _, _ => []
  | x :: xs, bits, shift =>
    let bits' := ((bits <<< 8) + x) % 2 ^ 32
    let r := encodeDo bits' xs.isEmpty (shift + 8) (shift + 8)
    r.1 ++ encodeLoop xs bits' r.2

/-- The '=' padding, lib/base64.c:122-123. -/
def padEq (s : Str) : Str := s ++ List.replicate ((4 - (s.length &&& 3)) &&& 3) 61

/-- `b64_encode`, lib/base64.c:100-129. -/
def b64_encode (s : Str) : Str := padEq (encodeLoop s 0 0)

/-- `strip_b64_eq`, lib/base64.c:134-141: cut at the first '='. -/
def strip_b64_eq (s : Str) : Str := s.takeWhile (· ≠ 61)

/-- `is_base64`, common/fko_util.c:709-729: every character among the first `len` is
alphanumeric, '/', '+' or '='.  (`isalnum` in the C locale.) -/
def isB64Char (c : Nat) : Bool :=
  (48 ≤ c && c ≤ 57) || (65 ≤ c && c ≤ 90) || (97 ≤ c && c ≤ 122) || c = 47 || c = 43 || c = 61

def is_base64 (s : Str) : Bool := s.all isB64Char

example : b64_encode b!"fooba" = b!"Zm9vYmE=" := by decide
example : b64_decode b!"Zm9vYmE=" = some b!"fooba" := by decide

end Fwknop.Base64
