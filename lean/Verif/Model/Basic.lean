/-!
# Bytes, C strings and the C library functions the code relies on

A byte is a natural number (the value of the `unsigned char`); a C string is the list of the
bytes before the terminating NUL.
-/

namespace Fwknop


/-- A byte buffer, or a C string without its terminating NUL. -/
abbrev Str := List Nat

/-- `b"text"` is the list of character codes of a string literal. -/
syntax:max (name := bytesLit) "b!" str : term

macro_rules
  | `(b! $s:str) => do
    let elems := s.getString.toList.map fun c => Lean.Syntax.mkNumLit (toString c.toNat)
    let arr : Lean.Syntax.TSepArray `term "," := .ofElems (elems.toArray.map fun e => ⟨e⟩)
    `(([$arr,*] : List Nat))

/-- Every element is a byte value. -/
def IsBytes (s : Str) : Prop := ∀ c ∈ s, c < 256

instance (s : Str) : Decidable (IsBytes s) := inferInstanceAs (Decidable (∀ c ∈ s, c < 256))

/-- Every element is a non-NUL byte value: the list can be the content of a C string. -/
def IsCStr (s : Str) : Prop := ∀ c ∈ s, 0 < c ∧ c < 256

instance (s : Str) : Decidable (IsCStr s) :=
  inferInstanceAs (Decidable (∀ c ∈ s, 0 < c ∧ c < 256))

example : b!"tcp/22" = [116, 99, 112, 47, 50, 50] := rfl

end Fwknop
