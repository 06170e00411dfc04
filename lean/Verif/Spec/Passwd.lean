import Verif.Model.CLib

/-!
# What somebody who types a key means

A line editor: the backspace key takes away the last character, Ctrl-U takes away all, other keys add a
character.
-/

namespace Fwknop.Spec

/-- The line after one more key. -/
def editKey (line : List Nat) (k : Nat) : List Nat :=
  if k = 8 then line.dropLast else if k = 21 then [] else line ++ [k]

/-- The line after some keys. -/
def edited (keys : List Nat) : List Nat := keys.foldl editKey []

/-- Keys of a line: neither the one that ends it nor Ctrl-C nor NUL. -/
def LineKeys (keys : List Nat) : Prop := ∀ k ∈ keys, k ≠ 10 ∧ k ≠ 3 ∧ k ≠ 0

/-- At no time does the line have more than `n` characters. -/
def NeverLonger (n : Nat) (keys : List Nat) : Prop := ∀ m, (edited (keys.take m)).length ≤ n

/-- What follows the keys of a line: the end of the input, or the key that ends a line. -/
def LineEnd (rest : List Nat) : Prop := rest = [] ∨ ∃ r, rest = 10 :: r

end Fwknop.Spec
