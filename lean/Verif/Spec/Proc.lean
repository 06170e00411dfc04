import Verif.Spec.Message

/-!
# What a program prints, and what a reader may make of it
-/

namespace Fwknop.Spec

/-- What is seen of what a program writes, of which `true` marks what goes to standard error. -/
def printed (stderr : Bool) : List (Bool × List Nat) → List Nat
  | [] => []
  | (isErr, s) :: rest => (if isErr ∧ stderr = false then [] else s) ++ printed stderr rest

/-- The beginning of a text that a reader with room for `n` characters keeps: whole lines, as many as fit; if
there is no end of a line in the first `n` characters, these. -/
structure Kept (out : List Nat) (n : Nat) (buf : List Nat) : Prop where
  front : buf <+: out
  fits : buf.length ≤ n
  lines : 10 ∈ out.take n → buf.getLast? = some 10 ∧
    ∀ b, b <+: out → b.length ≤ n → b.getLast? = some 10 → b.length ≤ buf.length
  line : 10 ∉ out.take n → buf = out.take n

/-- The lines of a text, without their ends, of at most 254 characters. -/
def ShortLines (ls : List (List Nat)) : Prop := ∀ l ∈ ls, 10 ∉ l ∧ 0 ∉ l ∧ l.length ≤ 254

/-- The text of these lines. -/
def linesText (ls : List (List Nat)) : List Nat := (ls.map (· ++ [10])).flatten

/-- A line with the text `t` in it that is neither empty nor a comment. -/
def LineWith (t l : List Nat) : Prop :=
  t <:+: l ∧ ∃ c, l.head? = some c ∧ c ≠ 35 ∧ c ≠ 13 ∧ c ≠ 59

/-- The number of the first line with the text `t` in it, counted from 1; 0 if there is none. -/
def FirstLine (t : List Nat) (ls : List (List Nat)) (n : Nat) : Prop :=
  (n = 0 ∧ ∀ l ∈ ls, ¬ LineWith t l) ∨
  ∃ before l after, ls = before ++ l :: after ∧ n = before.length + 1 ∧ LineWith t l ∧ ∀ x ∈ before, ¬ LineWith t x

end Fwknop.Spec
