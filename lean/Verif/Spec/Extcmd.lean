import Verif.Spec.Iptables

/-!
# Independent description of command lines
-/

namespace Fwknop.Spec

/-- The words of a text are what is between its blanks. -/
inductive Split : List Nat → List Word → Prop where
  | nil : Split [] []
  | blank (c : Nat) {s : List Nat} {ws : List Word} : IsBlank c → Split s ws → Split (c :: s) ws
  | word (w : Word) {s : List Nat} {ws : List Word} : PlainWord w → (s = [] ∨ ∃ c s', s = c :: s' ∧ IsBlank c) →
      Split s ws → Split (w ++ s) (w :: ws)

/-- What sudo takes from its arguments: the user and the group to change to, and the command. -/
structure SudoCall where
  user : Option Word
  group : Option Word
  command : List Word
  deriving DecidableEq

/-- sudo reads options until a word that does not start with a hyphen; of several `-u` (`-g`) the last
one counts.  (Other options are not described here: they count as the command.) -/
def sudoReads (u g : Option Word) : List Word → SudoCall
  | w :: x :: ws =>
    if w = b!"-u" then sudoReads (some x) g ws
    else if w = b!"-g" then sudoReads u (some x) ws
    else ⟨u, g, w :: x :: ws⟩
  | ws => ⟨u, g, ws⟩

end Fwknop.Spec
