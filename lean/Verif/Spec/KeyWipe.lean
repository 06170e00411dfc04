import Verif.Model.KeyWipe

/-! # What is left of a key -/

namespace Fwknop.Spec

/-- Nothing is left in the array. -/
def Erased (buf : Str) : Prop := ∀ c ∈ buf, c = 0

/-- A line of a key file for this server: blanks, the name, a colon. -/
def LineFor (server line : Str) : Prop := ∃ sp rest, (∀ c ∈ sp, c = 32 ∨ c = 9 ∨ c = 61) ∧ line = sp ++ server ++ b!":" ++ rest

/-- A file with at most one line for the server. -/
def OneLineFor (server : Str) (ls : List Str) : Prop := ls.Pairwise fun l m => ¬ (LineFor server l ∧ LineFor server m)

/-- What decoding gives fits the program's limits on what it erases. -/
def Sane : KeyFrom → Prop
  | .file server (some ls) => OneLineFor server ls
  | .base64 (some k) => k.length ≤ MAX_KEY_LEN
  | _ => True

end Fwknop.Spec
