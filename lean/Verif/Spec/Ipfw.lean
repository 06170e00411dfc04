import Verif.Spec.Pf

/-!
# Independent description of ipfw

What `ipfw` does with the command lines the daemon uses, for any way of printing a rule.
-/

namespace Fwknop.Spec

/-- A rule: its number, the set it belongs to, and what it is printed as after the number.  Several
rules may have the same number. -/
structure IpfwRule where
  num : Nat
  set : Nat
  body : List Nat
  deriving DecidableEq, Repr

/-- The rules, in the order in which they are looked at, the sets that are disabled, and the dynamic rules:
the number of the rule each belongs to and what is printed after it. -/
structure Ipfw where
  rules : List IpfwRule
  disabled : List Nat := []
  dyn : List (Nat × List Nat) := []
  deriving DecidableEq, Repr

/-- A new rule goes behind the ones with the same or a smaller number. -/
def insertRule (r : IpfwRule) : List IpfwRule → List IpfwRule
  | [] => [r]
  | x :: xs => if x.num ≤ r.num then x :: insertRule r xs else r :: x :: xs

/-- A number with leading zeros to five digits. -/
def pad5 (n : Nat) : List Nat := List.replicate (5 - (decimal n).length) 48 ++ decimal n

/-- The rules of a set, one per line. -/
def ipfwLines (rs : List IpfwRule) : List Nat := unlines (rs.map fun r => pad5 r.num ++ 32 :: r.body)

/-- The same with the name of the set, for a set that is disabled or not. -/
def ipfwSetLines (off : Bool) (rs : List IpfwRule) : List Nat :=
  unlines (rs.map fun r => (if off then b!"# DISABLED " else []) ++ pad5 r.num ++ b!" set " ++ decimal r.set ++ 32 :: r.body)

/-- The dynamic rules of a set: a title and a line for each; nothing if there are none. -/
def ipfwDynLines (ds : List (Nat × List Nat)) : List Nat :=
  if ds = [] then []
  else unlines ((b!"## Dynamic rules (" ++ decimal ds.length ++ b!"):") :: ds.map fun d => pad5 d.1 ++ 32 :: d.2)

/-- The rules of a set. -/
def Ipfw.of (K : Ipfw) (s : Nat) : List IpfwRule := K.rules.filter (·.set = s)

/-- The dynamic rules of the rules of a set. -/
def Ipfw.dynOf (K : Ipfw) (s : Nat) : List (Nat × List Nat) := K.dyn.filter fun d => (K.of s).any (·.num = d.1)

/-- `add`: the words after it. -/
def ipfwAdd (print : List Word → List Nat) (K : Ipfw) : List Word → List Nat × Ipfw
  | n :: w :: s :: body =>
    if w = b!"set" then
      (pad5 (number 10 n) ++ 32 :: print body ++ [10],
        { K with rules := insertRule ⟨number 10 n, number 10 s, print body⟩ K.rules })
    else (b!"ipfw: bad command" ++ [10], K)
  | _ => (b!"ipfw: bad command" ++ [10], K)

/-- The other commands. -/
def ipfwDo (K : Ipfw) : List Word → List Nat × Ipfw
  | [a, b, c] =>
    if a = b!"set" ∧ c = b!"list" then (ipfwLines (K.of (number 10 b)), K)
    else if a = b!"set" ∧ b = b!"disable" then ([], { K with disabled := number 10 c :: K.disabled })
    else if a = b!"delete" ∧ b = b!"set" then
      ([], { K with rules := K.rules.filter fun r => r.set ≠ number 10 c })
    else (b!"ipfw: bad command" ++ [10], K)
  | [a, b, c, d] =>
    if a = b!"-S" ∧ b = b!"set" ∧ d = b!"list" then
      (ipfwSetLines (K.disabled.contains (number 10 c)) (K.of (number 10 c)), K)
    else if a = b!"-d" ∧ b = b!"set" ∧ d = b!"list" then
      (ipfwLines (K.of (number 10 c)) ++ ipfwDynLines (K.dynOf (number 10 c)), K)
    else if a = b!"set" ∧ c = b!"delete" then
      ([], { K with rules := K.rules.filter fun r => ¬(r.set = number 10 b ∧ r.num = number 10 d) })
    else (b!"ipfw: bad command" ++ [10], K)
  | [a, b, c, d, e, f] =>
    if a = b!"set" ∧ b = b!"move" ∧ c = b!"rule" ∧ e = b!"to" then
      ([], { K with rules := K.rules.map fun r => if r.num = number 10 d then { r with set := number 10 f } else r })
    else (b!"ipfw: bad command" ++ [10], K)
  | _ => (b!"ipfw: bad command" ++ [10], K)

/-- What a command line does, and what it prints.  `print` says how the words of a rule are printed. -/
def ipfw (print : List Word → List Nat) (argv : List Word) (K : Ipfw) : List Nat × Ipfw :=
  if argv.tail.head? = some b!"add" then ipfwAdd print K argv.tail.tail else ipfwDo K argv.tail

/-- ipfw with the fates of the coming calls: what is printed, did the program exit normally, the rules and
the remaining fates.  Calls without a fate work. -/
def ipfwUnder (print : List Word → List Nat) (argv : List Word) (K : Ipfw) :
    List Fate → List Nat × Bool × Ipfw × List Fate
  | [] => ((ipfw print argv K).1, true, (ipfw print argv K).2, [])
  | .works :: fs => ((ipfw print argv K).1, true, (ipfw print argv K).2, fs)
  | .refused :: fs => (b!"ipfw: setsockopt: Cannot allocate memory" ++ [10], true, K, fs)
  | .killed :: fs => ([], false, K, fs)

/-- The words of the rule that lets packets of a protocol from an address in to a port until a time. -/
def ipfwAccess (src dst : Word) (e proto port : Nat) : List Word :=
  [b!"pass", decimal proto, b!"from", src, b!"to", dst, b!"dst-port", decimal port, b!"setup", b!"keep-state",
    b!"//", b!"_exp_" ++ decimal e]

/-- A rule as printed that says when it expires: at the end, and there is no underscore before that.  The
time has ten digits: it is between 2001 and 2286. -/
def ExpiresAt (body : List Nat) (e : Nat) : Prop :=
  ∃ pre, 95 ∉ pre ∧ body = pre ++ b!"_exp_" ++ decimal e ∧ 10 ^ 9 ≤ e ∧ e < 10 ^ 10

/-- What is asked of the text of a rule: it is one line, not too long, and has no `#`. -/
def OneLine (b : List Nat) : Prop := 10 ∉ b ∧ 35 ∉ b ∧ b.length ≤ 4000

/-- An address in a rule: a word of at most fifteen characters without `#` and underscores. -/
def IpfwAddr (w : Word) : Prop := PlainWord w ∧ w.length ≤ 15 ∧ 35 ∉ w ∧ 95 ∉ w

/-- What is asked of the way ipfw prints rules: an access rule ends in its comment. -/
structure PrintsLines (print : List Word → List Nat) : Prop where
  access : ∀ src dst e proto port, IpfwAddr src → IpfwAddr dst → e < 2 ^ 32 → proto < 1000 → port ≤ 65535 →
    OneLine (print (ipfwAccess src dst e proto port)) ∧
    (10 ^ 9 ≤ e → ExpiresAt (print (ipfwAccess src dst e proto port)) e)
  check : OneLine (print [b!"check-state"]) ∧ 95 ∉ print [b!"check-state"]

end Fwknop.Spec
