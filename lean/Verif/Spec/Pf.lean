import Verif.Spec.Iptables

/-!
# Independent description of pfctl

What `pfctl` does with the command lines the daemon uses, for any way of reading and printing a rule.
-/

namespace Fwknop.Spec

/-- The rules loaded in each anchor, in order, each as it is printed. -/
abbrev Anchors := Word → List (List Nat)

/-- Replace the rules of an anchor. -/
def Anchors.put (K : Anchors) (a : Word) (rs : List (List Nat)) : Anchors :=
  fun b => if b = a then rs else K b

/-- Lines, each with a line feed after it. -/
def unlines (rs : List (List Nat)) : List Nat := rs.flatMap fun r => r ++ [10]

/-- The lines of a text, `cur` being the beginning of the first. -/
def linesFrom : (cur text : List Nat) → List (List Nat)
  | [], [] => []
  | c :: cur, [] => [c :: cur]
  | cur, c :: cs => if c = 10 then cur :: linesFrom [] cs else linesFrom (cur ++ [c]) cs

/-- How the lines of a text are read: `none` if one of them is not understood. -/
def readAll (read : List Nat → Option (List Nat)) : List (List Nat) → Option (List (List Nat))
  | [] => some []
  | t :: ts =>
    match read t, readAll read ts with
    | some l, some ls => some (l :: ls)
    | _, _ => none

/-- What a command line does to the anchors, and what it prints.  `read` says how the rule in a line is
printed once it is loaded; `none`: the line is not understood, and then nothing is loaded. -/
def pfctl (read : List Nat → Option (List Nat)) (argv : List Word) (stdin : List Nat) (K : Anchors) :
    List Nat × Anchors :=
  match argv with
  | [_, opt, a, op, x] =>
    if opt = b!"-a" ∧ op = b!"-s" ∧ x = b!"rules" then (unlines (K a), K)
    else if opt = b!"-a" ∧ op = b!"-f" ∧ x = b!"-" then
      match readAll read (linesFrom [] stdin) with
      | some rs => ([], K.put a rs)
      | none => (b!"pfctl: Syntax error in config file: pf rules not loaded" ++ [10], K)
    else if opt = b!"-a" ∧ op = b!"-F" ∧ x = b!"all" then (b!"rules cleared" ++ [10], K.put a [])
    else (b!"usage: pfctl" ++ [10], K)
  | _ => (b!"usage: pfctl" ++ [10], K)

/-- Words with a space between them. -/
def unwords : List Word → List Nat
  | [] => []
  | [w] => w
  | w :: ws => w ++ 32 :: unwords ws

/-- The rule that lets packets of a protocol from an address in to a port until a time, as it is written. -/
def pfAccess (src dst : Word) (e proto port : Nat) : List Nat :=
  unwords [b!"pass", b!"in", b!"quick", b!"proto", decimal proto, b!"from", src, b!"to", dst, b!"port",
    decimal port, b!"keep", b!"state", b!"label", b!"_exp_" ++ decimal e]

/-- A rule as it is printed that lets something pass until the time `e`. -/
def PassUntil (l : List Nat) (e : Nat) : Prop :=
  10 ∉ l ∧ ∃ x, NoMark (b!"pass" ++ x) ∧ l = b!"pass" ++ x ++ b!"label \"_exp_" ++ decimal e ++ b!"\""

/-- An address in a rule. -/
def AddrWord (w : Word) : Prop := PlainWord w ∧ 95 ∉ w

/-- What is asked of pfctl: it understands the access rules, prints them with their expiry time, and what
it prints it reads back as the same rule. -/
structure Reads (read : List Nat → Option (List Nat)) : Prop where
  access : ∀ src dst e proto port, AddrWord src → AddrWord dst →
    ∃ l, read (pfAccess src dst e proto port) = some l ∧ PassUntil l e
  again : ∀ t l, read t = some l → read l = some l

/-- The time in the label of a rule as it is printed: the digits before the last character. -/
def labelTime (l : List Nat) : Nat :=
  number 10 ((l.dropLast.reverse.takeWhile fun c => 48 ≤ c ∧ c ≤ 57).reverse)

/-- The rules of an anchor are access rules, their expiry times have ten digits (the time is between 2001
and 2286), and the listing of them fits the daemon's buffer. -/
structure AnchorOk (read : List Nat → Option (List Nat)) (rs : List (List Nat)) : Prop where
  rule : ∀ l ∈ rs, read l = some l ∧ ∃ e, PassUntil l e ∧ 10 ^ 9 ≤ e ∧ e < 10 ^ 10
  fits : (unlines rs).length ≤ 4095

/-- The rules for the ports `ps`, as they are printed. -/
def pfPrinted (read : List Nat → Option (List Nat)) (src dst : Word) (e : Nat) (ps : List (Nat × Nat)) :
    List (List Nat) :=
  ps.filterMap fun p => read (pfAccess src dst e p.1 p.2)

end Fwknop.Spec
