import Verif.Spec.Iptables

/-!
# Independent description of how iptables prints the daemon's rules

In columns, with at least one space between them; the widths of the columns are left open.
-/

namespace Fwknop.Spec

/-- A text with these words, each followed by spaces; after the last there may be none. -/
inductive Columns : List Word → List Nat → Prop where
  | one (w : Word) (n : Nat) : Columns [w] (w ++ List.replicate n 32)
  | more (w : Word) (n : Nat) {ws : List Word} {s : List Nat} : Columns ws s →
      Columns (w :: ws) (w ++ (List.replicate (n + 1) 32 ++ s))

/-- An address as iptables prints it. -/
def PrintedAddr (s : Word) : Prop :=
  ∃ a b c d : Nat, a ≤ 255 ∧ b ≤ 255 ∧ c ≤ 255 ∧ d ≤ 255 ∧
    s = decimal a ++ 46 :: (decimal b ++ 46 :: (decimal c ++ 46 :: decimal d))

/-- The name of a chain or a target: capital letters and underscores. -/
def PlainName (w : Word) : Prop := w ≠ [] ∧ w.length ≤ 28 ∧ ∀ c ∈ w, (65 ≤ c ∧ c ≤ 90) ∨ c = 95

/-- A permission: a protocol, a source, a destination and a port, until a time. -/
structure Grant where
  proto : Nat
  src : Word
  dst : Word
  port : Nat
  e : Nat
  target : Word
  deriving DecidableEq

/-- Its rule. -/
def Grant.rule (g : Grant) : Rule := inputRule g.proto g.src g.dst g.port g.e g.target

/-- Permissions as the daemon grants them, until a time between 2001 and 2106. -/
structure Grant.Fair (g : Grant) : Prop where
  proto : g.proto = 6 ∨ g.proto = 17
  src : PrintedAddr g.src
  dst : g.dst = b!"0.0.0.0/0" ∨ PrintedAddr g.dst
  port : 1 ≤ g.port ∧ g.port ≤ 65535
  e : 10 ^ 9 ≤ g.e ∧ g.e < 2 ^ 32
  target : PlainName g.target

/-- How iptables calls a protocol. -/
def protoName (p : Nat) : Word := if p = 6 then b!"tcp" else b!"udp"

/-- For example `ACCEPT tcp -- 1.2.3.4 0.0.0.0/0 tcp dpt:22 /* _exp_1700000000 */`. -/
def Grant.columns (g : Grant) : List Word :=
  [g.target, protoName g.proto, b!"--", g.src, g.dst, protoName g.proto, b!"dpt:" ++ decimal g.port, b!"/*",
    b!"_exp_" ++ decimal g.e, b!"*/"]

/-- Rules are printed in this way, in lines of no great length. -/
def PrintsGrants (print : Rule → List Nat) : Prop :=
  ∀ g : Grant, g.Fair → Columns g.columns (print g.rule) ∧ (print g.rule).length ≤ 240

/-- A jump is printed with the name of the chain and a space at the start. -/
def PrintsJump (print : Rule → List Nat) (c : Word) : Prop := c ++ [32] <+: print [b!"-j", c]

end Fwknop.Spec
