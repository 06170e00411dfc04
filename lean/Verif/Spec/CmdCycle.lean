import Verif.Model.Basic

/-!
# Independent specification of cycle commands
-/

namespace Fwknop.Spec

/-- The variables the manual lists for CMD_CYCLE_OPEN and CMD_CYCLE_CLOSE. -/
inductive Var where
  | ip | src | pktSrc | dst | port | proto | timeout | clientTimeout

/-- How a variable is written after the dollar sign. -/
def Var.name : Var → List Nat
  | ip => b!"IP"
  | src => b!"SRC"
  | pktSrc => b!"PKT_SRC"
  | dst => b!"DST"
  | port => b!"PORT"
  | proto => b!"PROTO"
  | timeout => b!"TIMEOUT"
  | clientTimeout => b!"CLIENT_TIMEOUT"

/-- `Expands val t out`: `out` is the template `t` with each `$VAR` replaced by its value and
nothing else changed; the template has no other dollar signs. -/
inductive Expands (val : Var → List Nat) : List Nat → List Nat → Prop where
  | nil : Expands val [] []
  | char (c : Nat) (t out : List Nat) : c ≠ 36 → Expands val t out → Expands val (c :: t) (c :: out)
  | var (x : Var) (t out : List Nat) : Expands val t out →
      Expands val (36 :: (x.name ++ t)) (val x ++ out)

/-- The same, and a dollar sign that does not start a variable is dropped. -/
inductive ExpandsDropping (val : Var → List Nat) : List Nat → List Nat → Prop where
  | nil : ExpandsDropping val [] []
  | char (c : Nat) (t out : List Nat) : c ≠ 36 → ExpandsDropping val t out →
      ExpandsDropping val (c :: t) (c :: out)
  | var (x : Var) (t out : List Nat) : ExpandsDropping val t out →
      ExpandsDropping val (36 :: (x.name ++ t)) (val x ++ out)
  | stray (t out : List Nat) : (∀ x : Var, ¬ ∃ r, t = x.name ++ r) → ExpandsDropping val t out →
      ExpandsDropping val (36 :: t) out

/-- What happens in the daemon's life as far as cycles are concerned. -/
inductive CycleEvent (α : Type) where
  /-- a cycle is opened and its closing scheduled -/
  | opened (e : α)
  /-- an iteration of the main loop at a clock value -/
  | tick (now : Int)

/-- The first tick of a history whose clock is at or past `t`, by position. -/
def firstTick {α : Type} (t : Int) : List (CycleEvent α) → Option Nat
  | [] => none
  | .tick now :: es => if t ≤ now then some 0 else (firstTick t es).map (· + 1)
  | .opened _ :: es => (firstTick t es).map (· + 1)

/-- What a history closes at each position: at position `j` exactly the cycles opened before whose
first due tick (`due e` or later) is at `j`, in the order they were opened. -/
def closings {α : Type} (due : α → Int) : List (CycleEvent α) → Nat → List α
  | [], _ => []
  | _ :: _, 0 => []
  | .opened e :: es, j + 1 => (if firstTick (due e) es = some j then [e] else []) ++ closings due es j
  | .tick _ :: es, j + 1 => closings due es j

end Fwknop.Spec
