import Verif.Spec.Pf

/-!
# Independent description of pfctl, with the anchors of the main policy
-/

namespace Fwknop.Spec

/-- The line in which an anchor of the main policy is printed: two spaces and its name. -/
def anchorLine (n : Word) : List Nat := 32 :: 32 :: n

/-- What a command line does if the main policy refers to the anchors `linked`. -/
def pfctlMain (read : List Nat → Option (List Nat)) (linked : List Word) (argv : List Word) (stdin : List Nat) (K : Anchors) :
    List Nat × Anchors :=
  match argv with
  | [_, op, x] => if op = b!"-s" ∧ x = b!"Anchor" then (unlines (linked.map anchorLine), K) else (b!"usage: pfctl" ++ [10], K)
  | _ => pfctl read argv stdin K

/-- Names of anchors: without blanks, and a line with one is not cut. -/
def AnchorNames (linked : List Word) : Prop := ∀ n ∈ linked, PlainWord n ∧ 0 ∉ n ∧ n.length ≤ 250

end Fwknop.Spec
