import Verif.Model.SendPacket

/-! # What sending a packet means -/

namespace Fwknop.Spec

/-- An address the packet can go to. -/
def Reachable (only4 : Bool) (a : NetAddr) : Prop := (only4 = true → a.ipv4 = true) ∧ a.socket = true ∧ a.connect = true

/-- The first address the packet can go to. -/
def FirstReachable (only4 : Bool) (as : List NetAddr) (i : Nat) : Prop :=
  (∃ a, as[i]? = some a ∧ Reachable only4 a) ∧ ∀ j < i, ∀ a, as[j]? = some a → ¬ Reachable only4 a

/-- What was sent, and to which address. -/
def sends : List NetAct → List (Nat × Str)
  | [] => []
  | .sent i t :: l => (i, t) :: sends l
  | _ :: l => sends l

end Fwknop.Spec
