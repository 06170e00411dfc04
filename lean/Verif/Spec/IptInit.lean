import Verif.Spec.Iptables

/-!
# What of a firewall belongs to the daemon
-/

namespace Fwknop.Spec

/-- A chain of the daemon: its table, the chain from which it is jumped to, its name. -/
structure Hook where
  table : Word
  from_ : Word
  to : Word
  deriving DecidableEq

/-- The rule that jumps to the chain. -/
def Hook.jump (h : Hook) : Rule := [b!"-j", h.to]

/-- The firewall without the chains of the daemon and without the jumps to them. -/
def without (hs : List Hook) (K : Tables) : Tables := fun t c =>
  if hs.any fun h => h.table = t && h.to = c then none
  else (K t c).map fun rs => rs.filter fun r => !hs.any fun h => h.table = t && h.from_ = c && r = h.jump

/-- The chains of the daemon are different ones, none is built in, none jumps to another. -/
structure Apart (hs : List Hook) : Prop where
  nodup : hs.Pairwise fun a b => ¬ (a.table = b.table ∧ a.to = b.to)
  builtin : ∀ h ∈ hs, isBuiltin h.to = false
  from_ : ∀ a ∈ hs, ∀ b ∈ hs, a.table = b.table → a.to ≠ b.from_

/-- Nothing but their own jump rules refers to the chains of the daemon, and there are at most ten of
these for a chain. -/
structure Tidy (hs : List Hook) (K : Tables) : Prop where
  few : ∀ h ∈ hs, ∀ fr, K h.table h.from_ = some fr → fr.count h.jump ≤ 10
  only : ∀ h ∈ hs, ∀ c rs, K h.table c = some rs → ∀ r ∈ rs, jumpsTo h.to r = true → c = h.from_ ∧ r = h.jump

/-- A firewall that knows nothing of the daemon. -/
structure Untouched (hs : List Hook) (K : Tables) : Prop where
  chains : ∀ h ∈ hs, K h.table h.to = none
  rules : ∀ h ∈ hs, ∀ c rs, K h.table c = some rs → ∀ r ∈ rs, jumpsTo h.to r = false

end Fwknop.Spec
