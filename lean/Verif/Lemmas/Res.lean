import Verif.Model.Ctx

/-!
# Reasoning about results: `Sat r Q` says `r` is not undefined and, if successful, satisfies `Q`
-/

namespace Fwknop.Res

/-- Not undefined behaviour, and the postcondition holds on success. -/
def Sat {α : Type} (r : Res α) (Q : α → Prop) : Prop :=
  match r with
  | ub => False
  | err => True
  | ok a => Q a

theorem sat_ok {α : Type} {a : α} {Q : α → Prop} (h : Q a) : Sat (ok a) Q := h
theorem sat_pure {α : Type} {a : α} {Q : α → Prop} (h : Q a) : Sat (pure a) Q := h
theorem sat_err {α : Type} {Q : α → Prop} : Sat (err : Res α) Q := trivial

theorem sat_bind {α β : Type} {r : Res α} {f : α → Res β} {Q : β → Prop} (P : α → Prop)
    (h : Sat r P) (hf : ∀ a, P a → Sat (f a) Q) : Sat (r >>= f) Q := by
  cases r with
  | ub => exact h
  | err => trivial
  | ok a => exact hf a h

theorem sat_guard {β : Type} {b : Bool} {k : Unit → Res β} {Q : β → Prop}
    (h : b = false → Sat (k ()) Q) : Sat (guard b >>= k) Q := by
  cases b with
  | true => trivial
  | false => exact h rfl

theorem sat_mem {β : Type} {b : Bool} {k : Unit → Res β} {Q : β → Prop} (hb : b = false)
    (h : Sat (k ()) Q) : Sat (mem b >>= k) Q := by
  subst hb; exact h

theorem Sat.mono {α : Type} {r : Res α} {P Q : α → Prop} (h : Sat r P) (hpq : ∀ a, P a → Q a) :
    Sat r Q := by
  cases r with
  | ub => exact h
  | err => trivial
  | ok a => exact hpq a h

theorem Sat.ne_ub {α : Type} {r : Res α} {Q : α → Prop} (h : Sat r Q) : r ≠ ub := by
  intro e; subst e; exact h

theorem Sat.of_ok {α : Type} {r : Res α} {Q : α → Prop} {a : α} (h : Sat r Q) (e : r = ok a) :
    Q a := by
  subst e; exact h

theorem mem_of_not {p : Prop} [Decidable p] (h : ¬ p) : mem (decide p) = ok () := by
  simp [mem, h]

theorem guard_of_not {p : Prop} [Decidable p] (h : ¬ p) : guard (decide p) = ok () := by
  simp [guard, h]

theorem guard_of {p : Prop} [Decidable p] (h : p) : guard (decide p) = err := by
  simp [guard, h]

/-- A check of a result, for concrete cases. -/
def check {α : Type} (r : Res α) (p : α → Bool) : Bool :=
  match r with
  | ok a => p a
  | _ => false

theorem exists_of_check {α : Type} {r : Res α} {p : α → Bool} (h : check r p = true) :
    ∃ a, r = ok a ∧ p a = true := by
  cases r with
  | ok a => exact ⟨a, rfl, h⟩
  | err => cases h
  | ub => cases h

end Fwknop.Res
