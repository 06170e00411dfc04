import Lean

/-- Simp set that unfolds the numeric constants of the code. -/
register_simp_attr consts
