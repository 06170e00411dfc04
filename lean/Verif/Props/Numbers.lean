import Verif.Lemmas.CLib

/-!
# C10, C11: numeric fields
-/

namespace Fwknop.Props

/-- C10: an accepted value lies inside its bounds (a negative `max` means "no maximum") and is
an `int`, whatever the text was. -/
theorem C10_accepted_in_bounds (s : Str) (min max v : Int)
    (h : strtol_wrapper s min max = (v, true)) :
    min ≤ v ∧ (0 ≤ max → v ≤ max) ∧ -(2 ^ 31) ≤ v ∧ v < 2 ^ 31 :=
  strtol_wrapper_range s min max v h

/-- C10: the decimal rendering of every `int` within the bounds is accepted as that value. -/
theorem C10_decimal_roundtrip (n : Nat) (min max : Int) (hn : n < 2 ^ 31) (h1 : min ≤ n)
    (h2 : max < 0 ∨ n ≤ max) : strtol_wrapper (decStr n) min max = ((n : Int), true) := by
  rw [strtol_wrapper_digits _ (decStr_digits n) (decStr_ne_nil n) (by rw [decStr_val]; exact hn),
    decStr_val]
  simp; omega

/-- C10: a run of digits whose value is an `int` outside the bounds is refused. -/
theorem C10_out_of_bounds_refused (ds : Str) (h : ∀ c ∈ ds, isDigit c = true) (hne : ds ≠ [])
    (hv : digitsVal 10 ds < 2 ^ 31) (min max : Int)
    (hb : (digitsVal 10 ds : Nat) < min ∨ (0 ≤ max ∧ max < (digitsVal 10 ds : Nat))) :
    (strtol_wrapper ds min max).2 = false := by
  rw [strtol_wrapper_digits ds h hne hv]
  simp; omega

/-- C10: a decimal numeral (white space, a sign and digits, then anything that is not a digit)
outside the range of `long` is refused whatever the bounds. -/
theorem C10_beyond_long_refused (ws sign ds rest : Str) (hws : ∀ c ∈ ws, isSpace c = true)
    (hsign : sign = [] ∨ sign = b!"+" ∨ sign = b!"-") (h : ∀ c ∈ ds, isDigit c = true)
    (hrest : ∀ c, rest.head? = some c → isDigit c = false)
    (hv : 2 ^ 63 < digitsVal 10 ds) (min max : Int) :
    (strtol_wrapper (ws ++ sign ++ ds ++ rest) min max).2 = false := by
  have := strtol_numeral ws sign ds rest hws hsign h hrest (by rintro rfl; simp [digitsVal] at hv)
  unfold strtol_wrapper
  rw [this]
  have : (if sign = b!"-" then -((digitsVal 10 ds : Nat) : Int) else (digitsVal 10 ds : Nat)) > LONG_MAX ∨
      (if sign = b!"-" then -((digitsVal 10 ds : Nat) : Int) else (digitsVal 10 ds : Nat)) < LONG_MIN := by
    simp only [LONG_MAX, LONG_MIN]
    split <;> omega
  generalize (if sign = b!"-" then -((digitsVal 10 ds : Nat) : Int) else (digitsVal 10 ds : Nat)) = v at this ⊢
  unfold clampLong
  rcases this with h | h
  · rw [if_pos h]; rfl
  · rw [if_neg (by simp only [LONG_MAX, LONG_MIN] at *; omega), if_pos h]; rfl

/-- C10: within `long` the numeral is read as the number it denotes, reduced to an `int`. -/
theorem C10_numeral_value (ws sign ds rest : Str) (hws : ∀ c ∈ ws, isSpace c = true)
    (hsign : sign = [] ∨ sign = b!"+" ∨ sign = b!"-") (h : ∀ c ∈ ds, isDigit c = true) (hne : ds ≠ [])
    (hrest : ∀ c, rest.head? = some c → isDigit c = false)
    (hv : digitsVal 10 ds < 2 ^ 63) (min max : Int) :
    ∃ v : Int, v = (if sign = b!"-" then -((digitsVal 10 ds : Nat) : Int) else (digitsVal 10 ds : Nat)) ∧
      (strtol_wrapper (ws ++ sign ++ ds ++ rest) min max).1 = toInt32 v ∧
      ((strtol_wrapper (ws ++ sign ++ ds ++ rest) min max).2 = true ↔
        min ≤ toInt32 v ∧ (0 ≤ max → toInt32 v ≤ max)) := by
  have := strtol_numeral ws sign ds rest hws hsign h hrest hne
  refine ⟨_, rfl, ?_⟩
  unfold strtol_wrapper
  rw [this]
  have : ¬ (if sign = b!"-" then -((digitsVal 10 ds : Nat) : Int) else (digitsVal 10 ds : Nat)) > LONG_MAX ∧
      ¬ (if sign = b!"-" then -((digitsVal 10 ds : Nat) : Int) else (digitsVal 10 ds : Nat)) < LONG_MIN := by
    simp only [LONG_MAX, LONG_MIN]
    split <;> omega
  generalize (if sign = b!"-" then -((digitsVal 10 ds : Nat) : Int) else (digitsVal 10 ds : Nat)) = v at this ⊢
  unfold clampLong
  rw [if_neg this.1, if_neg this.2]
  refine ⟨rfl, ?_⟩
  simp
  intro _
  omega

example : (strtol_wrapper b!" -99999999999999999999" 0 10).2 = false ∧
    (strtol_wrapper b!" -0 " 0 10) = (0, true) := by decide

example : strtol_wrapper b!"22" 1 65535 = (22, true) ∧ (strtol_wrapper b!"70000" 1 65535).2 = false :=
  by decide

/-- C11 is false: the `long` is truncated to `int` before the bounds are checked, so
"4294967318" is accepted as port 22. -/
theorem C11_aliasing_negation :
    ¬ ∀ (a b : Nat) (min max : Int),
      (strtol_wrapper (decStr a) min max).2 = true →
      (strtol_wrapper (decStr b) min max).2 = true →
      (strtol_wrapper (decStr a) min max).1 = (strtol_wrapper (decStr b) min max).1 → a = b := by
  intro h
  have := h 22 4294967318 1 65535 (by decide) (by decide) (by decide)
  omega

/-- C11 restricted to numbers below 2^31 (missing: larger numbers, for which it is false):
different numbers are never accepted as the same value. -/
theorem C11_no_aliasing_partial (a b : Nat) (ha : a < 2 ^ 31) (hb : b < 2 ^ 31) (min max : Int)
    (h : (strtol_wrapper (decStr a) min max).1 = (strtol_wrapper (decStr b) min max).1) : a = b := by
  rw [strtol_wrapper_digits _ (decStr_digits a) (decStr_ne_nil a) (by rw [decStr_val]; exact ha),
    strtol_wrapper_digits _ (decStr_digits b) (decStr_ne_nil b) (by rw [decStr_val]; exact hb),
    decStr_val, decStr_val] at h
  simp only at h; omega

example : strtol_wrapper (decStr 4294967318) 1 65535 = (22, true) := by decide

end Fwknop.Props
