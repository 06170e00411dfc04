import Verif.Model.CLib

namespace Fwknop

theorem digitsVal_append (b : Nat) (xs : Str) (d : Nat) :
    digitsVal b (xs ++ [d]) = b * digitsVal b xs + (d - 48) := by
  simp [digitsVal]

theorem digitsVal_foldl (b : Nat) (ds : Str) (a : Nat) :
    ds.foldl (fun acc d => b * acc + (d - 48)) a = a * b ^ ds.length + digitsVal b ds := by
  induction ds generalizing a with
  | nil => simp [digitsVal]
  | cons d ds ih =>
    simp only [digitsVal, List.foldl_cons, List.length_cons]
    rw [ih, ih (b * 0 + (d - 48)), Nat.pow_succ]
    simp only [Nat.mul_zero, Nat.zero_add, Nat.add_mul]
    have : b * a * b ^ ds.length = a * (b ^ ds.length * b) := by
      rw [Nat.mul_comm b a, Nat.mul_assoc, Nat.mul_comm b]
    omega

theorem digitsVal_cons (b d : Nat) (ds : Str) :
    digitsVal b (d :: ds) = (d - 48) * b ^ ds.length + digitsVal b ds := by
  have := digitsVal_foldl b ds (d - 48)
  simpa [digitsVal] using this

theorem digitsVal_lt (ds : Str) (h : ∀ c ∈ ds, isDigit c = true) :
    digitsVal 10 ds < 10 ^ ds.length := by
  induction ds with
  | nil => simp [digitsVal]
  | cons d ds ih =>
    rw [digitsVal_cons]
    have hd := h d (by simp)
    have := ih (fun c hc => h c (by simp [hc]))
    simp only [isDigit, Bool.and_eq_true, decide_eq_true_eq] at hd
    rw [List.length_cons, Nat.pow_succ]
    have : (d - 48) * 10 ^ ds.length ≤ 9 * 10 ^ ds.length := Nat.mul_le_mul_right _ (by omega)
    omega

theorem decStrAux_fuel (f n : Nat) (h : n < f) : decStrAux f n = decStr n := by
  induction n using Nat.strongRecOn generalizing f with
  | ind n ih =>
    obtain ⟨f, rfl⟩ : ∃ g, f = g + 1 := ⟨f - 1, by omega⟩
    rw [decStr, decStrAux, decStrAux]
    split
    · rfl
    · rw [ih (n / 10) (by omega) f (by omega), ih (n / 10) (by omega) n (by omega)]

theorem decStr_lt (n : Nat) (h : n < 10) : decStr n = [48 + n] := by
  rw [decStr, decStrAux, if_pos h]

theorem decStr_ge (n : Nat) (h : 10 ≤ n) : decStr n = decStr (n / 10) ++ [48 + n % 10] := by
  rw [decStr, decStrAux, if_neg (by omega), decStrAux_fuel _ _ (by omega)]

theorem decStr_digits (n : Nat) : ∀ c ∈ decStr n, isDigit c = true := by
  induction n using Nat.strongRecOn with
  | ind n ih =>
    intro c hc
    by_cases h : n < 10
    · rw [decStr_lt n h] at hc; simp at hc; subst hc; simp [isDigit]; omega
    · rw [decStr_ge n (by omega)] at hc
      simp at hc
      rcases hc with hc | hc
      · exact ih _ (by omega) c hc
      · subst hc; simp [isDigit]; omega

theorem decStr_val (n : Nat) : digitsVal 10 (decStr n) = n := by
  induction n using Nat.strongRecOn with
  | ind n ih =>
    by_cases h : n < 10
    · rw [decStr_lt n h]; simp [digitsVal]
    · rw [decStr_ge n (by omega), digitsVal_append, ih _ (by omega)]; omega

theorem decStr_ne_nil (n : Nat) : decStr n ≠ [] := by
  by_cases h : n < 10
  · rw [decStr_lt n h]; simp
  · rw [decStr_ge n (by omega)]; simp

theorem decStr_length_le (n k : Nat) (hk : 0 < k) (h : n < 10 ^ k) : (decStr n).length ≤ k := by
  induction n using Nat.strongRecOn generalizing k with
  | ind n ih =>
    by_cases h10 : n < 10
    · rw [decStr_lt n h10]; simp; omega
    · rw [decStr_ge n (by omega)]
      obtain ⟨k, rfl⟩ : ∃ j, k = j + 1 := ⟨k - 1, by omega⟩
      have hk0 : 0 < k := by
        rcases Nat.eq_zero_or_pos k with h0 | h0
        · subst h0; simp at h; omega
        · exact h0
      rw [Nat.pow_succ] at h
      have := ih (n / 10) (by omega) k hk0 (by omega)
      simp; omega

theorem decStr_injective (m n : Nat) (h : decStr m = decStr n) : m = n := by
  rw [← decStr_val m, h, decStr_val]

theorem isDigit_not_space (c : Nat) (h : isDigit c = true) : isSpace c = false := by
  simp only [isDigit, Bool.and_eq_true, decide_eq_true_eq] at h
  simp [isSpace]; omega

theorem takeWhile_all {p : Nat → Bool} (l : Str) (h : ∀ c ∈ l, p c = true) : l.takeWhile p = l := by
  induction l with
  | nil => rfl
  | cons a l ih =>
    rw [List.takeWhile_cons, if_pos (h a (by simp)), ih (fun c hc => h c (by simp [hc]))]

theorem digitsVal_nonneg_clamp (v : Nat) (h : v < 2 ^ 63) :
    ¬ ((v : Int) > LONG_MAX) ∧ ¬ ((v : Int) < LONG_MIN) := by
  simp only [LONG_MAX, LONG_MIN]; omega

/-- strtol on a non-empty run of digits with a value in range. -/
theorem strtol_digits (ds : Str) (h : ∀ c ∈ ds, isDigit c = true) (hne : ds ≠ [])
    (hv : digitsVal 10 ds < 2 ^ 63) : strtol ds = (((digitsVal 10 ds : Nat) : Int), false) := by
  obtain ⟨d, ds', rfl⟩ := List.exists_cons_of_ne_nil hne
  have hd := h d (by simp)
  have hs := isDigit_not_space d hd
  have hd' : 48 ≤ d ∧ d ≤ 57 := by
    simpa only [isDigit, Bool.and_eq_true, decide_eq_true_eq] using hd
  have hm : splitSign (d :: ds') = (false, d :: ds') := by
    unfold splitSign
    split
    · rename_i heq; simp at heq; omega
    · rename_i heq; simp at heq; omega
    · rfl
  have hc := digitsVal_nonneg_clamp _ hv
  have hdrop : (d :: ds').dropWhile isSpace = d :: ds' := by simp [hs]
  simp only [strtol, hdrop, hm, takeWhile_all _ h]
  simp [hc.1, hc.2]

/-- Clamping to `long`, as `strtol` does. -/
def clampLong (v : Int) : Int × Bool :=
  if v > LONG_MAX then (LONG_MAX, true) else if v < LONG_MIN then (LONG_MIN, true) else (v, false)

/-- strtol on a numeral. -/
theorem strtol_numeral (ws sign ds rest : Str) (hws : ∀ c ∈ ws, isSpace c = true)
    (hsign : sign = [] ∨ sign = b!"+" ∨ sign = b!"-") (h : ∀ c ∈ ds, isDigit c = true)
    (hrest : ∀ c, rest.head? = some c → isDigit c = false) (hne : ds ≠ []) :
    strtol (ws ++ sign ++ ds ++ rest) =
      clampLong (if sign = b!"-" then -((digitsVal 10 ds : Nat) : Int) else (digitsVal 10 ds : Nat)) := by
  obtain ⟨d, ds', rfl⟩ := List.exists_cons_of_ne_nil hne
  have hd := h d (by simp)
  have hs := isDigit_not_space d hd
  have hd' : 48 ≤ d ∧ d ≤ 57 := by
    simpa only [isDigit, Bool.and_eq_true, decide_eq_true_eq] using hd
  have hdw : ∀ t : Str, (∀ c, t.head? = some c → isSpace c = false) →
      (ws ++ t).dropWhile isSpace = t := by
    intro t ht
    clear hsign
    induction ws with
    | nil => cases t with
      | nil => rfl
      | cons c t => simp [ht c rfl]
    | cons w ws ih => simp [hws w (by simp)]; simpa using ih (fun c hc => hws c (by simp [hc]))
  have htw : (d :: ds' ++ rest).takeWhile isDigit = d :: ds' := by
    have : ∀ l : Str, (∀ c ∈ l, isDigit c = true) → (l ++ rest).takeWhile isDigit = l := by
      intro l hl
      induction l with
      | nil => cases rest with
        | nil => rfl
        | cons c t => simp [hrest c rfl]
      | cons x l ih => simp [hl x (by simp), ih (fun c hc => hl c (by simp [hc]))]
    exact this _ h
  have hsplit : splitSign (d :: ds' ++ rest) = (false, d :: ds' ++ rest) := by
    unfold splitSign
    split
    · rename_i heq; simp at heq; omega
    · rename_i heq; simp at heq; omega
    · rfl
  unfold strtol
  rcases hsign with rfl | rfl | rfl
  · rw [List.append_nil, List.append_assoc, hdw _ (by simp [hs])]
    simp only [hsplit, htw]
    rfl
  · rw [List.append_assoc, List.append_assoc, hdw _ (by simp; decide)]
    simp only [List.cons_append, List.nil_append, splitSign]
    rw [← List.cons_append, htw]
    rfl
  · rw [List.append_assoc, List.append_assoc, hdw _ (by simp; decide)]
    simp only [List.cons_append, List.nil_append, splitSign]
    rw [← List.cons_append, htw]
    rfl

theorem toInt32_id (v : Int) (h1 : -(2 ^ 31) ≤ v) (h2 : v < 2 ^ 31) : toInt32 v = v := by
  unfold toInt32; omega

theorem toInt32_range (v : Int) : -(2 ^ 31) ≤ toInt32 v ∧ toInt32 v < 2 ^ 31 := by
  unfold toInt32; omega

/-- strtol_wrapper on a run of digits below 2^31. -/
theorem strtol_wrapper_digits (ds : Str) (h : ∀ c ∈ ds, isDigit c = true) (hne : ds ≠ [])
    (hv : digitsVal 10 ds < 2 ^ 31) (min max : Int) :
    strtol_wrapper ds min max =
      (((digitsVal 10 ds : Nat) : Int), decide (min ≤ (digitsVal 10 ds : Nat) ∧
        (max < 0 ∨ (digitsVal 10 ds : Nat) ≤ max))) := by
  unfold strtol_wrapper
  rw [strtol_digits ds h hne (by omega)]
  simp only [toInt32_id ((digitsVal 10 ds : Nat) : Int) (by omega) (by omega), Prod.mk.injEq, true_and]
  rw [Bool.eq_iff_iff]
  simp

theorem strtol_wrapper_range (s : Str) (min max v : Int) (h : strtol_wrapper s min max = (v, true)) :
    min ≤ v ∧ (0 ≤ max → v ≤ max) ∧ -(2 ^ 31) ≤ v ∧ v < 2 ^ 31 := by
  unfold strtol_wrapper at h
  simp only [Prod.mk.injEq] at h
  obtain ⟨h1, h2⟩ := h
  have := toInt32_range (strtol s).1
  simp at h2
  omega

/-! ## Splitting at the first occurrence of a character -/

theorem strchr_split (p t : Str) (c : Nat) (h : c ∉ p) : strchr (p ++ c :: t) c = some p.length := by
  induction p with
  | nil => simp [strchr]
  | cons x p ih =>
    have hx : x ≠ c := fun e => h (by simp [e])
    simp [strchr, hx, ih (fun hm => h (by simp [hm]))]

theorem strchr_none (s : Str) (c : Nat) (h : c ∉ s) : strchr s c = none := by
  induction s with
  | nil => simp [strchr]
  | cons x p ih =>
    have hx : x ≠ c := fun e => h (by simp [e])
    simp [strchr, hx, ih (fun hm => h (by simp [hm]))]

theorem split_first (s : Str) (c : Nat) : c ∉ s ∨ ∃ p t, s = p ++ c :: t ∧ c ∉ p := by
  induction s with
  | nil => simp
  | cons x s ih =>
    by_cases hx : x = c
    · exact .inr ⟨[], s, by simp [hx], by simp⟩
    · rcases ih with h | ⟨p, t, hs, hp⟩
      · left
        intro hm
        rcases List.mem_cons.1 hm with e | e
        · exact hx e.symm
        · exact h e
      · right
        refine ⟨x :: p, t, by simp [hs], ?_⟩
        intro hm
        rcases List.mem_cons.1 hm with e | e
        · exact hx e.symm
        · exact hp e

theorem strchr_some (s : Str) (c i : Nat) (h : strchr s c = some i) :
    ∃ p t, s = p ++ c :: t ∧ c ∉ p ∧ i = p.length := by
  rcases split_first s c with hn | ⟨p, t, hs, hp⟩
  · rw [strchr_none s c hn] at h; simp at h
  · rw [hs, strchr_split p t c hp] at h
    exact ⟨p, t, hs, hp, by simpa using h.symm⟩

theorem takeWhile_ne_split (p t : Str) (c : Nat) (h : c ∉ p) :
    (p ++ c :: t).takeWhile (· ≠ c) = p := by
  induction p with
  | nil => simp
  | cons x p ih =>
    have hx : x ≠ c := fun e => h (by simp [e])
    simp only [List.cons_append, List.takeWhile_cons, ih (fun hm => h (by simp [hm]))]
    simp [hx]

theorem takeWhile_ne_self (p : Str) (c : Nat) (h : c ∉ p) : p.takeWhile (· ≠ c) = p := by
  apply takeWhile_all
  intro x hx
  have : x ≠ c := fun e => h (e ▸ hx)
  simpa using this

theorem dropWhile_ne_split (p t : Str) (c : Nat) (h : c ∉ p) :
    (p ++ c :: t).dropWhile (· ≠ c) = c :: t := by
  induction p with
  | nil => simp
  | cons x p ih =>
    have hx : x ≠ c := fun e => h (by simp [e])
    simp only [List.cons_append, List.dropWhile_cons, ih (fun hm => h (by simp [hm]))]
    simp [hx]

/-- A string splits at the first `c` in only one way. -/
theorem split_unique {p t p' t' : Str} {c : Nat} (h : p ++ c :: t = p' ++ c :: t')
    (hp : c ∉ p) (hp' : c ∉ p') : p = p' ∧ t = t' := by
  have h1 := takeWhile_ne_split p t c hp
  rw [h, takeWhile_ne_split p' t' c hp'] at h1
  subst h1
  simpa using h

end Fwknop
