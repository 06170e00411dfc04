import Verif.Spec.AccessFile
import Verif.Lemmas.Base64

/-! # Lines of access.conf -/

namespace Fwknop
open Spec

theorem takeWhile_append_stop {α : Type} (p : α → Bool) (l : List α) (r : List α)
    (hl : ∀ x ∈ l, p x = true) (hr : r = [] ∨ ∃ c t, r = c :: t ∧ p c = false) :
    (l ++ r).takeWhile p = l := by
  induction l with
  | nil =>
    rcases hr with rfl | ⟨c, t, rfl, hc⟩
    · rfl
    · simp [hc]
  | cons a l ih =>
    have ha := hl a (by simp)
    simp only [List.cons_append, List.takeWhile_cons, ha, if_true]
    rw [ih (fun x hx => hl x (by simp [hx]))]

theorem dropWhile_append_stop {α : Type} (p : α → Bool) (l : List α) (r : List α)
    (hl : ∀ x ∈ l, p x = true) (hr : r = [] ∨ ∃ c t, r = c :: t ∧ p c = false) :
    (l ++ r).dropWhile p = r := by
  induction l with
  | nil =>
    rcases hr with rfl | ⟨c, t, rfl, hc⟩
    · rfl
    · simp [hc]
  | cons a l ih =>
    have ha := hl a (by simp)
    simp only [List.cons_append, List.dropWhile_cons, ha, if_true]
    exact ih (fun x hx => hl x (by simp [hx]))

theorem isSpace_spTab {c : Nat} (h : SpTab c) : isSpace c = true := by
  rcases h with rfl | rfl <;> decide

theorem isSpace_accIff (c : Nat) : isSpace c = true ↔ c = 32 ∨ (9 ≤ c ∧ c ≤ 13) := by
  unfold isSpace; simp

theorem cutColon_none {s : Str} (h : ∀ c ∈ s, c ≠ 58) : cutColon s = s := by
  unfold cutColon
  have : s.reverse.dropWhile (· ≠ 58) = [] := by
    rw [← List.append_nil s.reverse, dropWhile_append_stop _ _ _ ?_ (.inl rfl)]
    intro x hx
    simpa using h x (by simpa using hx)
  rw [this]

theorem cutColon_colon (s : Str) : cutColon (s ++ [58]) = s := by
  unfold cutColon
  simp

theorem chop_append (v t : Str) (hv : v ≠ []) (hl : isSpace (v.getLastD 0) = false)
    (ht : ∀ c ∈ t, isSpace c = true) (h1 : v.length = 1 → t = []) : chop_whitespace (v ++ t) = v := by
  cases v with
  | nil => exact absurd rfl hv
  | cons c cs =>
    simp only [List.cons_append, chop_whitespace]
    by_cases hcs : cs = []
    · subst hcs
      rw [h1 rfl]
      simp
    · have hlast : isSpace (cs.getLast hcs) = false := by
        have : (c :: cs).getLastD 0 = cs.getLast hcs := by
          rw [List.getLastD_cons]
          cases cs with
          | nil => exact absurd rfl hcs
          | cons d ds => rw [List.getLastD_cons, List.getLast_eq_getLastD]
        rw [this] at hl; exact hl
      have hall : (cs ++ t).all isSpace = false := by
        rw [List.all_eq_false]
        exact ⟨cs.getLast hcs, by simp, by simp [hlast]⟩
      rw [hall]
      simp only [Bool.false_eq_true, if_false, List.reverse_append]
      rw [dropWhile_append_stop _ _ _ (by simpa using ht) ?_, List.reverse_reverse]
      right
      refine ⟨cs.getLast hcs, cs.dropLast.reverse, ?_, hlast⟩
      conv => lhs; rw [← List.dropLast_concat_getLast hcs]
      simp

theorem holds_reads {line name value : Str} (h : LineHolds line name value) (hlen : line.length < MAX_LINE_LEN) :
    ∃ v, accLine line = .ok (some (name, v)) ∧ chop_whitespace v = value := by
  obtain ⟨lead, colon, gap, trail, rest, rfl, hlead, hc0, hn, hname, hcol, hg, hgap, hv, hh, hl, hval, htr, h1, hrest⟩ := h
  have hh' : isSpace (value.headD 0) = false := by simpa using hh
  have hl' : isSpace (value.getLastD 0) = false := by simpa using hl
  -- the part up to a NUL in the rest
  have hz : ∀ x ∈ lead ++ (name ++ (colon ++ (gap ++ (value ++ trail)))), decide (x ≠ 0) = true := by
    intro x hx
    simp only [List.mem_append] at hx
    simp only [ne_eq, decide_not, Bool.not_eq_true', decide_eq_false_iff_not]
    rcases hx with hx | hx | hx | hx | hx | hx
    · rcases hlead x hx with rfl | rfl <;> decide
    · exact (hname x hx).2.2.2
    · rcases hcol with rfl | rfl
      · simp at hx
      · simp at hx; subst hx; decide
    · rcases hgap x hx with rfl | rfl <;> decide
    · exact (hval x hx).2.2.2
    · rcases htr x hx with rfl | rfl <;> decide
  obtain ⟨rest', hc, hr'⟩ : ∃ rest', cstr (lead ++ (name ++ (colon ++ (gap ++ (value ++ (trail ++ rest)))))) =
      lead ++ (name ++ (colon ++ (gap ++ (value ++ (trail ++ rest'))))) ∧
      (rest' = [] ∨ ∃ c t, rest' = c :: t ∧ (c = 59 ∨ c = 10 ∨ c = 13)) := by
    refine ⟨rest.takeWhile (· ≠ 0), ?_, ?_⟩
    · unfold cstr
      have e : lead ++ (name ++ (colon ++ (gap ++ (value ++ (trail ++ rest))))) =
          (lead ++ (name ++ (colon ++ (gap ++ (value ++ trail))))) ++ rest := by simp
      rw [e, List.takeWhile_append_of_pos hz]
      simp
    · rcases hrest with rfl | ⟨c, t, rfl, hc⟩
      · left; rfl
      · by_cases c0 : c = 0
        · left; simp [c0]
        · right
          refine ⟨c, t.takeWhile (· ≠ 0), by simp [c0], ?_⟩
          rcases hc with h | h | h | h
          · exact .inl h
          · exact .inr (.inl h)
          · exact .inr (.inr h)
          · exact absurd h c0
  generalize hgv : value ++ (trail ++ rest') = tl at hc
  have hscan : scanLine (lead ++ (name ++ (colon ++ (gap ++ (value ++ (trail ++ rest')))))) =
      some (name ++ colon, value ++ trail) := by
    unfold scanLine
    have hnc : ∀ c ∈ name ++ colon, isSpace c = false := by
      intro c hc
      rw [List.mem_append] at hc
      rw [Bool.eq_false_iff, ne_eq, isSpace_accIff]
      rcases hc with hc | hc
      · have := hname c hc; omega
      · rcases hcol with rfl | rfl
        · simp at hc
        · simp at hc; omega
    have hne : name ++ colon ≠ [] := by simp [hn]
    have d1 : (lead ++ (name ++ (colon ++ (gap ++ (value ++ (trail ++ rest')))))).dropWhile isSpace =
        (name ++ colon) ++ (gap ++ (value ++ (trail ++ rest'))) := by
      rw [dropWhile_append_stop _ _ _ (fun x hx => isSpace_spTab (hlead x hx)) ?_]
      · simp
      · right
        cases name with
        | nil => exact absurd rfl hn
        | cons c cs => exact ⟨c, _, rfl, hnc c (by simp)⟩
    have t1 : ((name ++ colon) ++ (gap ++ (value ++ (trail ++ rest')))).takeWhile (fun c => !isSpace c) = name ++ colon := by
      apply takeWhile_append_stop
      · intro x hx; simp [hnc x hx]
      · right
        cases gap with
        | nil => exact absurd rfl hg
        | cons c cs => exact ⟨c, _, rfl, by simp [isSpace_spTab (hgap c (by simp))]⟩
    have d2 : (gap ++ (value ++ (trail ++ rest'))).dropWhile isSpace = (value ++ trail) ++ rest' := by
      rw [dropWhile_append_stop _ _ _ (fun x hx => isSpace_spTab (hgap x hx)) ?_]
      · simp
      · right
        cases value with
        | nil => exact absurd rfl hv
        | cons c cs => exact ⟨c, _, rfl, by simpa using hh'⟩
    have t2 : ((value ++ trail) ++ rest').takeWhile (fun c => c ≠ 59 ∧ c ≠ 10 ∧ c ≠ 13) = value ++ trail := by
      apply takeWhile_append_stop
      · intro x hx
        rw [List.mem_append] at hx
        rcases hx with hx | hx
        · have := hval x hx; simp; omega
        · rcases htr x hx with rfl | rfl <;> decide
      · rcases hr' with rfl | ⟨c, t, rfl, hc⟩
        · left; rfl
        · right; exact ⟨c, t, rfl, by rcases hc with rfl | rfl | rfl <;> decide⟩
    simp only [d1, t1, List.drop_left, d2, t2]
    rw [if_neg]
    rintro (h | h)
    · exact hne h
    · simp [hv] at h
  rw [hgv] at hscan
  have hhead : isEmptyLine ((lead ++ (name ++ (colon ++ (gap ++ tl)))).headD 0) = false := by
    cases lead with
    | nil =>
      cases name with
      | nil => exact absurd rfl hn
      | cons c cs =>
        have h1 := hc0 rfl
        have h2 := hname c (by simp)
        simp only [List.headD_cons] at h1
        simp [isEmptyLine]
        omega
    | cons c cs =>
      rcases hlead c (by simp) with rfl | rfl <;> simp [isEmptyLine]
  have hmem : ((name ++ colon).length + 1 > MAX_LINE_LEN ∨ (value ++ trail).length + 1 > MAX_LINE_LEN) ↔ False := by
    simp only [MAX_LINE_LEN] at hlen ⊢
    simp only [List.length_append] at hlen ⊢
    have : gap.length ≠ 0 := by simpa using hg
    exact iff_of_false (by omega) id
  refine ⟨value ++ trail, ?_, chop_append value trail hv hl' (fun c hc => isSpace_spTab (htr c hc)) h1⟩
  unfold accLine
  simp only [hc, hhead, hscan]
  have hcut : cutColon (name ++ colon) = name := by
    rcases hcol with rfl | rfl
    · rw [List.append_nil]; exact cutColon_none fun c hc => (hname c hc).2.2.1
    · exact cutColon_colon name
  rw [hcut]
  simp only [hmem, decide_false, Res.mem_false]
  rfl

/-- Reading a line stays inside the arrays. -/
theorem accLine_safe (line : Str) (hlen : line.length < MAX_LINE_LEN) : accLine line ≠ .ub := by
  unfold accLine
  simp only
  split
  · simp
  · cases h : scanLine (cstr line) with
    | none => simp
    | some p =>
      obtain ⟨var, val⟩ := p
      simp only
      have hc : (cstr line).length ≤ line.length := by
        unfold cstr
        exact (List.takeWhile_sublist _).length_le
      unfold scanLine at h
      simp only at h
      split at h
      · simp at h
      · simp only [Option.some.injEq, Prod.mk.injEq] at h
        obtain ⟨h1, h2⟩ := h
        have l1 : var.length ≤ (cstr line).length := by
          rw [← h1]
          exact Nat.le_trans (List.takeWhile_sublist _).length_le (List.dropWhile_sublist _).length_le
        have l2 : val.length ≤ (cstr line).length := by
          rw [← h2]
          refine Nat.le_trans (List.takeWhile_sublist _).length_le ?_
          refine Nat.le_trans (List.dropWhile_sublist _).length_le ?_
          exact Nat.le_trans (List.drop_sublist _ _).length_le (List.dropWhile_sublist _).length_le
        have : (var.length + 1 > MAX_LINE_LEN ∨ val.length + 1 > MAX_LINE_LEN) ↔ False := by
          simp only [MAX_LINE_LEN] at hlen ⊢
          exact iff_of_false (by omega) id
        simp [this]

/-- The lines `fgets` returns are shorter than the array. -/
theorem fgetsOne_length (n : Nat) : ∀ s : Str, (fgetsOne n s).1.length ≤ n := by
  induction n with
  | zero => intro s; simp [fgetsOne]
  | succ n ih =>
    intro s
    cases s with
    | nil => simp [fgetsOne]
    | cons c cs =>
      rw [fgetsOne]
      split
      · simp
      · simpa using ih cs

theorem fgetsLines_length (f : Nat) : ∀ (s : Str), ∀ l ∈ fgetsLines f s, l.length < MAX_LINE_LEN := by
  induction f with
  | zero => intro s l h; simp [fgetsLines] at h
  | succ f ih =>
    intro s l h
    cases s with
    | nil => simp [fgetsLines] at h
    | cons c cs =>
      rw [fgetsLines] at h
      simp only [List.mem_cons] at h
      rcases h with rfl | h
      · have := fgetsOne_length (MAX_LINE_LEN - 1) (c :: cs)
        simp only [MAX_LINE_LEN] at this ⊢; omega
      · exact ih _ l h

end Fwknop
