import Verif.Model.Extcmd
import Verif.Spec.Extcmd
import Verif.Lemmas.Http

/-!
# Lemmas: command lines
-/

namespace Fwknop

open Spec Res

/-- Words separated by single spaces. -/
def spaced : List Word → Str
  | [] => []
  | [x] => x
  | x :: y :: r => x ++ 32 :: spaced (y :: r)

theorem word_nonblank {w : Word} (h : PlainWord w) : ∀ c ∈ w, isSpace c = false := by
  intro c hc
  cases hs : isSpace c with
  | false => rfl
  | true => exact absurd ((isSpace_iff c).1 hs) (h.2 c hc)

theorem argvLoop_word (w rest cur : Str) (argv : List Str) (h : ∀ c ∈ w, isSpace c = false)
    (hl : cur.length + w.length < MAX_ARGS_LINE_LEN + 1) :
    argvLoop (w ++ rest) cur argv = argvLoop rest (cur ++ w) argv := by
  induction w generalizing cur with
  | nil => simp
  | cons c w ih =>
    simp only [List.length_cons] at hl
    rw [List.cons_append, argvLoop, h c List.mem_cons_self]
    simp only [Bool.not_false, if_true]
    rw [show decide (cur.length ≥ MAX_ARGS_LINE_LEN) = false from by simp; omega]
    rw [mem_false, bind_ok, ih (cur ++ [c]) (fun d hd => h d (List.mem_cons_of_mem _ hd))
      (by simp only [List.length_append, List.length_singleton]; omega)]
    simp

theorem split_nil {s : Str} {ws : List Word} (h : Split s ws) (hs : s = []) : ws = [] := by
  cases h with
  | nil => rfl
  | blank c hc h => simp at hs
  | word w hp _ _ => exact absurd (List.append_eq_nil_iff.1 hs).1 hp.1

theorem argvLoop_split {s : Str} {ws : List Word} (h : Split s ws) : ∀ (argv : List Str),
    (∀ w ∈ ws, w.length < 1024) → argv.length ≤ 28 →
    argvLoop s [] argv = .ok (if argv.length + ws.length ≤ 28 then some (argv ++ ws) else none) := by
  induction h with
  | nil =>
    intro argv _ ha
    rw [argvLoop, endArg, if_pos rfl, if_pos (by simpa using ha)]
    simp
  | blank c hc _ ih =>
    intro argv hw ha
    rw [argvLoop, (isSpace_iff c).2 hc]
    simp only [Bool.not_true, Bool.false_eq_true, if_false]
    rw [endArg, if_pos rfl, bind_ok]
    exact ih argv hw ha
  | word w hp hs hsp ih =>
    rename_i s ws
    intro argv hw ha
    have hl := hw w List.mem_cons_self
    rw [argvLoop_word w s [] argv (word_nonblank hp) (show 0 + w.length < 1025 by omega), List.nil_append]
    have hend : endArg argv w = .ok (if argv.length + 1 ≤ 28 then some (argv ++ [w]) else none) := by
      rw [endArg, if_neg hp.1, show decide (w.length ≥ MAX_ARGS_LINE_LEN) = false from
        decide_eq_false (show ¬ w.length ≥ 1024 by omega), mem_false, bind_ok, add_argv]
      by_cases h28 : argv.length + 1 ≤ 28
      · rw [if_neg (show ¬ argv.length + 1 ≥ MAX_CMDLINE_ARGS - 1 by show ¬ argv.length + 1 ≥ 29; omega), if_pos h28]; rfl
      · rw [if_pos (show argv.length + 1 ≥ MAX_CMDLINE_ARGS - 1 by show argv.length + 1 ≥ 29; omega), if_neg h28]; rfl
    have hrest := ih (argv ++ [w]) (fun x hx => hw x (List.mem_cons_of_mem _ hx))
    rcases hs with rfl | ⟨c, s', rfl, hc⟩
    · -- the last word
      rw [argvLoop, hend]
      rw [split_nil hsp rfl]
      simp
    · rw [argvLoop, (isSpace_iff c).2 hc]
      simp only [Bool.not_true, Bool.false_eq_true, if_false]
      rw [hend, bind_ok]
      by_cases h28 : argv.length + 1 ≤ 28
      · rw [if_pos h28]
        simp only
        have := hrest (by simpa using h28)
        rw [argvLoop, (isSpace_iff c).2 hc] at this
        simp only [Bool.not_true, Bool.false_eq_true, if_false] at this
        rw [endArg, if_pos rfl, bind_ok] at this
        simp only at this
        rw [this]
        simp [Nat.add_assoc, Nat.add_comm 1]
      · rw [if_neg h28]
        simp only [List.length_cons]
        rw [if_neg (by omega)]
        rfl

theorem split_spaced (ws : List Word) (hw : ∀ w ∈ ws, PlainWord w) : Split (spaced ws) ws := by
  induction ws with
  | nil => exact .nil
  | cons w ws ih =>
    have h1 := hw w List.mem_cons_self
    cases ws with
    | nil => simpa [spaced] using Split.word w h1 (.inl rfl) .nil
    | cons v vs =>
      simp only [spaced]
      exact .word w h1 (.inr ⟨32, _, rfl, by unfold IsBlank; decide⟩)
        (.blank 32 (by unfold IsBlank; decide) (ih fun x hx => hw x (List.mem_cons_of_mem _ hx)))

/-- Words separated by spaces are split into themselves. -/
theorem strtoargv_spaced {ws : List Word} (hw : ∀ w ∈ ws, PlainWord w ∧ w.length < MAX_ARGS_LINE_LEN)
    (hn : ws.length < MAX_CMDLINE_ARGS - 1) : strtoargv (spaced ws) = .ok (some ws) := by
  have := argvLoop_split (split_spaced ws fun w h => (hw w h).1) [] (fun w h => (hw w h).2) (Nat.zero_le _)
  rw [strtoargv, this, if_pos (show ([] : List Str).length + ws.length ≤ 28 from by
    have : ws.length < 29 := hn
    simp only [List.length_nil]; omega)]
  rfl

theorem run_words {σ : Type} (T : Tool σ) {cmd : Str} {ws : List Word} (hs : strtoargv cmd = .ok (some ws))
    (size : Nat) (w : σ) :
    run_extcmd T cmd size w = .ok (⟨(T.exec ws w).1.exited,
      truncate_partial_line ((T.exec ws w).1.out.take (size - 1))⟩, (T.exec ws w).2) := by
  rw [run_extcmd, hs]; rfl

theorem cmdBuf_short {s : Str} (h : s.length ≤ 254) : s.take (CMD_BUFSIZE - 2) = s :=
  List.take_of_length_le (show s.length ≤ 254 from h)

theorem spaced_length_le (ws : List Word) : ∀ w ∈ ws, w.length ≤ (spaced ws).length := by
  induction ws with
  | nil => intro w hw; cases hw
  | cons x xs ih =>
    intro w hw
    cases xs with
    | nil => simp only [List.mem_singleton] at hw; subst hw; simp [spaced]
    | cons y r =>
      simp only [spaced, List.length_append, List.length_cons]
      rcases List.mem_cons.1 hw with rfl | h
      · omega
      · have := ih w h; omega

/-- A complete last line is kept. -/
theorem truncate_newline (s : Str) : truncate_partial_line (s ++ [10]) = s ++ [10] := by
  simp [truncate_partial_line]

theorem chop_newline_end (s : Str) (h : s ≠ []) : chop_newline (s ++ [10]) = s := by
  have : s.length ≠ 0 := by simpa using h
  simp [chop_newline]
  omega

end Fwknop
