import Verif.Model.LastArgs
import Verif.Props.Extcmd

/-!
# The saved command line of the client

C57: `--last-cmd` restores the arguments.
-/

namespace Fwknop.Props

open Spec Res

/-- The text that is saved, before it is cut. -/
def saved (argv : List Word) : Str := argv.flatMap fun a => a ++ [32]

theorem le_sum_lengths {w : Word} {ws : List Word} (h : w ∈ ws) : w.length ≤ (ws.map List.length).sum := by
  induction ws with
  | nil => exact absurd h (by simp)
  | cons a as ih =>
    simp only [List.map_cons, List.sum_cons]
    rcases List.mem_cons.1 h with rfl | h
    · omega
    · have := ih h
      omega

theorem strlcat_take (x y : Str) : strlcat (x.take 1023) y 1024 = (x ++ y).take 1023 := by
  have hl : (x.take 1023).length = min 1023 x.length := List.length_take
  unfold strlcat
  rw [if_neg (by omega), List.take_append, hl, show 1024 - 1 - min 1023 x.length = 1023 - x.length by omega]

theorem saveLoop_eq (argv : List Str) (len : Nat) (x : Str)
    (h : len + (argv.map List.length).sum < 1024) :
    saveLoop argv len (x.take 1023) = some ((x ++ saved argv ++ [10]).take 1023) := by
  induction argv generalizing len x with
  | nil => simp only [saveLoop, strlcat_take, saved, List.flatMap_nil, List.append_nil]
  | cons a as ih =>
    simp only [List.map_cons, List.sum_cons] at h
    rw [saveLoop, if_neg (by omega), strlcat_take, strlcat_take, ih _ _ (by omega)]
    simp [saved]

theorem saved_length (argv : List Word) : (saved argv).length = (argv.map List.length).sum + argv.length := by
  induction argv with
  | nil => rfl
  | cons a as ih =>
    simp only [saved, List.flatMap_cons, List.length_append, List.map_cons, List.sum_cons, List.length_cons,
      List.length_nil] at ih ⊢
    omega

theorem split_blanks {t : Str} (ht : ∀ c ∈ t, IsBlank c) : Split t [] := by
  induction t with
  | nil => exact .nil
  | cons c t ih => exact .blank c (ht c List.mem_cons_self) (ih fun c hc => ht c (List.mem_cons_of_mem _ hc))

theorem split_saved (argv ws : List Word) (hw : ∀ w ∈ argv, PlainWord w) {t : Str} (ht : Split t ws) :
    Split (saved argv ++ t) (argv ++ ws) := by
  induction argv with
  | nil => exact ht
  | cons a as ih =>
    have h32 : IsBlank 32 := by unfold IsBlank; decide
    have := Split.word a (hw a List.mem_cons_self) (.inr ⟨32, saved as ++ t, rfl, h32⟩)
      (.blank 32 h32 (ih fun w h => hw w (List.mem_cons_of_mem _ h)))
    simpa [saved] using this

/-- The words of a text are plain, and fit into it with a blank between any two. -/
theorem split_facts {s : Str} {ws : List Word} (h : Split s ws) : (∀ w ∈ ws, PlainWord w) ∧
    (ws.map List.length).sum + ws.length ≤ s.length + 1 ∧
    ((s = [] ∨ ∃ c s', s = c :: s' ∧ IsBlank c) → (ws.map List.length).sum + ws.length ≤ s.length) := by
  induction h with
  | nil => exact ⟨by simp, by simp, by simp⟩
  | blank c hc _ ih =>
    refine ⟨ih.1, ?_, fun _ => ?_⟩ <;> (simp only [List.length_cons]; omega)
  | @word w s ws hw hs _ ih =>
    have h3 := ih.2.2 hs
    refine ⟨?_, ?_, ?_⟩
    · intro x hx
      rcases List.mem_cons.1 hx with rfl | hx
      · exact hw
      · exact ih.1 x hx
    · simp only [List.map_cons, List.sum_cons, List.length_cons, List.length_append]
      omega
    · rintro (h0 | ⟨c, s', he, hb⟩)
      · exact absurd (List.append_eq_nil_iff.1 h0).1 hw.1
      · obtain ⟨hne, hnb⟩ := hw
        cases w with
        | nil => exact absurd rfl hne
        | cons d w =>
          injection he with h1 _
          exact absurd (h1 ▸ hb) (hnb d List.mem_cons_self)

theorem fgets_plain {s : Str} {k : Nat} (hs : s ≠ []) (hl : s.length ≤ 1023)
    (h : ∃ a t, s = a ++ t ∧ (∀ c ∈ a, c ≠ 10) ∧ (t = [] ∨ t = [10])) (hk : k = 1024) : fgets k s = some s := by
  subst hk
  obtain ⟨a, t, rfl, ha, ht⟩ := h
  have htw : (a ++ t).takeWhile (· ≠ 10) = a := by
    rw [List.takeWhile_append_of_pos (by simpa using ha)]
    rcases ht with rfl | rfl <;> simp
  unfold fgets
  rw [if_neg hs]
  simp only
  rw [htw]
  rcases ht with rfl | rfl
  · rw [List.append_nil, if_neg (Nat.lt_irrefl _), List.take_of_length_le (by simpa using hl)]
  · rw [if_pos (by simp), List.take_of_length_le (by simpa using hl)]

theorem fgets_length {s l : Str} (h : fgets 1024 s = some l) : l.length ≤ 1023 := by
  unfold fgets at h
  split at h
  · exact absurd h (by simp)
  · cases h
    exact List.length_take_le _ _

/-- **C57 (partial)** *The arguments that `--last-cmd` restores are those of the saved invocation exactly
if none of them is empty or has a blank in it, there are at most 28 of them, and together with one blank
after each they have at most 1024 characters.*  Missing: all other arguments, for which it is false. -/
theorem C57_restored_partial (argv : List Word) :
    run_last_args (save_args argv).1 = .ok (some argv) ↔
      (∀ w ∈ argv, PlainWord w) ∧ argv.length ≤ 28 ∧ (argv.map List.length).sum + argv.length ≤ 1024 := by
  constructor
  · intro h
    unfold run_last_args at h
    cases hf : fgets 1024 (save_args argv).1 with
    | none =>
      rw [hf] at h
      injection h with h
      injection h with h
      subst h
      exact ⟨by simp, by simp, by simp⟩
    | some l =>
      rw [hf] at h
      simp only at h
      obtain ⟨ws, hws⟩ := C67_split_exists l
      obtain ⟨f1, f2, _⟩ := split_facts hws
      have hl := fgets_length hf
      have hlen : ∀ w ∈ ws, w.length < 1024 := by
        intro w hw
        have h1 : w.length ≤ (ws.map List.length).sum := by
          exact le_sum_lengths hw
        have h2 : 0 < ws.length := List.length_pos_of_mem hw
        omega
      rw [C67_words_partial l ws hws hlen] at h
      injection h with h
      by_cases h28 : ws.length ≤ 28
      · rw [if_pos h28] at h
        injection h with h
        subst h
        exact ⟨f1, h28, by omega⟩
      · rw [if_neg h28] at h
        cases h
  · rintro ⟨hw, h28, hl⟩
    rcases List.eq_nil_or_concat argv with rfl | ⟨init, last, rfl⟩
    · rfl
    rw [List.concat_eq_append] at *
    have hsum : ((init ++ [last]).map List.length).sum < 1024 := by
      simp only [List.length_append, List.length_cons, List.length_nil] at hl
      omega
    have hsave : (save_args (init ++ [last])).1 = (saved (init ++ [last]) ++ [10]).take 1023 := by
      unfold save_args
      have := saveLoop_eq (init ++ [last]) 0 [] (by omega)
      rw [List.take_nil] at this
      rw [this]
      rfl
    have htext : saved (init ++ [last]) ++ [10] = (saved init ++ last) ++ [32, 10] := by
      simp [saved]
    have hbody : (saved init ++ last).length ≤ 1023 := by
      have := saved_length (init ++ [last])
      have h2 : (saved (init ++ [last])).length = (saved init ++ last).length + 1 := by
        simp [saved]
        omega
      omega
    rw [hsave, htext, List.take_append, List.take_of_length_le hbody]
    have hlast : PlainWord last := hw last (by simp)
    have hnl : ∀ c ∈ saved init ++ last, c ≠ 10 := by
      intro c hc
      have hb : ¬ IsBlank c ∨ c = 32 := by
        rcases List.mem_append.1 hc with h | h
        · obtain ⟨a, ha, hca⟩ := List.mem_flatMap.1 h
          rcases List.mem_append.1 hca with h | h
          · exact .inl ((hw a (by simp [ha])).2 c h)
          · exact .inr (by simpa using h)
        · exact .inl (hlast.2 c h)
      rcases hb with h | h
      · exact fun e => h (by rw [e]; unfold IsBlank; decide)
      · rw [h]; decide
    obtain ⟨k, hk⟩ : ∃ k, 1023 - (saved init ++ last).length = k := ⟨_, rfl⟩
    rw [hk]
    have hne : saved init ++ last ++ List.take k [32, 10] ≠ [] := by
      intro h
      exact hlast.1 (List.append_eq_nil_iff.1 (List.append_eq_nil_iff.1 h).1).2
    have hfg : fgets 1024 (saved init ++ last ++ List.take k [32, 10]) = some (saved init ++ last ++ List.take k [32, 10]) := by
      refine fgets_plain hne ?_ ?_ rfl
      · rw [List.length_append, List.length_take]
        omega
      · match k with
        | 0 => exact ⟨_, [], by simp, hnl, .inl rfl⟩
        | 1 =>
          refine ⟨saved init ++ last ++ [32], [], by simp, ?_, .inl rfl⟩
          intro c hc
          rcases List.mem_append.1 hc with h | h
          · exact hnl c h
          · rw [List.mem_singleton.1 h]; decide
        | k + 2 =>
          refine ⟨saved init ++ last ++ [32], [10], by simp, ?_, .inr rfl⟩
          intro c hc
          rcases List.mem_append.1 hc with h | h
          · exact hnl c h
          · rw [List.mem_singleton.1 h]; decide
    unfold run_last_args
    rw [hfg]
    simp only
    have htail : ∀ c ∈ List.take k [32, 10], IsBlank c := by
      intro c hc
      have := List.mem_of_mem_take hc
      simp only [List.mem_cons, List.not_mem_nil, or_false] at this
      rcases this with rfl | rfl <;> (unfold IsBlank; decide)
    have hsp : Split (saved init ++ last ++ List.take k [32, 10]) (init ++ [last]) := by
      rw [List.append_assoc]
      refine split_saved init [last] (fun w h => hw w (by simp [h])) (.word last hlast ?_ (split_blanks htail))
      cases hc : List.take k [32, 10] with
      | nil => exact .inl rfl
      | cons c t => exact .inr ⟨c, t, rfl, htail c (by rw [hc]; exact List.mem_cons_self)⟩
    rw [C67_words_partial _ _ hsp, if_pos h28]
    intro w h
    have h1 : w.length ≤ ((init ++ [last]).map List.length).sum :=
      le_sum_lengths h
    omega

/-- **C57** *Restoring never overruns an array, whatever is in the file.* -/
theorem C57_safe (file : Str) : ∃ r, run_last_args file = .ok r := by
  unfold run_last_args
  cases hf : fgets 1024 file with
  | none => exact ⟨_, rfl⟩
  | some l =>
    obtain ⟨ws, hws⟩ := C67_split_exists l
    obtain ⟨_, f2, _⟩ := split_facts hws
    have hl := fgets_length hf
    refine ⟨_, C67_words_partial l ws hws ?_⟩
    intro w hw
    have h1 : w.length ≤ (ws.map List.length).sum :=
      le_sum_lengths hw
    have h2 : 0 < ws.length := List.length_pos_of_mem hw
    omega

/-- A command line that is restored. -/
example : run_last_args (save_args [b!"fwknop", b!"-A", b!"tcp/22", b!"-a", b!"1.2.3.4", b!"-D", b!"host"]).1 =
    .ok (some [b!"fwknop", b!"-A", b!"tcp/22", b!"-a", b!"1.2.3.4", b!"-D", b!"host"]) := by decide

/-- **C57, negative** *An argument with a blank comes back as two; what comes after a newline is lost; an
empty one is lost.* -/
theorem C57_quoted :
    run_last_args (save_args [b!"fwknop", b!"--server-cmd", b!"id root"]).1 =
      .ok (some [b!"fwknop", b!"--server-cmd", b!"id", b!"root"]) ∧
    run_last_args (save_args [b!"fwknop", b!"-C", b!"a" ++ [10] ++ b!"b", b!"-n", b!"host"]).1 =
      .ok (some [b!"fwknop", b!"-C", b!"a"]) ∧
    run_last_args (save_args [b!"fwknop", b!"-U", [], b!"host"]).1 = .ok (some [b!"fwknop", b!"-U", b!"host"]) := by
  decide

/-- **C57, negative** *If the arguments are too long to be saved, then what was saved before is lost, and the
next `--last-cmd` runs with no arguments at all.* -/
theorem C57_lost (argv : List Word) (h : 1024 ≤ (argv.map List.length).sum) :
    (save_args argv).2 = false ∧ run_last_args (save_args argv).1 = .ok (some []) := by
  have key : ∀ (argv : List Word) len line, len < 1024 → 1024 ≤ len + (argv.map List.length).sum →
      saveLoop argv len line = none := by
    intro argv
    induction argv with
    | nil =>
      intro len line hl h
      simp only [List.map_nil, List.sum_nil] at h
      omega
    | cons a as ih =>
      intro len line hl h
      simp only [List.map_cons, List.sum_cons] at h
      rw [saveLoop]
      by_cases hc : len + a.length ≥ 1024
      · rw [if_pos hc]
      · rw [if_neg hc]
        exact ih _ _ (by omega) (by omega)
  unfold save_args
  rw [key argv 0 [] (by decide) (by omega)]
  exact ⟨rfl, rfl⟩

example : 1024 ≤ (([b!"fwknop", List.replicate 1024 65] : List Word).map List.length).sum := by decide +kernel

end Fwknop.Props
