import Verif.Spec.Extcmd
import Verif.Props.Incoming
import Verif.Lemmas.Extcmd

/-!
# Properties of command lines: C66, C67
-/

namespace Fwknop.Props

open Fwknop Spec Res

/-! ## C67: what is executed -/

/-- C67 (part): a command is executed with exactly the words of its text as arguments, and it is not
executed at all if there are more than 28 of them.  What is missing: texts with a word of 1024
characters or more (`C67_long_word`). -/
theorem C67_words_partial (s : List Nat) (ws : List Word) (hs : Split s ws) (hw : ∀ w ∈ ws, w.length < 1024) :
    strtoargv s = .ok (if ws.length ≤ 28 then some ws else none) := by
  have := argvLoop_split hs [] hw (Nat.zero_le _)
  simpa [strtoargv] using this

/-- Every text has words. -/
theorem C67_split_exists (s : List Nat) : ∃ ws, Split s ws := by
  -- the text without its first characters, and with a word before it
  have key : ∀ s : Str, (∃ ws, Split s ws) ∧ ∀ w, PlainWord w → ∃ ws, Split (w ++ s) ws := by
    intro s
    induction s with
    | nil =>
      exact ⟨⟨[], .nil⟩, fun w hw => ⟨[w], .word w hw (.inl rfl) .nil⟩⟩
    | cons c s ih =>
      obtain ⟨⟨ws, h⟩, h2⟩ := ih
      by_cases hc : IsBlank c
      · exact ⟨⟨ws, .blank c hc h⟩, fun w hw => ⟨w :: ws, .word w hw (.inr ⟨c, s, rfl, hc⟩) (.blank c hc h)⟩⟩
      · have hp : PlainWord [c] := ⟨by simp, by simpa using hc⟩
        refine ⟨?_, fun w hw => ?_⟩
        · simpa using h2 [c] hp
        · have := h2 (w ++ [c]) ⟨by simp, by
            intro x hx
            rcases List.mem_append.1 hx with hx | hx
            · exact hw.2 x hx
            · exact hp.2 x hx⟩
          simpa using this
  exact (key s).1

example : strtoargv b!"/bin/sh  -c id" = .ok (some [b!"/bin/sh", b!"-c", b!"id"]) := by
  have h : Split b!"/bin/sh  -c id" [b!"/bin/sh", b!"-c", b!"id"] := by
    refine .word b!"/bin/sh" (s := b!"  -c id") ⟨by decide, by unfold IsBlank; decide⟩
      (.inr ⟨32, b!" -c id", rfl, by unfold IsBlank; decide⟩) (.blank 32 (by unfold IsBlank; decide)
      (.blank 32 (by unfold IsBlank; decide) (.word b!"-c" (s := b!" id") ⟨by decide, by unfold IsBlank; decide⟩
        (.inr ⟨32, b!"id", rfl, by unfold IsBlank; decide⟩) (.blank 32 (by unfold IsBlank; decide)
          (.word b!"id" (s := []) ⟨by decide, by unfold IsBlank; decide⟩ (.inl rfl) .nil)))))
  exact C67_words_partial _ _ h (by decide)

theorem argvLoop_overflow (w rest cur : Str) (argv : List Str) (h : ∀ c ∈ w, isSpace c = false)
    (hl : cur.length ≤ 1024) (hw : cur.length + w.length > 1024) : argvLoop (w ++ rest) cur argv = .ub := by
  induction w generalizing cur with
  | nil => simp only [List.length_nil] at hw; omega
  | cons c w ih =>
    simp only [List.length_cons] at hw
    rw [List.cons_append, argvLoop, h c List.mem_cons_self]
    simp only [Bool.not_false, if_true]
    by_cases hc : cur.length ≥ 1024
    · rw [show decide (cur.length ≥ MAX_ARGS_LINE_LEN) = true from decide_eq_true hc]; rfl
    · rw [show decide (cur.length ≥ MAX_ARGS_LINE_LEN) = false from decide_eq_false hc, mem_false, bind_ok]
      exact ih (cur ++ [c]) (fun d hd => h d (List.mem_cons_of_mem _ hd)) (by simp; omega) (by simp; omega)

/-- C67 is false: a word of 1024 characters or more is written past the end of the array for words,
whatever follows. -/
theorem C67_long_word (w rest : List Nat) (hw : PlainWord w) (hl : 1024 ≤ w.length) : strtoargv (w ++ rest) = .ub := by
  by_cases hgt : 1024 < w.length
  · exact argvLoop_overflow w rest [] [] (word_nonblank hw) (Nat.zero_le _) (by simpa using hgt)
  · have hend : endArg [] w = .ub := by
      rw [endArg, if_neg hw.1, show decide (w.length ≥ MAX_ARGS_LINE_LEN) = true from decide_eq_true hl]; rfl
    rw [strtoargv, argvLoop_word w rest [] [] (word_nonblank hw) (show 0 + w.length < 1025 by omega), List.nil_append]
    cases rest with
    | nil => rw [argvLoop, hend]
    | cons c rest =>
      rw [argvLoop]
      cases isSpace c with
      | true => simp only [Bool.not_true, Bool.false_eq_true, if_false]; rw [hend, bind_ub]
      | false =>
        simp only [Bool.not_false, if_true]
        rw [show decide (w.length ≥ MAX_ARGS_LINE_LEN) = true from decide_eq_true hl]; rfl

example (n : Nat) (h : n = 1024) : strtoargv (List.replicate n 97 ++ b!" b") = .ub :=
  C67_long_word _ _ ⟨by intro h0; have := congrArg List.length h0; simp at this; omega,
    by intro c hc; rw [(List.mem_replicate.1 hc).2]; unfold IsBlank; decide⟩ (by rw [List.length_replicate]; omega)

/-! ## C66: sudo -/

theorem split_plain (w : Word) (hw : PlainWord w) {s : Str} {ws : List Word} (h : Split s ws) :
    Split (w ++ 32 :: s) (w :: ws) :=
  .word w hw (.inr ⟨32, s, rfl, by unfold IsBlank; decide⟩) (.blank 32 (by unfold IsBlank; decide) h)

/-- C66 (part): a command that is run through sudo gets there with the configured user and group, if
both are configured, along with CMD_EXEC_GROUP, and do not start with "root", and if the first word of
the message does not start with a hyphen (and the sizes are within the limits).  What is missing: the
other configurations and messages (`C66_group_ignored`, `C66_option_in_message`). -/
theorem C66_sudo_partial {conf : Conf} {E : Env} {now : Int} {p : Pkt} {open_ok : Nat → Bool}
    {sv sv' : Server} {effs : List Effect} (hk : ∀ acc ∈ sv.stanzas, KeysOk acc)
    (h : incoming_spa conf E now p open_ok sv = .ok (sv', effs)) {n : Nat} {cmd : Str} {ids : Option (Nat × Nat)}
    (he : Effect.command n cmd ids ∈ effs) :
    ∃ acc text proxy c ip rest, Cause conf E p sv (.command n cmd ids) acc text proxy c ip rest ∧
      (acc.enable_cmd_sudo_exec = true → ∀ u g ws w, acc.cmd_sudo_exec_user = some u → ¬ IsRoot u →
        acc.cmd_sudo_exec_group = some g → ¬ IsRoot g → acc.cmd_exec_group ≠ none →
        PlainWord conf.sudo_exe → PlainWord u → PlainWord g → conf.sudo_exe.length < 1024 → u.length < 1024 →
        g.length < 1024 → conf.sudo_exe.length + u.length + g.length + rest.length + 9 < 1400 →
        Split rest (w :: ws) → w.head? ≠ some 45 → (∀ x ∈ w :: ws, x.length < 1024) → ws.length ≤ 22 →
        ∃ args, strtoargv cmd = .ok (some (conf.sudo_exe :: args)) ∧
          sudoReads none none args = ⟨some u, some g, w :: ws⟩) := by
  obtain ⟨acc, text, proxy, c, ip, rest, hc, hcmd, _⟩ := C37_command_partial hk h he
  refine ⟨acc, text, proxy, c, ip, rest, hc, ?_⟩
  obtain ⟨_, _, _, _, hsudo, _⟩ := hcmd n cmd ids rfl
  intro hs u g ws w hu hnu hg hng hgg hpe hpu hpg hle hlu hlg hl hsp hhead hlen hn
  refine ⟨b!"-u" :: u :: b!"-g" :: g :: w :: ws, ?_, ?_⟩
  · rw [hsudo hs u g hu hnu hg hng hgg hl]
    have hsplit : Split (conf.sudo_exe ++ b!" -u " ++ u ++ b!" -g " ++ g ++ b!" " ++ rest)
        (conf.sudo_exe :: b!"-u" :: u :: b!"-g" :: g :: w :: ws) := by
      have := split_plain _ hpe (split_plain b!"-u" ⟨by decide, by unfold IsBlank; decide⟩ (split_plain _ hpu
        (split_plain b!"-g" ⟨by decide, by unfold IsBlank; decide⟩ (split_plain _ hpg hsp))))
      simpa using this
    rw [C67_words_partial _ _ hsplit, if_pos (by simp only [List.length_cons]; omega)]
    intro x hx
    simp only [List.mem_cons] at hx
    rcases hx with rfl | rfl | rfl | rfl | rfl | hx
    · exact hle
    · decide
    · exact hlu
    · decide
    · exact hlg
    · exact hlen x (List.mem_cons.2 hx)
  · have hne : ∀ o : Word, o.head? = some 45 → w ≠ o := fun o ho he => hhead (he ▸ ho)
    cases ws with
    | nil => simp [sudoReads]
    | cons x ws =>
      simp only [sudoReads]
      simp [hne b!"-u" rfl, hne b!"-g" rfl]

/-- The text of a packet with the command `-u root id`. -/
def optionText : Str :=
  (match packed b!"mbr" 1700000000 none [.set (.msgType 0), .set (.message b!"5.6.7.8,-u root id")] with
    | .ok (some t) => t
    | _ => [])

abbrev sudoConf : Conf := { sudo_exe := b!"/usr/bin/sudo" }

/-- C66 is false: with CMD_SUDO_EXEC_USER `nobody`, the message `-u root id` makes sudo run `id` as
root. -/
theorem C66_option_in_message :
    effectsOf sudoConf [sudoStanza] optionText =
      .ok [.command 1 b!"/usr/bin/sudo -u nobody -g nogroup -u root id" (some (1001, 1002))] ∧
    strtoargv b!"/usr/bin/sudo -u nobody -g nogroup -u root id" = .ok (some [b!"/usr/bin/sudo", b!"-u", b!"nobody",
      b!"-g", b!"nogroup", b!"-u", b!"root", b!"id"]) ∧
    sudoReads none none [b!"-u", b!"nobody", b!"-g", b!"nogroup", b!"-u", b!"root", b!"id"] =
      ⟨some b!"root", some b!"nogroup", [b!"id"]⟩ := by
  refine ⟨?_, ?_, ?_⟩ <;> decide +kernel

/-- C66 is false: CMD_SUDO_EXEC_GROUP is ignored if CMD_EXEC_GROUP is not set. -/
theorem C66_group_ignored :
    effectsOf sudoConf [{ sudoStanza with cmd_exec_group := none }] cmdText =
      .ok [.command 1 b!"/usr/bin/sudo -u nobody id" (some (1001, 1002))] := by decide +kernel

end Fwknop.Props
