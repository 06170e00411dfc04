import Verif.Lemmas.Proc
import Verif.Props.Extcmd
import Verif.Props.Client

/-!
# C112: what the daemon knows of a command that it runs is what the command did

The full claim: a command is started with the words of its text, on behalf of the configured user and group
and nobody else; what it prints is what the daemon reads, as far as it fits, and a text that is looked for is
found if and only if a line has it; and the daemon is told whether the command did its work.  The last part
is false in several ways.
-/

namespace Fwknop.Props

open Spec Res

theorem pipeOut_is (e : Bool) : ∀ ws : List (Bool × Str), pipeOut e ws = printed e ws
  | [] => rfl
  | (x, s) :: ws => by
    have ih := pipeOut_is e ws
    unfold pipeOut at ih ⊢
    unfold printed
    rw [← ih]
    cases x <;> cases e <;> simp

/-- All calls succeed. -/
def AllWell {σ : Type} (O : Os σ) : Prop := O.pipe = true ∧ O.fork = true ∧ O.fdopen = true

theorem run_is {σ : Type} {O : Os σ} (hO : AllWell O) {uid gid : Nat} {cmd : Str} {a : ExtArgs} {w : σ} {ws : List Word}
    (hs : Split cmd ws) (hw : ∀ x ∈ ws, x.length < 1024) (hn : ws.length ≤ 28) (ha : a.so_buf ≠ some 0) :
    _run_extcmd O uid gid cmd a w =
      (let c := extChild O uid gid ws w
       let out := printed a.want_stderr c.1.writes
       let x := if a.so_buf.isSome || a.search.isSome then extLoop a (outLines (out.length + 1) out) [] 0 else ([], 0, false, true)
       let status := c.1.ends x.2.2.2
       .ok (⟨if a.search.isSome then (if x.2.2.1 then x.2.1 else 0) else if status.isSome then 0 else 16,
         if a.allow_partial then x.1 else truncate_partial_line x.1, status⟩, c.2)) := by
  unfold _run_extcmd
  rw [C67_words_partial cmd ws hs hw, if_pos hn, bind_ok]
  dsimp only
  rw [hO.1, hO.2.1, hO.2.2, Bool.not_true, Bool.and_false, if_neg (by decide), if_neg (by decide), if_neg (by decide),
    show decide (a.so_buf = some 0) = false from decide_eq_false ha, mem_false, bind_ok, pipeOut_is]
  rfl

/-- The credentials with which the program of a command runs. -/
def runsAs {σ : Type} (O : Os σ) (uid gid : Nat) : Cred :=
  ⟨if uid > 0 then uid else O.self.uid, if gid > 0 then gid else O.self.gid, O.self.groups⟩

theorem child_is {σ : Type} {O : Os σ} (hc : O.chdir = true) {uid gid : Nat} (hg : gid > 0 → O.setgid gid = true)
    (hu : uid > 0 → O.setuid uid = true) (argv : List Str) (w : σ) :
    extChild O uid gid argv w = (match O.exec argv (runsAs O uid gid) w with
      | none => (.exit (-1), w)
      | some r => r) := by
  unfold extChild
  rw [hc, Bool.not_true, if_neg (by decide), if_neg (by rintro ⟨h1, h2⟩; rw [hg h1] at h2; cases h2)]
  dsimp only
  rw [if_neg (by rintro ⟨h1, h2⟩; rw [hu h1] at h2; cases h2)]
  have : (if uid > 0 then { (if gid > 0 then { O.self with gid := gid } else O.self) with uid := uid } else
      if gid > 0 then { O.self with gid := gid } else O.self) = runsAs O uid gid := by
    unfold runsAs
    by_cases h1 : uid > 0 <;> by_cases h2 : gid > 0 <;> simp [h1, h2]
  rw [this]
  cases O.exec argv (runsAs O uid gid) w <;> rfl

/-! ## What is read -/

/-- **C112.** The output that the daemon reads is what the program printed: all of it if it fits and ends with
the end of a line, and otherwise the whole lines that fit.  The program ends as it wants if all of its output
fits.  (A text without NUL; the number of the words of the command is at most 28.) -/
theorem C112_output {σ : Type} {O : Os σ} (hO : AllWell O) (hc : O.chdir = true) {cmd : List Nat} {ws : List Word} (hs : Split cmd ws)
    (hw : ∀ x ∈ ws, x.length < 1024) (hn : ws.length ≤ 28) {size : Nat} (hsize : 1 ≤ size) {stderr : Bool} {w w' : σ} {p : Running}
    (hx : O.exec ws O.self w = some (p, w')) (h0 : 0 ∉ printed stderr p.writes) :
    ∃ r, _run_extcmd O 0 0 cmd { so_buf := some size, want_stderr := stderr } w = .ok (r, w') ∧
      Kept (printed stderr p.writes) (size - 1) r.buf ∧ (r.ret = 0 ↔ r.status.isSome = true) ∧
      (printed stderr p.writes = [] ∨ (printed stderr p.writes).length < size - 1 → r.status = p.ends true) := by
  obtain ⟨n, rfl⟩ : ∃ n, size = n + 1 := ⟨size - 1, by omega⟩
  rw [run_is hO hs hw hn (by simp), child_is hc (by simp) (by simp)]
  have hself : runsAs O 0 0 = O.self := rfl
  rw [hself, hx]
  dsimp only
  generalize printed stderr p.writes = out at h0 ⊢
  obtain ⟨h1, h2⟩ := extLoop_fill (a := { so_buf := some (n + 1), want_stderr := stderr }) rfl rfl rfl (outLines (out.length + 1) out) [] 0
    (fun l hl => ⟨(outLines_chunk _ _ l hl).1, fun h => h0 ((outLines_chunk _ _ l hl).2.2 0 h)⟩) (by
      cases n with
      | zero => exact Or.inr ⟨rfl, rfl⟩
      | succ n => exact Or.inl (Nat.succ_pos _))
  rw [outLines_flatten _ _ (by omega), List.nil_append] at h1 h2
  refine ⟨_, rfl, ?_, ?_, ?_⟩
  · show Kept out (n + 1 - 1) (truncate_partial_line (extLoop _ _ [] 0).1)
    rw [h1]
    exact truncate_kept _ _
  · show (if _ then _ else _ : Int) = 0 ↔ _
    simp only [Option.isSome_some, Option.isSome_none, Bool.true_or, if_true, Bool.false_eq_true, if_false]
    split
    · rename_i h; simp [h]
    · rename_i h; simp [h]
  · intro h
    simp only [Option.isSome_some, Bool.true_or, if_true]
    rw [h2.mpr (by
      rcases h with h | h
      · rw [h]; exact Or.inl rfl
      · exact Or.inr h)]

/-- **C112.** Nothing that a program prints makes the daemon write outside its buffer. -/
theorem C112_any_output_is_safe {σ : Type} (O : Os σ) (uid gid : Nat) {cmd : List Nat} (hw : ∀ ws, Split cmd ws → ∀ x ∈ ws, x.length < 1024)
    {a : ExtArgs} (ha : a.so_buf ≠ some 0) (w : σ) :
    ∃ r w', _run_extcmd O uid gid cmd a w = .ok (r, w') ∧ ∀ size, a.so_buf = some size → r.buf.length < size := by
  obtain ⟨ws, hs⟩ := C67_split_exists cmd
  have h1 := C67_words_partial cmd ws hs (hw ws hs)
  have hpos : ∀ size, a.so_buf = some size → ([] : Str).length < size := by
    intro size h
    cases size with
    | zero => exact absurd h ha
    | succ n => exact Nat.succ_pos _
  unfold _run_extcmd
  rw [h1, bind_ok]
  by_cases hn : ws.length ≤ 28
  · rw [if_pos hn]
    dsimp only
    split
    · exact ⟨_, _, rfl, hpos⟩
    · split
      · exact ⟨_, _, rfl, hpos⟩
      · split
        · exact ⟨_, _, rfl, hpos⟩
        · rw [show decide (a.so_buf = some 0) = false from decide_eq_false ha, mem_false, bind_ok]
          refine ⟨_, _, rfl, fun size hsz => ?_⟩
          have hfit : ∀ ls, (extLoop a ls [] 0).1.length < size := by
            intro ls
            obtain ⟨n, rfl⟩ : ∃ n, size = n + 1 := ⟨size - 1, by have := hpos size hsz; omega⟩
            exact Nat.lt_succ_of_le (extLoop_fits hsz ls [] 0 (Nat.zero_le _))
          have htr : ∀ s : Str, (truncate_partial_line s).length ≤ s.length := by
            intro s
            unfold truncate_partial_line
            split
            · rw [List.length_reverse]
              refine Nat.le_trans (List.dropWhile_suffix _).length_le ?_
              rw [List.length_reverse]
              exact Nat.le_refl _
            · exact Nat.le_refl _
          simp only [hsz, Option.isSome_some, Bool.true_or, if_true]
          split
          · exact hfit _
          · exact Nat.lt_of_le_of_lt (htr _) (hfit _)
  · rw [if_neg hn]
    exact ⟨_, _, rfl, hpos⟩

/-! ## What is looked for -/

/-- **C112 (partial: lines of at most 254 characters; `C112_false_for_long_lines`).** A text is found in the
output if and only if a line has it, and what is returned is the number of the first such line. -/
theorem C112_search_partial {σ : Type} {O : Os σ} (hO : AllWell O) (hc : O.chdir = true) {cmd : List Nat} {ws : List Word} (hs : Split cmd ws)
    (hw : ∀ x ∈ ws, x.length < 1024) (hn : ws.length ≤ 28) {stderr : Bool} {w w' : σ} {p : Running}
    (hx : O.exec ws O.self w = some (p, w')) {ls : List (List Nat)} (hl : ShortLines ls) (ho : printed stderr p.writes = linesText ls)
    {t : List Nat} (ht : 10 ∉ t) :
    ∃ (r : ExtRet) (n : Nat), _run_extcmd O 0 0 cmd { so_buf := none, want_stderr := stderr, search := some t } w = .ok (r, w') ∧
      r.ret = n ∧ FirstLine t ls n := by
  rw [run_is hO hs hw hn (by simp), child_is hc (by simp) (by simp), show runsAs O 0 0 = O.self from rfl, hx]
  dsimp only
  rw [ho, outLines_text ls _ hl (by omega)]
  simp only [Option.isSome_none, Option.isSome_some, Bool.or_true, if_true, Bool.false_eq_true, if_false]
  rcases extLoop_search (a := { so_buf := none, want_stderr := stderr, search := some t }) rfl ht (Or.inl rfl) ls [] 0 hl with
    ⟨h1, h2, h3⟩ | ⟨before, l, after, he, h1, h2, h3, h4⟩
  · refine ⟨_, 0, rfl, ?_, Or.inl ⟨rfl, h3⟩⟩
    dsimp only
    rw [h1]
    rfl
  · refine ⟨_, before.length + 1, rfl, ?_, Or.inr ⟨before, l, after, he, rfl, h1, h2⟩⟩
    dsimp only
    rw [h3]
    dsimp only
    rw [if_pos rfl]
    omega

/-- **C112 (partial: lines of at most 254 characters).** When the line is asked for as well, it is in the
buffer, with its end. -/
theorem C112_getline_partial {σ : Type} {O : Os σ} (hO : AllWell O) (hc : O.chdir = true) {cmd : List Nat} {ws : List Word} (hs : Split cmd ws)
    (hw : ∀ x ∈ ws, x.length < 1024) (hn : ws.length ≤ 28) {w w' : σ} {p : Running} {stderr : Bool}
    (hx : O.exec ws O.self w = some (p, w')) {ls : List (List Nat)} (hl : ShortLines ls) (ho : printed stderr p.writes = linesText ls)
    {t : List Nat} (ht : 10 ∉ t) {size : Nat} (hsize : 256 ≤ size) :
    ∃ (r : ExtRet) (n : Nat), _run_extcmd O 0 0 cmd { so_buf := some size, want_stderr := stderr, getline := true, search := some t } w = .ok (r, w') ∧
      r.ret = n ∧ FirstLine t ls n ∧ ∀ i, n = i + 1 → ∃ l, ls[i]? = some l ∧ r.buf = l ++ [10] := by
  rw [run_is hO hs hw hn (by simp; omega), child_is hc (by simp) (by simp), show runsAs O 0 0 = O.self from rfl, hx]
  dsimp only
  rw [ho, outLines_text ls _ hl (by omega)]
  simp only [Option.isSome_some, Bool.or_true, if_true, Bool.false_eq_true, if_false]
  rcases extLoop_search (a := { so_buf := some size, want_stderr := stderr, getline := true, search := some t }) rfl ht (Or.inr rfl) ls [] 0 hl with
    ⟨h1, h2, h3⟩ | ⟨before, l, after, he, h1, h2, h3, h4⟩
  · refine ⟨_, 0, rfl, ?_, Or.inl ⟨rfl, h3⟩, by omega⟩
    dsimp only
    rw [h1]
    rfl
  · refine ⟨_, before.length + 1, rfl, ?_, Or.inr ⟨before, l, after, he, rfl, h1, h2⟩, ?_⟩
    · dsimp only
      rw [h3]
      dsimp only
      rw [if_pos rfl]
      omega
    · intro i hi
      have : i = before.length := by omega
      subst this
      refine ⟨l, by rw [he]; simp, ?_⟩
      dsimp only
      rw [h4 size rfl]
      have hlen := (hl l (by rw [he]; simp)).2.2
      rw [show strlcpy (l ++ [10]) size = l ++ [10] from List.take_of_length_le (by simp; omega)]
      unfold truncate_partial_line
      rw [if_pos (by simp), List.reverse_append]
      simp

/-! ## On whose behalf -/

/-- **C112.** A command is run by one program, with the words of its text, on behalf of the user and the group
that were asked for: what any other program would do, or the same one on behalf of somebody else, makes no
difference. -/
theorem C112_runs_as {σ : Type} (O : Os σ) (exec' : List Word → Cred → σ → Option (Running × σ)) {uid gid : Nat} {cmd : List Nat}
    {ws : List Word} (hs : Split cmd ws) (hw : ∀ x ∈ ws, x.length < 1024) (a : ExtArgs) (w : σ)
    (h : exec' ws ⟨if uid > 0 then uid else O.self.uid, if gid > 0 then gid else O.self.gid, O.self.groups⟩ w =
      O.exec ws ⟨if uid > 0 then uid else O.self.uid, if gid > 0 then gid else O.self.gid, O.self.groups⟩ w) :
    _run_extcmd { O with exec := exec' } uid gid cmd a w = _run_extcmd O uid gid cmd a w := by
  have hchild : extChild { O with exec := exec' } uid gid ws w = extChild O uid gid ws w := by
    by_cases hc : O.chdir = true
    · by_cases hg : gid > 0 → O.setgid gid = true
      · by_cases hu : uid > 0 → O.setuid uid = true
        · rw [child_is (O := { O with exec := exec' }) hc hg hu, child_is hc hg hu]
          have : exec' ws (runsAs O uid gid) w = O.exec ws (runsAs O uid gid) w := h
          show (match exec' ws (runsAs O uid gid) w with | none => _ | some r => r) = _
          rw [this]
        · unfold extChild
          have hu' : uid > 0 ∧ (!O.setuid uid) = true := by
            refine ⟨Decidable.byContradiction fun h' => hu fun h'' => absurd h'' h', ?_⟩
            cases hx : O.setuid uid with
            | false => rfl
            | true => exact absurd (fun _ => hx) hu
          dsimp only
          rw [if_pos hu', if_pos hu']
      · unfold extChild
        have hg' : gid > 0 ∧ (!O.setgid gid) = true := by
          refine ⟨Decidable.byContradiction fun h' => hg fun h'' => absurd h'' h', ?_⟩
          cases hx : O.setgid gid with
          | false => rfl
          | true => exact absurd (fun _ => hx) hg
        dsimp only
        rw [if_pos hg', if_pos hg']
    · unfold extChild
      have : (!O.chdir) = true := by simpa using hc
      dsimp only
      rw [if_pos this, if_pos this]
  unfold _run_extcmd
  rw [C67_words_partial cmd ws hs hw, bind_ok, bind_ok]
  by_cases hn : ws.length ≤ 28
  · rw [if_pos hn]
    dsimp only
    rw [hchild]
  · rw [if_neg hn]

/-- **C112.** If the user or the group cannot be taken on, or there is no way to the root directory, no program
is run. -/
theorem C112_no_program_without_the_user {σ : Type} {O : Os σ} {uid gid : Nat}
    (h : O.chdir = false ∨ (gid > 0 ∧ O.setgid gid = false) ∨ (uid > 0 ∧ O.setuid uid = false)) {cmd : List Nat} {a : ExtArgs} {w w' : σ}
    {r : ExtRet} (hr : _run_extcmd O uid gid cmd a w = .ok (r, w')) : w' = w := by
  have hchild : ∀ argv, (extChild O uid gid argv w).2 = w := by
    intro argv
    unfold extChild
    split
    · rfl
    · rename_i h1
      split
      · rfl
      · rename_i h2
        dsimp only
        split
        · rfl
        · rename_i h3
          rcases h with h | h | h
          · exact absurd (by rw [h]; rfl) h1
          · exact absurd ⟨h.1, by rw [h.2]; rfl⟩ h2
          · exact absurd ⟨h.1, by rw [h.2]; rfl⟩ h3
  unfold _run_extcmd at hr
  obtain ⟨x, -, hr⟩ := bind_eq_ok hr
  split at hr
  · exact ((Prod.mk.inj (Res.ok.inj hr)).2).symm
  · dsimp only at hr
    split at hr
    · exact ((Prod.mk.inj (Res.ok.inj hr)).2).symm
    · split at hr
      · exact ((Prod.mk.inj (Res.ok.inj hr)).2).symm
      · split at hr
        · rw [← (Prod.mk.inj (Res.ok.inj hr)).2, hchild]
        · obtain ⟨_, -, hr⟩ := bind_eq_ok hr
          rw [← (Prod.mk.inj (Res.ok.inj hr)).2, hchild]

/-! ## The model of the callers -/

/-- **C112.** The models of the firewalls use a simpler description of a program (`Tool`): words and a world to
a text and an end.  It says the same, for programs that are run by root, print no NUL, and end in the same way
(or rather, are ended by a signal or not) whether or not all of their output is read. -/
theorem C112_run_extcmd_is_sound {σ : Type} {O : Os σ} (hO : AllWell O) (hc : O.chdir = true) {T : Tool σ} {stderr : Bool}
    (hT : ∀ argv w, ∃ p, O.exec argv O.self w = some (p, (T.exec argv w).2) ∧ printed stderr p.writes = (T.exec argv w).1.out ∧
      0 ∉ (T.exec argv w).1.out ∧ ∀ b, (p.ends b).isSome = (T.exec argv w).1.exited)
    {cmd : List Nat} (hw : ∀ ws, Split cmd ws → ∀ x ∈ ws, x.length < 1024) {size : Nat} (hsize : 1 ≤ size) (w : σ) :
    ∃ r w' b, _run_extcmd O 0 0 cmd { so_buf := some size, want_stderr := stderr } w = .ok (r, w') ∧
      run_extcmd T cmd size w = .ok (⟨b, r.buf⟩, w') ∧ (b = true ↔ r.ret = 0) := by
  obtain ⟨ws, hs⟩ := C67_split_exists cmd
  have h1 := C67_words_partial cmd ws hs (hw ws hs)
  by_cases hn : ws.length ≤ 28
  · obtain ⟨p, hp, hout, h0, hend⟩ := hT ws w
    obtain ⟨n, rfl⟩ : ∃ n, size = n + 1 := ⟨size - 1, by omega⟩
    rw [run_is hO hs (hw ws hs) hn (by simp), child_is hc (by simp) (by simp), show runsAs O 0 0 = O.self from rfl, hp]
    dsimp only
    rw [hout]
    obtain ⟨h2, -⟩ := extLoop_fill (a := { so_buf := some (n + 1), want_stderr := stderr }) rfl rfl rfl
      (outLines ((T.exec ws w).1.out.length + 1) (T.exec ws w).1.out) [] 0
      (fun l hl => ⟨(outLines_chunk _ _ l hl).1, fun h => h0 ((outLines_chunk _ _ l hl).2.2 0 h)⟩) (by
        cases n with
        | zero => exact Or.inr ⟨rfl, rfl⟩
        | succ n => exact Or.inl (Nat.succ_pos _))
    rw [outLines_flatten _ _ (by omega), List.nil_append] at h2
    simp only [Option.isSome_some, Option.isSome_none, Bool.true_or, if_true, Bool.false_eq_true, if_false]
    refine ⟨_, _, (T.exec ws w).1.exited, rfl, ?_, ?_⟩
    · unfold run_extcmd
      rw [h1, if_pos hn, bind_ok]
      dsimp only
      rw [h2]
      rfl
    · dsimp only
      rw [hend]
      cases (T.exec ws w).1.exited <;> simp
  · refine ⟨⟨-6, [], some 0⟩, w, false, ?_, ?_, by simp⟩
    · unfold _run_extcmd
      rw [h1, if_neg hn, bind_ok]
      rfl
    · unfold run_extcmd
      rw [h1, if_neg hn, bind_ok]
      rfl

theorem any_search {a : ExtArgs} {t : Str} (hs : a.search = some t) (ha : a.so_buf = none) :
    ∀ (ls : List Str) (buf : Str) (k : Nat), (∀ l ∈ ls, 0 ∉ l) → (extLoop a ls buf k).2.2.1 =
      ls.any (fun l => !isEmptyLine (l.headD 0) && strIn l t)
  | [], _, _, _ => rfl
  | l :: ls, buf, k, h0 => by
    rw [extLoop, List.any_cons]
    unfold copy_or_search
    rw [ha, hs, takeWhile_ne_self _ _ (h0 l List.mem_cons_self)]
    dsimp only
    by_cases hx : (!isEmptyLine (l.headD 0) && strIn l t) = true
    · simp only [hx, if_true, Bool.true_or]
    · rw [Bool.not_eq_true] at hx
      simp only [hx, Bool.false_eq_true, if_false, Bool.false_or]
      exact any_search hs ha ls _ _ fun l hl => h0 l (List.mem_cons_of_mem _ hl)

/-- **C112.** So does the one of `search_extcmd`, which only says whether a line was found. -/
theorem C112_search_extcmd_is_sound {σ : Type} {O : Os σ} (hO : AllWell O) (hc : O.chdir = true) {T : Tool σ} {stderr : Bool}
    (hT : ∀ argv w, ∃ p, O.exec argv O.self w = some (p, (T.exec argv w).2) ∧ printed stderr p.writes = (T.exec argv w).1.out ∧
      0 ∉ (T.exec argv w).1.out)
    {cmd t : List Nat} (hw : ∀ ws, Split cmd ws → ∀ x ∈ ws, x.length < 1024) (w : σ) :
    ∃ r w' b, _run_extcmd O 0 0 cmd { so_buf := none, want_stderr := stderr, search := some t } w = .ok (r, w') ∧
      search_extcmd T cmd t w = .ok (b, w') ∧ (b = true ↔ r.ret > 0) := by
  obtain ⟨ws, hs⟩ := C67_split_exists cmd
  have h1 := C67_words_partial cmd ws hs (hw ws hs)
  by_cases hn : ws.length ≤ 28
  · obtain ⟨p, hp, hout, h0⟩ := hT ws w
    rw [run_is hO hs (hw ws hs) hn (by simp), child_is hc (by simp) (by simp), show runsAs O 0 0 = O.self from rfl, hp]
    dsimp only
    rw [hout]
    have hpos : ∀ (ls : List Str) (a : ExtArgs) (buf : Str) (k : Nat), (extLoop a ls buf k).2.2.1 = true → 0 < (extLoop a ls buf k).2.1 := by
      intro ls a
      induction ls with
      | nil => intro buf k h; cases h
      | cons l ls ih =>
        intro buf k h
        rw [extLoop] at h ⊢
        by_cases hb : (copy_or_search a l buf).2.2 = true
        · rw [if_pos hb]
          exact Nat.succ_pos _
        · rw [if_neg hb] at h ⊢
          exact ih _ _ h
    simp only [Option.isSome_some, Option.isSome_none, Bool.or_true, if_true]
    refine ⟨_, _, (outLines ((T.exec ws w).1.out.length + 1) (T.exec ws w).1.out).any fun l => !isEmptyLine (l.headD 0) && strIn l t, rfl, ?_, ?_⟩
    · unfold search_extcmd
      rw [h1, if_pos hn, bind_ok]
      rfl
    · rw [← any_search (a := { so_buf := none, want_stderr := stderr, search := some t }) rfl rfl _ [] 0
        fun l hl h => h0 ((outLines_chunk _ _ l hl).2.2 0 h)]
      dsimp only
      constructor
      · intro h
        rw [if_pos h]
        exact Int.natCast_pos.mpr (hpos _ _ _ _ h)
      · intro h
        refine Decidable.byContradiction fun hf => ?_
        rw [if_neg hf] at h
        omega
  · refine ⟨⟨-6, [], some 0⟩, w, false, ?_, ?_, by simp⟩
    · unfold _run_extcmd
      rw [h1, if_neg hn, bind_ok]
      rfl
    · unfold search_extcmd
      rw [h1, if_neg hn, bind_ok]
      rfl

/-! ## What is false -/

/-- An operating system on which there is one program, which prints this and ends so. -/
def oneProgram (name out : List Nat) (ends : Bool → Option Nat) : Os Nat where
  exec argv cred w := if argv.head? = some name then some (⟨[(false, out)], ends⟩, w + 1 + cred.groups.length) else none

/-- `iptables -L X` prints two rules. -/
example : _run_extcmd (oneProgram b!"iptables" b!"num target\n1 ACCEPT\n" fun _ => some 0) 0 0 b!"iptables -L X" { so_buf := some 256, want_stderr := true } 5 =
      .ok (⟨0, b!"num target\n1 ACCEPT\n", some 0⟩, 7) ∧
    _run_extcmd (oneProgram b!"iptables" b!"num target\n1 ACCEPT\n" fun _ => some 0) 0 0 b!"iptables -L X" { so_buf := some 16, want_stderr := true } 5 =
      .ok (⟨0, b!"num target\n", some 0⟩, 7) ∧
    _run_extcmd (oneProgram b!"iptables" b!"num target\n1 ACCEPT\n" fun _ => some 0) 0 0 b!"iptables -L X"
      { so_buf := none, want_stderr := true, search := some b!" ACC" } 5 = .ok (⟨2, [], some 0⟩, 7) ∧
    _run_extcmd (oneProgram b!"iptables" b!"num target\n1 ACCEPT\n" fun _ => some 0) 0 0 b!"iptables -L X"
      { so_buf := some 256, want_stderr := true, getline := true, search := some b!" ACC" } 5 = .ok (⟨2, b!"1 ACCEPT\n", some 0⟩, 7) := by
  decide +kernel

example : AllWell (oneProgram b!"iptables" b!"num target\n1 ACCEPT\n" fun _ => some 0) ∧ ShortLines [b!"num target", b!"1 ACCEPT"] ∧
    printed true [(false, b!"num target\n1 ACCEPT\n")] = linesText [b!"num target", b!"1 ACCEPT"] := by
  refine ⟨⟨rfl, rfl, rfl⟩, ?_, by decide⟩
  unfold ShortLines
  decide

/-- **C112 fails for programs that are not there**: whatever the command, if `execvp` fails, the daemon is told
that all went well. -/
theorem C112_false_for_missing_programs {σ : Type} {O : Os σ} (hO : AllWell O) (hc : O.chdir = true) {cmd : List Nat} {ws : List Word}
    (hs : Split cmd ws) (hw : ∀ x ∈ ws, x.length < 1024) (hn : ws.length ≤ 28) (w : σ) (hx : O.exec ws O.self w = none) :
    _run_extcmd O 0 0 cmd { so_buf := some 256, want_stderr := true } w = .ok (⟨0, [], some 255⟩, w) := by
  rw [run_is hO hs hw hn (by simp), child_is hc (by simp) (by simp), show runsAs O 0 0 = O.self from rfl, hx]
  rfl

/-- **C112 fails for users that cannot be taken on**: the command of a SPA packet is not run, and the daemon is
told that all went well. -/
theorem C112_false_for_refused_users {σ : Type} {O : Os σ} (hO : AllWell O) (hc : O.chdir = true) {uid : Nat} (hu : uid > 0)
    (hf : O.setuid uid = false) {cmd : List Nat} {ws : List Word} (hs : Split cmd ws) (hw : ∀ x ∈ ws, x.length < 1024)
    (hn : ws.length ≤ 28) (w : σ) :
    _run_extcmd O uid 0 cmd { so_buf := none, want_stderr := true } w = .ok (⟨0, [], some 252⟩, w) := by
  have hchild : extChild O uid 0 ws w = (.exit (-4), w) := by
    unfold extChild
    rw [hc, Bool.not_true, if_neg (by decide), if_neg (by simp)]
    dsimp only
    rw [if_pos ⟨hu, by rw [hf]; rfl⟩]
  rw [run_is hO hs hw hn (by simp), hchild]
  rfl

/-- **C112 fails for the other groups of the daemon**: a command that is run on behalf of a user keeps them. -/
theorem C112_false_for_groups : _run_extcmd { oneProgram b!"id" [] fun _ => some 0 with self := ⟨0, 0, [0, 4, 24]⟩ } 1000 1000 b!"id"
    { so_buf := none, want_stderr := true } 0 = .ok (⟨0, [], some 0⟩, 4) := by
  decide +kernel

/-- **C112 fails for long output**: a program that has not written all of it when the buffer is full is ended
by SIGPIPE, and the daemon takes it for one that failed. -/
theorem C112_false_for_long_output : ∃ out ends, ends true = some 0 ∧
    _run_extcmd (oneProgram b!"iptables" out ends) 0 0 b!"iptables -L X" { so_buf := some 256, want_stderr := true } 0 =
      .ok (⟨16, out.take 255, none⟩, 2) := by
  refine ⟨(List.replicate 60 b!"1234\n").flatten, fun all => if all then some 0 else none, rfl, ?_⟩
  decide +kernel

/-- **C112 fails for long lines**: a text across the 255th character of a line is not found, and lines are
counted wrong behind a long one. -/
theorem C112_false_for_long_lines : ∃ line, b!"needle" <:+: line ∧ 10 ∉ line ∧
    _run_extcmd (oneProgram b!"iptables" (line ++ b!"\n") fun _ => some 0) 0 0 b!"iptables" { so_buf := none, want_stderr := true, search := some b!"needle" } 0 =
      .ok (⟨0, [], some 0⟩, 2) ∧
    _run_extcmd (oneProgram b!"iptables" (line ++ b!"\nneedle\n") fun _ => some 0) 0 0 b!"iptables" { so_buf := none, want_stderr := true, search := some b!"needle" } 0 =
      .ok (⟨3, [], some 0⟩, 2) := by
  refine ⟨List.replicate 252 97 ++ b!"needle", ⟨List.replicate 252 97, [], by rw [List.append_nil]⟩, by decide +kernel, by decide +kernel, by decide +kernel⟩

end Fwknop.Props
