import Verif.Model.Firewalld
import Verif.Spec.Firewalld
import Verif.Lemmas.IptSession

/-!
# Lemmas: the firewalld back end does what the iptables back end does
-/

namespace Fwknop

open Spec Res

/-- firewall-cmd as a program. -/
def fwdTool (F : FirewalldHost) : StatusTool (Tables × List Fate) where
  exec argv w :=
    let r := firewallCmdUnder F argv w.1 w.2
    (⟨r.1, r.2.1⟩, (r.2.2.1, r.2.2.2))
  status0 argv w := firewallCmdStatus0 F argv w.1 w.2

/-! ## Words -/

/-- The number of blanks in a text. -/
def blanks (s : Str) : Nat := s.countP isSpace

theorem blanks_append (a b : Str) : blanks (a ++ b) = blanks a + blanks b := by simp [blanks]

theorem blanks_plain {w : Word} (h : ∀ c ∈ w, ¬ IsBlank c) : blanks w = 0 := by
  unfold blanks
  rw [List.countP_eq_zero]
  intro c hc hs
  exact h c hc ((isSpace_iff c).1 hs)

/-- Every text has words, no more than its blanks, plus one if it does not start with a blank. -/
theorem split_total (s : Str) : ∃ ws, Split s ws ∧ (∀ w ∈ ws, w.length ≤ s.length) ∧
    ws.length ≤ blanks s + (match s with | [] => 0 | c :: _ => if isSpace c then 0 else 1) := by
  induction s with
  | nil => exact ⟨[], .nil, by simp, by simp⟩
  | cons c s ih =>
    obtain ⟨ws, h1, h2, h3⟩ := ih
    cases hc : isSpace c with
    | true =>
      refine ⟨ws, .blank c ((isSpace_iff c).1 hc) h1, fun w hw => ?_, ?_⟩
      · have := h2 w hw; simp only [List.length_cons]; omega
      · have hb : blanks (c :: s) = blanks s + 1 := by simp [blanks, hc]
        simp only [hc, if_true]
        rw [hb]
        revert h3
        split
        · intro h3; omega
        · split <;> (intro h3; omega)
    | false =>
      have hb : blanks (c :: s) = blanks s := by simp [blanks, hc]
      have hnb : ¬ IsBlank c := fun h => by rw [(isSpace_iff c).2 h] at hc; cases hc
      simp only [hc, Bool.false_eq_true, if_false]
      rw [hb]
      cases h1 with
      | nil =>
        refine ⟨[[c]], ?_, by simp, by simp⟩
        have := Split.word [c] (s := []) (ws := []) ⟨by simp, by simpa using hnb⟩ (.inl rfl) .nil
        simpa using this
      | @blank b s' ws hb' hsp =>
        refine ⟨[c] :: ws, ?_, ?_, ?_⟩
        · have := Split.word [c] (s := b :: s') (ws := ws) ⟨by simp, by simpa using hnb⟩
            (.inr ⟨b, s', rfl, hb'⟩) (.blank b hb' hsp)
          simpa using this
        · intro w hw
          rcases List.mem_cons.1 hw with rfl | hw
          · simp
          · have := h2 w hw; simp only [List.length_cons] at this ⊢; omega
        · simp only [(isSpace_iff b).2 hb', if_true] at h3
          simp only [List.length_cons]; omega
      | @word w s' ws hp hs hsp =>
        refine ⟨(c :: w) :: ws, ?_, ?_, ?_⟩
        · have := Split.word (c :: w) (s := s') (ws := ws) ⟨by simp, by
            intro d hd
            rcases List.mem_cons.1 hd with rfl | hd
            · exact hnb
            · exact hp.2 d hd⟩ hs hsp
          simpa using this
        · intro v hv
          rcases List.mem_cons.1 hv with rfl | hv
          · simp
          · have := h2 v (List.mem_cons_of_mem _ hv)
            simp only [List.length_cons]
            omega
        · simp only [List.length_cons] at h3 ⊢
          revert h3
          split
          · intro h3; omega
          · split <;> (intro h3; omega)

theorem nonblank_prefix {w w' s s' : Str} (hw : ∀ c ∈ w, ¬ IsBlank c) (hw' : ∀ c ∈ w', ¬ IsBlank c)
    (hs : s = [] ∨ ∃ c x, s = c :: x ∧ IsBlank c) (hs' : s' = [] ∨ ∃ c x, s' = c :: x ∧ IsBlank c) (h : w ++ s = w' ++ s') :
    w = w' ∧ s = s' := by
  induction w generalizing w' with
  | nil =>
    cases w' with
    | nil => exact ⟨rfl, h⟩
    | cons d w' =>
      exfalso
      rcases hs with rfl | ⟨c, x, rfl, hb⟩
      · simp at h
      · simp only [List.nil_append, List.cons_append] at h
        injection h with h1 _
        exact hw' d List.mem_cons_self (h1 ▸ hb)
  | cons c w ih =>
    cases w' with
    | nil =>
      exfalso
      rcases hs' with rfl | ⟨d, x, rfl, hb⟩
      · simp at h
      · simp only [List.nil_append, List.cons_append] at h
        injection h with h1 _
        exact hw c List.mem_cons_self (h1 ▸ hb)
    | cons d w' =>
      simp only [List.cons_append] at h
      injection h with h1 h2
      obtain ⟨h3, h4⟩ := ih (fun c hc => hw c (List.mem_cons_of_mem _ hc)) (fun c hc => hw' c (List.mem_cons_of_mem _ hc)) h2
      exact ⟨by rw [h1, h3], h4⟩

/-- A text has only one list of words. -/
theorem split_det {s : Str} {ws : List Word} (h : Split s ws) : ∀ {s' : Str} {ws' : List Word}, Split s' ws' → s = s' → ws = ws' := by
  induction h with
  | nil =>
    intro s' ws' h' he
    exact (split_nil h' he.symm).symm
  | blank c hc _ ih =>
    intro s' ws' h' he
    cases h' with
    | nil => cases he
    | blank d hd h' =>
      injection he with _ h2
      exact ih h' h2
    | word w hp hs hsp =>
      exfalso
      obtain ⟨hw0, hw⟩ := hp
      cases w with
      | nil => exact hw0 rfl
      | cons d w =>
        simp only [List.cons_append] at he
        injection he with h1 _
        exact hw d List.mem_cons_self (h1 ▸ hc)
  | word w hp hs hsp ih =>
    intro s' ws' h' he
    cases h' with
    | nil => exact absurd (List.append_eq_nil_iff.1 he).1 hp.1
    | blank d hd h' =>
      exfalso
      obtain ⟨hw0, hw⟩ := hp
      cases w with
      | nil => exact hw0 rfl
      | cons c w =>
        simp only [List.cons_append] at he
        injection he with h1 _
        exact hw c List.mem_cons_self (h1 ▸ hd)
    | word w' hp' hs' hsp' =>
      obtain ⟨h1, h2⟩ := nonblank_prefix hp.2 hp'.2 hs hs' he
      rw [h1, ih hsp' h2]

/-! ## Commands -/

abbrev fdWords : List Word := [b!"--direct", b!"--passthrough", b!"ipv4"]

/-- The arguments of a command: they fit the buffer behind the command of firewalld, and there are not too
many. -/
structure FitsCmd (cf : FwConf) (t : Str) : Prop where
  exe : PlainWord cf.fw_command
  start : ∃ t', t = 32 :: t'
  room : cf.fw_command.length + t.length ≤ 225
  few : blanks t ≤ 24

theorem fits_argv {cf : FwConf} {t : Str} (h : FitsCmd cf t) : ∃ W, Split t W ∧
    strtoargv (cmdBuf (cf.fw_command ++ t)) = .ok (some (cf.fw_command :: W)) ∧
    strtoargv (cmdBuf ((fdConf cf).fw_command ++ t)) = .ok (some (cf.fw_command :: (fdWords ++ W))) := by
  obtain ⟨W, hW, hlen, hcount⟩ := split_total t
  obtain ⟨t', rfl⟩ := h.start
  have hroom := h.room
  have hfew := h.few
  simp only [show isSpace 32 = true from by decide, if_true, Nat.add_zero] at hcount
  have hsp : Split (cf.fw_command ++ 32 :: t') (cf.fw_command :: W) :=
    .word _ h.exe (.inr ⟨32, t', rfl, by unfold IsBlank; decide⟩) hW
  have b32 : IsBlank 32 := by unfold IsBlank; decide
  refine ⟨W, hW, ?_, ?_⟩
  · rw [cmdBuf, cmdBuf_short (by simp only [List.length_append]; omega), strtoargv,
      argvLoop_split hsp [] ?_ (Nat.zero_le _), if_pos]
    · rfl
    · simp only [List.length_nil, List.length_cons]; omega
    · intro w hw
      rcases List.mem_cons.1 hw with rfl | hw
      · omega
      · have := hlen w hw; omega
  · have hfd : (fdConf cf).fw_command = cf.fw_command ++ 32 :: (b!"--direct" ++ 32 :: (b!"--passthrough" ++ 32 :: (b!"ipv4" ++ [32]))) := by
      unfold fdConf
      simp only
      rw [List.take_of_length_le (by simp only [List.length_append, List.length_cons, List.length_nil] at *; omega)]
      simp
    have hsp2 : Split ((fdConf cf).fw_command ++ 32 :: t') (cf.fw_command :: (fdWords ++ W)) := by
      rw [hfd]
      rw [show cf.fw_command ++ 32 :: (b!"--direct" ++ 32 :: (b!"--passthrough" ++ 32 :: (b!"ipv4" ++ [32]))) ++ 32 :: t' =
        cf.fw_command ++ (32 :: (b!"--direct" ++ (32 :: (b!"--passthrough" ++ (32 :: (b!"ipv4" ++ (32 :: 32 :: t'))))))) from by simp]
      exact .word _ h.exe (.inr ⟨32, _, rfl, b32⟩) (.blank 32 b32 (.word _ (by unfold PlainWord IsBlank; decide) (.inr ⟨32, _, rfl, b32⟩)
        (.blank 32 b32 (.word _ (by unfold PlainWord IsBlank; decide) (.inr ⟨32, _, rfl, b32⟩)
          (.blank 32 b32 (.word _ (by unfold PlainWord IsBlank; decide) (.inr ⟨32, _, rfl, b32⟩) (.blank 32 b32 hW)))))))
    have hl : ((fdConf cf).fw_command ++ 32 :: t').length ≤ 254 := by
      rw [hfd]
      simp only [List.length_append, List.length_cons, List.length_nil] at hroom ⊢
      omega
    rw [cmdBuf, cmdBuf_short hl, strtoargv, argvLoop_split hsp2 [] ?_ (Nat.zero_le _), if_pos]
    · rfl
    · simp only [List.length_nil, List.length_cons, List.length_append]; omega
    · intro w hw
      rcases List.mem_cons.1 hw with rfl | hw
      · omega
      rcases List.mem_append.1 hw with hw | hw
      · have : ∀ w ∈ fdWords, List.length w < 1024 := by decide
        exact this w hw
      · have := hlen w hw; omega

/-- The command line after the words. -/
abbrev callOf (W : List Word) : Call := W.foldl Call.feed {}

theorem firewallCmd_words (F : FirewalldHost) (exe : Word) (W : List Word) (K : Tables) :
    firewallCmd F (exe :: (fdWords ++ W)) K = (F.report W K, ((callOf W).perform F.ipt K).2) := by
  unfold firewallCmd
  simp [callOf]

/-- A command does the same to the tables, whether it is given to iptables or to firewall-cmd. -/
theorem run_both (F : FirewalldHost) {cf : FwConf} {t : Str} (h : FitsCmd cf t) (size : Nat) (K : Tables) : ∃ W, Split t W ∧
    run_extcmd (iptTool F.ipt) (cmdBuf (cf.fw_command ++ t)) size (K, []) =
      .ok (⟨true, truncate_partial_line (((callOf W).perform F.ipt K).1.take (size - 1))⟩, (((callOf W).perform F.ipt K).2, [])) ∧
    run_extcmd (fwdTool F).toTool (cmdBuf ((fdConf cf).fw_command ++ t)) size (K, []) =
      .ok (⟨true, truncate_partial_line ((F.report W K).take (size - 1))⟩, (((callOf W).perform F.ipt K).2, [])) := by
  obtain ⟨W, hW, h1, h2⟩ := fits_argv h
  refine ⟨W, hW, ?_, ?_⟩
  · rw [run_words _ h1, exec_nil]; rfl
  · rw [run_words _ h2]
    simp only [fwdTool, firewallCmdUnder, firewallCmd_words]

/-! ## What is read -/

/-- The first character of what is printed is read. -/
theorem cut_head (c : Nat) (xs : Str) (n : Nat) (hn : 1 ≤ n) :
    ∃ ys, chop_newline (truncate_partial_line ((c :: xs).take n)) = c :: ys := by
  obtain ⟨m, rfl⟩ : ∃ m, n = m + 1 := ⟨n - 1, by omega⟩
  rw [List.take_succ_cons]
  generalize xs.take m = zs
  have h1 : ∃ us, truncate_partial_line (c :: zs) = c :: us := by
    unfold truncate_partial_line
    split
    · rename_i hc
      have hp : ((c :: zs).reverse.dropWhile (· ≠ 10)).reverse <+: c :: zs := by
        rw [← List.reverse_suffix, List.reverse_reverse]
        exact List.dropWhile_suffix _
      obtain ⟨us, hus⟩ := hp
      cases hr : ((c :: zs).reverse.dropWhile (· ≠ 10)).reverse with
      | nil =>
        exfalso
        have h0 := List.reverse_eq_nil_iff.1 hr
        have hm : (10 : Nat) ∈ (c :: zs).reverse := by rw [List.mem_reverse]; simpa [List.contains_iff_mem] using hc
        have hall : ∀ l : Str, l.dropWhile (· ≠ 10) = [] → 10 ∉ l := by
          intro l
          induction l with
          | nil => simp
          | cons a l ih =>
            intro hl
            by_cases ha : a = 10
            · rw [List.dropWhile_cons_of_neg (by simp [ha])] at hl; cases hl
            · rw [List.dropWhile_cons_of_pos (by simp [ha])] at hl
              simp [ih hl, Ne.symm ha]
        exact hall _ h0 hm
      | cons d ds =>
        rw [hr] at hus
        injection hus with h2 h3
        exact ⟨ds, by rw [h2]⟩
    · exact ⟨zs, rfl⟩
  obtain ⟨us, hus⟩ := h1
  rw [hus]
  unfold chop_newline
  split
  · rename_i hl
    cases us with
    | nil => simp at hl
    | cons u us => exact ⟨(u :: us).dropLast, rfl⟩
  · exact ⟨us, rfl⟩

theorem cut_nonempty {s : Str} (hs : s ≠ []) {n : Nat} (hn : 1 ≤ n) :
    chop_newline (truncate_partial_line (s.take n)) ≠ [] := by
  cases s with
  | nil => exact absurd rfl hs
  | cons c xs =>
    obtain ⟨ys, h⟩ := cut_head c xs n hn
    rw [h]; simp

theorem listing_head (h : Host) (c : Word) (rs : List Rule) : ∃ x, listing h c rs = 67 :: x := ⟨_, rfl⟩

/-- A call that prints something and works lists a chain. -/
theorem worked_text {h : Host} {k : Call} {K : Tables} (hw : k.worked h K = true) (hne : (k.perform h K).1 ≠ []) :
    ∃ rs, k.op = .list ∧ K k.table k.chain = some rs ∧ k.perform h K = (listing h k.chain rs, K) := by
  unfold Call.worked at hw
  simp only [Bool.or_eq_true, decide_eq_true_eq, Bool.and_eq_true] at hw
  rcases hw with hw | ⟨h1, h2⟩
  · exact absurd hw hne
  · obtain ⟨rs, hrs⟩ := Option.isSome_iff_exists.1 h2
    exact ⟨rs, h1, hrs, by simp [Call.perform, h1, hrs]⟩

/-- firewall-cmd reports success at once if and only if iptables says nothing. -/
theorem exists_eq (F : FirewalldHost) (W : List Word) (K : Tables) :
    hasPrefix b!"success" (chop_newline (truncate_partial_line ((F.report W K).take (CMD_BUFSIZE - 1)))) =
      !(true && chop_newline (truncate_partial_line (((callOf W).perform F.ipt K).1.take (CMD_BUFSIZE - 1))) != []) := by
  have h255 : 1 ≤ CMD_BUFSIZE - 1 := by decide
  unfold FirewalldHost.report
  simp only
  by_cases h0 : ((callOf W).perform F.ipt K).1 = []
  · have hw : (callOf W).worked F.ipt K = true := by unfold Call.worked; simp [h0]
    rw [if_pos hw, if_pos h0, h0]
    decide
  · have hr : (chop_newline (truncate_partial_line (((callOf W).perform F.ipt K).1.take (CMD_BUFSIZE - 1))) != []) = true := by
      simpa [bne] using cut_nonempty h0 h255
    rw [hr]
    by_cases hw : (callOf W).worked F.ipt K = true
    · obtain ⟨rs, -, -, hp⟩ := worked_text hw h0
      rw [if_pos hw, if_neg h0, hp]
      obtain ⟨x, hx⟩ := listing_head F.ipt (callOf W).chain rs
      simp only
      rw [hx, List.cons_append]
      obtain ⟨ys, hy⟩ := cut_head 67 (x ++ 10 :: successLine) (CMD_BUFSIZE - 1) h255
      rw [hy]
      rfl
    · rw [if_neg hw]
      rw [show b!"Error: COMMAND_FAILED: " ++ F.explain W ((callOf W).perform F.ipt K).1 ++ [10] =
        69 :: (b!"rror: COMMAND_FAILED: " ++ F.explain W ((callOf W).perform F.ipt K).1 ++ [10]) from rfl]
      obtain ⟨ys, hy⟩ := cut_head 69 (b!"rror: COMMAND_FAILED: " ++ F.explain W ((callOf W).perform F.ipt K).1 ++ [10]) (CMD_BUFSIZE - 1) h255
      rw [hy]
      rfl

/-! ## Rules and chains -/

theorem fits_rule {cf : FwConf} {op chain rule : Str} (he : PlainWord cf.fw_command) (ho : op = b!" -C " ∨ op = b!" -I " ∨ op = b!" -A ")
    (hc : ∀ c ∈ chain, ¬ IsBlank c) (hr : cf.fw_command.length + chain.length + rule.length ≤ 220) (hb : blanks rule ≤ 21) :
    FitsCmd cf (op ++ chain ++ b!" " ++ rule) where
  exe := he
  start := by rcases ho with rfl | rfl | rfl <;> exact ⟨_, rfl⟩
  room := by
    rcases ho with rfl | rfl | rfl <;> (simp only [List.length_append, List.length_cons, List.length_nil]; omega)
  few := by
    rw [blanks_append, blanks_append, blanks_append, blanks_plain hc]
    rcases ho with rfl | rfl | rfl <;>
      (simp only [show ∀ s, blanks s = s.countP isSpace from fun _ => rfl] at hb ⊢
       simp [isSpace]
       omega)

theorem fd_rule_exists_eq (F : FirewalldHost) {cf : FwConf} {chain rule : Str} (he : PlainWord cf.fw_command)
    (hc : ∀ c ∈ chain, ¬ IsBlank c) (hr : cf.fw_command.length + chain.length + rule.length ≤ 220) (hb : blanks rule ≤ 21) (K : Tables) :
    fd_rule_exists (fdConf cf) (fwdTool F).toTool chain rule (K, []) = rule_exists_chk_support cf (iptTool F.ipt) chain rule (K, []) := by
  have hf := fits_rule (op := b!" -C ") he (.inl rfl) hc hr hb
  obtain ⟨W, -, h1, h2⟩ := run_both F hf CMD_BUFSIZE K
  unfold fd_rule_exists rule_exists_chk_support
  have e1 : cf.fw_command ++ b!" -C " ++ chain ++ b!" " ++ rule = cf.fw_command ++ (b!" -C " ++ chain ++ b!" " ++ rule) := by simp
  have e2 : (fdConf cf).fw_command ++ b!" -C " ++ chain ++ b!" " ++ rule = (fdConf cf).fw_command ++ (b!" -C " ++ chain ++ b!" " ++ rule) := by
    simp
  rw [e1, e2, h1, h2, bind_ok, bind_ok]
  simp only [pure_eq]
  rw [exists_eq]

/-- A command of which only the effect matters. -/
theorem cmd_both (F : FirewalldHost) {cf : FwConf} {t : Str} (h : FitsCmd cf t) (size : Nat) (K : Tables) : ∃ b b' K',
    run_extcmd (iptTool F.ipt) (cmdBuf (cf.fw_command ++ t)) size (K, []) = .ok (⟨true, b⟩, (K', [])) ∧
    run_extcmd (fwdTool F).toTool (cmdBuf ((fdConf cf).fw_command ++ t)) size (K, []) = .ok (⟨true, b'⟩, (K', [])) := by
  obtain ⟨W, -, h1, h2⟩ := run_both F h size K
  exact ⟨_, _, _, h1, h2⟩

/-- What is asked of a chain of the configuration. -/
structure FdChain (cf : FwConf) (ch : FwChain) : Prop where
  exe : PlainWord cf.fw_command
  table : PlainWord ch.table
  from_chain : PlainWord ch.from_chain
  chain : PlainWord ch.to_chain
  pos : 0 ≤ ch.jump_rule_pos ∧ ch.jump_rule_pos < 2 ^ 31
  room : cf.fw_command.length + ch.table.length + ch.from_chain.length + ch.to_chain.length ≤ 190

theorem hasPrefix_more {t s : Str} (h : hasPrefix t s = true) (x : Str) : hasPrefix t (s ++ x) = true := by
  unfold hasPrefix at h ⊢
  rw [List.isPrefixOf_iff_prefix] at h ⊢
  exact h.trans (List.prefix_append _ _)

theorem strIn_prefix {p t s : Str} (h : strIn p t = true) (hs : p <+: s) : strIn s t = true := by
  obtain ⟨x, rfl⟩ := hs
  unfold strIn at h ⊢
  obtain ⟨n, hn⟩ := Option.isSome_iff_exists.1 h
  obtain ⟨h1, h2, -⟩ := findSuffix_some hn
  cases hf : findSuffix (hasPrefix t) (p ++ x) with
  | some m => rfl
  | none =>
    have := findSuffix_none hf n (by simp; omega)
    rw [List.drop_append_of_le_length h1] at this
    have h3 : hasPrefix t (p.drop n ++ x) = true := hasPrefix_more h2 x
    rw [h3] at this
    cases this

/-- The beginning of what is printed is read, if there is no line feed in it. -/
theorem cut_prefix (p x : Str) (hp : 10 ∉ p) (h0 : p ≠ []) (n : Nat) (hn : p.length ≤ n) :
    p <+: chop_newline (truncate_partial_line ((p ++ x).take n)) := by
  rw [List.take_append, List.take_of_length_le hn]
  generalize x.take (n - p.length) = y
  have h1 : p <+: truncate_partial_line (p ++ y) := by
    unfold truncate_partial_line
    split
    · rename_i hc
      rw [List.reverse_append]
      have hy : ∃ c ∈ y.reverse, ¬ (fun c : Nat => decide (c ≠ 10)) c = true := by
        have : (10 : Nat) ∈ p ++ y := by simpa [List.contains_iff_mem] using hc
        rcases List.mem_append.1 this with h | h
        · exact absurd h hp
        · exact ⟨10, List.mem_reverse.2 h, by simp⟩
      have hd : ∀ (a b : Str), (∃ c ∈ a, ¬ (fun c : Nat => decide (c ≠ 10)) c = true) →
          (a ++ b).dropWhile (fun c => decide (c ≠ 10)) = a.dropWhile (fun c => decide (c ≠ 10)) ++ b := by
        intro a b
        induction a with
        | nil => rintro ⟨c, hc, -⟩; cases hc
        | cons d a ih =>
          rintro ⟨c, hc, hc'⟩
          by_cases hd : decide (d ≠ 10) = true
          · rw [List.cons_append, List.dropWhile_cons_of_pos (p := fun c => decide (c ≠ 10)) hd, List.dropWhile_cons_of_pos (p := fun c => decide (c ≠ 10)) hd]
            apply ih
            rcases List.mem_cons.1 hc with rfl | hc
            · exact absurd hd hc'
            · exact ⟨c, hc, hc'⟩
          · rw [List.cons_append, List.dropWhile_cons_of_neg (p := fun c => decide (c ≠ 10)) hd, List.dropWhile_cons_of_neg (p := fun c => decide (c ≠ 10)) hd]
            rfl
      rw [hd _ _ hy, List.reverse_append, List.reverse_reverse]
      exact List.prefix_append _ _
    · exact List.prefix_append _ _
  obtain ⟨z, hz⟩ := h1
  rw [← hz]
  unfold chop_newline
  split
  · rename_i hl
    cases hzz : z.isEmpty with
    | true =>
      exfalso
      rw [List.isEmpty_iff] at hzz
      rw [hzz, List.append_nil] at hl
      exact hp (List.mem_of_getLast? hl.2)
    | false =>
      have : z ≠ [] := by intro h; rw [h] at hzz; cases hzz
      rw [List.dropLast_append_of_ne_nil this]
      exact List.prefix_append _ _
  · exact List.prefix_append _ _

/-- `firewall-cmd … -t table -L chain -n`. -/
theorem fd_chain_exists_run (F : FirewalldHost) {cf : FwConf} {ch : FwChain} (h : FdChain cf ch) (K : Tables) :
    ∃ e, fd_chain_exists (fdConf cf) (fwdTool F).toTool ch (K, []) = .ok (e, (K, [])) ∧
      (e = true → K.make ch.table ch.to_chain = K) := by
  have hroom := h.room
  have hf : FitsCmd cf (b!" -t " ++ ch.table ++ b!" -L " ++ ch.to_chain ++ b!" -n") := by
    refine ⟨h.exe, ⟨_, rfl⟩, ?_, ?_⟩
    · simp only [List.length_append, List.length_cons, List.length_nil]; omega
    · simp only [blanks_append, blanks_plain h.table.2, blanks_plain h.chain.2]; decide
  obtain ⟨W, hW, -, h2⟩ := run_both F hf CMD_BUFSIZE K
  have hWe : W = [b!"-t", ch.table, b!"-L", ch.to_chain, b!"-n"] := by
    exact split_det hW (s' := b!" -t " ++ ch.table ++ b!" -L " ++ ch.to_chain ++ b!" -n") (by
      have := split_spaced [b!"-t", ch.table, b!"-L", ch.to_chain, b!"-n"] (by
        intro w hw
        simp only [List.mem_cons, List.not_mem_nil, or_false] at hw
        rcases hw with rfl | rfl | rfl | rfl | rfl
        · unfold PlainWord IsBlank; decide
        · exact h.table
        · unfold PlainWord IsBlank; decide
        · exact h.chain
        · unfold PlainWord IsBlank; decide)
      have h2 := Split.blank 32 (by unfold IsBlank; decide) this
      simpa [spaced] using h2) rfl
  have hcall : callOf W = ⟨.word, ch.table, .list, ch.to_chain, none, [b!"-n"]⟩ := by
    rw [hWe]; simp [callOf, Call.feed, Call.plain]
  have hK : ((callOf W).perform F.ipt K).2 = K := by
    rw [hcall]
    cases hk : K ch.table ch.to_chain <;> simp [Call.perform, hk]
  unfold fd_chain_exists
  rw [show (fdConf cf).fw_command ++ b!" -t " ++ ch.table ++ b!" -L " ++ ch.to_chain ++ b!" -n" =
    (fdConf cf).fw_command ++ (b!" -t " ++ ch.table ++ b!" -L " ++ ch.to_chain ++ b!" -n") from by simp, h2, bind_ok, hK]
  refine ⟨_, rfl, fun he => ?_⟩
  cases hk : K ch.table ch.to_chain with
  | some rs => unfold Tables.make; rw [hk]
  | none =>
    exfalso
    have hw : (callOf W).worked F.ipt K = false := by
      rw [hcall]; simp [Call.worked, Call.perform, hk]
    have : strIn (chop_newline (truncate_partial_line ((F.report W K).take (CMD_BUFSIZE - 1)))) FIREWD_CMD_FAIL_STR = true := by
      unfold FirewalldHost.report
      simp only
      rw [if_neg (by rw [hw]; decide), List.append_assoc]
      exact strIn_prefix (p := b!"Error: COMMAND_FAILED: ") (by decide)
        (cut_prefix _ _ (by decide) (by decide) _ (by decide))
    rw [this] at he
    cases he

/-- The plan for `-N`: the chain is there afterwards. -/
theorem fd_create_run (F : FirewalldHost) {cf : FwConf} {ch : FwChain} (h : FdChain cf ch) (K : Tables) :
    create_chain cf (iptTool F.ipt) ch (K, []) = .ok (K.make ch.table ch.to_chain, []) ∧
    create_chain (fdConf cf) (fwdTool F).toTool ch (K, []) = .ok (K.make ch.table ch.to_chain, []) ∧
    createChain cf (iptTool F.ipt) ch (K, []) = .ok (0, (K.make ch.table ch.to_chain, [])) ∧
    createChain (fdConf cf) (fwdTool F).toTool ch (K, []) = .ok (0, (K.make ch.table ch.to_chain, [])) := by
  have hroom := h.room
  have hf : FitsCmd cf (b!" -t " ++ ch.table ++ b!" -N " ++ ch.to_chain) := by
    refine ⟨h.exe, ⟨_, rfl⟩, ?_, ?_⟩
    · simp only [List.length_append, List.length_cons, List.length_nil]; omega
    · simp only [blanks_append, blanks_plain h.table.2, blanks_plain h.chain.2]; decide
  obtain ⟨W, hW, h1, h2⟩ := run_both F hf CMD_BUFSIZE K
  have hWe : W = [b!"-t", ch.table, b!"-N", ch.to_chain] := by
    exact split_det hW (s' := b!" -t " ++ ch.table ++ b!" -N " ++ ch.to_chain) (by
      have := split_spaced [b!"-t", ch.table, b!"-N", ch.to_chain] (by
        intro w hw
        simp only [List.mem_cons, List.not_mem_nil, or_false] at hw
        rcases hw with rfl | rfl | rfl | rfl
        · unfold PlainWord IsBlank; decide
        · exact h.table
        · unfold PlainWord IsBlank; decide
        · exact h.chain)
      have h2 := Split.blank 32 (by unfold IsBlank; decide) this
      simpa [spaced] using h2) rfl
  have hK : ((callOf W).perform F.ipt K).2 = K.make ch.table ch.to_chain := by
    rw [hWe]
    exact iptables_new (print := F.ipt) (exe := [])
  rw [hK] at h1 h2
  have e1 : cf.fw_command ++ b!" -t " ++ ch.table ++ b!" -N " ++ ch.to_chain =
    cf.fw_command ++ (b!" -t " ++ ch.table ++ b!" -N " ++ ch.to_chain) := by simp
  have e2 : (fdConf cf).fw_command ++ b!" -t " ++ ch.table ++ b!" -N " ++ ch.to_chain =
    (fdConf cf).fw_command ++ (b!" -t " ++ ch.table ++ b!" -N " ++ ch.to_chain) := by simp
  refine ⟨?_, ?_, ?_, ?_⟩
  · unfold create_chain; rw [e1, h1]; rfl
  · unfold create_chain; rw [e2, h2]; rfl
  · unfold createChain iptCmd; rw [h1]; rfl
  · unfold createChain iptCmd; rw [h2]; rfl

/-- `-L chain -n` of iptables, whatever there is. -/
theorem chain_exists_run (F : FirewalldHost) {cf : FwConf} {ch : FwChain} (h : FdChain cf ch) (K : Tables) :
    chain_exists cf (iptTool F.ipt) ch (K, []) = .ok (false, (K, [])) := by
  have hroom := h.room
  unfold chain_exists
  rw [run_argv (ws := [cf.fw_command, b!"-t", ch.table, b!"-L", ch.to_chain, b!"-n"]) (by simp [spaced]) (by
    intro w hw'
    simp only [List.mem_cons, List.not_mem_nil, or_false] at hw'
    rcases hw' with rfl | rfl | rfl | rfl | rfl | rfl
    · exact h.exe
    · unfold PlainWord IsBlank; decide
    · exact h.table
    · unfold PlainWord IsBlank; decide
    · exact h.chain
    · unfold PlainWord IsBlank; decide) (by
    simp only [List.length_append, List.length_cons, List.length_nil]; omega) (by simp), bind_ok, iptables_look]
  rfl

theorem fd_jump_rule_exists_eq (F : FirewalldHost) {cf : FwConf} {ch : FwChain} (h : FdChain cf ch) (K : Tables) :
    fd_jump_rule_exists (fdConf cf) (fwdTool F).toTool ch (K, []) = jump_rule_exists cf (iptTool F.ipt) ch (K, []) := by
  have hroom := h.room
  unfold fd_jump_rule_exists jump_rule_exists
  have hl : (b!"-t " ++ ch.table ++ b!" -j " ++ ch.to_chain).length ≤ 254 := by
    simp only [List.length_append, List.length_cons, List.length_nil]; omega
  rw [cmdBuf, cmdBuf_short hl]
  apply fd_rule_exists_eq F h.exe h.from_chain.2
  · simp only [List.length_append, List.length_cons, List.length_nil]; omega
  · simp only [blanks_append, blanks_plain h.table.2, blanks_plain h.chain.2]; decide

theorem rule_exists_world (F : FirewalldHost) {cf : FwConf} {chain rule : Str} (he : PlainWord cf.fw_command)
    (hc : ∀ c ∈ chain, ¬ IsBlank c) (hr : cf.fw_command.length + chain.length + rule.length ≤ 220) (hb : blanks rule ≤ 21) (K : Tables) :
    ∃ b K', rule_exists_chk_support cf (iptTool F.ipt) chain rule (K, []) = .ok (b, (K', [])) := by
  have hf := fits_rule (op := b!" -C ") he (.inl rfl) hc hr hb
  obtain ⟨W, -, h1, h2⟩ := run_both F hf CMD_BUFSIZE K
  unfold rule_exists_chk_support
  have e1 : cf.fw_command ++ b!" -C " ++ chain ++ b!" " ++ rule = cf.fw_command ++ (b!" -C " ++ chain ++ b!" " ++ rule) := by simp
  rw [e1, h1, bind_ok]
  exact ⟨_, _, rfl⟩

theorem jump_rule_exists_world (F : FirewalldHost) {cf : FwConf} {ch : FwChain} (h : FdChain cf ch) (K : Tables) :
    ∃ b K', jump_rule_exists cf (iptTool F.ipt) ch (K, []) = .ok (b, (K', [])) := by
  have hroom := h.room
  unfold jump_rule_exists
  have hl : (b!"-t " ++ ch.table ++ b!" -j " ++ ch.to_chain).length ≤ 254 := by
    simp only [List.length_append, List.length_cons, List.length_nil]; omega
  rw [cmdBuf, cmdBuf_short hl]
  apply rule_exists_world F h.exe h.from_chain.2
  · simp only [List.length_append, List.length_cons, List.length_nil]; omega
  · simp only [blanks_append, blanks_plain h.table.2, blanks_plain h.chain.2]; decide

theorem decStrInt_plain (n : Int) : blanks (decStrInt n) = 0 := by
  have hd : ∀ m : Nat, blanks (decStr m) = 0 := by
    intro m
    unfold blanks
    rw [List.countP_eq_zero]
    intro c hc hs
    have := decStr_digits m c hc
    unfold isDigit at this
    unfold isSpace at hs
    simp at this hs
    omega
  unfold decStrInt
  split
  · rw [show ∀ l : Str, blanks (45 :: l) = blanks l from fun l => by simp [blanks, isSpace]]; exact hd _
  · exact hd _

theorem fits_jump {cf : FwConf} {ch : FwChain} (h : FdChain cf ch) :
    FitsCmd cf (b!" -t " ++ ch.table ++ b!" -I " ++ ch.from_chain ++ b!" " ++ decStrInt ch.jump_rule_pos ++ b!" -j " ++ ch.to_chain) := by
  have hroom := h.room
  have hpos := h.pos
  have hl := decStr_length_le ch.jump_rule_pos.toNat 10 (by decide) (by omega)
  have hle : (decStrInt ch.jump_rule_pos).length ≤ 10 := by
    rw [decStrInt_pos h.pos.1, ← decStr_decimal]; exact hl
  refine ⟨h.exe, ⟨_, rfl⟩, ?_, ?_⟩
  · simp only [List.length_append, List.length_cons, List.length_nil]; omega
  · simp only [blanks_append, blanks_plain h.table.2, blanks_plain h.chain.2, blanks_plain h.from_chain.2, decStrInt_plain]; decide

theorem add_jump_both (F : FirewalldHost) {cf : FwConf} {ch : FwChain} (h : FdChain cf ch) (K : Tables) : ∃ K',
    add_jump_rule cf (iptTool F.ipt) ch (K, []) = .ok (K', []) ∧
    add_jump_rule (fdConf cf) (fwdTool F).toTool ch (K, []) = .ok (K', []) := by
  obtain ⟨b, b', K', h1, h2⟩ := cmd_both F (fits_jump h) CMD_BUFSIZE K
  have e1 : ∀ cmd : Str, cmd ++ b!" -t " ++ ch.table ++ b!" -I " ++ ch.from_chain ++ b!" " ++ decStrInt ch.jump_rule_pos ++ b!" -j " ++ ch.to_chain =
    cmd ++ (b!" -t " ++ ch.table ++ b!" -I " ++ ch.from_chain ++ b!" " ++ decStrInt ch.jump_rule_pos ++ b!" -j " ++ ch.to_chain) := by
    intro cmd; simp
  refine ⟨K', ?_, ?_⟩
  · unfold add_jump_rule; rw [e1, h1]; rfl
  · unfold add_jump_rule; rw [e1, h2]; rfl

theorem fd_mk_chain_eq (F : FirewalldHost) {cf : FwConf} {ch : FwChain} (h : FdChain cf ch) (K : Tables) : ∃ K',
    mk_chain cf (iptTool F.ipt) ch (K, []) = .ok (K', []) ∧ fd_mk_chain (fdConf cf) (fwdTool F).toTool ch (K, []) = .ok (K', []) := by
  obtain ⟨e, he1, he2⟩ := fd_chain_exists_run F h K
  obtain ⟨c1, c2, -, -⟩ := fd_create_run F h K
  have hw : fd_mk_chain (fdConf cf) (fwdTool F).toTool ch (K, []) = (do
      let j ← fd_jump_rule_exists (fdConf cf) (fwdTool F).toTool ch (K.make ch.table ch.to_chain, [])
      if j.1 then return j.2 else add_jump_rule (fdConf cf) (fwdTool F).toTool ch j.2) := by
    unfold fd_mk_chain
    rw [he1, bind_ok]
    cases e with
    | true => rw [he2 rfl]; rfl
    | false =>
      simp only [Bool.false_eq_true, if_false]
      rw [c2, bind_ok]
  rw [hw]
  unfold mk_chain
  rw [chain_exists_run F h, bind_ok]
  simp only [Bool.false_eq_true, if_false]
  rw [c1, bind_ok, fd_jump_rule_exists_eq F h]
  obtain ⟨b, K1, hj⟩ := jump_rule_exists_world F h (K.make ch.table ch.to_chain)
  rw [hj, bind_ok, bind_ok]
  simp only
  cases b with
  | true => exact ⟨K1, rfl, rfl⟩
  | false => exact add_jump_both F h K1

/-- **The rule of a request**: the two back ends do the same. -/
theorem firewd_rule_eq (F : FirewalldHost) {cf : FwConf} {s : FwSt (Tables × List Fate)} {i : Nat} (h : FdChain cf (s.at i))
    {rule : Str} (hr : cf.fw_command.length + (s.at i).to_chain.length + rule.length ≤ 220) (hb : blanks rule ≤ 21)
    (hs : s.world.2 = []) (exp_ts : Nat) (now : Int) :
    firewd_rule (fdConf cf) (fwdTool F).toTool i rule exp_ts now s = ipt_rule cf (iptTool F.ipt) i rule exp_ts now s ∧
      ∃ s', ipt_rule cf (iptTool F.ipt) i rule exp_ts now s = .ok s' ∧ s'.world.2 = [] := by
  obtain ⟨K, hw⟩ : ∃ K, s.world = (K, []) := ⟨s.world.1, by rw [← hs]⟩
  obtain ⟨K1, m1, m2⟩ := fd_mk_chain_eq F h K
  unfold firewd_rule ipt_rule
  simp only
  rw [hw, m1, m2, bind_ok, bind_ok]
  rw [show cmdBuf rule = rule from by rw [cmdBuf, cmdBuf_short (by omega)]]
  rw [fd_rule_exists_eq F h.exe h.chain.2 hr hb]
  obtain ⟨b, K2, hx⟩ := rule_exists_world F h.exe h.chain.2 hr hb K1
  rw [hx, bind_ok, bind_ok]
  simp only
  cases b with
  | true => exact ⟨rfl, _, rfl, rfl⟩
  | false =>
    simp only [Bool.false_eq_true, if_false]
    have hop : (if cf.prepend = true then b!" -I " else b!" -A ") = b!" -C " ∨ (if cf.prepend = true then b!" -I " else b!" -A ") = b!" -I " ∨
        (if cf.prepend = true then b!" -I " else b!" -A ") = b!" -A " := by cases cf.prepend <;> simp
    obtain ⟨b, b', K3, h1, h2⟩ := cmd_both F (fits_rule h.exe hop h.chain.2 hr hb) CMD_BUFSIZE K2
    have e1 : ∀ cmd : Str, cmd ++ (if cf.prepend = true then b!" -I " else b!" -A ") ++ (s.at i).to_chain ++ b!" " ++ rule =
      cmd ++ ((if cf.prepend = true then b!" -I " else b!" -A ") ++ (s.at i).to_chain ++ b!" " ++ rule) := by
      intro cmd; simp
    have c1 : create_rule cf (iptTool F.ipt) (s.at i).to_chain rule (K2, []) = .ok (true, (K3, [])) := by
      unfold create_rule; rw [e1, h1]; rfl
    have c2 : create_rule (fdConf cf) (fwdTool F).toTool (s.at i).to_chain rule (K2, []) = .ok (true, (K3, [])) := by
      unfold create_rule
      rw [show (fdConf cf).prepend = cf.prepend from rfl, e1, h2]; rfl
    rw [c1, c2]
    exact ⟨rfl, _, rfl, rfl⟩

end Fwknop
