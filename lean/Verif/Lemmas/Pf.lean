import Verif.Model.Pf
import Verif.Spec.Pf
import Verif.Lemmas.Iptables
import Verif.Lemmas.Access

/-!
# Lemmas about the pf back end
-/

namespace Fwknop

open Spec Res

/-- pfctl, with the anchors as the state of the world. -/
def pfTool (read : List Nat → Option (List Nat)) : PipeTool Anchors where
  exec argv stdin K := (⟨(pfctl read argv stdin K).1, true⟩, (pfctl read argv stdin K).2)

/-- The words of the commands contain no blanks and fit the command buffer. -/
structure PfNames (cf : PfConf) : Prop where
  exe : PlainWord cf.fw_command
  anchor : PlainWord cf.anchor
  room : cf.fw_command.length + cf.anchor.length ≤ 230

theorem pf_argv {cf : PfConf} (h : PfNames cf) (a b : Str) (ha : PlainWord a) (hb : PlainWord b)
    (hl : a.length + b.length ≤ 10) :
    strtoargv (cmdBuf (cf.fw_command ++ b!" -a " ++ cf.anchor ++ 32 :: a ++ 32 :: b)) =
      .ok (some [cf.fw_command, b!"-a", cf.anchor, a, b]) := by
  have hr := h.room
  rw [cmdBuf, cmdBuf_short (by simp only [List.length_append, List.length_cons, List.length_nil]; omega)]
  rw [show cf.fw_command ++ b!" -a " ++ cf.anchor ++ 32 :: a ++ 32 :: b =
    spaced [cf.fw_command, b!"-a", cf.anchor, a, b] from by simp [spaced]]
  apply strtoargv_spaced _ (by simp only [List.length_cons, List.length_nil]; decide)
  intro w hw'
  simp only [List.mem_cons, List.not_mem_nil, or_false] at hw'
  rcases hw' with rfl | rfl | rfl | rfl | rfl
  · exact ⟨h.exe, show _ < 1024 by omega⟩
  · exact ⟨by unfold PlainWord IsBlank; decide, by decide⟩
  · exact ⟨h.anchor, show _ < 1024 by omega⟩
  · exact ⟨ha, show _ < 1024 by omega⟩
  · exact ⟨hb, show _ < 1024 by omega⟩

theorem pf_list_argv {cf : PfConf} (h : PfNames cf) :
    strtoargv (pfListCmd cf) = .ok (some [cf.fw_command, b!"-a", cf.anchor, b!"-s", b!"rules"]) := by
  rw [← pf_argv h b!"-s" b!"rules" (by unfold PlainWord IsBlank; decide) (by unfold PlainWord IsBlank; decide) (by decide)]
  simp [pfListCmd]

theorem pf_write_argv {cf : PfConf} (h : PfNames cf) :
    strtoargv (pfWriteCmd cf) = .ok (some [cf.fw_command, b!"-a", cf.anchor, b!"-f", b!"-"]) := by
  rw [← pf_argv h b!"-f" b!"-" (by unfold PlainWord IsBlank; decide) (by unfold PlainWord IsBlank; decide) (by decide)]
  simp [pfWriteCmd]

theorem pf_flush_argv {cf : PfConf} (h : PfNames cf) :
    strtoargv (pfFlushCmd cf) = .ok (some [cf.fw_command, b!"-a", cf.anchor, b!"-F", b!"all"]) := by
  rw [← pf_argv h b!"-F" b!"all" (by unfold PlainWord IsBlank; decide) (by unfold PlainWord IsBlank; decide) (by decide)]
  simp [pfFlushCmd]

theorem pfctl_list (read : List Nat → Option (List Nat)) (exe a : Word) (t : List Nat) (K : Anchors) :
    pfctl read [exe, b!"-a", a, b!"-s", b!"rules"] t K = (unlines (K a), K) := by
  simp [pfctl]

theorem pfctl_write {read : List Nat → Option (List Nat)} (exe a : Word) {t : List Nat} (K : Anchors)
    {rs : List (List Nat)} (h : readAll read (linesFrom [] t) = some rs) :
    pfctl read [exe, b!"-a", a, b!"-f", b!"-"] t K = ([], K.put a rs) := by
  simp [pfctl, h]

theorem pfctl_flush (read : List Nat → Option (List Nat)) (exe a : Word) (t : List Nat) (K : Anchors) :
    (pfctl read [exe, b!"-a", a, b!"-F", b!"all"] t K).2 = K.put a [] := by
  simp [pfctl]

/-! ## Lines -/

theorem unlines_cons (l : List Nat) (rs : List (List Nat)) : unlines (l :: rs) = l ++ 10 :: unlines rs := by
  simp [unlines]

theorem unlines_append (a b : List (List Nat)) : unlines (a ++ b) = unlines a ++ unlines b := by
  simp [unlines]

theorem linesFrom_line (l : List Nat) : ∀ (cur t : List Nat), 10 ∉ l →
    linesFrom cur (l ++ 10 :: t) = (cur ++ l) :: linesFrom [] t := by
  induction l with
  | nil => intro cur t _; cases cur <;> simp [linesFrom]
  | cons c l ih =>
    intro cur t h
    have hc : c ≠ 10 := fun e => h (by simp [e])
    have := ih (cur ++ [c]) t (fun e => h (List.mem_cons_of_mem _ e))
    cases cur <;> simp_all [linesFrom]

theorem linesFrom_unlines (rs : List (List Nat)) (h : ∀ l ∈ rs, 10 ∉ l) (t : List Nat) :
    linesFrom [] (unlines rs ++ t) = rs ++ linesFrom [] t := by
  induction rs with
  | nil => rfl
  | cons l rs ih =>
    rw [unlines_cons, List.append_assoc, List.cons_append, linesFrom_line l [] _ (h l List.mem_cons_self),
      ih fun x hx => h x (List.mem_cons_of_mem _ hx)]
    rfl

theorem readAll_append {read : List Nat → Option (List Nat)} {a b x y : List (List Nat)}
    (ha : readAll read a = some x) (hb : readAll read b = some y) : readAll read (a ++ b) = some (x ++ y) := by
  induction a generalizing x with
  | nil => simp only [readAll, Option.some.injEq] at ha; subst ha; simpa using hb
  | cons t a ih =>
    rw [readAll] at ha
    split at ha
    · rename_i l ls h1 h2
      injection ha with ha
      subst ha
      rw [List.cons_append, readAll, h1, ih h2]
      rfl
    · exact absurd ha (by simp)

theorem readAll_same {read : List Nat → Option (List Nat)} (rs : List (List Nat))
    (h : ∀ l ∈ rs, read l = some l) : readAll read rs = some rs := by
  induction rs with
  | nil => rfl
  | cons l rs ih =>
    rw [readAll, h l List.mem_cons_self, ih fun x hx => h x (List.mem_cons_of_mem _ hx)]

theorem truncate_unlines (rs : List (List Nat)) : truncate_partial_line (unlines rs) = unlines rs := by
  rcases List.eq_nil_or_concat rs with rfl | ⟨init, l, rfl⟩
  · rfl
  · rw [List.concat_eq_append, unlines_append, unlines_cons]
    show truncate_partial_line (unlines init ++ (l ++ 10 :: [])) = unlines init ++ (l ++ 10 :: [])
    rw [← List.append_assoc, truncate_cut _ [] (by simp)]

/-- Listing the rules of an anchor. -/
theorem pf_list_run {read : List Nat → Option (List Nat)} {cf : PfConf} (h : PfNames cf) (K : Anchors)
    (hfit : (unlines (K cf.anchor)).length ≤ 4095) :
    run_extcmd (pfTool read).plain (pfListCmd cf) STANDARD_CMD_OUT_BUFSIZE K =
      .ok (⟨true, unlines (K cf.anchor)⟩, K) := by
  unfold run_extcmd
  rw [pf_list_argv h, bind_ok]
  show Res.ok _ = _
  simp only [PipeTool.plain, pfTool, pfctl_list]
  rw [List.take_of_length_le (show _ ≤ STANDARD_CMD_OUT_BUFSIZE - 1 from hfit), truncate_unlines]

/-! ## Marks -/

theorem findExp_after {a : Str} {c : Nat} (hc : c ∉ b!"_exp_") (ha : NoMark a) (rest : Str) :
    findExp (a ++ c :: (b!"_exp_" ++ rest)) = some (a.length + 1) := by
  have hn : NoMark (a ++ [c]) := noMark_sep hc ha (noMark_of_no_underscore (by simp))
  apply findSuffix_unique
  · simp only [List.length_append, List.length_cons, List.length_nil]; omega
  · rw [show a ++ c :: (b!"_exp_" ++ rest) = (a ++ [c]) ++ (b!"_exp_" ++ rest) from by simp,
      List.drop_append, List.drop_of_length_le (by simp)]
    simp [hasPrefix]
  · intro i hi
    cases hp : hasPrefix EXPIRE_COMMENT_PREFIX ((a ++ c :: (b!"_exp_" ++ rest)).drop i) with
    | false => rfl
    | true =>
      exfalso
      have hp : b!"_exp_" <+: (a ++ c :: (b!"_exp_" ++ rest)).drop i := by simpa [hasPrefix] using hp
      obtain ⟨t, ht⟩ := hp
      by_cases h1 : i + 5 ≤ a.length + 1
      · have : b!"_exp_" <+: (a ++ [c]).drop i := by
          refine List.prefix_of_prefix_length_le (⟨t, ht⟩ : b!"_exp_" <+: _) ?_ (by simp; omega)
          rw [show a ++ c :: (b!"_exp_" ++ rest) = (a ++ [c]) ++ (b!"_exp_" ++ rest) from by simp,
            List.drop_append_of_le_length (l₁ := a ++ [c]) (by simp; omega)]
          exact List.prefix_append _ _
        exact hn ((mark_iff _).2 ⟨i, by simp; omega, this⟩)
      · have hg : (a ++ c :: (b!"_exp_" ++ rest))[a.length]? = some c := by
          rw [List.getElem?_append_right (by omega), Nat.sub_self]
          rfl
        have h2 : ((a ++ c :: (b!"_exp_" ++ rest)).drop i)[a.length - i]? = some c := by
          rw [List.getElem?_drop, show i + (a.length - i) = a.length from by omega, hg]
        rw [← ht, List.getElem?_append_left (by simp; omega)] at h2
        exact hc (List.mem_of_getElem? h2)

theorem decimal_ten {e : Nat} (h1 : 10 ^ 9 ≤ e) (h2 : e < 10 ^ 10) : (decimal e).length = 10 := by
  rw [← decStr_decimal]
  have a := decStr_length_le e 10 (by decide) h2
  apply Classical.byContradiction
  intro hne
  have hlt : (decStr e).length ≤ 9 := by omega
  have : digitsVal 10 (decStr e) < 10 ^ (decStr e).length := by
    exact digitsVal_lt _ (decStr_digits e)
  rw [decStr_val] at this
  have : 10 ^ (decStr e).length ≤ 10 ^ 9 := Nat.pow_le_pow_right (by decide) hlt
  omega

/-- The expiry time in a label is read, if it has ten digits. -/
theorem pfExpStr_ten {e : Nat} (h1 : 10 ^ 9 ≤ e) (h2 : e < 10 ^ 10) (b : Str) :
    pfExpStr (decimal e ++ 34 :: b) = decimal e := by
  have hl := decimal_ten h1 h2
  unfold pfExpStr
  rw [List.take_append, List.take_of_length_le (by omega), hl]
  show chop_char (chop_spaces (decimal e ++ [34])) 34 = _
  have hs : chop_spaces (decimal e ++ [34]) = decimal e ++ [34] := by
    cases hd : decimal e with
    | nil => rw [hd] at hl; simp at hl
    | cons c cs => simp [chop_spaces]
  rw [hs, chop_char, if_pos ⟨by simp [hl], by simp⟩]
  simp

/-! ## The loop over the marks -/

/-- What the loop does with an access rule. -/
def pfStep (now : Int) (ex : List Nat → Nat) (s : PfScan) (l : List Nat) : PfScan :=
  if (ex l : Int) ≤ now then
    { s with
      active := s.active - 1
      is_delete := true }
  else
    { s with
      copy := s.copy ++ l ++ [10]
      min_exp := if s.min_exp ≠ 0 ∧ s.min_exp < ex l then s.min_exp else ex l }

theorem pfScan_none (now : Int) (buf : Str) (fuel : Nat) (s : PfScan) : pfScan now buf fuel none s = .ok s := by
  cases fuel <;> rfl

/-- Everything up to the beginning of a line. -/
def AtLine (Q : Str) : Prop := Q = [] ∨ ∃ Q', Q = Q' ++ [10]

/-- Nothing, or the line ends here. -/
def LineEnd (R : Str) : Prop := R = [] ∨ ∃ R', R = 10 :: R'

theorem pfLineStart_eq {Q y : Str} (hQ : AtLine Q) (hy : 10 ∉ y) (R : Str) (k : Nat) (hk : k = Q.length + y.length) :
    pfLineStart (Q ++ y ++ R) k = Q.length := by
  have h0 : ((Q ++ y ++ R).take k).reverse.takeWhile (· ≠ 10) = y.reverse := by
    rw [List.take_left' (by simp [hk]), List.reverse_append]
    have hy' : ∀ c ∈ y.reverse, (fun c => decide (c ≠ 10)) c = true := by
      intro c hc
      have : c ≠ 10 := by rintro rfl; exact hy (List.mem_reverse.1 hc)
      simpa using this
    rcases hQ with rfl | ⟨Q', rfl⟩
    · simpa using takeWhile_all _ hy'
    · rw [List.reverse_append]
      exact takeWhile_until _ _ _ _ hy' (by simp)
  unfold pfLineStart
  rw [h0, List.length_reverse]
  omega

theorem line_until {l R : Str} (hl : 10 ∉ l) (hR : LineEnd R) : (l ++ R).takeWhile (· ≠ 10) = l := by
  have hl' : ∀ c ∈ l, (fun c => decide (c ≠ 10)) c = true := by
    intro c hc
    have : c ≠ 10 := by rintro rfl; exact hl hc
    simpa using this
  rcases hR with rfl | ⟨R', rfl⟩
  · simpa using takeWhile_all _ hl'
  · exact takeWhile_until _ _ _ _ hl' (by simp)

/-- One line. -/
theorem pfScan_line {now : Int} {ex : List Nat → Nat} {Q l R : Str} (hQ : AtLine Q) (hR : LineEnd R)
    (hl : PassUntil l (ex l)) (h1 : 10 ^ 9 ≤ ex l) (h2 : ex l < 10 ^ 10) {k : Nat} (hk : k ≤ Q.length)
    (hmark : NoMark (Q.drop k)) (fuel : Nat) (s : PfScan) (hroom : s.copy.length + l.length ≤ 4094) :
    ∃ k', Q.length ≤ k' ∧ k' ≤ (Q ++ l).length ∧ NoMark ((Q ++ l).drop k') ∧
      pfScan now (Q ++ l ++ R) (fuel + 1) ((findExp ((Q ++ l ++ R).drop k)).map (· + k)) s =
        pfScan now (Q ++ l ++ R) fuel ((findExp ((Q ++ l ++ R).drop k')).map (· + k')) (pfStep now ex s l) := by
  obtain ⟨hnl, x, hx, hlx⟩ := hl
  have hlx' : l = (b!"pass" ++ x ++ b!"label ") ++ 34 :: (b!"_exp_" ++ (decimal (ex l) ++ [34])) := by
    exact hlx.trans (by simp)
  have hn1 : NoMark (b!"pass" ++ x ++ b!"label ") := by
    have := noMark_sep (a := b!"pass" ++ x) (b := b!"abel ") (c := 108) (by decide) hx
      (noMark_of_no_underscore (by decide))
    simpa using this
  have hn2 : NoMark (Q.drop k ++ (b!"pass" ++ x ++ b!"label ")) := by
    rcases hQ with rfl | ⟨Q', rfl⟩
    · simpa using hn1
    · by_cases hk' : k = (Q' ++ [10]).length
      · rw [hk', List.drop_length]; simpa using hn1
      · have hk2 : k ≤ Q'.length := by
          simp only [List.length_append, List.length_cons, List.length_nil] at hk hk'; omega
        rw [List.drop_append_of_le_length hk2, List.append_assoc]
        apply noMark_sep (by decide) _ hn1
        intro hm
        apply hmark
        rw [List.drop_append_of_le_length hk2]
        exact hm.trans (List.prefix_append _ _).isInfix
  generalize hpre : b!"pass" ++ x ++ b!"label " = pre at *
  have hfind : findExp ((Q ++ l ++ R).drop k) = some (Q.length - k + pre.length + 1) := by
    rw [List.append_assoc, List.drop_append_of_le_length hk]
    conv => lhs; rw [hlx']
    rw [show Q.drop k ++ (pre ++ 34 :: (b!"_exp_" ++ (decimal (ex l) ++ [34])) ++ R) =
      (Q.drop k ++ pre) ++ 34 :: (b!"_exp_" ++ (decimal (ex l) ++ [34] ++ R)) from by simp]
    rw [findExp_after (by decide) hn2]
    simp
  have hll : l.length = pre.length + 6 + (decimal (ex l)).length + 1 := by
    conv => lhs; rw [hlx']
    simp; omega
  refine ⟨Q.length + pre.length + 6, by omega, by simp [hll]; omega, ?_, ?_⟩
  · rw [show Q ++ l = (Q ++ pre ++ 34 :: b!"_exp_") ++ (decimal (ex l) ++ [34]) from by
      conv => lhs; rw [hlx']
      simp]
    rw [List.drop_left' (by simp; omega)]
    exact noMark_sep (by decide) (noMark_decimal _) (noMark_of_no_underscore (by decide))
  · rw [hfind]
    simp only [Option.map_some]
    rw [pfScan]
    have hkk : Q.length - k + pre.length + 1 + k + EXPIRE_COMMENT_PREFIX.length = Q.length + pre.length + 6 := by
      show _ + 5 = _; omega
    rw [hkk]
    have hdrop : (Q ++ l ++ R).drop (Q.length + pre.length + 6) = decimal (ex l) ++ 34 :: R := by
      rw [show Q ++ l ++ R = (Q ++ pre ++ 34 :: b!"_exp_") ++ (decimal (ex l) ++ 34 :: R) from by
        conv => lhs; rw [hlx']
        simp]
      rw [List.drop_left' (by simp; omega)]
    have hstart : pfLineStart (Q ++ l ++ R) (Q.length + pre.length + 6) = Q.length := by
      have hl2 : l = (pre ++ 34 :: b!"_exp_") ++ (decimal (ex l) ++ [34]) := by
        conv => lhs; rw [hlx']
        simp
      have : Q ++ l ++ R = Q ++ (pre ++ 34 :: b!"_exp_") ++ (decimal (ex l) ++ [34] ++ R) := by
        conv => lhs; rw [hl2]
        simp
      rw [this]
      refine pfLineStart_eq hQ ?_ _ _ (by simp; omega)
      intro h; exact hnl (by rw [hl2]; exact List.mem_append_left _ h)
    have hdQ : (Q ++ l ++ R).drop Q.length = l ++ R := by rw [List.append_assoc, List.drop_left]
    simp only [hdrop, hstart, hdQ]
    rw [pfExpStr_ten h1 h2, is_digits_decimal, decimal_val]
    simp only [Bool.not_true, Bool.false_eq_true, if_false]
    unfold pfStep
    by_cases he : (ex l : Int) ≤ now
    · rw [if_pos he, if_pos he]
    · rw [if_neg he, if_neg he]
      have hpass : hasPrefix b!"pass" (l ++ R) = true := by
        rw [hlx', ← hpre]; simp [hasPrefix]
      rw [if_neg (by rw [hpass]; simp; omega)]
      have hcopy : pfCopy (Q ++ l ++ R) Q.length s.copy = .ok (s.copy ++ l ++ [10]) := by
        unfold pfCopy
        rw [hdQ, line_until hnl hR]
        simp only
        rw [List.take_of_length_le (show l.length ≤ 4096 - s.copy.length by omega)]
        rw [Res.mem_of_not (show ¬ (s.copy ++ l).length ≥ 4096 by simp; omega), bind_ok]
        rfl
      rw [hcopy, bind_ok]

theorem dropLast_lines (Q l : Str) (ls : List (List Nat)) :
    ∃ R, LineEnd R ∧ (Q ++ unlines (l :: ls)).dropLast = Q ++ l ++ R ∧ (ls = [] → R = []) ∧
      (ls ≠ [] → (Q ++ l ++ [10] ++ unlines ls).dropLast = Q ++ l ++ R) := by
  rw [unlines_cons]
  cases ls with
  | nil => exact ⟨[], .inl rfl, by simp [unlines], fun _ => rfl, fun h => absurd rfl h⟩
  | cons m ls =>
    have hne : unlines (m :: ls) ≠ [] := by rw [unlines_cons]; simp
    have h1 : ∀ X : Str, (X ++ 10 :: unlines (m :: ls)).dropLast = X ++ 10 :: (unlines (m :: ls)).dropLast := by
      intro X
      rw [List.dropLast_append_of_ne_nil (by simp), List.dropLast_cons_of_ne_nil hne]
    refine ⟨10 :: (unlines (m :: ls)).dropLast, .inr ⟨_, rfl⟩, ?_, fun h => absurd h (by simp), fun _ => ?_⟩
    · rw [← List.append_assoc, h1]
    · rw [show Q ++ l ++ [10] ++ unlines (m :: ls) = (Q ++ l) ++ 10 :: unlines (m :: ls) from by simp, h1]

theorem pfStep_copy (now : Int) (ex : List Nat → Nat) (s : PfScan) (l : List Nat) :
    (pfStep now ex s l).copy.length ≤ s.copy.length + l.length + 1 := by
  unfold pfStep
  split
  · simp only; omega
  · simp only [List.length_append, List.length_cons, List.length_nil]; omega

/-- The loop over the marks of the rules of an anchor. -/
theorem pfScan_lines {now : Int} {ex : List Nat → Nat} (ls : List (List Nat)) :
    ∀ (Q : Str) (k fuel : Nat) (s : PfScan), AtLine Q → k ≤ Q.length → NoMark (Q.drop k) → ls ≠ [] →
      (∀ l ∈ ls, PassUntil l (ex l) ∧ 10 ^ 9 ≤ ex l ∧ ex l < 10 ^ 10) → ls.length ≤ fuel →
      s.copy.length ≤ Q.length → (Q ++ unlines ls).length ≤ 4095 →
      pfScan now (Q ++ unlines ls).dropLast fuel ((findExp ((Q ++ unlines ls).dropLast.drop k)).map (· + k)) s =
        .ok (ls.foldl (pfStep now ex) s) := by
  induction ls with
  | nil => intro Q k fuel s _ _ _ h; exact absurd rfl h
  | cons l ls ih =>
    intro Q k fuel s hQ hk hm _ hl hf hc hfit
    obtain ⟨R, hR, h1, h2, h3⟩ := dropLast_lines Q l ls
    obtain ⟨a1, a2, a3⟩ := hl l List.mem_cons_self
    obtain ⟨f, rfl⟩ : ∃ f, fuel = f + 1 := ⟨fuel - 1, by simp only [List.length_cons] at hf; omega⟩
    have hlen : Q.length + l.length + 1 + (unlines ls).length ≤ 4095 := by
      rw [unlines_cons] at hfit
      simp only [List.length_append, List.length_cons] at hfit; omega
    obtain ⟨k', hk1, hk2, hk3, hrun⟩ := pfScan_line (now := now) hQ hR a1 a2 a3 hk hm f s (by omega)
    rw [h1, hrun, List.foldl_cons]
    by_cases hls : ls = []
    · subst hls
      rw [h2 rfl, List.append_nil, findExp_none hk3]
      exact pfScan_none _ _ _ _
    · have hih := ih (Q ++ l ++ [10]) k' f (pfStep now ex s l) (.inr ⟨_, rfl⟩)
        (by simp only [List.length_append, List.length_cons, List.length_nil] at hk2 ⊢; omega)
        (by
          rw [List.drop_append_of_le_length hk2]
          exact noMark_sep (by decide) hk3 (noMark_of_no_underscore (by simp)))
        hls (fun x hx => hl x (List.mem_cons_of_mem _ hx))
        (by simp only [List.length_cons] at hf; omega)
        (by have := pfStep_copy now ex s l; simp only [List.length_append, List.length_cons, List.length_nil]; omega)
        (by simp only [List.length_append, List.length_cons, List.length_nil]; omega)
      rw [h3 hls] at hih
      exact hih

theorem pfFold (now : Int) (ex : List Nat → Nat) (ls : List (List Nat)) : ∀ s : PfScan,
    (ls.foldl (pfStep now ex) s).copy = s.copy ++ unlines (ls.filter fun l => now < ex l) ∧
    (ls.foldl (pfStep now ex) s).active = s.active - (ls.filter fun l => ex l ≤ now).length ∧
    ((ls.foldl (pfStep now ex) s).is_delete = true ↔ s.is_delete = true ∨ ∃ l ∈ ls, ex l ≤ now) := by
  induction ls with
  | nil => intro s; simp [unlines]
  | cons l ls ih =>
    intro s
    obtain ⟨h1, h2, h3⟩ := ih (pfStep now ex s l)
    rw [List.foldl_cons, h1, h2, h3]
    unfold pfStep
    by_cases he : (ex l : Int) ≤ now
    · rw [if_pos he]
      have hn : ¬ now < (ex l : Int) := by omega
      simp only [List.filter_cons, he, hn, decide_true, decide_false, List.mem_cons]
      refine ⟨rfl, by simp; omega, ?_⟩
      simp [he]
    · rw [if_neg he]
      have hn : now < (ex l : Int) := by omega
      simp only [List.filter_cons, he, hn, decide_true, decide_false, List.mem_cons]
      refine ⟨by simp [unlines_cons], rfl, ?_⟩
      simp [he]

/-- The earliest time after `now`, or 0. -/
theorem pfFold_min (now : Int) (h0 : 0 ≤ now) (ex : List Nat → Nat) (ls : List (List Nat)) : ∀ s : PfScan,
    let m := (ls.foldl (pfStep now ex) s).min_exp
    (∀ l ∈ ls, now < ex l → m ≠ 0 ∧ m ≤ ex l) ∧ (s.min_exp ≠ 0 → m ≠ 0 ∧ m ≤ s.min_exp) ∧
      (m = s.min_exp ∨ ∃ l ∈ ls, now < ex l ∧ m = ex l) := by
  induction ls with
  | nil => intro s; simp
  | cons l ls ih =>
    intro s
    obtain ⟨h1, h2, h3⟩ := ih (pfStep now ex s l)
    simp only [List.foldl_cons]
    by_cases he : (ex l : Int) ≤ now
    · have hm : (pfStep now ex s l).min_exp = s.min_exp := by unfold pfStep; rw [if_pos he]
      rw [hm] at h2 h3
      refine ⟨?_, h2, ?_⟩
      · intro x hx hxn
        rcases List.mem_cons.1 hx with rfl | hx
        · omega
        · exact h1 x hx hxn
      · rcases h3 with h | ⟨x, hx, hxn⟩
        · exact .inl h
        · exact .inr ⟨x, List.mem_cons_of_mem _ hx, hxn⟩
    · have hm : (pfStep now ex s l).min_exp = if s.min_exp ≠ 0 ∧ s.min_exp < ex l then s.min_exp else ex l := by
        unfold pfStep; rw [if_neg he]
      generalize (pfStep now ex s l).min_exp = m0 at *
      generalize (ls.foldl (pfStep now ex) (pfStep now ex s l)).min_exp = m at *
      have hm0 : m0 ≠ 0 ∧ m0 ≤ ex l ∧ (s.min_exp ≠ 0 → m0 ≤ s.min_exp) ∧ (m0 = s.min_exp ∨ m0 = ex l) := by
        rw [hm]
        split
        · rename_i h; exact ⟨h.1, by omega, fun _ => Int.le_refl _, .inl rfl⟩
        · rename_i h; exact ⟨by omega, Int.le_refl _, fun h' => by omega, .inr rfl⟩
      obtain ⟨g1, g2, g3, g4⟩ := hm0
      obtain ⟨k1, k2⟩ := h2 g1
      refine ⟨?_, ?_, ?_⟩
      · intro x hx hxn
        rcases List.mem_cons.1 hx with rfl | hx
        · exact ⟨k1, by omega⟩
        · exact h1 x hx hxn
      · intro h; exact ⟨k1, by have := g3 h; omega⟩
      · rcases h3 with h | ⟨x, hx, hxn⟩
        · rcases g4 with g | g
          · exact .inl (h.trans g)
          · exact .inr ⟨l, List.mem_cons_self, by omega, h.trans g⟩
        · exact .inr ⟨x, List.mem_cons_of_mem _ hx, hxn⟩

/-! ## Checks and requests -/

theorem labelTime_eq {l : List Nat} {e : Nat} (h : PassUntil l e) : labelTime l = e := by
  obtain ⟨_, x, _, rfl⟩ := h
  unfold labelTime
  rw [List.dropLast_concat, List.reverse_append, ← decStr_decimal]
  have hd : ∀ c ∈ (decStr e).reverse, (fun c => decide (48 ≤ c ∧ c ≤ 57)) c = true := by
    intro c hc
    have := decStr_digits e c (List.mem_reverse.1 hc)
    simpa [isDigit] using this
  rw [show (b!"pass" ++ x ++ b!"label \"_exp_").reverse = 95 :: (b!"pass" ++ x ++ b!"label \"_exp").reverse from by simp]
  rw [takeWhile_until _ _ _ _ hd (by simp), List.reverse_reverse, decStr_decimal, number_decimal]

theorem anchors_put_get (K : Anchors) (a : Word) (rs : List (List Nat)) : K.put a rs a = rs := by
  simp [Anchors.put]

theorem anchors_put_same {K : Anchors} {a : Word} {rs : List (List Nat)} (h : K a = rs) : K.put a rs = K := by
  funext b
  unfold Anchors.put
  split
  · rename_i hb; rw [hb, h]
  · rfl

theorem anchors_put_put (K : Anchors) (a : Word) (x y : List (List Nat)) : (K.put a x).put a y = K.put a y := by
  funext b
  unfold Anchors.put
  split <;> rfl

theorem anchorOk_time {read : List Nat → Option (List Nat)} {rs : List (List Nat)} (h : AnchorOk read rs) :
    ∀ l ∈ rs, PassUntil l (labelTime l) ∧ 10 ^ 9 ≤ labelTime l ∧ labelTime l < 10 ^ 10 := by
  intro l hl
  obtain ⟨_, e, h1, h2, h3⟩ := h.rule l hl
  rw [labelTime_eq h1]
  exact ⟨h1, h2, h3⟩

theorem unlines_length_ge (rs : List (List Nat)) : rs.length ≤ (unlines rs).length := by
  induction rs with
  | nil => simp
  | cons l rs ih => rw [unlines_cons]; simp only [List.length_append, List.length_cons]; omega

theorem unlines_filter_le (p : List Nat → Bool) (rs : List (List Nat)) :
    (unlines (rs.filter p)).length ≤ (unlines rs).length := by
  induction rs with
  | nil => simp
  | cons l rs ih =>
    rw [List.filter_cons]
    split
    · rw [unlines_cons, unlines_cons]; simp only [List.length_append, List.length_cons]; omega
    · rw [unlines_cons]; simp only [List.length_append, List.length_cons]; omega

theorem anchorOk_filter {read : List Nat → Option (List Nat)} {rs : List (List Nat)} (h : AnchorOk read rs)
    (p : List Nat → Bool) : AnchorOk read (rs.filter p) :=
  ⟨fun l hl => h.rule l (List.mem_filter.1 hl).1, Nat.le_trans (unlines_filter_le p rs) h.fits⟩

theorem pf_write_run {read : List Nat → Option (List Nat)} {cf : PfConf} (h : PfNames cf) (K : Anchors)
    {t : Str} {rs : List (List Nat)} (ht : readAll read (linesFrom [] t) = some rs) :
    run_extcmd_write (pfTool read) (pfWriteCmd cf) t K = .ok (true, K.put cf.anchor rs) := by
  unfold run_extcmd_write
  rw [pf_write_argv h, bind_ok]
  show Res.ok _ = _
  simp only [pfTool, pfctl_write _ _ _ ht]

theorem pf_flush_run {read : List Nat → Option (List Nat)} {cf : PfConf} (h : PfNames cf) (K : Anchors) :
    delete_all_anchor_rules cf (pfTool read) K = .ok (K.put cf.anchor []) := by
  unfold delete_all_anchor_rules run_extcmd
  rw [pf_flush_argv h, bind_ok]
  show Res.ok _ = _
  simp only [PipeTool.plain, pfTool, pfctl_flush]

theorem passUntil_pass {l : List Nat} {e : Nat} (h : PassUntil l e) : ∃ x, l = b!"pass" ++ x ∧ x ≠ [] := by
  obtain ⟨_, x, _, rfl⟩ := h
  exact ⟨x ++ (b!"label \"_exp_" ++ decimal e ++ b!"\""), by simp, by simp⟩

/-- A check that is due. -/
theorem pf_check_run {read : List Nat → Option (List Nat)} {cf : PfConf} (hn : PfNames cf) {K : Anchors}
    (hok : AnchorOk read (K cf.anchor)) (hne : K cf.anchor ≠ []) {now : Int} (h0 : 0 ≤ now) {act : Nat} {nxt : Int}
    (hz : nxt ≠ 0) (hdue : nxt ≤ now) :
    ∃ nxt', pf_check_firewall_rules cf (pfTool read) now ⟨act, nxt, K⟩ =
        .ok ⟨act - ((K cf.anchor).filter fun l => labelTime l ≤ now).length, nxt',
          K.put cf.anchor ((K cf.anchor).filter fun l => now < labelTime l)⟩ ∧
      (act - ((K cf.anchor).filter fun l => labelTime l ≤ now).length = 0 → nxt' = 0) ∧
      (act - ((K cf.anchor).filter fun l => labelTime l ≤ now).length ≠ 0 →
        (∀ l ∈ K cf.anchor, now < labelTime l → nxt' ≤ labelTime l) ∧
        (nxt' = nxt ∧ (∀ l ∈ K cf.anchor, labelTime l ≤ now) ∨
          ∃ l ∈ K cf.anchor, now < labelTime l ∧ nxt' = labelTime l)) := by
  obtain ⟨l, ls, hls⟩ : ∃ l ls, K cf.anchor = l :: ls := by
    cases h : K cf.anchor with
    | nil => exact absurd h hne
    | cons l ls => exact ⟨l, ls, rfl⟩
  have ht := anchorOk_time hok
  have hlist := pf_list_run (read := read) hn K hok.fits
  generalize hrs : K cf.anchor = rs at *
  have hchop : chop_newline (unlines rs) = (unlines rs).dropLast := by
    obtain ⟨x, hx, _⟩ := passUntil_pass (ht l (by simp [hls])).1
    unfold chop_newline
    rw [if_pos]
    refine ⟨by rw [hls, unlines_cons, hx]; simp, ?_⟩
    rcases List.eq_nil_or_concat rs with h | ⟨init, m, h⟩
    · exact absurd h hne
    · rw [h, List.concat_eq_append, unlines_append, unlines_cons]
      show (unlines init ++ (m ++ [10])).getLast? = some 10
      rw [← List.append_assoc, List.getLast?_concat]
  have hscan := pfScan_lines (now := now) (ex := labelTime) rs [] 0 ((unlines rs).dropLast.length + 1)
    { active := act } (.inl rfl) (Nat.le_refl _) (noMark_of_no_underscore (by simp)) (by rw [hls]; simp) ht
    (by have := unlines_length_ge rs; rw [List.length_dropLast]; omega) (by simp) hok.fits
  simp only [List.nil_append, List.drop_zero, Nat.add_zero] at hscan
  have hfind : ∃ p, findExp (unlines rs).dropLast = some p := by
    obtain ⟨R, _, h1, _⟩ := dropLast_lines [] l ls
    obtain ⟨⟨_, x, hx, hlx⟩, _⟩ := ht l (by simp [hls])
    rw [List.nil_append, ← hls] at h1
    rw [h1]
    have hn1 : NoMark (b!"pass" ++ x ++ b!"label ") := by
      have := noMark_sep (a := b!"pass" ++ x) (b := b!"abel ") (c := 108) (by decide) hx
        (noMark_of_no_underscore (by decide))
      simpa using this
    refine ⟨(b!"pass" ++ x ++ b!"label ").length + 1, ?_⟩
    conv => lhs; rw [hlx]
    rw [show [] ++ (b!"pass" ++ x ++ b!"label \"_exp_" ++ decimal (labelTime l) ++ b!"\"") ++ R =
      (b!"pass" ++ x ++ b!"label ") ++ 34 :: (b!"_exp_" ++ (decimal (labelTime l) ++ [34] ++ R)) from by simp]
    exact findExp_after (by decide) hn1 _
  obtain ⟨p, hp⟩ := hfind
  rw [hp] at hscan
  simp only [Option.map_some] at hscan
  obtain ⟨f1, f2, f3⟩ := pfFold now labelTime rs { active := act }
  obtain ⟨m1, _, m3⟩ := pfFold_min now h0 labelTime rs { active := act }
  generalize hq : rs.foldl (pfStep now labelTime) { active := act } = q at *
  simp only [List.nil_append] at f1
  replace f2 : q.active = act - (rs.filter fun l => decide ((labelTime l : Int) ≤ now)).length := f2
  have hrw : pfRewrite cf (pfTool read) q K = .ok (true, K.put cf.anchor (rs.filter fun l => now < labelTime l)) := by
    unfold pfRewrite
    by_cases hd : q.is_delete = true
    · rw [if_pos hd]
      have hle := unlines_filter_le (fun l => decide (now < labelTime l)) rs
      have hfits := hok.fits
      rw [Res.mem_of_not (show ¬ q.copy.length ≥ 4096 by rw [f1]; omega), bind_ok]
      by_cases hnil : (rs.filter fun l => decide (now < labelTime l)) = []
      · rw [if_neg (by rw [f1, hnil]; simp [unlines]), hnil, pf_flush_run hn, bind_ok]
        rfl
      · rw [if_pos]
        · rw [f1]
          refine pf_write_run hn K ?_
          rw [← List.append_nil (unlines _), linesFrom_unlines _ (fun m hm => (ht m (List.mem_filter.1 hm).1).1.1)]
          rw [show linesFrom [] [] = [] from rfl, List.append_nil]
          exact readAll_same _ fun m hm => (hok.rule m (List.mem_filter.1 hm).1).1
        · cases hfl : rs.filter fun l => decide (now < labelTime l) with
          | nil => exact absurd hfl hnil
          | cons m ms =>
            have hm : m ∈ rs := (List.mem_filter.1 (by rw [hfl]; simp : m ∈ rs.filter fun l => decide (now < labelTime l))).1
            obtain ⟨x, hx, hxn⟩ := passUntil_pass (ht m hm).1
            rw [f1, hfl, unlines_cons, hx]
            simp [hasPrefix]
            omega
    · rw [if_neg hd]
      show Res.ok _ = _
      have hall : (rs.filter fun l => decide (now < labelTime l)) = rs := by
        rw [List.filter_eq_self]
        intro m hm
        have : ¬ ((labelTime m : Int) ≤ now) := fun hle => hd (f3.2 (.inr ⟨m, hm, hle⟩))
        simpa using by omega
      rw [hall, anchors_put_same hrs]
  refine ⟨pfNext nxt q, ?_, ?_, ?_⟩
  · unfold pf_check_firewall_rules
    rw [if_neg (by simp only [not_or]; exact ⟨hz, by omega⟩)]
    simp only
    rw [hlist, bind_ok]
    simp only [Bool.not_true, Bool.false_eq_true, if_false]
    rw [hchop, hp]
    simp only
    rw [hscan, bind_ok, hrw, bind_ok]
    simp only [if_true]
    rw [Res.pure_eq, f2]
  · intro h
    unfold pfNext
    rw [f2, if_pos (by omega)]
  · intro h
    unfold pfNext
    rw [f2, if_neg (by omega)]
    by_cases hm : q.min_exp = 0
    · rw [if_neg (by simp [hm])]
      have hall : ∀ l ∈ rs, (labelTime l : Int) ≤ now := by
        intro l hl
        apply Classical.byContradiction
        intro hc
        exact (m1 l hl (by omega)).1 hm
      exact ⟨fun l hl hc => absurd (hall l hl) (by omega), .inl ⟨rfl, hall⟩⟩
    · rw [if_pos hm]
      refine ⟨fun l hl hc => (m1 l hl hc).2, .inr ?_⟩
      rcases m3 with h | h
      · exact absurd h hm
      · exact h

theorem portsRead_expand (s : Str) : ∀ cur l, expandLoop parse_proto_and_port s cur = some l → portsRead s cur = l := by
  induction s with
  | nil =>
    intro cur l h
    rw [expandLoop] at h
    rw [portsRead]
    cases h1 : listItem cur with
    | none => rw [h1] at h; exact absurd h (by simp)
    | some i =>
      rw [h1] at h
      simp only [Option.bind_eq_bind, Option.bind_some] at h ⊢
      cases h2 : parse_proto_and_port i with
      | none => rw [h2] at h; exact absurd h (by simp)
      | some x => rw [h2] at h; simpa using h
  | cons c cs ih =>
    intro cur l h
    rw [expandLoop] at h
    rw [portsRead]
    split at h
    · rename_i hc
      rw [if_pos hc]
      cases h1 : listItem cur with
      | none => rw [h1] at h; exact absurd h (by simp)
      | some i =>
        rw [h1] at h
        simp only [Option.bind_eq_bind, Option.bind_some] at h ⊢
        cases h2 : parse_proto_and_port i with
        | none => rw [h2] at h; exact absurd h (by simp)
        | some x =>
          rw [h2] at h
          simp only [Option.bind_some] at h ⊢
          cases h3 : expandLoop parse_proto_and_port cs [] with
          | none => rw [h3] at h; exact absurd h (by simp)
          | some r =>
            rw [h3] at h
            rw [ih [] r h3]
            simpa using h
    · rename_i hc
      rw [if_neg hc]
      exact ih _ _ h

/-- The text of a rule is what the specification says, with a line feed. -/
theorem pfRuleText_eq {src dst : Word} (hs : src.length ≤ 15) (hd : dst.length ≤ 15) {proto port e : Nat}
    (hp : proto < 1000) (hpt : port ≤ 65535) (he : e < 2 ^ 32) :
    pfRuleText proto src dst (port : Int) e = pfAccess src dst e proto port ++ [10] := by
  have h1 := decStr_length_le proto 3 (by decide) (by omega)
  have h2 := decStr_length_le port 5 (by decide) (by omega)
  have h3 := decStr_length_le e 10 (by decide) (by omega)
  unfold pfRuleText pfAccess
  have hport : ((port : Int) % 2 ^ 32).toNat = port := by omega
  rw [hport]
  rw [List.take_of_length_le (i := MAX_PF_NEW_RULE_LEN - 2) (show _ ≤ 138 by
    simp only [List.length_append, List.length_cons, List.length_nil]; omega)]
  simp only [decStr_decimal]
  simp [unwords]

theorem pfAccess_line {src dst : Word} (hs : AddrWord src) (hd : AddrWord dst) (e proto port : Nat) :
    10 ∉ pfAccess src dst e proto port := by
  have hdec : ∀ n, 10 ∉ decimal n := fun n h => by
    have := (plain_decimal n).2 10 h
    exact this (by unfold IsBlank; decide)
  have hw : ∀ w, AddrWord w → 10 ∉ w := fun w h h' => h.1.2 10 h' (by unfold IsBlank; decide)
  unfold pfAccess
  simp [unwords, hdec, hw _ hs, hw _ hd]

/-- Adding the rule for one port. -/
theorem pfPort_run {read : List Nat → Option (List Nat)} (hread : Reads read) {cf : PfConf} (hn : PfNames cf)
    {sp : SpaData} {e : Nat} (he : e < 2 ^ 32) (hs : AddrWord sp.use_src_ip) (hd : AddrWord (pfDst cf sp))
    (hsl : sp.use_src_ip.length ≤ 15) (hdl : (pfDst cf sp).length ≤ 15) {p : Nat × Nat} (hp : p.1 < 1000 ∧ p.2 ≤ 65535)
    {K : Anchors} (hok : AnchorOk read (K cf.anchor))
    (hroom : (unlines (K cf.anchor)).length + (pfAccess sp.use_src_ip (pfDst cf sp) e p.1 p.2).length < 4095)
    (now : Int) (act : Nat) (nxt : Int) :
    ∃ l, read (pfAccess sp.use_src_ip (pfDst cf sp) e p.1 p.2) = some l ∧ PassUntil l e ∧
      pfPort cf (pfTool read) sp e now (toEnt p) ⟨act, nxt, K⟩ =
        .ok (true, ⟨(act + 1) % 2 ^ 16, nextExpire nxt e now, K.put cf.anchor (K cf.anchor ++ [l])⟩) := by
  obtain ⟨l, hl, hpu⟩ := hread.access sp.use_src_ip (pfDst cf sp) e p.1 p.2 hs hd
  refine ⟨l, hl, hpu, ?_⟩
  unfold pfPort
  simp only [toEnt]
  rw [pf_list_run hn K hok.fits, bind_ok]
  simp only
  rw [pfRuleText_eq hsl hdl hp.1 hp.2 he]
  rw [if_pos (show _ < 4096 by simp only [List.length_append, List.length_cons, List.length_nil]; omega)]
  rw [pf_write_run hn K (rs := K cf.anchor ++ [l])]
  · rw [bind_ok]; rfl
  · rw [linesFrom_unlines _ (fun m hm => (anchorOk_time hok m hm).1.1), linesFrom_line _ [] [] (pfAccess_line hs hd _ _ _)]
    refine readAll_append (readAll_same _ fun m hm => (hok.rule m hm).1) ?_
    simp [linesFrom, readAll, hl]

end Fwknop
