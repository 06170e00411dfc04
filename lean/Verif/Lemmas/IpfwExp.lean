import Verif.Lemmas.IpfwPurge

/-!
# Which rule a check moves
-/

namespace Fwknop

open Spec Res

theorem findExp_before {a : Str} (ha : 95 ∉ a) (rest : Str) : findExp (a ++ (b!"_exp_" ++ rest)) = some a.length := by
  apply findSuffix_unique
  · simp
  · rw [List.drop_left]; simp [hasPrefix]
  · intro i hi
    cases hp : hasPrefix EXPIRE_COMMENT_PREFIX ((a ++ (b!"_exp_" ++ rest)).drop i) with
    | false => rfl
    | true =>
      exfalso
      rw [List.drop_append_of_le_length (by omega), List.drop_eq_getElem_cons hi] at hp
      have : a[i] = 95 := by
        simp only [hasPrefix, EXPIRE_COMMENT_PREFIX, List.cons_append, List.isPrefixOf_cons_cons, Bool.and_eq_true, beq_iff_eq] at hp
        exact hp.1.symm
      exact ha (this ▸ List.getElem_mem _)

theorem decimal_no {c : Nat} (hc : isDigit c = false) (n : Nat) : c ∉ decimal n := by
  intro e
  rw [← decStr_decimal] at e
  rw [decStr_digits _ _ e] at hc
  cases hc

/-- What the loop over the marks comes to: it passes over every line but the last. -/
theorem ipfwScan_last (now : Int) {m pre : Str} {n e : Nat} (hm : m = pre ++ b!"_exp_" ++ decimal e) (hpre : 95 ∉ pre)
    (hnum : ∃ body, m = pad5 n ++ 32 :: body) (hn : n ≤ 65535) (hnl : 10 ∉ m) (h1 : 10 ^ 9 ≤ e) (h2 : e < 10 ^ 10) (ls : List Str) :
    ∀ (Q x : Str) (fuel : Nat), (∀ l ∈ ls, 95 ∉ l ∨ ∃ p t, 95 ∉ p ∧ l = p ++ b!"_exp_" ++ decimal t ∧ 10 ^ 9 ≤ t ∧ t < 10 ^ 10) →
      95 ∉ x → AtLine (Q ++ x) → ls.length < fuel →
      ipfwScan now (Q ++ (x ++ (unlines ls ++ m))) fuel ((findExp (x ++ (unlines ls ++ m))).map (· + Q.length)) =
        .ok (if (e : Int) ≤ now then .rule n else .nothing) := by
  induction ls with
  | nil =>
    intro Q x fuel _ hx hQ hf
    obtain ⟨fuel, rfl⟩ : ∃ f, fuel = f + 1 := ⟨fuel - 1, by simp at hf; omega⟩
    have hbuf : x ++ (unlines [] ++ m) = (x ++ pre) ++ (b!"_exp_" ++ decimal e) := by rw [hm]; simp [unlines]
    rw [hbuf, findExp_before (by simp [hx, hpre])]
    simp only [Option.map_some]
    rw [ipfwScan]
    have hk : (x ++ pre).length + Q.length + EXPIRE_COMMENT_PREFIX.length = (Q ++ (x ++ pre) ++ b!"_exp_").length := by
      simp only [List.length_append, EXPIRE_COMMENT_PREFIX]; omega
    have hdrop : (Q ++ ((x ++ pre) ++ (b!"_exp_" ++ decimal e))).drop ((x ++ pre).length + Q.length + EXPIRE_COMMENT_PREFIX.length) = decimal e := by
      rw [hk, show Q ++ ((x ++ pre) ++ (b!"_exp_" ++ decimal e)) = (Q ++ (x ++ pre) ++ b!"_exp_") ++ decimal e from by simp [List.append_assoc],
        List.drop_left]
    have hl := decimal_ten h1 h2
    simp only [hdrop]
    rw [List.take_of_length_le (by omega)]
    have hds : ∀ c ∈ decimal e, isDigit c = true := by rw [← decStr_decimal]; exact decStr_digits e
    rw [(chop_spaces_digits _ hds (by intro h; rw [h] at hl; simp at hl)).2, is_digits_decimal, decimal_val]
    simp only [Bool.not_true, Bool.false_eq_true, if_false]
    by_cases hexp : (e : Int) ≤ now
    · rw [if_pos hexp, if_pos hexp]
      obtain ⟨body, hbody⟩ := hnum
      have := ipfwRuleNum_line (Q := Q ++ x) (R := []) (k := (x ++ pre).length + Q.length + EXPIRE_COMMENT_PREFIX.length) hQ hn hbody hnl
        (by simp only [List.length_append]; omega) (by rw [hm]; simp only [List.length_append, EXPIRE_COMMENT_PREFIX]; omega)
      rw [show Q ++ (x ++ pre ++ (b!"_exp_" ++ decimal e)) = Q ++ x ++ m ++ [] from by rw [hm]; simp [List.append_assoc], this, bind_ok]
      rfl
    · rw [if_neg hexp, if_neg hexp, findExp_none (noMark_of_no_underscore (decimal_no (by decide) _))]
      cases fuel <;> rfl
  | cons l ls ih =>
    intro Q x fuel hls hx hQ hf
    have ihl := fun Q x fuel => ih Q x fuel (fun k hk => hls k (List.mem_cons_of_mem _ hk))
    have hlen : ls.length + 1 < fuel := by simpa using hf
    rcases hls l List.mem_cons_self with hl | ⟨p, t, hp, rfl, ht1, ht2⟩
    · have := ihl Q (x ++ l ++ [10]) fuel (by simp [hx, hl]) (.inr ⟨Q ++ x ++ l, by simp [List.append_assoc]⟩) (by omega)
      rw [unlines_cons]
      simpa [List.append_assoc] using this
    · obtain ⟨fuel, rfl⟩ : ∃ f, fuel = f + 1 := ⟨fuel - 1, by omega⟩
      have hbuf : x ++ (unlines ((p ++ b!"_exp_" ++ decimal t) :: ls) ++ m) =
          (x ++ p) ++ (b!"_exp_" ++ (decimal t ++ 10 :: (unlines ls ++ m))) := by rw [unlines_cons]; simp [List.append_assoc]
      rw [hbuf, findExp_before (by simp [hx, hp])]
      simp only [Option.map_some]
      rw [ipfwScan]
      have hk : (x ++ p).length + Q.length + EXPIRE_COMMENT_PREFIX.length = (Q ++ (x ++ p) ++ b!"_exp_").length := by
        simp only [List.length_append, EXPIRE_COMMENT_PREFIX]; omega
      have hre : Q ++ ((x ++ p) ++ (b!"_exp_" ++ (decimal t ++ 10 :: (unlines ls ++ m)))) =
          (Q ++ (x ++ p) ++ b!"_exp_") ++ ((decimal t ++ [10]) ++ (unlines ls ++ m)) := by simp [List.append_assoc]
      simp only [hk, hre, List.drop_left]
      have hl := decimal_ten ht1 ht2
      have htake : ((decimal t ++ [10]) ++ (unlines ls ++ m)).take 11 = decimal t ++ [10] := by
        rw [List.take_append_of_le_length (by simp; omega), List.take_of_length_le (by simp; omega)]
      have hchop : chop_spaces (decimal t ++ [10]) = decimal t ++ [10] := by
        cases hd : decimal t with
        | nil => rw [hd] at hl; simp at hl
        | cons c cs => simp [chop_spaces]
      have hnd : is_digits (decimal t ++ [10]) = false := by
        simp only [is_digits, List.all_append, List.all_cons, List.all_nil]
        simp [show isDigit 10 = false from by decide]
      rw [htake, hchop, hnd]
      simp only [Bool.not_false, if_true]
      exact ihl (Q ++ (x ++ p) ++ b!"_exp_") (decimal t ++ [10]) fuel (by
        intro e
        rcases List.mem_append.1 e with e | e
        · exact decimal_no (by decide) _ e
        · simp at e) (.inr ⟨Q ++ (x ++ p) ++ b!"_exp_" ++ decimal t, by simp [List.append_assoc]⟩) (by omega)

/-- A check that is due looks at the last rule of the active set only. -/
theorem ipfw_check_last {print : List Word → List Nat} {cf : IpfwConf} (hn : IpfwNames cf) {s : IpfwSt (Ipfw × List Fate)}
    (hi : IpfwInv cf s.map s.world.1) (hf : s.world.2 = []) (now : Int) {init : List IpfwRule} {last : IpfwRule}
    (hof : s.world.1.of cf.active_set = init ++ [last]) (hfit : (ipfwLines (s.world.1.of cf.active_set)).length ≤ 4095)
    (hinit : ∀ r ∈ init, 95 ∉ r.body ∨ ∃ t, ExpiresAt r.body t) {e : Nat} (he : ExpiresAt last.body e)
    (hact : s.active_rules ≠ 0 ∧ s.active_rules ≤ cf.max_rules) (hdue : s.next_expire ≤ now) :
    ∃ s', ipfw_check_firewall_rules cf (ipfwTool print) now s = .ok s' ∧ IpfwInv cf s'.map s'.world.1 ∧ s'.world.2 = [] ∧
      s'.world.1 = { s.world.1 with
        rules := if (e : Int) ≤ now then moveRules last.num cf.expire_set s.world.1.rules else s.world.1.rules } ∧
      (¬ (e : Int) ≤ now → s' = s) := by
  obtain ⟨pre, hp1, hp2, hp3, hp4⟩ := he
  have hrs : ∀ r ∈ s.world.1.of cf.active_set, OneLine r.body ∧ r.num ≤ 65535 := fun r hr =>
    ⟨hi.text r (of_rules hr).1 (.inl (of_rules hr).2), hi.num r (of_rules hr).1⟩
  obtain ⟨k, hk1, hk2⟩ := list_buffer hrs
  have hlast := hrs last (by rw [hof]; simp)
  have hmem := of_rules (show last ∈ s.world.1.of cf.active_set by rw [hof]; simp)
  have hbuf : chop_newline (truncate_partial_line ((ipfwLines (s.world.1.of cf.active_set)).take (STANDARD_CMD_OUT_BUFSIZE - 1))) =
      unlines (init.map ipfwLine) ++ ipfwLine last := by
    rw [hk1, hk2 hfit, hof, List.map_append]
    exact unlines_concat _ _ (by simp [ipfwLine])
  have h95 : ∀ r : IpfwRule, 95 ∉ pad5 r.num := fun r => not_mem_pad5 (by decide) _
  have hscan := ipfwScan_last now (m := ipfwLine last) (pre := pad5 last.num ++ 32 :: pre) (n := last.num) (e := e)
    (by rw [ipfwLine, hp2]; simp [List.append_assoc]) (by simp [h95, hp1]) ⟨last.body, rfl⟩ hlast.2 (ipfwLine_oneLine hlast.1) hp3 hp4
    (init.map ipfwLine) [] [] ((unlines (init.map ipfwLine) ++ ipfwLine last).length + 1) (by
      intro l hl
      obtain ⟨r, hr, rfl⟩ := List.mem_map.1 hl
      rcases hinit r hr with h | ⟨t, p, h1, h2, h3, h4⟩
      · left; simp [ipfwLine, h95, h]
      · right; exact ⟨pad5 r.num ++ 32 :: p, t, by simp [h95, h1], by rw [ipfwLine, h2]; simp [List.append_assoc], h3, h4⟩)
    (by simp) (.inl rfl) (by
      have := unlines_count (init.map ipfwLine)
      simp only [List.length_map] at this ⊢
      simp only [List.length_append]
      omega)
  simp only [List.nil_append, List.length_nil, Nat.add_zero, Option.map_id'] at hscan
  have hfe : ∃ p, findExp (unlines (init.map ipfwLine) ++ ipfwLine last) = some p := by
    cases hq : findExp (unlines (init.map ipfwLine) ++ ipfwLine last) with
    | some p => exact ⟨p, rfl⟩
    | none =>
      exfalso
      have hmark : b!"_exp_" <:+: unlines (init.map ipfwLine) ++ ipfwLine last :=
        ⟨unlines (init.map ipfwLine) ++ (pad5 last.num ++ 32 :: pre), decimal e, by rw [ipfwLine, hp2]; simp [List.append_assoc]⟩
      obtain ⟨i, h1, h2⟩ := (mark_iff _).1 hmark
      have := findSuffix_none hq i h1
      rw [show hasPrefix EXPIRE_COMMENT_PREFIX _ = true from by simpa [hasPrefix] using h2] at this
      cases this
  obtain ⟨p, hfe⟩ := hfe
  rw [hfe] at hscan
  unfold ipfw_check_firewall_rules
  simp only [if_neg (show ¬ s.active_rules > cf.max_rules by omega)]
  rw [if_neg (by omega)]
  unfold ipfwCheckDue
  rw [show s.world = (s.world.1, []) from by rw [← hf], ipfw_works print (argv_list hn hn.act2), bind_ok]
  simp only [ipfw_list, Bool.not_true, Bool.false_eq_true, if_false]
  rw [hbuf]
  simp only [hfe, hscan, bind_ok]
  by_cases hexp : (e : Int) ≤ now
  · simp only [if_pos hexp]
    obtain ⟨s', h1, h2, h3, h4⟩ := ipfwMove_run (print := print) hn (s := { s with world := (s.world.1, []) }) hi (by simp) hmem.1 hmem.2
    simp only [h1, bind_ok]
    refine ⟨_, rfl, ?_⟩
    rw [(ipfwDone_map _).1, (ipfwDone_map _).2]
    rcases h4 with ⟨_, h⟩ | h4
    · exact absurd rfl h
    · refine ⟨h2, ?_, h4, fun h => absurd hexp h⟩
      unfold ipfwMove at h1
      rw [ipfw_works print (argv_move hn (hi.num _ hmem.1) hn.exp2), bind_ok] at h1
      simp only [if_true] at h1
      obtain ⟨map, _, h1⟩ := bind_eq_ok h1
      injection h1 with h1
      rw [← h1]
  · simp only [if_neg hexp]
    refine ⟨_, rfl, ?_⟩
    have hd : ∀ t : IpfwSt (Ipfw × List Fate), t.active_rules ≠ 0 → ipfwDone t = t := by
      intro t ht
      unfold ipfwDone
      rw [if_neg (by omega)]
    rw [hd { s with world := (s.world.1, []) } hact.1]
    have hs : ({ s with world := (s.world.1, []) } : IpfwSt (Ipfw × List Fate)) = s := by rw [← hf]
    rw [hs]
    exact ⟨hi, hf, rfl, fun _ => rfl⟩

end Fwknop
