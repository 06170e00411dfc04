import Verif.Lemmas.ClientRc
import Verif.Spec.SrvConf

/-!
# Reading the configuration of the server
-/

namespace Fwknop
open Fwknop.Spec

theorem dropWhile_all {p : Nat → Bool} {l : Str} (h : ∀ c ∈ l, p c = true) : l.dropWhile p = [] := by
  have := dropWhile_append_stop p l [] h (.inl rfl)
  rwa [List.append_nil] at this

theorem notBlank_space {c : Nat} (h : NotBlank c) : isSpace c = false := by
  rw [Bool.eq_false_iff, ne_eq, isSpace_accIff]
  unfold NotBlank at h
  omega

theorem nameChar_iff (c : Nat) : isRefChar c = true ↔ NameChar c := by
  unfold isRefChar NameChar
  simp

theorem scan_lone {pre name post : Str} (h1 : ∀ c ∈ pre, SpTab c) (h2 : ∀ c ∈ name, NotBlank c) (h3 : ∀ c ∈ post, SpTab c) :
    scanLine (pre ++ (name ++ post) ++ [10]) = none := by
  have hp : (post ++ [10]).dropWhile isSpace = [] := by
    refine dropWhile_all fun c hc => ?_
    rcases List.mem_append.1 hc with hc | hc
    · exact isSpace_spTab (h3 c hc)
    · simp at hc; subst hc; decide
  unfold scanLine
  cases name with
  | nil =>
    have : (pre ++ ([] ++ post) ++ [10]).dropWhile isSpace = [] := by
      refine dropWhile_all fun c hc => ?_
      simp only [List.nil_append, List.append_assoc, List.mem_append] at hc
      rcases hc with hc | hc | hc
      · exact isSpace_spTab (h1 c hc)
      · exact isSpace_spTab (h3 c hc)
      · simp at hc; subst hc; decide
    simp only [this]
    rfl
  | cons a name =>
    have e : pre ++ ((a :: name) ++ post) ++ [10] = pre ++ ((a :: name) ++ (post ++ [10])) := by simp
    have d1 : (pre ++ ((a :: name) ++ post) ++ [10]).dropWhile isSpace = (a :: name) ++ (post ++ [10]) := by
      rw [e, dropWhile_append_stop _ _ _ (fun x hx => isSpace_spTab (h1 x hx)) ?_]
      exact .inr ⟨a, _, rfl, notBlank_space (h2 a (by simp))⟩
    have t1 : ((a :: name) ++ (post ++ [10])).takeWhile (fun c => !isSpace c) = a :: name := by
      apply takeWhile_append_stop
      · intro x hx; simp [notBlank_space (h2 x hx)]
      · right
        cases post with
        | nil => exact ⟨10, [], rfl, by decide⟩
        | cons c cs => exact ⟨c, _, rfl, by simp [isSpace_spTab (h3 c (by simp))]⟩
    simp only [d1, t1, List.drop_left, hp]
    rfl

theorem scan_set {pre name gap value trail post : Str} (h1 : ∀ c ∈ pre, SpTab c) (hn : name ≠ []) (h2 : ∀ c ∈ name, NotBlank c)
    (hg : gap ≠ []) (h3 : ∀ c ∈ gap, SpTab c) (hv : value ≠ []) (hh : NotBlank (value.headD 0))
    (h4 : ∀ c ∈ value, c ≠ 59 ∧ c ≠ 10 ∧ c ≠ 13) (h5 : ∀ c ∈ trail, SpTab c) (h6 : post = [] ∨ ∃ t, post = 59 :: t) :
    scanLine (pre ++ (name ++ (gap ++ (value ++ (trail ++ post)))) ++ [10]) = some (name, value ++ trail) := by
  have e : pre ++ (name ++ (gap ++ (value ++ (trail ++ post)))) ++ [10] = pre ++ (name ++ (gap ++ ((value ++ trail) ++ (post ++ [10])))) := by simp
  unfold scanLine
  have d1 : (pre ++ (name ++ (gap ++ ((value ++ trail) ++ (post ++ [10]))))).dropWhile isSpace = name ++ (gap ++ ((value ++ trail) ++ (post ++ [10]))) := by
    rw [dropWhile_append_stop _ _ _ (fun x hx => isSpace_spTab (h1 x hx)) ?_]
    right
    cases name with
    | nil => exact absurd rfl hn
    | cons c cs => exact ⟨c, _, rfl, notBlank_space (h2 c (by simp))⟩
  have t1 : (name ++ (gap ++ ((value ++ trail) ++ (post ++ [10])))).takeWhile (fun c => !isSpace c) = name := by
    apply takeWhile_append_stop
    · intro x hx; simp [notBlank_space (h2 x hx)]
    · right
      cases gap with
      | nil => exact absurd rfl hg
      | cons c cs => exact ⟨c, _, rfl, by simp [isSpace_spTab (h3 c (by simp))]⟩
  have d2 : (gap ++ ((value ++ trail) ++ (post ++ [10]))).dropWhile isSpace = (value ++ trail) ++ (post ++ [10]) := by
    rw [dropWhile_append_stop _ _ _ (fun x hx => isSpace_spTab (h3 x hx)) ?_]
    right
    cases value with
    | nil => exact absurd rfl hv
    | cons c cs => exact ⟨c, _, rfl, notBlank_space hh⟩
  have t2 : ((value ++ trail) ++ (post ++ [10])).takeWhile (fun c => c ≠ 59 ∧ c ≠ 10 ∧ c ≠ 13) = value ++ trail := by
    apply takeWhile_append_stop
    · intro x hx
      rcases List.mem_append.1 hx with hx | hx
      · have := h4 x hx; simp; omega
      · rcases h5 x hx with rfl | rfl <;> decide
    · right
      rcases h6 with rfl | ⟨t, rfl⟩
      · exact ⟨10, [], rfl, by decide⟩
      · exact ⟨59, _, rfl, by decide⟩
  rw [e]
  simp only [d1, t1, List.drop_left, d2, t2]
  rw [if_neg]
  rintro (h | h)
  · exact hn h
  · simp [hv] at h

theorem strlcat_take {a b : Str} (h : a.length ≤ 1023) : strlcat a b MAX_LINE_LEN = (a ++ b).take 1023 := by
  unfold strlcat
  simp only [MAX_LINE_LEN]
  rw [if_neg (by omega), List.take_append, List.take_of_length_le h]

theorem take_take_append (v s : Str) : strlcat (strlcpy v MAX_LINE_LEN) s MAX_LINE_LEN = (v ++ s).take 1023 := by
  unfold strlcpy
  rw [strlcat_take (by simp [List.length_take]; omega)]
  simp only [MAX_LINE_LEN]
  rw [List.take_append, List.take_append, List.take_take, List.length_take]
  congr 1
  by_cases h : v.length ≤ 1023
  · rw [show min (1024 - 1) v.length = v.length by omega]
  · rw [show 1023 - min (1024 - 1) v.length = 0 by omega, show 1023 - v.length = 0 by omega]

/-- A value that is written as it should does what it stands for. -/
theorem entry_item {name value : Str} {v : ConfVal} (h : WrittenAs v value) (c : SrvVars) (t : ConfTmp) :
    ∃ t', confEntry name value c t = (applyItem c (.set name v), t') := by
  cases h with
  | text a l ha =>
    unfold confEntry applyItem
    dsimp only
    by_cases hn : name ∈ config_map
    · rw [if_pos hn, if_pos hn]
      by_cases h36 : a = 36
      · subst h36
        obtain ⟨d, l', rfl, hd⟩ := ha rfl
        have hs : scanRef (d :: l') t = (t, false) := by
          unfold scanRef
          have hd' : isRefChar d = false := by
            rw [Bool.eq_false_iff, ne_eq, nameChar_iff]; exact hd
          simp [hd']
        simp only [hs]
        exact ⟨t, rfl⟩
      · refine ⟨t, ?_⟩
        split
        · rename_i s heq
          injection heq with h1 _
          exact absurd h1 h36
        · rfl
    · rw [if_neg hn, if_neg hn]
      exact ⟨t, rfl⟩
  | ref n s hn hn' hs hs' =>
    obtain ⟨d, l, rfl, hd⟩ := hs'
    have hscan : scanRef (n ++ d :: l) t = (⟨n, d :: l⟩, true) := by
      unfold scanRef
      have t1 : (n ++ d :: l).takeWhile isRefChar = n := by
        apply takeWhile_append_stop
        · intro x hx; exact (nameChar_iff x).2 (hn' x hx)
        · refine .inr ⟨d, l, rfl, ?_⟩
          rw [Bool.eq_false_iff, ne_eq, nameChar_iff]; exact hd
      have hds := notBlank_space (hs d (by simp))
      have d1 : (d :: l).dropWhile isSpace = d :: l := by rw [List.dropWhile_cons, hds]; rfl
      have t2 : (d :: l).takeWhile (fun c => !isSpace c) = d :: l := by
        have := takeWhile_append_stop (fun c => !isSpace c) (d :: l) [] (fun x hx => by simp [notBlank_space (hs x hx)]) (.inl rfl)
        simpa using this
      rw [if_neg (by simp [hn])]
      simp only [t1, List.drop_left, d1, t2]
      rw [if_neg hn, if_neg (by simp)]
    unfold confEntry applyItem
    dsimp only
    by_cases hm : name ∈ config_map
    · rw [if_pos hm]
      simp only [hscan]
      rw [if_pos trivial]
      unfold config_entry
      by_cases hk : n ∈ config_map
      · rw [if_pos hk, if_pos ⟨hm, hk⟩]
        cases c n with
        | none => exact ⟨_, rfl⟩
        | some v => exact ⟨_, by simp only [take_take_append]; rfl⟩
      · rw [if_neg hk, if_neg (fun h => hk h.2)]
        exact ⟨_, rfl⟩
    · rw [if_neg hm, if_neg (fun h => hm h.1)]
      exact ⟨t, rfl⟩

/-- A line does what it means. -/
theorem conf_line {l : Str} {i : ConfItem} (h : ConfMeans l i) (ht : IsText l) (hl : l.length ≤ 1022) (c : SrvVars) (t : ConfTmp) :
    ∃ t', confLine (l ++ [10]) c t = .ok (applyItem c i, t') := by
  have hc := cstr_text_nl ht
  unfold confLine
  simp only [hc]
  have hlone : ∀ pre name post, l = pre ++ (name ++ post) → (∀ c ∈ pre, SpTab c) → (∀ c ∈ name, NotBlank c) → (∀ c ∈ post, SpTab c) →
      ∃ t', (if isEmptyLine ((l ++ [10]).headD 0) = true then Res.ok (c, t)
        else match scanLine (l ++ [10]) with
        | none => .ok (c, t)
        | some (var, val) => do
          Res.mem (var.length + 1 > MAX_LINE_LEN ∨ val.length + 1 > MAX_LINE_LEN)
          return confEntry var (chop_whitespace val) c t) = .ok (applyItem c .skip, t') := by
    intro pre name post hq h1 h2 h3
    refine ⟨t, ?_⟩
    split
    · rfl
    · rw [hq, scan_lone h1 h2 h3]
      rfl
  cases h with
  | blank _ hb => exact hlone l [] [] (by simp) hb (by simp) (by simp)
  | comment a l ha =>
    refine ⟨t, ?_⟩
    rw [if_pos (by rcases ha with rfl | rfl <;> rfl)]
    rfl
  | lone pre name post h1 h2 h3 => exact hlone pre name post rfl h1 h2 h3
  | set pre name gap value trail post v h1 hp hn h2 hg h3 hv hh hlast h4 h5 h6 h7 =>
    have hne : value ≠ [] := by
      cases hv <;> simp
    have hhead : isEmptyLine ((pre ++ (name ++ (gap ++ (value ++ (trail ++ post)))) ++ [10]).headD 0) = false := by
      cases pre with
      | nil =>
        cases name with
        | nil => exact absurd rfl hn
        | cons a name =>
          have := hp rfl
          have hb := h2 a (by simp)
          have h0 := ht a (by simp)
          simp only [List.headD_cons] at this
          unfold NotBlank at hb
          simp [isEmptyLine]
          omega
      | cons a pre => rcases h1 a (by simp) with rfl | rfl <;> simp [isEmptyLine]
    rw [if_neg (by rw [hhead]; decide), scan_set h1 hn h2 hg h3 hne hh h4 h5 h7]
    simp only
    have hmem : (name.length + 1 > MAX_LINE_LEN ∨ (value ++ trail).length + 1 > MAX_LINE_LEN) ↔ False := by
      simp only [List.length_append] at hl
      simp only [MAX_LINE_LEN, List.length_append]
      exact iff_of_false (by omega) id
    rw [chop_append value trail hne (notBlank_space hlast) (fun c hc => isSpace_spTab (h5 c hc)) h6]
    obtain ⟨t', he⟩ := entry_item (name := name) hv c t
    refine ⟨t', ?_⟩
    simp only [hmem, decide_false, Res.mem_false]
    rw [he]
    rfl

/-- A file does what its lines mean. -/
theorem conf_file {content : Str} {items : List ConfItem} (h : ConfHolds content items) (c : SrvVars) (t : ConfTmp) :
    confLoop (fgetsLines content.length content) c t = .ok (applyItems c items) := by
  obtain ⟨ls, rfl, rfl, hls⟩ := h
  have e : fgetsLines (fileOf (ls.map (·.1))).length (fileOf (ls.map (·.1))) = ls.map fun p => p.1 ++ [10] := by
    unfold fileOf
    rw [fgetsLines_flatten _ _ (by
      intro l hl
      obtain ⟨p, hp, rfl⟩ := List.mem_map.mp hl
      exact ⟨(hls p hp).2.2.1, (hls p hp).2.2.2⟩) (Nat.le_refl _), List.map_map]
    rfl
  rw [e]
  clear e
  induction ls generalizing c t with
  | nil => rfl
  | cons p ls ih =>
    have hp := hls p (by simp)
    obtain ⟨t', ht⟩ := conf_line hp.1 hp.2.1 hp.2.2.2 c t
    simp only [List.map_cons, confLoop, ht, Res.bind_ok]
    exact ih _ _ fun q hq => hls q (by simp [hq])

end Fwknop
