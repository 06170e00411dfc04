import Verif.Lemmas.ClientArgs
import Verif.Lemmas.ClientKeys
import Verif.Lemmas.AccessLine
import Verif.Lemmas.AccessIncl
import Verif.Lemmas.Http
import Verif.Spec.ClientRc

/-! # Reading the client's rc file -/

namespace Fwknop
open Fwknop.Spec

/-! ## Lines -/

theorem cstr_text_nl {l : Str} (h : IsText l) : cstr (l ++ [10]) = l ++ [10] := by
  rw [cstr_append_le (fun hc => by have := h 0 hc; omega)]
  rfl

theorem chop_none {v : Str} (h : ∀ c ∈ v, isSpace c = false) : chop_whitespace v = v := by
  by_cases hv : v = []
  · subst hv; rfl
  · have := chop_append v [] hv (by
      rw [List.getLastD_eq_getLast?, List.getLast?_eq_some_getLast hv]
      exact h _ (List.getLast_mem hv)) (by simp) (fun _ => rfl)
    simpa using this

theorem spTab_space {c : Nat} (h : SpTab c) : isSpace c = true := by
  rcases h with rfl | rfl <;> decide

theorem rc_not_space {c : Nat} (h : c ≠ 32 ∧ ¬ (9 ≤ c ∧ c ≤ 13)) : isSpace c = false := by
  unfold isSpace
  simp
  omega

/-- What the reader makes of a line. -/
theorem line_means {l : Str} {i : RcItem} (h : RcMeans l i) (ht : IsText l) :
    match i with
    | .skip => isEmptyLine ((cstr (l ++ [10])).headD 0) = true
    | .head n => isEmptyLine ((cstr (l ++ [10])).headD 0) = false ∧ is_rc_section (l ++ [10]) = some n
    | .entry n v => isEmptyLine ((cstr (l ++ [10])).headD 0) = false ∧ is_rc_section (l ++ [10]) = none ∧
        is_rc_param (l ++ [10]) = some (n, v) := by
  have hc := cstr_text_nl ht
  cases h with
  | empty => decide
  | comment c l hc' =>
    simp only
    rw [hc]
    rcases hc' with rfl | rfl <;> rfl
  | head pre name post h1 h2 h3 =>
    simp only
    unfold is_rc_section
    rw [hc]
    have hd : (pre ++ 91 :: (name ++ 93 :: post) ++ [10]).dropWhile isSpace = 91 :: (name ++ 93 :: (post ++ [10])) := by
      rw [List.append_assoc, dropWhile_pre pre _ (fun c hc => spTab_space (h1 c hc)) (by
        intro c hc; simp at hc; subst hc; decide)]
      simp
    constructor
    · cases pre with
      | nil => rfl
      | cons c pre => rcases h1 c (by simp) with rfl | rfl <;> rfl
    · rw [hd]
      simp only
      rw [strchr_split _ _ _ h3]
      simp
  | entry pre name colon gap value post h1 h2 h3 h4 h5 h6 h7 h8 h9 h10 h11 h12 =>
    simp only
    unfold is_rc_section is_rc_param scanRc
    rw [hc]
    obtain ⟨n0, ns, rfl⟩ := List.exists_cons_of_ne_nil h2
    obtain ⟨v0, vs, rfl⟩ := List.exists_cons_of_ne_nil h10
    simp only [List.headD_cons] at h4 h5 h6
    have hn0 := h3 n0 (by simp)
    have hd : (pre ++ (n0 :: ns ++ (colon ++ (gap ++ (v0 :: vs ++ post)))) ++ [10]).dropWhile isSpace =
        (n0 :: ns ++ colon) ++ (gap ++ (v0 :: vs ++ (post ++ [10]))) := by
      rw [List.append_assoc, dropWhile_pre pre _ (fun c hc => spTab_space (h1 c hc)) (by
        intro c hc; simp at hc; subst hc; exact rc_not_space ⟨hn0.1, hn0.2.1⟩)]
      simp
    refine ⟨?_, ?_, ?_⟩
    · cases pre with
      | nil =>
        show isEmptyLine n0 = false
        unfold isEmptyLine
        have : n0 ≠ 0 := by have := ht n0 (by simp); omega
        have := hn0.2.1
        simp
        omega
      | cons c pre => rcases h1 c (by simp) with rfl | rfl <;> rfl
    · rw [hd]
      simp only [List.cons_append]
      split
      · rename_i r heq
        injection heq with e1 e2
        exact absurd e1 h6
      · rfl
    · rw [hd]
      have hcol : ∀ c ∈ n0 :: ns ++ colon, (!isSpace c) = true := by
        intro c hc
        rcases List.mem_append.mp hc with hc | hc
        · have := h3 c hc
          rw [rc_not_space ⟨this.1, this.2.1⟩]; rfl
        · rcases h7 with rfl | rfl
          · cases hc
          · simp at hc; subst hc; rfl
      have htake : ((n0 :: ns ++ colon) ++ (gap ++ (v0 :: vs ++ (post ++ [10])))).takeWhile (fun c => !isSpace c) = n0 :: ns ++ colon := by
        apply takeWhile_append_stop _ _ _ hcol
        obtain ⟨g0, gs, rfl⟩ := List.exists_cons_of_ne_nil h8
        exact .inr ⟨g0, _, rfl, by rw [spTab_space (h9 _ (by simp))]; rfl⟩
      simp only [htake, List.drop_left]
      have hv0 := h11 v0 (by simp)
      have hd2 : (gap ++ (v0 :: vs ++ (post ++ [10]))).dropWhile isSpace = (v0 :: vs) ++ (post ++ [10]) := by
        apply dropWhile_pre gap _ (fun c hc => spTab_space (h9 c hc))
        intro c hc; simp at hc; subst hc; exact rc_not_space ⟨hv0.1, hv0.2.1⟩
      have ht2 : ((v0 :: vs) ++ (post ++ [10])).takeWhile
          (fun c => decide (c ≠ 32 ∧ c ≠ 59 ∧ c ≠ 9 ∧ c ≠ 10 ∧ c ≠ 13 ∧ c ≠ 35)) = v0 :: vs := by
        apply takeWhile_append_stop
        · intro c hc
          have := h11 c hc
          simp only [decide_eq_true_eq]
          omega
        · right
          rcases h12 with rfl | ⟨d, t, rfl, hd⟩
          · exact ⟨10, [], rfl, by decide⟩
          · refine ⟨d, _, rfl, ?_⟩
            simp only [decide_eq_false_iff_not]
            omega
      rw [hd2, ht2]
      simp only [List.cons_append, reduceCtorEq, or_self, if_false, Option.map_some]
      congr 1
      refine Prod.ext ?_ ?_
      · show cutColon (n0 :: ns ++ colon) = n0 :: ns
        rcases h7 with rfl | rfl
        · rw [List.append_nil]; exact cutColon_none fun c hc => (h3 c hc).2.2
        · exact cutColon_colon _
      · show chop_whitespace (v0 :: vs) = v0 :: vs
        exact chop_none fun c hc => rc_not_space ⟨(h11 c hc).1, (h11 c hc).2.1⟩

theorem sameName_eq (a b : Str) : strcaseeq a b = sameName a b := by
  unfold strcaseeq sameName
  rw [lowerStr, lowerStr]

/-! ## A section -/

/-- A result transformed. -/
def mapOk {α β : Type} (f : α → β) : Res α → Res β
  | .ub => .ub
  | .err => .err
  | .ok a => .ok (f a)

/-- The options with the two fields about the stanza. -/
abbrev withStz (s : Str) (g : Bool) (o : CliOpts) : CliOpts := { o with use_rc_stanza := s, got_named_stanza := g }

/-- The entries of a section, one after another. -/
def rcFold : List Entry → CliOpts → (ok : Bool) → Res CliOpts
  | [], o, ok => if ok then .ok o else .err
  | e :: es, o, ok =>
    match parse_rc_param o e.1 e.2 with
    | .ub => .ub
    | .err => .err
    | .ok r => rcFold es r.1 (ok && r.2)

theorem rcNum_stz (s : Str) (g : Bool) (o : CliOpts) (val : Str) (max : Int) (f f' : Int → CliOpts)
    (h : ∀ n, f' n = withStz s g (f n)) :
    rcNum val max (withStz s g o) f' = (withStz s g (rcNum val max o f).1, (rcNum val max o f).2) := by
  unfold rcNum
  simp only [h]
  split <;> rfl

theorem rcName_stz (s : Str) (g : Bool) (o : CliOpts) (n : Int) (f f' : Int → CliOpts)
    (h : ∀ n, f' n = withStz s g (f n)) :
    rcName n (withStz s g o) f' = (withStz s g (rcName n o f).1, (rcName n o f).2) := by
  unfold rcName
  simp only [h]
  split <;> rfl

theorem rcOffset_stz (s : Str) (g : Bool) (o : CliOpts) (val : Str) (f f' : Int → CliOpts)
    (h : ∀ n, f' n = withStz s g (f n)) :
    rcOffset val (withStz s g o) f' = mapOk (fun r => (withStz s g r.1, r.2)) (rcOffset val o f) := by
  unfold rcOffset
  cases parse_time_offset val <;> simp [mapOk, h]

theorem rcAllow_stz (s : Str) (g : Bool) (o : CliOpts) (val : Str) :
    rcAllow (withStz s g o) val = (withStz s g (rcAllow o val).1, (rcAllow o val).2) := by
  unfold rcAllow
  simp only
  split
  · rfl
  · split <;> rfl

theorem rcVerbose_stz (s : Str) (g : Bool) (o : CliOpts) (val : Str) :
    rcVerbose (withStz s g o) val = (withStz s g (rcVerbose o val).1, (rcVerbose o val).2) := by
  unfold rcVerbose
  split
  · rfl
  · exact rcNum_stz s g o val 4 _ _ fun _ => rfl

theorem rcSet_stz (s : Str) (g : Bool) (o : CliOpts) (val : Str) (v : RcVar) :
    rcSet (withStz s g o) val v = mapOk (fun r => (withStz s g r.1, r.2)) (rcSet o val v) := by
  cases v with
  | time_offset =>
    show rcTime _ _ = mapOk _ (rcTime _ _)
    unfold rcTime
    split
    · exact rcOffset_stz s g o _ _ _ fun _ => rfl
    · exact rcOffset_stz s g o _ _ _ fun _ => rfl
  | allow_ip => exact congrArg Res.ok (rcAllow_stz s g o val)
  | verbose => exact congrArg Res.ok (rcVerbose_stz s g o val)
  | _ =>
    first
    | rfl
    | exact congrArg Res.ok (rcName_stz s g o _ _ _ fun _ => rfl)
    | exact congrArg Res.ok (rcNum_stz s g o _ _ _ _ fun _ => rfl)
    | (simp only [rcSet, mapOk, rcYes]; split <;> rfl)

theorem parse_stz (s : Str) (g : Bool) (o : CliOpts) (n val : Str) :
    parse_rc_param (withStz s g o) n val = mapOk (fun r => (withStz s g r.1, r.2)) (parse_rc_param o n val) := by
  unfold parse_rc_param
  split
  · rfl
  · exact rcSet_stz s g o val _

theorem rcFold_stz (s : Str) (g : Bool) : ∀ (es : List Entry) (o : CliOpts) (ok : Bool),
    rcFold es (withStz s g o) ok = mapOk (withStz s g) (rcFold es o ok) := by
  intro es
  induction es with
  | nil => intro o ok; unfold rcFold; split <;> rfl
  | cons e es ih =>
    intro o ok
    unfold rcFold
    rw [parse_stz]
    cases parse_rc_param o e.1 e.2 with
    | ub => rfl
    | err => rfl
    | ok r => exact ih r.1 _

theorem rcLoop_fold (sect s : Str) : ∀ (ls : List (Str × RcItem)) (here g : Bool) (o : CliOpts) (ok : Bool),
    (∀ p ∈ ls, RcMeans p.1 p.2 ∧ IsText p.1) →
    rcLoop sect (ls.map fun p => p.1 ++ [10]) here (withStz s g o) ok =
      mapOk (withStz s (g || hasSection s (ls.map (·.2)))) (rcFold (sectionFrom sect here (ls.map (·.2))) o ok) := by
  intro ls
  induction ls with
  | nil =>
    intro here g o ok _
    simp only [List.map_nil, rcLoop, sectionFrom, rcFold, hasSection, List.any_nil, Bool.or_false]
    split <;> rfl
  | cons p ls ih =>
    intro here g o ok h
    obtain ⟨l, i⟩ := p
    have hp := h (l, i) (by simp)
    have hm := line_means hp.1 hp.2
    have hrest : ∀ p ∈ ls, RcMeans p.1 p.2 ∧ IsText p.1 := fun p hp => h p (by simp [hp])
    simp only [List.map_cons]
    unfold rcLoop
    cases i with
    | skip =>
      simp only at hm
      rw [hm]
      simp only [if_true]
      rw [ih here g o ok hrest]
      rfl
    | head n =>
      simp only at hm
      rw [hm.1, hm.2]
      simp only [Bool.false_eq_true, if_false]
      rw [sameName_eq, sameName_eq]
      have : (if sameName n s = true then { withStz s g o with got_named_stanza := true } else withStz s g o) =
          withStz s (g || sameName n s) o := by
        by_cases hq : sameName n s = true
        · rw [if_pos hq, hq, Bool.or_true]
        · rw [if_neg hq]
          simp only [Bool.not_eq_true] at hq
          rw [hq, Bool.or_false]
      rw [this, ih _ _ o ok hrest]
      simp only [sectionFrom, hasSection, List.any_cons, Bool.or_assoc]
    | entry n v =>
      simp only at hm
      rw [hm.1, hm.2.1, hm.2.2]
      simp only [Bool.false_eq_true, if_false]
      cases here with
      | false =>
        simp only [Bool.false_eq_true, if_false]
        rw [ih false g o ok hrest]
        rfl
      | true =>
        simp only [if_true, sectionFrom, rcFold]
        rw [parse_stz]
        cases parse_rc_param o n v with
        | ub => rfl
        | err => rfl
        | ok r =>
          simp only [mapOk]
          exact ih true g r.1 _ hrest

theorem process_fold {content : Str} {items : List RcItem} (h : RcHolds content items) (sect s : Str) (g : Bool) (o : CliOpts) :
    process_rc_section (some content) sect (withStz s g o) =
      mapOk (withStz s (g || hasSection s items)) (rcFold (sectionOf sect items) o true) := by
  obtain ⟨ls, rfl, rfl, hls⟩ := h
  unfold process_rc_section fileOf
  simp only
  rw [fgetsLines_flatten _ _ (by
    intro l hl
    obtain ⟨p, hp, rfl⟩ := List.mem_map.mp hl
    exact (hls p hp).2.2) (Nat.le_refl _), List.map_map]
  exact rcLoop_fold sect s ls false g o true fun p hp => ⟨(hls p hp).1, (hls p hp).2.1⟩

theorem rcFold_false : ∀ (es : List Entry) (o o' : CliOpts), rcFold es o false ≠ .ok o' := by
  intro es
  induction es with
  | nil => intro o o' h; simp [rcFold] at h
  | cons e es ih =>
    intro o o' h
    unfold rcFold at h
    split at h
    · cases h
    · cases h
    · exact ih _ _ h

theorem rcFold_append : ∀ (a b : List Entry) (o : CliOpts) (ok : Bool) (o' : CliOpts),
    rcFold (a ++ b) o ok = .ok o' ↔ ∃ o1, rcFold a o ok = .ok o1 ∧ rcFold b o1 true = .ok o' := by
  intro a
  induction a with
  | nil =>
    intro b o ok o'
    simp only [List.nil_append, rcFold]
    cases ok with
    | true => simp
    | false =>
      simp only [Bool.false_eq_true, if_false, reduceCtorEq, false_and, exists_false, iff_false]
      intro hf
      exact rcFold_false b o o' hf
  | cons e a ih =>
    intro b o ok o'
    simp only [List.cons_append, rcFold]
    cases parse_rc_param o e.1 e.2 with
    | ub => simp
    | err => simp
    | ok r => exact ih b r.1 _ o'

end Fwknop
