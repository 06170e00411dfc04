import Verif.Lemmas.ClientRcSave

/-!
# Saving a stanza that is there, with questions
-/

namespace Fwknop
open Fwknop.Spec

def entryLines (es : List Entry) : List (Str × RcItem) := es.map fun e => (varLine e.1 e.2, .entry e.1 e.2)

theorem entryLines_items (es : List Entry) : (entryLines es).map (·.2) = es.map fun e => RcItem.entry e.1 e.2 := by
  unfold entryLines; rw [List.map_map]; rfl

/-- The lines that take the place of the old ones; see `updLines`. -/
def askLines (st : Str) : List (Str × RcItem) → (found updated : Bool) → (saved : List Entry) → (answers : List Bool) →
    Option (List (Str × RcItem))
  | [], found, updated, saved, _ =>
    some (if updated then [] else if found then entryLines saved else ([], .skip) :: (b!"[" ++ st ++ b!"]", .head st) :: entryLines saved)
  | (_, .skip) :: ls, found, updated, saved, as => askLines st ls found updated saved as
  | (l, .head n) :: ls, found, updated, saved, as =>
    if found then (askLines st ls false true saved as).map (entryLines saved ++ ([], .skip) :: (l, .head n) :: ·)
    else (askLines st ls (sameName n st) updated saved as).map ((l, .head n) :: ·)
  | (l, .entry n x) :: ls, found, updated, saved, as =>
    if found then
      if n ∈ secretNames then
        match as with
        | [] => none
        | true :: as => askLines st ls found updated saved as
        | false :: as => (askLines st ls found updated (saved.filter fun e => e.1 ≠ n) as).map ((l, .entry n x) :: ·)
      else askLines st ls found updated saved as
    else (askLines st ls found updated saved as).map ((l, .entry n x) :: ·)

theorem critical_iff : ∀ e ∈ fko_var_array, var_is_critical e.2 = true ↔ e.1 ∈ secretNames := by decide +kernel

theorem array_inj : ∀ e ∈ fko_var_array, ∀ f ∈ fko_var_array, e.2 = f.2 → e.1 = f.1 := by decide +kernel

theorem secret_known : ∀ n ∈ secretNames, (lookup_var_by_name n).isSome = true := by decide +kernel

theorem lookup_in_array {n : Str} {w : RcVar} (h : lookup_var_by_name n = some w) : (n, w) ∈ fko_var_array := by
  unfold lookup_var_by_name at h
  cases hf : fko_var_array.find? fun e => e.1 = n with
  | none => rw [hf] at h; cases h
  | some e =>
    rw [hf] at h
    have h1 := List.mem_of_find?_eq_some hf
    have h2 := List.find?_some hf
    simp only [decide_eq_true_eq] at h2
    cases h
    rw [← h2]
    exact h1

theorem saved_without {m : RcVar → Bool} {v : CliOpts} {n : Str} {w : RcVar} (h : lookup_var_by_name n = some w) :
    savedEntries (fun x => m x && x ≠ w) v fko_var_array = (savedEntries m v fko_var_array).filter fun e => e.1 ≠ n := by
  have hmem := lookup_in_array h
  have hl : ∀ e ∈ fko_var_array, e.2 = w ↔ e.1 = n := by
    intro e he
    constructor
    · intro hq; exact array_inj e he _ hmem hq
    · intro hq
      have := array_lookup e he
      rw [hq, h] at this
      exact (Option.some.inj this).symm
  revert hl
  clear hmem h
  generalize fko_var_array = l
  intro hl
  unfold savedEntries
  induction l with
  | nil => rfl
  | cons e l ih =>
    rw [List.filterMap_cons, List.filterMap_cons]
    have hl' := fun x hx => hl x (List.mem_cons_of_mem _ hx)
    by_cases hw : e.2 = w
    · have hn := (hl e List.mem_cons_self).1 hw
      simp only [hw, ne_eq, not_true, decide_false, Bool.and_false, Bool.false_eq_true, if_false]
      rw [ih hl']
      cases m w with
      | false => rfl
      | true =>
        simp only [if_true]
        cases rcValue v w with
        | none => rfl
        | some x => simp [hn]
    · have hn : ¬ e.1 = n := fun hq => hw ((hl e List.mem_cons_self).2 hq)
      simp only [ne_eq, hw, not_false_eq_true, decide_true, Bool.and_true]
      cases m e.2 with
      | false => simp only [Bool.false_eq_true, if_false]; exact ih hl'
      | true =>
        simp only [if_true]
        cases rcValue v e.2 with
        | none => exact ih hl'
        | some x => simp only [Option.map_some, List.filter_cons, hn]; rw [ih hl']; simp

/-- What `update_rc` makes of a text, without --force-stanza. -/
theorem updLoop_ask {v : CliOpts} : ∀ (ls : List (Str × RcItem)) (found updated : Bool) (m : RcVar → Bool) (answers : List Bool) (out : Str),
    (∀ p ∈ ls, GoodLine p) →
    updLoop v false (ls.map fun p => p.1 ++ [10]) found updated m answers out =
      match askLines v.use_rc_stanza ls found updated (savedEntries m v fko_var_array) answers with
      | none => .hangs
      | some new => .done (out ++ fileOf (new.map (·.1))) := by
  intro ls
  have hsl : ∀ m, (entryLines (savedEntries m v fko_var_array)).map (·.1) = (savedLines m v fko_var_array).map (·.1) := fun _ => rfl
  induction ls with
  | nil =>
    intro found updated m answers out _
    unfold askLines
    simp only [List.map_nil, updLoop, updEnd, rcLines_file]
    cases updated with
    | true => simp [fileOf]
    | false =>
      cases found with
      | true => simp [hsl]
      | false => simp [fileOf, hsl]
  | cons p ls ih =>
    intro found updated m answers out hg
    obtain ⟨l, i⟩ := p
    have hp := hg (l, i) (by simp)
    have hm := line_means hp.1 hp.2.1
    have hc := cstr_text_nl hp.2.1
    have hg' : ∀ p ∈ ls, GoodLine p := fun q hq => hg q (by simp [hq])
    simp only [List.map_cons]
    unfold updLoop
    cases i with
    | skip =>
      simp only at hm
      rw [hm, if_pos rfl]
      exact ih found updated m answers out hg'
    | head n =>
      simp only at hm
      rw [hm.1, if_neg (by decide), hm.2]
      simp only [hc]
      unfold askLines
      cases found with
      | true =>
        rw [if_pos rfl, if_pos rfl, ih false true m answers _ hg', rcLines_file]
        cases askLines v.use_rc_stanza ls false true (savedEntries m v fko_var_array) answers with
        | none => rfl
        | some new =>
          simp only [Option.map_some, List.map_append, List.map_cons, fileOf_append, fileOf_cons, List.append_assoc, hsl]
          rfl
      | false =>
        rw [if_neg (by decide), if_neg (by decide), sameName_eq, ih _ updated m answers _ hg']
        cases askLines v.use_rc_stanza ls (sameName n v.use_rc_stanza) updated (savedEntries m v fko_var_array) answers with
        | none => rfl
        | some new => simp only [Option.map_some, List.map_cons, fileOf_cons, List.append_assoc]
    | entry n x =>
      simp only at hm
      rw [hm.1, if_neg (by decide), hm.2.1]
      simp only [hc]
      unfold askLines
      cases found with
      | false =>
        rw [if_neg (by decide), if_neg (by decide), ih false updated m answers _ hg']
        cases askLines v.use_rc_stanza ls false updated (savedEntries m v fko_var_array) answers with
        | none => rfl
        | some new => simp only [Option.map_some, List.map_cons, fileOf_cons, List.append_assoc]
      | true =>
        rw [if_pos rfl, if_pos rfl, if_neg (by decide), hm.2.2]
        dsimp only
        cases hl : lookup_var_by_name n with
        | none =>
          rw [if_neg (fun hq => by have := secret_known n hq; rw [hl] at this; cases this)]
          exact ih true updated m answers out hg'
        | some w =>
          dsimp only
          have hcr := critical_iff _ (lookup_in_array hl)
          dsimp only at hcr
          by_cases hs : n ∈ secretNames
          · rw [if_pos hs, if_pos (hcr.2 hs)]
            cases answers with
            | nil => rfl
            | cons a as =>
              cases a with
              | true => exact ih true updated m as out hg'
              | false =>
                dsimp only
                rw [ih true updated _ as _ hg', saved_without hl]
                cases askLines v.use_rc_stanza ls true updated ((savedEntries m v fko_var_array).filter fun e => e.1 ≠ n) as with
                | none => rfl
                | some new => simp only [Option.map_some, List.map_cons, fileOf_cons, List.append_assoc]
          · rw [if_neg hs, if_neg (fun hq => hs (hcr.1 hq))]
            exact ih true updated m answers out hg'

theorem askLines_good {st : Str} (hst : StanzaName st) : ∀ (ls : List (Str × RcItem)) (found updated : Bool) (saved : List Entry) (as : List Bool),
    (∀ p ∈ entryLines saved, GoodLine p) → (∀ p ∈ ls, GoodLine p) → ∀ new, askLines st ls found updated saved as = some new → ∀ p ∈ new, GoodLine p := by
  have hends : ∀ saved : List Entry, (∀ p ∈ entryLines saved, GoodLine p) → ∀ (found updated : Bool), ∀ p ∈ updLines st (entryLines saved) [] found updated, GoodLine p :=
    fun saved hs found updated => updLines_good hst hs [] found updated (by simp)
  have hempty : GoodLine ([], .skip) := ⟨.empty, (by intro c hc; cases hc), by simp, by simp⟩
  intro ls
  induction ls with
  | nil =>
    intro found updated saved as hs _ new h
    unfold askLines at h
    cases h
    exact hends saved hs found updated
  | cons q ls ih =>
    intro found updated saved as hs hg new h p hp
    obtain ⟨l, i⟩ := q
    have hq := hg (l, i) (by simp)
    have ih := fun f u s a hs' => ih f u s a hs' fun r hr => hg r (by simp [hr])
    cases i with
    | skip => exact ih _ _ _ _ hs new h p hp
    | head n =>
      unfold askLines at h
      split at h
      · obtain ⟨r, hr, rfl⟩ := Option.map_eq_some_iff.1 h
        rcases List.mem_append.mp hp with hp | hp
        · exact hs p hp
        · rcases List.mem_cons.mp hp with rfl | hp
          · exact hempty
          · rcases List.mem_cons.mp hp with rfl | hp
            · exact hq
            · exact ih _ _ _ _ hs r hr p hp
      · obtain ⟨r, hr, rfl⟩ := Option.map_eq_some_iff.1 h
        rcases List.mem_cons.mp hp with rfl | hp
        · exact hq
        · exact ih _ _ _ _ hs r hr p hp
    | entry n x =>
      unfold askLines at h
      split at h
      · split at h
        · cases as with
          | nil => cases h
          | cons a as =>
            cases a with
            | true => exact ih _ _ _ _ hs new h p hp
            | false =>
              obtain ⟨r, hr, rfl⟩ := Option.map_eq_some_iff.1 h
              rcases List.mem_cons.mp hp with rfl | hp
              · exact hq
              · refine ih _ _ _ _ (fun y hy => hs y ?_) r hr p hp
                unfold entryLines at hy ⊢
                obtain ⟨e, he, rfl⟩ := List.mem_map.1 hy
                exact List.mem_map.2 ⟨e, (List.mem_filter.1 he).1, rfl⟩
        · exact ih _ _ _ _ hs new h p hp
      · obtain ⟨r, hr, rfl⟩ := Option.map_eq_some_iff.1 h
        rcases List.mem_cons.mp hp with rfl | hp
        · exact hq
        · exact ih _ _ _ _ hs r hr p hp

theorem saved_other {sect : Str} (es : List Entry) (is : List RcItem) :
    sectionFrom sect false ((es.map fun e => RcItem.entry e.1 e.2) ++ is) = sectionFrom sect false is := by
  rw [sectionFrom_saved]; rfl

theorem saved_all {sect : Str} (es : List Entry) : sectionFrom sect true (es.map fun e => RcItem.entry e.1 e.2) = es := by
  have := sectionFrom_saved sect es [] true
  rw [List.append_nil] at this
  rw [this]
  simp [sectionFrom]

theorem saved_none {sect : Str} (es : List Entry) : sectionFrom sect false (es.map fun e => RcItem.entry e.1 e.2) = [] := by
  have := saved_other (sect := sect) es []
  rwa [List.append_nil] at this

theorem askLines_others {st sect : Str} (hne : sameName st sect = false) :
    ∀ (ls : List (Str × RcItem)) (found updated here : Bool) (saved : List Entry) (as : List Bool), (found = true → here = false) →
    ∀ new, askLines st ls found updated saved as = some new → sectionFrom sect here (new.map (·.2)) = sectionFrom sect here (ls.map (·.2)) := by
  intro ls
  induction ls with
  | nil =>
    intro found updated here saved as hh new h
    unfold askLines at h
    cases h
    cases updated with
    | true => rfl
    | false =>
      cases found with
      | true =>
        rw [hh rfl, if_neg (by decide), if_pos rfl, entryLines_items, saved_none]
        rfl
      | false =>
        rw [if_neg (by decide), if_neg (by decide), List.map_cons, List.map_cons, entryLines_items]
        show sectionFrom sect (sameName st sect) _ = []
        rw [hne, saved_none]
  | cons q ls ih =>
    intro found updated here saved as hh new h
    obtain ⟨l, i⟩ := q
    cases i with
    | skip => exact ih _ _ _ _ _ hh new h
    | head n =>
      unfold askLines at h
      cases found with
      | true =>
        rw [if_pos rfl] at h
        obtain ⟨r, hr, rfl⟩ := Option.map_eq_some_iff.1 h
        rw [hh rfl, List.map_append, entryLines_items, saved_other]
        exact ih false true _ _ _ (by intro h; cases h) r hr
      | false =>
        rw [if_neg (by decide)] at h
        obtain ⟨r, hr, rfl⟩ := Option.map_eq_some_iff.1 h
        refine ih _ _ _ _ _ ?_ r hr
        intro h
        rw [sameName_trans h, hne]
    | entry n x =>
      unfold askLines at h
      cases found with
      | true =>
        have hf := hh rfl
        subst hf
        show _ = sectionFrom sect false (ls.map (·.2))
        rw [if_pos rfl] at h
        split at h
        · cases as with
          | nil => cases h
          | cons a as =>
            cases a with
            | true => exact ih _ _ _ _ _ hh new h
            | false =>
              obtain ⟨r, hr, rfl⟩ := Option.map_eq_some_iff.1 h
              exact ih _ _ _ _ _ hh r hr
        · exact ih _ _ _ _ _ hh new h
      | false =>
        rw [if_neg (by decide)] at h
        obtain ⟨r, hr, rfl⟩ := Option.map_eq_some_iff.1 h
        cases here with
        | false => exact ih _ _ _ _ _ hh r hr
        | true =>
          show (n, x) :: _ = (n, x) :: _
          rw [ih _ _ _ _ _ hh r hr]

theorem otherNames_cons (e : Entry) (kept saved : List Entry) :
    otherNames (e :: kept) saved = otherNames kept (saved.filter fun f => f.1 ≠ e.1) := by
  unfold otherNames
  rw [List.filter_filter]
  congr 1
  funext f
  simp only [List.map_cons, List.mem_cons, not_or, ne_eq, Bool.decide_and]
  rw [Bool.and_comm]

theorem otherNames_nil (saved : List Entry) : otherNames [] saved = saved := by
  unfold otherNames; simp

theorem count_head (st n : Str) (is : List RcItem) : sectionCount st (RcItem.head n :: is) = sectionCount st is + if sameName n st then 1 else 0 := by
  unfold sectionCount
  rw [List.filter_cons]
  simp only
  split <;> rfl

theorem no_section {st : Str} : ∀ (is : List RcItem), sectionCount st is = 0 → sectionFrom st false is = []
  | [], _ => rfl
  | .skip :: is, h => no_section is h
  | .head n :: is, h => by
    rw [count_head] at h
    have hn : sameName n st = false := by
      cases hq : sameName n st with
      | false => rfl
      | true => rw [hq] at h; simp at h
    show sectionFrom st (sameName n st) is = []
    rw [hn]
    exact no_section is (by omega)
  | .entry n x :: is, h => no_section is h

/-- The stanza has the entries that are kept and the others that are saved. -/
theorem askLines_stanza {st : Str} : ∀ (ls : List (Str × RcItem)) (found updated : Bool) (saved : List Entry) (as : List Bool),
    sectionCount st (ls.map (·.2)) + (if found then 1 else 0) + (if updated then 1 else 0) ≤ 1 →
    ∀ kept, keptEntries (sectionFrom st found (ls.map (·.2))) as = some kept →
    ∃ new, askLines st ls found updated saved as = some new ∧
      sectionFrom st found (new.map (·.2)) = if updated then [] else kept ++ otherNames kept saved := by
  have hself : sameName st st = true := by unfold sameName; simp
  intro ls
  induction ls with
  | nil =>
    intro found updated saved as hc kept hk
    cases hk
    refine ⟨_, rfl, ?_⟩
    rw [otherNames_nil, List.nil_append]
    cases updated with
    | true => rfl
    | false =>
      cases found with
      | true => rw [if_neg (by decide), if_pos rfl, entryLines_items, saved_all, if_neg (by decide)]
      | false =>
        rw [if_neg (by decide), if_neg (by decide), List.map_cons, List.map_cons, entryLines_items]
        show sectionFrom st (sameName st st) _ = _
        rw [hself, saved_all, if_neg (by decide)]
  | cons q ls ih =>
    intro found updated saved as hc kept hk
    obtain ⟨l, i⟩ := q
    cases i with
    | skip => exact ih _ _ _ _ hc kept hk
    | head n =>
      rw [List.map_cons, count_head] at hc
      unfold askLines
      cases found with
      | true =>
        have hu : updated = false := by
          cases updated with
          | false => rfl
          | true => simp at hc
        have hn : sameName n st = false := by
          cases hq : sameName n st with
          | false => rfl
          | true => rw [hq] at hc; simp at hc; omega
        have hc0 : sectionCount st (ls.map (·.2)) = 0 := by rw [hn] at hc; simp at hc; omega
        have hk' : keptEntries (sectionFrom st (sameName n st) (ls.map (·.2))) as = some kept := hk
        rw [hn, no_section _ hc0] at hk'
        have hk0 : kept = [] := by cases hk'; rfl
        obtain ⟨r, hr, hr2⟩ := ih false true saved as (by simp; omega) [] (by rw [no_section _ hc0]; rfl)
        refine ⟨_, by rw [if_pos rfl, hr]; rfl, ?_⟩
        rw [List.map_append, entryLines_items, sectionFrom_saved, List.map_cons, List.map_cons, hu, if_pos rfl]
        show saved ++ sectionFrom st (sameName n st) _ = _
        rw [hn, hr2, if_pos rfl, List.append_nil, if_neg (by decide), hk0, otherNames_nil, List.nil_append]
      | false =>
        obtain ⟨r, hr, hr2⟩ := ih (sameName n st) updated saved as (by simp at hc ⊢; omega) kept hk
        exact ⟨(l, .head n) :: r, by rw [if_neg (by decide), hr]; rfl, hr2⟩
    | entry n x =>
      have hcount : sectionCount st ((RcItem.entry n x) :: ls.map (·.2)) = sectionCount st (ls.map (·.2)) := by
        unfold sectionCount
        rw [List.filter_cons]
        rfl
      rw [List.map_cons, hcount] at hc
      unfold askLines
      cases found with
      | false =>
        obtain ⟨r, hr, hr2⟩ := ih false updated saved as hc kept hk
        exact ⟨(l, .entry n x) :: r, by rw [if_neg (by decide), hr]; rfl, hr2⟩
      | true =>
        have hu : updated = false := by
          cases updated with
          | false => rfl
          | true => simp at hc
        have hk' : keptEntries ((n, x) :: sectionFrom st true (ls.map (·.2))) as = some kept := hk
        unfold keptEntries at hk'
        dsimp only at hk'
        rw [if_pos rfl]
        by_cases hs : n ∈ secretNames
        · rw [if_pos hs] at hk' ⊢
          cases as with
          | nil => cases hk'
          | cons a as =>
            cases a with
            | true => exact ih _ _ _ _ hc kept hk'
            | false =>
              obtain ⟨k, hk1, rfl⟩ := Option.map_eq_some_iff.1 hk'
              obtain ⟨r, hr, hr2⟩ := ih true updated (saved.filter fun e => e.1 ≠ n) as hc k hk1
              refine ⟨_, by dsimp only; rw [hr]; rfl, ?_⟩
              rw [otherNames_cons, hu, if_neg (by decide)]
              show (n, x) :: sectionFrom st true (r.map (·.2)) = _
              rw [hr2, hu, if_neg (by decide)]
              rfl
        · rw [if_neg hs] at hk' ⊢
          exact ih _ _ _ _ hc kept hk'

/-- The file after a stanza has been saved with questions. -/
theorem asked_file {v : CliOpts} {m : RcVar → Bool} (hr : Readable m v) (hst : StanzaName v.use_rc_stanza)
    {content : Str} {items : List RcItem} (hc : RcHolds content items) {answers : List Bool} (h1 : sectionCount v.use_rc_stanza items ≤ 1)
    {kept : List Entry} (hk : keptEntries (sectionOf v.use_rc_stanza items) answers = some kept) :
    ∃ new items', updText v false m answers content = .done new ∧ RcHolds new items' ∧
      (∀ sect, sameName v.use_rc_stanza sect = false → sectionOf sect items' = sectionOf sect items) ∧
      sectionOf v.use_rc_stanza items' = kept ++ otherNames kept (savedEntries m v fko_var_array) := by
  obtain ⟨ls, rfl, rfl, hls⟩ := hc
  have hg : ∀ p ∈ ls, GoodLine p := hls
  obtain ⟨new, hn, hsec⟩ := askLines_stanza ls false false (savedEntries m v fko_var_array) answers (by simpa using h1) kept hk
  refine ⟨_, new.map Prod.snd, ?_, ⟨new, rfl, rfl, askLines_good hst ls false false _ answers (savedLines_good hr) hg new hn⟩,
    fun sect hs => askLines_others hs ls false false false _ answers (by intro h; cases h) new hn, hsec⟩
  unfold updText
  have e : fgetsLines (fileOf (ls.map (·.1))).length (fileOf (ls.map (·.1))) = ls.map fun p => p.1 ++ [10] := by
    unfold fileOf
    rw [fgetsLines_flatten _ _ (by
      intro l hl
      obtain ⟨p, hp, rfl⟩ := List.mem_map.mp hl
      exact ⟨(hls p hp).2.2.1, (hls p hp).2.2.2⟩) (Nat.le_refl _), List.map_map]
    rfl
  rw [e, updLoop_ask ls false false m answers [] hg, hn]
  rfl

end Fwknop
