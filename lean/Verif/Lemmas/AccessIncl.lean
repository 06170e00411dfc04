import Verif.Lemmas.AccessLine
import Verif.Lemmas.AccessRange
import Verif.Lemmas.Replay

/-! # Whole files, and files that include themselves -/

namespace Fwknop
open Spec

/-! ## The lines of a file -/

theorem fgetsLines_flatten (ls : List Str) : ∀ f, (∀ l ∈ ls, 10 ∉ l ∧ l.length ≤ 1022) →
    ((ls.map fun l => l ++ [10]).flatten).length ≤ f →
    fgetsLines f (ls.map fun l => l ++ [10]).flatten = ls.map fun l => l ++ [10] := by
  induction ls with
  | nil => intro f _ _; exact fgetsLines_nil f
  | cons l ls ih =>
    intro f h hf
    have hl := h l (by simp)
    simp only [List.map_cons, List.flatten_cons, List.length_append, List.length_cons, List.length_nil] at hf ⊢
    cases f with
    | zero => omega
    | succ f =>
      have e : l ++ [10] ++ (ls.map fun l => l ++ [10]).flatten = l ++ 10 :: (ls.map fun l => l ++ [10]).flatten := by simp
      rw [e, fgetsLines_cons _ _ (by simp), fgetsOne_line 1023 _ _ hl.1 (by omega)]
      simp only
      rw [ih f (fun x hx => h x (by simp [hx])) (by omega)]

theorem entryOf_means {line : Str} {en : Option Entry} (hl : line.length < MAX_LINE_LEN) (h : LineMeans line en) :
    accLine line ≠ .err ∧ entryOf line = en := by
  cases h with
  | entry _ name value h =>
    obtain ⟨v, h1, h2⟩ := holds_reads h hl
    unfold entryOf
    rw [h1]
    simp [h2]
  | skip c t h =>
    have hc : accLine (c :: t) = .ok none := by
      unfold accLine
      have hn : c ≠ 0 := by omega
      have : isEmptyLine ((cstr (c :: t)).headD 0) = true := by
        simp only [cstr, List.takeWhile_cons, ne_eq, hn, not_false_eq_true, decide_true, if_true, List.headD_cons]
        rcases h with rfl | rfl | rfl | rfl <;> decide
      simp only [this, if_true]
    unfold entryOf
    rw [hc]
    simp

theorem entries_hold {content : Str} {es : List Entry} (h : FileHolds content es) : entriesOf content = es := by
  obtain ⟨lines, rfl, hl, rfl⟩ := h
  unfold entriesOf accLines
  have e : (lines.map fun l => l.1 ++ [10]) = ((lines.map (·.1)).map fun l => l ++ [10]) := by
    rw [List.map_map]; rfl
  rw [e, fgetsLines_flatten _ _ ?_ (Nat.le_refl _), List.map_map, List.filterMap_map]
  · clear e
    induction lines with
    | nil => rfl
    | cons l ls ih =>
      have h0 := hl l (by simp)
      have h1 := (entryOf_means (by simp only [MAX_LINE_LEN, List.length_append, List.length_cons, List.length_nil]; omega) h0.2.2).2
      rw [List.filterMap_cons, List.filterMap_cons, ih (fun x hx => hl x (by simp [hx]))]
      simp only [Function.comp_apply]
      rw [h1]
  · intro l hm
    simp only [List.mem_map] at hm
    obtain ⟨x, hx, rfl⟩ := hm
    exact ⟨(hl x hx).1, (hl x hx).2.1⟩

/-! ## Files that include themselves -/

theorem loop_blocked {env : AccEnv} {incl folder : Str → AccState → Res AccState} {can : Bool} {var val : Str}
    (hb : ∀ x x', accEntry env incl folder can var val x ≠ .ok x') (ls : List Str) :
    ∀ x x', (var, val) ∈ ls.filterMap entryOf → accLoop env incl folder can ls x ≠ .ok x' := by
  induction ls with
  | nil => intro x x' h; simp at h
  | cons l ls ih =>
    intro x x' h
    rw [accLoop]
    cases hl : accLine l with
    | ub => simp
    | err => simp
    | ok en =>
      simp only [Res.bind_ok]
      cases en with
      | none =>
        have : entryOf l = none := by unfold entryOf; rw [hl]
        rw [List.filterMap_cons, this] at h
        exact ih x x' h
      | some p =>
        obtain ⟨n, v⟩ := p
        have : entryOf l = some (n, chop_whitespace v) := by unfold entryOf; rw [hl]
        rw [List.filterMap_cons, this] at h
        simp only [List.mem_cons] at h
        simp only
        cases he : accEntry env incl folder can n (chop_whitespace v) x with
        | ub => simp
        | err => simp
        | ok y =>
          simp only [Res.bind_ok]
          rcases h with h | h
          · injection h with h1 h2
            subst h1 h2
            exact absurd he (hb x y)
          · exact ih y x' h

theorem folder_blocked {incl : Str → AccState → Res AccState} {dir n : Str} (hn : isConfName n = true)
    (hb : ∀ s s', incl (dir ++ 47 :: n) s ≠ .ok s') (ns : List Str) :
    ∀ s s', n ∈ ns → folderLoop incl dir ns s ≠ .ok s' := by
  induction ns with
  | nil => intro s s' h; simp at h
  | cons m ms ih =>
    intro s s' h
    rw [folderLoop]
    by_cases hm : m = n
    · subst hm
      rw [if_pos hn]
      split
      · simp
      · cases hi : incl (dir ++ 47 :: m) s with
        | ub => simp
        | err => simp
        | ok y => exact absurd hi (hb s y)
    · have h' : n ∈ ms := by
        rcases List.mem_cons.1 h with h | h
        · exact absurd h.symm hm
        · exact h
      split
      · split
        · simp
        · cases hi : incl (dir ++ 47 :: m) s with
          | ub => simp
          | err => simp
          | ok y => exact ih y s' h'
      · exact ih s s' h'

theorem isConfName_of {base ext : Str} (h : 46 ∉ ext) : isConfName (base ++ b!".conf" ++ ext) = true := by
  unfold isConfName
  have e : (base ++ b!".conf" ++ ext).reverse.takeWhile (· ≠ 46) = (b!"conf" ++ ext).reverse := by
    have : (base ++ b!".conf" ++ ext).reverse = (b!"conf" ++ ext).reverse ++ 46 :: base.reverse := by simp
    rw [this]
    apply takeWhile_append_stop
    · intro x hx
      simp only [List.mem_reverse, List.mem_append] at hx
      rcases hx with hx | hx
      · simp only [List.mem_cons, List.not_mem_nil, or_false] at hx
        rcases hx with rfl | rfl | rfl | rfl <;> decide
      · simp only [ne_eq, decide_not, Bool.not_eq_true', decide_eq_false_iff_not]
        rintro rfl; exact h hx
    · right; exact ⟨46, _, rfl, by decide⟩
  rw [e]
  simp only [List.reverse_reverse, decide_eq_true_eq]
  refine ⟨by simp only [List.length_reverse, List.length_append, List.length_cons, List.length_nil]; omega, ?_⟩
  simp [hasPrefix]

theorem chop_char_dir {v dir : Str}
    (h : v = dir ++ b!"/" ∧ dir ≠ [] ∨ v = dir ∧ (dir.getLast? ≠ some 47 ∨ dir.length = 1)) : chop_char v 47 = dir := by
  unfold chop_char
  rcases h with ⟨rfl, hd⟩ | ⟨rfl, hd⟩
  · have : 0 < dir.length := List.length_pos_iff.2 hd
    rw [if_pos]
    · simp
    · simp; omega
  · rw [if_neg]
    rintro ⟨h1, h2⟩
    rcases hd with hd | hd
    · exact hd h2
    · omega

theorem cycle_blocked {env : AccEnv} {S : Str → Prop} (hS : ∀ n, S n → ∃ n', Includes env n n' ∧ S n') :
    ∀ fds n s s', S n → parse_access_file env fds n s ≠ .ok s' := by
  intro fds
  induction fds using Nat.strongRecOn with
  | _ fds ih =>
    intro n s s' hn h
    obtain ⟨n', ⟨content, v, hf, hi⟩, hn'⟩ := hS n hn
    have run : ∀ incl folder can, (∀ s s', incl n' s ≠ .ok s') →
        (∀ dir names m, chop_char v 47 = dir → env.dir dir = some names → m ∈ names → isConfName m = true →
          n' = dir ++ 47 :: m → ∀ s s', folder v s ≠ .ok s') → ∀ x x',
        accLoop env incl folder can (accLines content) x ≠ .ok x' := by
      intro incl folder can h1 h2 x x'
      rcases hi with ⟨hm, rfl⟩ | ⟨hm, dir, names, m, hd, hds, hmm, ⟨base, ext, rfl, hext⟩, hn2⟩
      · refine loop_blocked ?_ _ x x' hm
        intro x x'
        unfold accEntry
        simp only [if_true]
        split
        · cases hc : incl n' x.2 with
          | ub => simp
          | err => simp
          | ok y => exact absurd hc (h1 _ _)
        · simp
      · refine loop_blocked ?_ _ x x' hm
        intro x x'
        unfold accEntry
        simp only
        rw [if_neg (by decide), if_pos trivial]
        cases hc : folder v x.2 with
        | ub => simp
        | err => simp
        | ok y => exact absurd hc (h2 dir names _ (chop_char_dir hd) hds hmm (isConfName_of hext) (by rw [hn2]; simp) _ _)
    match fds, ih, h with
    | 0, _, h => cases h
    | 1, ih, h =>
      rw [parse_access_file, hf] at h
      simp only at h
      cases hr : accLoop env (fun _ _ => .err) (fun _ _ => .err) false (accLines content) ({}, { s with depth := s.depth + 1 }) with
      | ub => rw [hr] at h; cases h
      | err => rw [hr] at h; cases h
      | ok x => exact run _ _ _ (fun _ _ h => by cases h) (fun _ _ _ _ _ _ _ _ _ _ h => by cases h) _ _ hr
    | f + 2, ih, h =>
      rw [parse_access_file, hf] at h
      simp only at h
      cases hr : accLoop env (parse_access_file env (f + 1)) (accFolder env (parse_access_file env f)) true (accLines content)
          ({}, { s with depth := s.depth + 1 }) with
      | ub => rw [hr] at h; cases h
      | err => rw [hr] at h; cases h
      | ok x =>
        refine run _ _ _ (fun s s' => ih (f + 1) (by omega) n' s s' hn') ?_ _ _ hr
        intro dir names m hd hds hm hc hn2 s s'
        unfold accFolder
        simp only
        rw [hd, hds]
        refine folder_blocked hc ?_ names s s' hm
        intro s s'
        rw [← hn2]
        exact ih f (by omega) n' s s' hn'

end Fwknop
