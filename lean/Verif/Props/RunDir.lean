import Verif.Model.RunDir

/-!
# C124: the run directory is made
-/

namespace Fwknop.Props

open Fwknop Res

/-- The parent of everything but the root is a directory. -/
def Consistent (fs : Fs) : Prop := ∀ p n, fs (p ++ [n]) ≠ none → p = [] ∨ fs p = some .dir

/-- A path of names. -/
def pathOf (ns : List Str) : Str := (ns.map fun n => 47 :: n).flatten

/-- Names: not empty, without slashes. -/
def NamesOk (ns : List Str) : Prop := ∀ n ∈ ns, n ≠ [] ∧ 47 ∉ n

/-- The file system with the directory of these names, and those on the way to it. -/
def withDir (fs : Fs) (ns : List Str) : Fs := fun p => if p ≠ [] ∧ p <+: ns then some .dir else fs p

/-! ## Names -/

theorem namesOf_slash : ∀ (a cur b : Str), namesOf cur (a ++ 47 :: b) = namesOf cur a ++ namesOf [] b
  | [], cur, b => by
    simp only [List.nil_append, namesOf, if_true]
    split <;> simp
  | c :: a, cur, b => by
    simp only [List.cons_append, namesOf]
    split
    · split
      · exact namesOf_slash a [] b
      · rw [namesOf_slash a [] b]; rfl
    · exact namesOf_slash a (cur ++ [c]) b

theorem namesOf_word : ∀ (n cur : Str), 47 ∉ n → cur ++ n ≠ [] → namesOf cur n = [cur ++ n]
  | [], cur, _, h => by
    simp only [List.append_nil] at h ⊢
    simp [namesOf, h]
  | c :: n, cur, hn, h => by
    have hc : c ≠ 47 := fun e => hn (by rw [e]; exact List.mem_cons_self)
    simp only [namesOf, if_neg hc]
    rw [namesOf_word n (cur ++ [c]) (fun h => hn (List.mem_cons_of_mem _ h)) (by simp)]
    simp

theorem namesOf_path : ∀ (ns : List Str), NamesOk ns → namesOf [] (pathOf ns) = ns
  | [], _ => rfl
  | [n], h => by
    have := h n List.mem_cons_self
    show namesOf [] (47 :: (n ++ [])) = _
    simp only [namesOf, if_true, List.append_nil]
    exact namesOf_word n [] this.2 (by simpa using this.1)
  | n :: m :: ns, h => by
    have hn := h n List.mem_cons_self
    have ih := namesOf_path (m :: ns) fun x hx => h x (List.mem_cons_of_mem _ hx)
    show namesOf [] (47 :: (n ++ 47 :: (m ++ pathOf ns))) = _
    simp only [namesOf, if_true]
    rw [namesOf_slash, namesOf_word n [] hn.2 (by simpa using hn.1)]
    have : namesOf [] (47 :: (m ++ pathOf ns)) = m :: ns := ih
    simp only [namesOf, if_true] at this
    rw [this]
    rfl

theorem pathOf_append (a b : List Str) : pathOf (a ++ b) = pathOf a ++ pathOf b := by simp [pathOf]

/-- A slash at the end makes no difference. -/
theorem namesOf_trailing (a : Str) : namesOf [] (a ++ [47]) = namesOf [] a := by
  rw [namesOf_slash]
  simp [namesOf]

theorem namesOf_slashes (ns : List Str) (h : NamesOk ns) : ∀ k, namesOf [] (pathOf ns ++ List.replicate k 47) = ns
  | 0 => by rw [List.replicate_zero, List.append_nil]; exact namesOf_path ns h
  | k + 1 => by rw [List.replicate_succ', ← List.append_assoc, namesOf_trailing]; exact namesOf_slashes ns h k

theorem namesOf_chop (s : Str) : namesOf [] (chop_char s 47) = namesOf [] s := by
  unfold chop_char
  split
  · rename_i h
    rcases List.eq_nil_or_concat s with rfl | ⟨t, c, rfl⟩
    · rfl
    · rw [List.concat_eq_append] at h ⊢
      have : c = 47 := by simpa using h.2
      rw [List.dropLast_concat, this, namesOf_trailing]
  · rfl

/-! ## stat -/

theorem below_missing {fs : Fs} (hc : Consistent fs) {q : List Str} (hq : q ≠ []) (h : fs q = none) : ∀ r : List Str, fs (q ++ r) = none := by
  intro r
  induction hr : r.length generalizing r with
  | zero => rw [List.length_eq_zero_iff.1 hr, List.append_nil]; exact h
  | succ k ih =>
    rcases List.eq_nil_or_concat r with rfl | ⟨r', n, rfl⟩
    · cases hr
    · rw [List.concat_eq_append] at hr ⊢
      have h1 := ih r' (by simp at hr; exact hr)
      cases hx : fs (q ++ (r' ++ [n])) with
      | none => rfl
      | some x =>
        rcases hc (q ++ r') n (by rw [List.append_assoc, hx]; simp) with h2 | h2
        · exact absurd (List.append_eq_nil_iff.1 h2).1 hq
        · rw [h1] at h2; cases h2

/-- If the path does not exist, there is no file on the way. -/
theorem enoent_no_file {fs : Fs} (hc : Consistent fs) : ∀ (ns base : List Str), statNames fs base ns = .enoent →
    (∀ p, p ≠ [] → p <+: ns → fs (base ++ p) ≠ some .file) ∧ fs (base ++ ns) = none
  | [], _, h => by cases h
  | n :: ns, base, h => by
    unfold statNames at h
    split at h
    · rename_i h0
      have hm := below_missing hc (by simp) h0
      have : ∀ r, fs (base ++ n :: r) = none := fun r => by
        have := hm r
        rwa [List.append_assoc] at this
      refine ⟨fun p hp hpre => ?_, this ns⟩
      cases p with
      | nil => exact absurd rfl hp
      | cons a p =>
        obtain ⟨rfl, -⟩ := List.cons_prefix_cons.1 hpre
        rw [this p]
        simp
    · rename_i h0
      obtain ⟨h1, h2⟩ := enoent_no_file hc ns (base ++ [n]) h
      refine ⟨fun p hp hpre => ?_, by simpa using h2⟩
      cases p with
      | nil => exact absurd rfl hp
      | cons a p =>
        obtain ⟨rfl, hpre'⟩ := List.cons_prefix_cons.1 hpre
        by_cases hp0 : p = []
        · subst hp0; rw [h0]; simp
        · have := h1 p hp0 hpre'
          rwa [List.append_assoc] at this
    · split at h <;> cases h

/-- Without a file on the way, `stat` finds a directory or nothing. -/
theorem stat_clear {fs : Fs} : ∀ (ns base : List Str), (∀ p, p ≠ [] → p <+: ns → fs (base ++ p) ≠ some .file) →
    statNames fs base ns = .found .dir ∨ statNames fs base ns = .enoent
  | [], _, _ => .inl rfl
  | n :: ns, base, h => by
    unfold statNames
    split
    · exact .inr rfl
    · refine stat_clear ns (base ++ [n]) fun p hp hpre => ?_
      have := h (n :: p) (by simp) (List.cons_prefix_cons.2 ⟨rfl, hpre⟩)
      rwa [List.append_assoc]
    · rename_i h0
      exact absurd h0 (h [n] (by simp) (List.cons_prefix_cons.2 ⟨rfl, List.nil_prefix⟩))

theorem stat_dirs {fs : Fs} : ∀ (ns base : List Str), (∀ p, p ≠ [] → p <+: ns → fs (base ++ p) = some .dir) → statNames fs base ns = .found .dir
  | [], _, _ => rfl
  | n :: ns, base, h => by
    unfold statNames
    rw [h [n] (by simp) (List.cons_prefix_cons.2 ⟨rfl, List.nil_prefix⟩)]
    simp only
    refine stat_dirs ns (base ++ [n]) fun p hp hpre => ?_
    have := h (n :: p) (by simp) (List.cons_prefix_cons.2 ⟨rfl, hpre⟩)
    rwa [List.append_assoc]

theorem dirs_of_stat {fs : Fs} : ∀ (ns base : List Str), statNames fs base ns = .found .dir → ∀ p, p ≠ [] → p <+: ns → fs (base ++ p) = some .dir
  | [], _, _, p, hp, hpre => absurd (List.prefix_nil.1 hpre) hp
  | n :: ns, base, h, p, hp, hpre => by
    cases p with
    | nil => exact absurd rfl hp
    | cons a p =>
      obtain ⟨rfl, hpre'⟩ := List.cons_prefix_cons.1 hpre
      unfold statNames at h
      split at h
      · cases h
      · rename_i h0
        by_cases hp0 : p = []
        · subst hp0; exact h0
        · have := dirs_of_stat ns (base ++ [a]) h p hp0 hpre'
          rwa [List.append_assoc] at this
      · split at h <;> cases h

/-! ## Only directories on the way are made -/

/-- Nothing is changed but missing directories on the way to `ns`. -/
def OnlyAdds (ns : List Str) (fs fs' : Fs) : Prop :=
  ∀ p, fs' p = fs p ∨ (fs p = none ∧ fs' p = some .dir ∧ p ≠ [] ∧ p <+: ns)

theorem OnlyAdds.trans {ns : List Str} {a b c : Fs} (h1 : OnlyAdds ns a b) (h2 : OnlyAdds ns b c) : OnlyAdds ns a c := by
  intro p
  rcases h1 p with h | ⟨h, h', h3, h4⟩ <;> rcases h2 p with k | ⟨k, k', k3, k4⟩
  · exact .inl (k.trans h)
  · exact .inr ⟨h ▸ k, k', k3, k4⟩
  · exact .inr ⟨h, k.trans h', h3, h4⟩
  · exact .inr ⟨h, k', k3, k4⟩

theorem mkdir_adds {allow : List Str → Bool} {fs : Fs} {path : Str} {ns : List Str} (h : namesOf [] path <+: ns) :
    OnlyAdds ns fs (mkdir allow fs path).1 := by
  unfold mkdir
  simp only
  split
  · rename_i h1
    intro p
    by_cases hp : p = namesOf [] path
    · subst hp
      exact .inr ⟨h1.2.2.1, by simp, h1.1, h⟩
    · exact .inl (by simp [hp])
  · exact fun p => .inl rfl

theorem loop_adds {allow : List Str → Bool} : ∀ (rest done : Str) (fs fs' : Fs) (b : Bool),
    makeDirLoop allow fs done rest = .ok (fs', b) → OnlyAdds (namesOf [] (done ++ rest)) fs fs'
  | [], done, fs, fs', b, h => by
    simp only [makeDirLoop, Res.ok.injEq] at h
    rw [List.append_nil, show fs' = (mkdir allow fs done).1 by rw [h]]
    exact mkdir_adds (List.prefix_refl _)
  | c :: cs, done, fs, fs', b, h => by
    have he : done ++ c :: cs = (done ++ [c]) ++ cs := by simp
    unfold makeDirLoop at h
    split at h
    · rename_i hc
      subst hc
      split at h
      · cases h
      · cases h; exact fun p => .inl rfl
      · rw [he]; exact loop_adds cs _ fs fs' b h
      · simp only at h
        split at h
        · have h2 := loop_adds cs _ _ fs' b h
          rw [he]
          refine OnlyAdds.trans (mkdir_adds ?_) h2
          rw [← he, namesOf_slash]
          exact List.prefix_append _ _
        · cases h; exact fun p => .inl rfl
    · rw [he]; exact loop_adds cs _ fs fs' b h

/-- **C124**: whatever the path is, whatever is in the file system and whatever is refused: nothing is removed or
replaced, and nothing is made but missing directories on the way to the path (which is cut to 1023 characters). -/
theorem C124_only_the_way (allow : List Str → Bool) (fs fs' : Fs) (path : Str) (b : Bool) (h : check_dir_path allow fs path = .ok (fs', b)) :
    OnlyAdds (namesOf [] (path.take 1023)) fs fs' := by
  unfold check_dir_path at h
  have same : OnlyAdds (namesOf [] (path.take 1023)) fs fs := fun p => .inl rfl
  split at h
  · cases h; exact same
  · simp only at h
    split at h
    · cases h; exact same
    · split at h
      · cases h; exact same
      · cases h; exact same
      · cases h; exact same
      · unfold make_dir_path at h
        rw [List.take_take, Nat.min_self] at h
        have hn := namesOf_chop (path.take 1023)
        split at h
        · rename_i h0
          simp only [Res.ok.injEq] at h
          rw [show fs' = (mkdir allow fs []).1 by rw [h]]
          exact mkdir_adds List.nil_prefix
        · rename_i c cs h0
          have := loop_adds cs [c] fs fs' b h
          rwa [List.singleton_append, ← h0, hn] at this

/-! ## `st` is always set when it is looked at -/

theorem adds_no_file {ns : List Str} {fs fs' : Fs} (h : OnlyAdds ns fs fs') {p : List Str} (hp : fs p ≠ some .file) : fs' p ≠ some .file := by
  rcases h p with h | ⟨-, h, -⟩ <;> rw [h]
  · exact hp
  · simp

theorem loop_defined {allow : List Str → Bool} : ∀ (rest done : Str) (fs : Fs),
    (∀ p, p ≠ [] → p <+: namesOf [] (done ++ rest) → fs p ≠ some .file) → makeDirLoop allow fs done rest ≠ .ub
  | [], done, fs, _ => by simp [makeDirLoop]
  | c :: cs, done, fs, hf => by
    have he : done ++ c :: cs = (done ++ [c]) ++ cs := by simp
    unfold makeDirLoop
    split
    · rename_i hc
      subst hc
      have hpre : namesOf [] done <+: namesOf [] (done ++ 47 :: cs) := by rw [namesOf_slash]; exact List.prefix_append _ _
      have hs := stat_clear (fs := fs) (namesOf [] done) [] fun p hp hq => hf p hp (hq.trans hpre)
      split
      · rename_i h
        unfold stat at h
        rcases hs with hs | hs <;> rw [hs] at h <;> cases h
      · simp
      · exact loop_defined cs _ fs (by rwa [← he])
      · simp only
        split
        · refine loop_defined cs _ _ ?_
          rw [← he]
          exact fun p hp hq => adds_no_file (mkdir_adds hpre) (hf p hp hq)
        · simp
    · exact loop_defined cs _ fs (by rwa [← he])

/-- **C124**: the result of a `stat` that failed is never looked at. -/
theorem C124_defined (allow : List Str → Bool) (fs : Fs) (hc : Consistent fs) (path : Str) : check_dir_path allow fs path ≠ .ub := by
  unfold check_dir_path
  split
  · simp
  · simp only
    split
    · simp
    · split
      · simp
      · simp
      · simp
      · rename_i hs
        unfold make_dir_path
        rw [List.take_take, Nat.min_self]
        have hn := namesOf_chop (path.take 1023)
        obtain ⟨h1, -⟩ := enoent_no_file hc _ _ hs
        split
        · simp
        · rename_i c cs h0
          refine loop_defined cs [c] fs ?_
          rw [List.singleton_append, ← h0, hn]
          exact h1

/-! ## It is made -/

theorem loop_word {allow : List Str → Bool} {fs : Fs} : ∀ (n done rest : Str), 47 ∉ n →
    makeDirLoop allow fs done (n ++ rest) = makeDirLoop allow fs (done ++ n) rest
  | [], done, rest, _ => by simp
  | c :: n, done, rest, h => by
    have hc : c ≠ 47 := fun e => h (by rw [e]; exact List.mem_cons_self)
    show makeDirLoop allow fs done (c :: (n ++ rest)) = _
    rw [makeDirLoop, if_neg hc, loop_word n _ rest fun h' => h (List.mem_cons_of_mem _ h')]
    simp

theorem mkdir_works {allow : List Str → Bool} {fs : Fs} {ms : List Str} (hm : NamesOk ms) (h0 : ms ≠ []) (ha : allow ms = true)
    (hp : ∀ p, p ≠ [] → p <+: ms → p ≠ ms → fs p = some .dir) (hn : fs ms = none) (path : Str) (hpath : namesOf [] path = ms) :
    mkdir allow fs path = (withDir fs ms, true) := by
  unfold mkdir
  simp only [hpath]
  rw [if_pos]
  · congr 1
    funext p
    unfold withDir
    by_cases he : p = ms
    · subst he; rw [if_pos rfl, if_pos ⟨h0, List.prefix_refl _⟩]
    · rw [if_neg he]
      split
      · rename_i h; exact hp p h.1 h.2 he
      · rfl
  · refine ⟨h0, stat_dirs _ _ fun p h1 h2 => hp p h1 (h2.trans (List.dropLast_prefix ms)) ?_, hn, ha⟩
    rintro rfl
    have := h2.length_le
    have h3 : p.length ≠ 0 := fun e => h0 (List.length_eq_zero_iff.1 e)
    simp at this
    omega

theorem withDir_dir {fs : Fs} {ms : List Str} (h : ∀ p, p ≠ [] → p <+: ms → fs p = some .dir) : withDir fs ms = fs := by
  funext p
  unfold withDir
  split
  · rename_i hp; exact (h p hp.1 hp.2).symm
  · rfl

theorem withDir_more {fs : Fs} {ms ns : List Str} : withDir (withDir fs ms) (ms ++ ns) = withDir fs (ms ++ ns) := by
  funext p
  unfold withDir
  split
  · rfl
  · rename_i h
    rw [if_neg fun k => h ⟨k.1, k.2.trans (List.prefix_append _ _)⟩]

/-- The loop from the end of a name on: with `tail`, the rest of the path behind the names. -/
theorem loop_makes {allow : List Str → Bool} (ha : ∀ p, allow p = true) (tail : Str) : ∀ (ns ms : List Str) (fs : Fs), NamesOk (ms ++ ns) → ms ≠ [] →
    (∀ p, p ≠ [] → p <+: ms → p ≠ ms → fs p = some .dir) → (∀ p, p ≠ [] → p <+: ms ++ ns → fs p ≠ some .file) →
    ∃ fs', withDir fs' (ms ++ ns) = withDir fs (ms ++ ns) ∧ (fs (ms ++ ns) = none → fs' (ms ++ ns) = none) ∧
      (∀ p, p ≠ [] → p <+: ms ++ ns → p ≠ ms ++ ns → fs' p = some .dir) ∧
      makeDirLoop allow fs (pathOf ms) (pathOf ns ++ tail) = makeDirLoop allow fs' (pathOf (ms ++ ns)) tail
  | [], ms, fs, _, _, hp, _ => by
    refine ⟨fs, rfl, id, by simpa using hp, ?_⟩
    simp [pathOf]
  | n :: ns, ms, fs, hok, h0, hp, hf => by
    have hms : NamesOk ms := fun x hx => hok x (by simp [hx])
    have hn := hok n (by simp)
    have he : ms ++ n :: ns = (ms ++ [n]) ++ ns := by simp
    have hpath : pathOf (n :: ns) ++ tail = 47 :: (n ++ (pathOf ns ++ tail)) := by simp [pathOf]
    have hstep : pathOf ms ++ [47] ++ n = pathOf (ms ++ [n]) := by simp [pathOf]
    have hs : stat fs (pathOf ms) = statNames fs [] ms := by unfold stat; rw [namesOf_path ms hms]
    rw [hpath]
    rw [makeDirLoop, if_pos rfl]
    have hne : ms ≠ ms ++ n :: ns := fun e => by simpa using congrArg List.length e
    have hfms : fs ms ≠ some .file := hf ms h0 (List.prefix_append _ _)
    have clear := stat_clear (fs := fs) ms [] fun p hp' hq => hf p hp' (hq.trans (List.prefix_append _ _))
    rcases clear with hd | hd
    · rw [hs, hd]
      simp only
      rw [loop_word n _ _ hn.2, hstep]
      have hall := dirs_of_stat ms [] hd
      obtain ⟨fs', k1, k2, k3, k4⟩ := loop_makes ha tail ns (ms ++ [n]) fs (by rwa [← he]) (by simp)
        (fun p hp0 hq hne => by
          rcases List.prefix_concat_iff.1 hq with h | h
          · exact absurd h hne
          · exact hall p hp0 h)
        (by rwa [← he])
      rw [he]
      exact ⟨fs', k1, k2, k3, k4⟩
    · have hmiss : fs ms = none := by
        cases hx : fs ms with
        | none => rfl
        | some x =>
          cases x with
          | file => exact absurd hx hfms
          | dir =>
            have : statNames fs [] ms = .found .dir := stat_dirs ms [] fun p hp0 hq => by
              by_cases e : p = ms
              · subst e; exact hx
              · exact hp p hp0 hq e
            rw [this] at hd; cases hd
      rw [hs, hd]
      simp only
      rw [mkdir_works hms h0 (ha _) hp hmiss _ (namesOf_path ms hms)]
      simp only [if_true]
      rw [loop_word n _ _ hn.2, hstep]
      obtain ⟨fs', k1, k2, k3, k4⟩ := loop_makes ha tail ns (ms ++ [n]) (withDir fs ms) (by rwa [← he]) (by simp)
        (fun p hp0 hq hne => by
          rcases List.prefix_concat_iff.1 hq with h | h
          · exact absurd h hne
          · unfold withDir; rw [if_pos ⟨hp0, h⟩])
        (by
          rw [← he]
          intro p hp0 hq
          unfold withDir
          split
          · simp
          · exact hf p hp0 hq)
      refine ⟨fs', ?_, ?_, ?_, ?_⟩
      · rw [he, k1, List.append_assoc]
        exact withDir_more
      · intro hnone
        rw [he]
        refine k2 ?_
        rw [← he]
        unfold withDir
        rw [if_neg, hnone]
        rintro ⟨-, h⟩
        have := h.length_le
        simp only [List.length_append, List.length_cons] at this
        omega
      · rw [he]; exact k3
      · rw [he]; exact k4

theorem pathOf_cons (n : Str) (ns : List Str) : pathOf (n :: ns) = 47 :: (n ++ pathOf ns) := by simp [pathOf]

theorem pathOf_last {ns : List Str} (h : NamesOk ns) (h0 : ns ≠ []) : ∃ a c, c ≠ 47 ∧ pathOf ns = a ++ [c] := by
  rcases List.eq_nil_or_concat ns with rfl | ⟨ms, n, rfl⟩
  · exact absurd rfl h0
  · rw [List.concat_eq_append] at h h0 ⊢
    have hn := h n (by simp)
    rcases List.eq_nil_or_concat n with rfl | ⟨m, c, rfl⟩
    · exact absurd rfl hn.1
    · rw [List.concat_eq_append] at hn ⊢
      refine ⟨pathOf ms ++ 47 :: m, c, fun e => hn.2 (by simp [e]), ?_⟩
      rw [pathOf_append]
      simp [pathOf]

/-- What comes of a path to a directory that does not exist, if nothing is in the way: the loop arrives at the last
name. -/
theorem check_missing {allow : List Str → Bool} (ha : ∀ p, allow p = true) {fs : Fs} (hc : Consistent fs) {ns : List Str} (hok : NamesOk ns)
    (tail : Str) (htail : ∀ x ∈ tail, x = 47) (hlen : (pathOf ns ++ tail).length ≤ 1023) (hmiss : statNames fs [] ns = .enoent) :
    ∃ fs', withDir fs' ns = withDir fs ns ∧ fs' ns = none ∧ (∀ p, p ≠ [] → p <+: ns → p ≠ ns → fs' p = some .dir) ∧
      check_dir_path allow fs (pathOf ns ++ tail) = makeDirLoop allow fs' (pathOf ns) (tail.drop 1) := by
  obtain ⟨hf, hnone⟩ := enoent_no_file hc ns [] hmiss
  cases ns with
  | nil => cases hmiss
  | cons n ns =>
    have hn := hok n List.mem_cons_self
    have hnames : namesOf [] (pathOf (n :: ns) ++ tail) = n :: ns := by
      rw [show tail = List.replicate tail.length 47 from List.eq_replicate_iff.2 ⟨rfl, htail⟩]
      exact namesOf_slashes _ hok _
    have hchop : chop_char (pathOf (n :: ns) ++ tail) 47 = pathOf (n :: ns) ++ tail.drop 1 := by
      cases tail with
      | nil =>
        obtain ⟨a, c, hc, he⟩ := pathOf_last hok (by simp)
        unfold chop_char
        rw [if_neg]
        · rfl
        · rw [he]; simp [hc]
      | cons x t =>
        have hx := htail x List.mem_cons_self
        have hall : x :: t = List.replicate (t.length + 1) 47 := List.eq_replicate_iff.2 ⟨rfl, htail⟩
        have ht : t = List.replicate t.length 47 := List.eq_replicate_iff.2 ⟨rfl, fun y hy => htail y (List.mem_cons_of_mem _ hy)⟩
        have hcat : x :: t = t ++ [47] := by rw [hall, List.replicate_succ', ← ht]
        unfold chop_char
        rw [hcat, ← List.append_assoc, if_pos]
        · rw [List.dropLast_concat, ← hcat]; rfl
        · refine ⟨?_, by simp⟩
          rw [pathOf_cons]
          simp
          omega
    obtain ⟨fs', k1, k2, k3, k4⟩ := loop_makes ha (tail.drop 1) ns [n] fs hok (by simp)
      (fun p hp hq hne => by
        cases p with
        | nil => exact absurd rfl hp
        | cons a p =>
          obtain ⟨rfl, hq'⟩ := List.cons_prefix_cons.1 hq
          rw [List.prefix_nil.1 hq'] at hne
          exact absurd rfl hne)
      hf
    refine ⟨fs', k1, k2 hnone, k3, ?_⟩
    unfold check_dir_path
    rw [if_neg (by rw [pathOf_cons]; simp)]
    simp only
    rw [List.take_of_length_le hlen, if_neg]
    · have hst : stat fs (pathOf (n :: ns) ++ tail) = .enoent := by unfold stat; rw [hnames]; exact hmiss
      rw [hst]
      simp only
      unfold make_dir_path
      rw [List.take_of_length_le hlen, hchop, pathOf_cons]
      simp only [List.cons_append]
      rw [List.append_assoc, loop_word n _ _ hn.2]
      have : [47] ++ n = pathOf [n] := by simp [pathOf]
      rw [this, k4]
      rfl
    · rw [pathOf_cons]
      have : n.length ≠ 0 := fun e => hn.1 (List.length_eq_zero_iff.1 e)
      simp
      omega

/-- **C124** (part): a run directory that does not exist is made, with every directory on the way to it and nothing else,
and the daemon goes on; with or without a slash at the end.  What is missing: more slashes at the end
(`C124_false_slashes`), paths of more than 1023 characters (`C124_false_long_path`). -/
theorem C124_made_partial (allow : List Str → Bool) (ha : ∀ p, allow p = true) (fs : Fs) (hc : Consistent fs) (ns : List Str) (hok : NamesOk ns)
    (tail : Str) (htail : tail = [] ∨ tail = [47]) (hlen : (pathOf ns ++ tail).length ≤ 1023) (hmiss : statNames fs [] ns = .enoent) :
    check_dir_path allow fs (pathOf ns ++ tail) = .ok (withDir fs ns, true) := by
  obtain ⟨fs', k1, k2, k3, k4⟩ := check_missing ha hc hok tail (by rcases htail with rfl | rfl <;> simp) hlen hmiss
  have h0 : ns ≠ [] := by rintro rfl; cases hmiss
  rw [k4, show tail.drop 1 = [] by rcases htail with rfl | rfl <;> rfl, makeDirLoop,
    mkdir_works hok h0 (ha _) k3 k2 _ (namesOf_path ns hok), k1]

/-- **C124 is false** of a path with two slashes at the end: the directory is made, and the daemon ends as if it had
not been. -/
theorem C124_false_slashes (allow : List Str → Bool) (ha : ∀ p, allow p = true) (fs : Fs) (hc : Consistent fs) (ns : List Str) (hok : NamesOk ns)
    (hlen : (pathOf ns ++ [47, 47]).length ≤ 1023) (hmiss : statNames fs [] ns = .enoent) :
    check_dir_path allow fs (pathOf ns ++ [47, 47]) = .ok (withDir fs ns, false) := by
  obtain ⟨fs', k1, k2, k3, k4⟩ := check_missing ha hc hok [47, 47] (by simp) hlen hmiss
  have h0 : ns ≠ [] := by rintro rfl; cases hmiss
  have hst : stat fs' (pathOf ns) = .enoent := by
    unfold stat
    rw [namesOf_path ns hok]
    rcases stat_clear (fs := fs') ns [] fun p hp hq => by
      by_cases e : p = ns
      · subst e; rw [List.nil_append, k2]; simp
      · rw [List.nil_append, k3 p hp hq e]; simp
      with h | h
    · have := dirs_of_stat ns [] h ns h0 (List.prefix_refl _)
      rw [List.nil_append, k2] at this
      cases this
    · exact h
  rw [k4]
  show makeDirLoop allow fs' (pathOf ns) [47] = _
  rw [makeDirLoop, if_pos rfl, hst]
  simp only
  rw [mkdir_works hok h0 (ha _) k3 k2 _ (namesOf_path ns hok), k1]
  simp only [if_true]
  rw [makeDirLoop]
  unfold mkdir
  rw [namesOf_trailing, namesOf_path ns hok]
  simp only
  rw [if_neg]
  rintro ⟨-, -, h, -⟩
  simp [withDir, h0] at h

/-- **C124**: a directory that is there is taken, and nothing is changed; a file in its place or on the way ends the
daemon, and nothing is changed. -/
theorem C124_as_it_is (allow : List Str → Bool) (fs : Fs) (path : Str) (hs : path.head? = some 47) (hlen : path.length ≤ 1023)
    (h : statNames fs [] (namesOf [] path) ≠ .enoent) :
    check_dir_path allow fs path = .ok (fs, decide (statNames fs [] (namesOf [] path) = .found .dir)) := by
  unfold check_dir_path
  rw [if_neg (by simp [hs])]
  simp only
  rw [List.take_of_length_le hlen]
  by_cases hl : path.length < 2
  · have : path = [47] := by
      match path, hs, hl with
      | [c], hs, _ => simpa using hs
      | [], hs, _ => cases hs
      | _ :: _ :: _, _, hl => simp at hl; omega
    subst this
    rfl
  rw [if_neg hl]
  unfold stat
  generalize statNames fs [] (namesOf [] path) = r at h
  match r with
  | .found .dir => rfl
  | .found .file => rfl
  | .enotdir => rfl
  | .enoent => exact absurd rfl h

/-- **C124**: a path that is not absolute ends the daemon, and nothing is changed. -/
theorem C124_relative (allow : List Str → Bool) (fs : Fs) (path : Str) (h : path.head? ≠ some 47) : check_dir_path allow fs path = .ok (fs, false) := by
  unfold check_dir_path
  rw [if_pos h]

theorem mkdir_there {allow : List Str → Bool} {fs fs' : Fs} {path : Str} (h : mkdir allow fs path = (fs', true)) :
    statNames fs' [] (namesOf [] path) = .found .dir := by
  unfold mkdir at h
  simp only at h
  split at h
  · rename_i h1
    cases h
    refine stat_dirs _ _ fun p hp hq => ?_
    rw [List.nil_append]
    split
    · rfl
    · rename_i hne
      refine dirs_of_stat _ [] h1.2.1 p hp ?_
      have he := List.dropLast_concat_getLast h1.1
      rw [← he] at hq hne
      rcases List.prefix_concat_iff.1 hq with h | h
      · exact absurd h hne
      · exact h
  · cases h

theorem loop_there {allow : List Str → Bool} : ∀ (rest done : Str) (fs fs' : Fs),
    makeDirLoop allow fs done rest = .ok (fs', true) → statNames fs' [] (namesOf [] (done ++ rest)) = .found .dir
  | [], done, fs, fs', h => by
    simp only [makeDirLoop, Res.ok.injEq] at h
    rw [List.append_nil]
    exact mkdir_there h
  | c :: cs, done, fs, fs', h => by
    have he : done ++ c :: cs = (done ++ [c]) ++ cs := by simp
    rw [he]
    unfold makeDirLoop at h
    split at h
    · split at h
      · cases h
      · cases h
      · exact loop_there cs _ fs fs' h
      · simp only at h
        split at h
        · exact loop_there cs _ _ fs' h
        · cases h
    · exact loop_there cs _ fs fs' h

/-- **C124**: whatever is refused, the daemon goes on only if the directory is there (for a path of at most 1023
characters, that of the whole path). -/
theorem C124_goes_on (allow : List Str → Bool) (fs fs' : Fs) (path : Str) (h : check_dir_path allow fs path = .ok (fs', true)) :
    path.head? = some 47 ∧ statNames fs' [] (namesOf [] (path.take 1023)) = .found .dir := by
  unfold check_dir_path at h
  split at h
  · cases h
  · rename_i hs
    have hs : path.head? = some 47 := by simpa using hs
    refine ⟨hs, ?_⟩
    simp only at h
    split at h
    · rename_i hl
      have : path.take 1023 = [47] := by
        match path, hs, hl with
        | [c], hs, _ => rw [show c = 47 by simpa using hs]; rfl
        | [], hs, _ => cases hs
        | _ :: _ :: _, _, hl => simp at hl; omega
      rw [this]
      rfl
    · split at h
      · rename_i h1; cases h; exact h1
      · cases h
      · cases h
      · unfold make_dir_path at h
        rw [List.take_take, Nat.min_self] at h
        have hn := namesOf_chop (path.take 1023)
        split at h
        · rename_i h0
          simp only [Res.ok.injEq] at h
          have := mkdir_there h
          rw [h0] at hn
          rwa [← hn]
        · rename_i c cs h0
          have := loop_there cs [c] fs fs' h
          rwa [List.singleton_append, ← h0, hn] at this

/-! ## Witnesses and examples -/

/-- A file system with these directories. -/
def dirsOnly (l : List (List Str)) : Fs := fun p => if p ∈ l then some .dir else none

/-- **C124 is false** of long paths: what is made is a directory with a part of the last name. -/
theorem C124_false_long_path :
    ∃ fs', check_dir_path (fun _ => true) (dirsOnly [[b!"run"]]) (b!"/run/" ++ List.replicate 1030 97) = .ok (fs', true) ∧
      fs' [b!"run", List.replicate 1030 97] = none ∧ fs' [b!"run", List.replicate 1018 97] = some .dir := by
  have hc : check_dir_path (fun _ => true) (dirsOnly [[b!"run"]]) (b!"/run/" ++ List.replicate 1030 97) =
      check_dir_path (fun _ => true) (dirsOnly [[b!"run"]]) (pathOf [b!"run", List.replicate 1018 97] ++ []) := by
    have h1 : (b!"/run/" ++ List.replicate 1030 97).take 1023 = pathOf [b!"run", List.replicate 1018 97] := by decide +kernel
    have h2 : (pathOf [b!"run", List.replicate 1018 97]).take 1023 = pathOf [b!"run", List.replicate 1018 97] := by decide +kernel
    have h3 : (b!"/run/" ++ List.replicate 1030 97).head? = some 47 := rfl
    have h4 : (pathOf [b!"run", List.replicate 1018 97]).head? = some 47 := rfl
    unfold check_dir_path
    rw [h1, List.append_nil, h2, h3, h4]
  rw [hc, C124_made_partial _ (fun _ => rfl) _ ?_ _ ?_ [] (.inl rfl) (by decide +kernel) (by decide +kernel)]
  · exact ⟨_, rfl, by decide +kernel, by decide +kernel⟩
  · intro p n h
    unfold dirsOnly at h
    split at h
    · rename_i hm
      have : p ++ [n] = [] ++ [b!"run"] := by simpa using hm
      exact .inl (List.append_inj' this rfl).1
    · exact absurd rfl h
  · intro n hn
    rcases List.mem_cons.1 hn with rfl | hn
    · decide
    · rcases List.mem_singleton.1 hn with rfl
      refine ⟨by decide, fun h => ?_⟩
      have := List.eq_of_mem_replicate h
      revert this; decide

/-- The hypotheses of `C124_made_partial` are met. -/
example : statNames (dirsOnly [[b!"var"]]) [] [b!"var", b!"run", b!"fwknop"] = .enoent ∧ NamesOk [b!"var", b!"run", b!"fwknop"] ∧
    Consistent (dirsOnly [[b!"var"]]) := by
  refine ⟨by decide, by unfold NamesOk; decide, ?_⟩
  intro p n h
  unfold dirsOnly at h
  split at h
  · rename_i hm
    have : p ++ [n] = [] ++ [b!"var"] := by simpa using hm
    exact .inl (List.append_inj' this rfl).1
  · exact absurd rfl h

end Fwknop.Props
