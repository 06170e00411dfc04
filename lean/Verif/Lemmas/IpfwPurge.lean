import Verif.Lemmas.IpfwInv

/-!
# Purging and initialisation
-/

namespace Fwknop

open Spec Res

/-- A line of a dynamic rule. -/
def dynLine (d : Nat × List Nat) : List Nat := pad5 d.1 ++ 32 :: d.2

/-- The title of the dynamic rules. -/
def dynTitle (n : Nat) : List Nat := b!"## Dynamic rules (" ++ decimal n ++ b!"):"

theorem dynTitle_oneLine (n : Nat) : 10 ∉ dynTitle n := by
  intro e
  have : 10 ∉ decimal n := by
    intro e
    rw [← decStr_decimal] at e
    exact absurd (decStr_digits _ _ e) (by decide)
  simp [dynTitle, this] at e

theorem dynLine_oneLine {d : Nat × List Nat} (h : 10 ∉ d.2) : 10 ∉ dynLine d := by
  intro e
  rcases List.mem_append.1 e with e | e
  · exact not_mem_pad5 (by decide) _ e
  · rcases List.mem_cons.1 e with e | e
    · cases e
    · exact h e

theorem ipfwLine_noHash {r : IpfwRule} (h : OneLine r.body) : 35 ∉ ipfwLine r := by
  intro e
  rcases List.mem_append.1 e with e | e
  · exact not_mem_pad5 (by decide) _ e
  · rcases List.mem_cons.1 e with e | e
    · cases e
    · exact h.2.1 e

theorem unlines_noHash {ls : List (List Nat)} (h : ∀ l ∈ ls, 35 ∉ l) : 35 ∉ unlines ls := by
  intro e
  obtain ⟨l, hl, e⟩ := List.mem_flatMap.1 e
  rcases List.mem_append.1 e with e | e
  · exact h l hl e
  · simp at e

theorem unlines_count (ls : List (List Nat)) : ls.length ≤ (unlines ls).length := by
  induction ls with
  | nil => simp
  | cons l ls ih => rw [unlines_cons]; simp only [List.length_append, List.length_cons]; omega

theorem titlePrefix (n : Nat) (rest : Str) : hasPrefixI b!"## Dynamic rules" (dynTitle n ++ rest) = true := by
  have : dynTitle n ++ rest = b!"## Dynamic rules" ++ (b!" (" ++ decimal n ++ b!"):" ++ rest) := by simp [dynTitle]
  rw [this]
  unfold hasPrefixI
  rw [List.map_append, List.isPrefixOf_iff_prefix]
  exact List.prefix_append _ _

/-- The listing with the dynamic rules as it is read from the buffer. -/
theorem ipfwMark_run {cf : IpfwConf} {rs : List IpfwRule} (hr : ∀ r ∈ rs, OneLine r.body ∧ r.num ≤ 65535)
    {ds : List (Nat × List Nat)} (hd : ∀ d ∈ ds, d.1 ≤ 65535 ∧ 10 ∉ d.2) (hds : ds ≠ [] → rs ≠ [])
    {map : List RuleState} (hl : map.length = cf.max_rules) :
    ∃ m, ipfwMark cf (truncate_partial_line ((ipfwLines rs ++ ipfwDynLines ds).take (STANDARD_CMD_OUT_BUFSIZE - 1))) map = .ok m ∧
      (m = none ∨ ∃ ns, (∀ n ∈ ns, ∃ d ∈ ds, d.1 = n) ∧ m = some (enterAll cf .marked ns map)) ∧
      ((ipfwLines rs ++ ipfwDynLines ds).length ≤ 4095 →
        m = if ds = [] ∧ rs ≠ [] then none else some (enterAll cf .marked (ds.map (·.1)) map)) := by
  by_cases hrs : rs = []
  · subst hrs
    have hd0 : ds = [] := Classical.byContradiction fun h => hds h rfl
    subst hd0
    refine ⟨some map, rfl, .inr ⟨[], by simp, rfl⟩, fun _ => rfl⟩
  · -- everything is a list of lines
    have hmark0 : ∀ (qs : List IpfwRule), (∀ r ∈ qs, OneLine r.body) → qs ≠ [] →
        ipfwMark cf (unlines (qs.map ipfwLine)) map = .ok none := by
      intro qs hq hne
      unfold ipfwMark
      rw [if_neg, hash_none dynamic_hash (unlines_noHash fun l hl => by
        obtain ⟨r, hr, rfl⟩ := List.mem_map.1 hl; exact ipfwLine_noHash (hq r hr))]
      cases qs with
      | nil => exact absurd rfl hne
      | cons q qs => rw [List.map_cons, unlines_cons]; simp
    have hmark1 : ∀ k', ipfwMark cf (unlines (rs.map ipfwLine ++ dynTitle ds.length :: (ds.take k').map dynLine)) map =
        .ok (some (enterAll cf .marked ((ds.take k').map (·.1)) map)) := by
      intro k'
      unfold ipfwMark
      have hbuf : unlines (rs.map ipfwLine ++ dynTitle ds.length :: (ds.take k').map dynLine) =
          unlines (rs.map ipfwLine) ++ (dynTitle ds.length ++ 10 :: unlines ((ds.take k').map dynLine)) := by
        rw [unlines_append, unlines_cons]
      rw [hbuf, if_neg (by simp [dynTitle]), hash_at dynamic_hash (unlines_noHash fun l hl => by
        obtain ⟨r, hr', rfl⟩ := List.mem_map.1 hl; exact ipfwLine_noHash (hr r hr').1) (titlePrefix _ _)]
      simp only [List.drop_left]
      rw [strchr_after _ _ (dynTitle_oneLine _)]
      have hdrop : ∀ (a b c : Str), (a ++ (b ++ 10 :: c)).drop (a.length + b.length + 1) = c := by
        intro a b c
        rw [← List.append_assoc, List.drop_append, List.drop_of_length_le (by simp), List.nil_append,
          List.length_append, show a.length + b.length + 1 - (a.length + b.length) = 1 from by omega, List.drop_one, List.tail_cons]
      simp only [hdrop]
      have := dynLoop_lines (cf := cf) (ds.take k') (fun d h => hd d (List.mem_of_mem_take h)) map
        ((unlines (rs.map ipfwLine) ++ (dynTitle ds.length ++ 10 :: unlines ((ds.take k').map dynLine))).length + 1) hl (by
          have := unlines_count ((ds.take k').map dynLine)
          simp only [List.length_map] at this
          simp only [List.length_append, List.length_cons]
          omega)
      rw [show (fun d : Nat × List Nat => pad5 d.1 ++ 32 :: d.2) = dynLine from rfl] at this
      rw [this, bind_ok]
      rfl
    have hfirst : ∀ (L : List (List Nat)), ∀ l, (rs.map ipfwLine ++ L).head? = some l → l.length < 4095 := by
      intro L l h
      cases rs with
      | nil => exact absurd rfl hrs
      | cons r rs =>
        simp only [List.map_cons, List.cons_append, List.head?_cons, Option.some.injEq] at h
        subst h
        exact ipfwLine_length (hr r List.mem_cons_self).1 (hr r List.mem_cons_self).2
    have hlines : ∀ l ∈ rs.map ipfwLine, 10 ∉ l := fun l hl => by
      obtain ⟨r, hr', rfl⟩ := List.mem_map.1 hl; exact ipfwLine_oneLine (hr r hr').1
    by_cases hd0 : ds = []
    · subst hd0
      have : ipfwLines rs ++ ipfwDynLines [] = unlines (rs.map ipfwLine) := by
        simp only [ipfwDynLines, ipfwLines, if_true, List.append_nil]; rfl
      rw [this]
      obtain ⟨k, h1, _, h3⟩ := truncate_lines 4095 (rs.map ipfwLine) hlines (by simpa using hfirst [])
      have hk := h3 (by simpa using hrs)
      rw [show STANDARD_CMD_OUT_BUFSIZE - 1 = 4095 from rfl, h1, ← List.map_take, hmark0 _ (fun r h => (hr r (List.mem_of_mem_take h)).1) (by
        intro e
        rcases List.take_eq_nil_iff.1 e with e | e
        · exact hk e
        · exact hrs e)]
      exact ⟨none, rfl, .inl rfl, fun _ => by rw [if_pos ⟨rfl, hrs⟩]⟩
    · have hall : ipfwLines rs ++ ipfwDynLines ds = unlines (rs.map ipfwLine ++ dynTitle ds.length :: ds.map dynLine) := by
        rw [unlines_append, ipfwDynLines, if_neg hd0]
        rfl
      rw [hall]
      obtain ⟨k, h1, h2, h3⟩ := truncate_lines 4095 (rs.map ipfwLine ++ dynTitle ds.length :: ds.map dynLine)
        (by
          intro l hl
          rcases List.mem_append.1 hl with hl | hl
          · exact hlines l hl
          · rcases List.mem_cons.1 hl with rfl | hl
            · exact dynTitle_oneLine _
            · obtain ⟨d, hd', rfl⟩ := List.mem_map.1 hl
              exact dynLine_oneLine (hd d hd').2)
        (hfirst _)
      have hk := h3 (by simp)
      rw [show STANDARD_CMD_OUT_BUFSIZE - 1 = 4095 from rfl, h1]
      by_cases hkr : k ≤ rs.length
      · have e : (rs.map ipfwLine ++ dynTitle ds.length :: ds.map dynLine).take k = (rs.take k).map ipfwLine := by
          rw [List.take_append_of_le_length (by simpa using hkr), List.map_take]
        rw [e, hmark0 _ (fun r h => (hr r (List.mem_of_mem_take h)).1) (by
          intro e
          rcases List.take_eq_nil_iff.1 e with e | e
          · exact hk e
          · exact hrs e)]
        refine ⟨none, rfl, .inl rfl, fun h => ?_⟩
        have := congrArg List.length (h2 h)
        rw [e] at this
        simp only [List.length_map, List.length_take, List.length_append, List.length_cons] at this
        omega
      · have e : (rs.map ipfwLine ++ dynTitle ds.length :: ds.map dynLine).take k =
            rs.map ipfwLine ++ dynTitle ds.length :: (ds.take (k - rs.length - 1)).map dynLine := by
          rw [List.take_append, List.take_of_length_le (by simp; omega), List.length_map,
            show k - rs.length = k - rs.length - 1 + 1 from by omega, List.take_succ_cons, List.map_take]
          rfl
        rw [e, hmark1]
        refine ⟨_, rfl, .inr ⟨_, ?_, rfl⟩, fun h => ?_⟩
        · intro n hn
          obtain ⟨d, hd', rfl⟩ := List.mem_map.1 hn
          exact ⟨d, List.mem_of_mem_take hd', rfl⟩
        · have := congrArg List.length (h2 h)
          rw [e] at this
          simp only [List.length_map, List.length_take, List.length_append, List.length_cons] at this
          rw [if_neg (by simp [hd0]), List.take_of_length_le (by omega)]

/-! ## The loop over the map -/

/-- A mark stands for an expired rule. -/
def unmark : RuleState → RuleState
  | .marked => .expired
  | m => m

theorem unmark_ne_marked (m : RuleState) : unmark m ≠ .marked := by cases m <;> simp [unmark]

theorem map_ext {a b : List RuleState} (h : ∀ i : Nat, a[i]? = b[i]?) : a = b := List.ext_getElem? h

theorem unmark_get (map : List RuleState) (i : Nat) : (map.map unmark)[i]? = map[i]?.map unmark := by
  rw [List.getElem?_map]

theorem unmark_of_nomark {map : List RuleState} (h : RuleState.marked ∉ map) : map.map unmark = map := by
  induction map with
  | nil => rfl
  | cons m ms ih =>
    rw [List.map_cons, ih fun e => h (List.mem_cons_of_mem _ e)]
    cases m <;> simp_all [unmark]

/-- Marking rules that have expired. -/
theorem unmark_enterAll {cf : IpfwConf} {map : List RuleState} {K : Ipfw} (hi : IpfwInv cf map K) (hn : IpfwNames cf) {ns : List Nat}
    (h : ∀ n ∈ ns, ∃ r ∈ K.rules, r.num = n ∧ r.set = cf.expire_set) :
    (enterAll cf .marked ns map).map unmark = map := by
  apply map_ext
  intro i
  rw [unmark_get]
  by_cases hlt : i < cf.max_rules
  · have hlt' : i < map.length := by rw [hi.len]; exact hlt
    rw [enterAll_get cf _ ns map hi.len i hlt]
    have hs := List.getElem?_eq_getElem (show i < map.length by rw [hi.len]; exact hlt)
    split
    · rename_i hm
      obtain ⟨r, hr, h1, h2⟩ := h _ hm
      rw [hs]
      cases hv : map[i] with
      | free => exact absurd h1 (hi.free i (by rw [hs, hv]) r hr)
      | active => exact absurd ((hi.act i (by rw [hs, hv]) r hr h1).symm.trans h2) hn.differ
      | expired => rfl
      | marked => exact absurd (hv ▸ List.getElem_mem _) hi.nomark
    · rw [hs]
      cases hv : map[i] with
      | marked => exact absurd (hv ▸ List.getElem_mem _) hi.nomark
      | _ => rfl
  · rw [List.getElem?_eq_none (by rw [enterAll_length, hi.len]; omega), List.getElem?_eq_none (by rw [hi.len]; omega)]
    rfl

theorem inv_purge {cf : IpfwConf} {map : List RuleState} {K : Ipfw} (hi : IpfwInv cf map K) {i : Nat}
    (hlt : i < cf.max_rules) (hst : map[i]? = some .expired) :
    IpfwInv cf (map.set i .free)
      { K with rules := K.rules.filter fun r => ¬(r.set = cf.expire_set ∧ r.num = cf.start + i) } := by
  have hget := fun j => get_set (map := map) (i := i) (by rw [hi.len]; exact hlt) .free j
  have hmem : ∀ {r}, r ∈ K.rules.filter (fun r => ¬(r.set = cf.expire_set ∧ r.num = cf.start + i)) →
      r ∈ K.rules ∧ ¬(r.set = cf.expire_set ∧ r.num = cf.start + i) := by
    intro r hr
    simp only [List.mem_filter, decide_eq_true_eq] at hr
    exact hr
  constructor
  · simp [hi.len]
  · intro h
    obtain ⟨j, hj⟩ := List.getElem?_of_mem h
    rw [hget] at hj
    split at hj
    · cases hj
    · exact hi.nomark (List.mem_of_getElem? hj)
  · intro j hj r hr he
    obtain ⟨h1, h2⟩ := hmem hr
    rw [hget] at hj
    split at hj
    · rename_i e
      subst e
      exact h2 ⟨hi.expired i hst r h1 he, he⟩
    · exact hi.free j hj r h1 he
  · intro j hj r hr he
    rw [hget] at hj
    split at hj
    · cases hj
    · exact hi.expired j hj r (hmem hr).1 he
  · intro j hj r hr he
    rw [hget] at hj
    split at hj
    · cases hj
    · exact hi.act j hj r (hmem hr).1 he
  · intro j v hj hv
    rw [hget] at hj
    split at hj
    · rename_i e; subst e; exact hi.used i _ hst (by simp)
    · exact hi.used j v hj hv
  · intro r hr he; exact hi.active r (hmem hr).1 he
  · intro r hr; exact hi.num r (hmem hr).1
  · intro r hr he; exact hi.text r (hmem hr).1 he
  · exact hi.dyn

theorem ipfwPurge1_run {print : List Word → List Nat} {cf : IpfwConf} (hn : IpfwNames cf) {i : Nat} (hlt : i < cf.max_rules)
    {s : IpfwSt (Ipfw × List Fate)} (hi : IpfwInv cf (s.map.map unmark) s.world.1) (hf : Fate.refused ∉ s.world.2) :
    ∃ s', ipfwPurge1 cf (ipfwTool print) i s = .ok s' ∧ IpfwInv cf (s'.map.map unmark) s'.world.1 ∧
      Fate.refused ∉ s'.world.2 ∧ (s.world.2 = [] → s'.world.2 = []) ∧ s'.map[i]? ≠ some .marked ∧
      (∀ j, j ≠ i → s'.map[j]? = s.map[j]?) ∧ s'.world.1.dyn = s.world.1.dyn ∧
      (s'.world.1.rules = s.world.1.rules ∧ (s.world.2 = [] → s.map[i]? ≠ some .expired) ∨ s.map[i]? = some .expired ∧ s'.world.1.rules =
        s.world.1.rules.filter fun r => ¬(r.set = cf.expire_set ∧ r.num = cf.start + i)) := by
  have hl : s.map.length = cf.max_rules := by have := hi.len; simpa using this
  have hs := List.getElem?_eq_getElem (show i < s.map.length by omega)
  unfold ipfwPurge1
  rw [List.getD_eq_getElem?_getD, hs, Option.getD_some]
  cases hv : s.map[i] with
  | free =>
    refine ⟨s, rfl, hi, hf, id, by rw [hs, hv]; simp, fun _ _ => rfl, rfl, .inl ⟨rfl, fun _ => by simp⟩⟩
  | active =>
    refine ⟨s, rfl, hi, hf, id, by rw [hs, hv]; simp, fun _ _ => rfl, rfl, .inl ⟨rfl, fun _ => by simp⟩⟩
  | marked =>
    refine ⟨_, rfl, ?_, hf, id, ?_, ?_, rfl, .inl ⟨rfl, fun _ => by simp⟩⟩
    · have : (s.map.set i .expired).map unmark = s.map.map unmark := by
        apply map_ext
        intro j
        rw [unmark_get, unmark_get, get_set (by omega)]
        split
        · rename_i e; subst e; rw [hs, hv]; rfl
        · rfl
      simp only [this]; exact hi
    · simp only; rw [get_set (by omega), if_pos rfl]; simp
    · intro j hj; simp only; rw [get_set (by omega), if_neg (Ne.symm hj)]
  | expired =>
    have hu : (s.map.map unmark)[i]? = some .expired := by rw [unmark_get, hs, hv]; rfl
    have hle := hi.used i _ hu (by simp)
    have hmod : (cf.start + i) % 2 ^ 16 = cf.start + i := by omega
    simp only [hmod]
    obtain ⟨fs', hf', hnil, hrun⟩ := ipfw_run print (argv_delete hn hn.exp2 hle) STANDARD_CMD_OUT_BUFSIZE s.world.1 hf
    rcases hrun with hrun | ⟨hne, hrun⟩
    · rw [show s.world = (s.world.1, s.world.2) from rfl, hrun, bind_ok]
      simp only [ipfw_delete, if_true]
      rw [setMap_ok (by omega) (by omega), bind_ok, show cf.start + i - cf.start = i from by omega]
      refine ⟨_, rfl, ?_, hf', hnil, ?_, ?_, rfl, .inr ⟨trivial, rfl⟩⟩
      · have : (s.map.set i .free).map unmark = (s.map.map unmark).set i .free := by rw [List.map_set]; rfl
        simp only [this]
        exact inv_purge hi hlt hu
      · simp only; rw [get_set (by omega), if_pos rfl]; simp
      · intro j hj; simp only; rw [get_set (by omega), if_neg (Ne.symm hj)]
    · rw [show s.world = (s.world.1, s.world.2) from rfl, hrun, bind_ok]
      exact ⟨_, rfl, hi, hf', fun h => absurd h hne, by simp only; rw [hs, hv]; simp, fun _ _ => rfl, rfl, .inl ⟨rfl, fun h => absurd h hne⟩⟩

theorem ipfwPurgeLoop_run {print : List Word → List Nat} {cf : IpfwConf} (hn : IpfwNames cf) (n : Nat) :
    ∀ (i : Nat) (s : IpfwSt (Ipfw × List Fate)), i + n = cf.max_rules → IpfwInv cf (s.map.map unmark) s.world.1 →
      Fate.refused ∉ s.world.2 → (∀ j < i, s.map[j]? ≠ some .marked) →
    ∃ s', ipfwPurgeLoop cf (ipfwTool print) i n s = .ok s' ∧ IpfwInv cf s'.map s'.world.1 ∧ Fate.refused ∉ s'.world.2 ∧
      s'.world.1.dyn = s.world.1.dyn ∧ (∃ p : IpfwRule → Bool, s'.world.1.rules = s.world.1.rules.filter p) ∧
      (∀ r ∈ s.world.1.rules, r ∉ s'.world.1.rules → r.set = cf.expire_set ∧
        ∃ j, i ≤ j ∧ r.num = cf.start + j ∧ s.map[j]? = some .expired) ∧
      (s.world.2 = [] → ∀ r ∈ s'.world.1.rules, r.set = cf.expire_set → ∀ j, i ≤ j → r.num = cf.start + j →
        s.map[j]? ≠ some .expired) := by
  induction n with
  | zero =>
    intro i s hin hi hf hm
    have hl : s.map.length = cf.max_rules := by have := hi.len; simpa using this
    have : RuleState.marked ∉ s.map := by
      intro h
      obtain ⟨j, hj⟩ := List.getElem?_of_mem h
      have := (List.getElem?_eq_some_iff.1 hj).1
      exact hm j (by omega) hj
    rw [unmark_of_nomark this] at hi
    refine ⟨s, rfl, hi, hf, rfl, ⟨fun _ => true, (List.filter_eq_self.2 fun _ _ => rfl).symm⟩, fun r hr h => absurd hr h, fun _ r _ _ j hj _ h => ?_⟩
    have := (List.getElem?_eq_some_iff.1 h).1
    omega
  | succ n ih =>
    intro i s hin hi hf hm
    obtain ⟨s1, h1, h2, h3, h4, h5, h6, h7, h8⟩ := ipfwPurge1_run (print := print) hn (i := i) (by omega) hi hf
    obtain ⟨s', g1, g2, g3, g4, g5, g6, g7⟩ := ih (i + 1) s1 (by omega) h2 h3 (by
      intro j hj
      by_cases e : j = i
      · subst e; exact h5
      · rw [h6 j e]; exact hm j (by omega))
    rw [ipfwPurgeLoop, h1, bind_ok]
    refine ⟨s', g1, g2, g3, g4.trans h7, ?_, ?_, ?_⟩
    · rcases h8 with ⟨h8, _⟩ | ⟨_, h8⟩
      · rw [← h8]; exact g5
      · obtain ⟨p, g5⟩ := g5
        rw [h8, List.filter_filter] at g5
        exact ⟨_, g5⟩
    · intro r hr hr'
      by_cases e : r ∈ s1.world.1.rules
      · obtain ⟨a, j, l, b, c⟩ := g6 r e hr'
        exact ⟨a, j, by omega, b, by rw [← h6 j (by omega)]; exact c⟩
      · rcases h8 with ⟨h8, _⟩ | ⟨h8, h9⟩
        · rw [h8] at e; exact absurd hr e
        · rw [h9] at e
          simp only [List.mem_filter, hr, true_and, decide_eq_true_eq, Classical.not_not] at e
          exact ⟨e.1, i, Nat.le_refl _, e.2, h8⟩
    · intro hnil r hr hset j hj hnum hexp
      by_cases ej : j = i
      · subst ej
        rcases h8 with ⟨_, h8⟩ | ⟨_, h8⟩
        · exact h8 hnil hexp
        · obtain ⟨p, g5⟩ := g5
          rw [g5] at hr
          have := (List.mem_filter.1 hr).1
          rw [h8] at this
          simp only [List.mem_filter, decide_eq_true_eq] at this
          exact this.2 ⟨hset, hnum⟩
      · exact g7 (h4 hnil) r hr hset j (by omega) hnum (by rw [h6 j ej]; exact hexp)

/-- The entries that are deleted by a purge that gets as far as deleting: those that had expired and have
no dynamic rule in the part of the listing that is read. -/
theorem ipfw_purge_run {print : List Word → List Nat} {cf : IpfwConf} (hn : IpfwNames cf) {s : IpfwSt (Ipfw × List Fate)}
    (hi : IpfwInv cf s.map s.world.1) (hf : Fate.refused ∉ s.world.2) :
    ∃ s', ipfw_purge_expired_rules cf (ipfwTool print) s = .ok s' ∧ IpfwInv cf s'.map s'.world.1 ∧ Fate.refused ∉ s'.world.2 ∧
      s'.world.1.dyn = s.world.1.dyn ∧ (∃ p : IpfwRule → Bool, s'.world.1.rules = s.world.1.rules.filter p) ∧
      (∀ r ∈ s.world.1.rules, r ∉ s'.world.1.rules → r.set = cf.expire_set ∧ cf.start ≤ r.num ∧ r.num < cf.start + cf.max_rules) ∧
      ((ipfwLines (s.world.1.of cf.expire_set) ++ ipfwDynLines (s.world.1.dynOf cf.expire_set)).length ≤ 4095 →
        (∀ r ∈ s.world.1.rules, r ∉ s'.world.1.rules → ∀ d ∈ s.world.1.dyn, d.1 ≠ r.num) ∧
        (s.world.2 = [] →
          (s.world.1.dynOf cf.expire_set ≠ [] → ∀ r ∈ s'.world.1.rules, r.set = cf.expire_set → cf.start ≤ r.num →
            r.num < cf.start + cf.max_rules → ∃ d ∈ s.world.1.dyn, d.1 = r.num) ∧
          (s.world.1.dynOf cf.expire_set = [] → s'.world.1.rules = s.world.1.rules))) := by
  unfold ipfw_purge_expired_rules
  obtain ⟨fs', hf', hnil, hrun⟩ := ipfw_run print (argv_listd hn hn.exp2) STANDARD_CMD_OUT_BUFSIZE s.world.1 hf
  rcases hrun with hrun | ⟨hne, hrun⟩
  · rw [show s.world = (s.world.1, s.world.2) from rfl, hrun, bind_ok]
    simp only [ipfw_listd, Bool.not_true, Bool.false_eq_true, if_false]
    have hdyn : ∀ d ∈ s.world.1.dynOf cf.expire_set, ∃ r ∈ s.world.1.rules, r.num = d.1 ∧ r.set = cf.expire_set := by
      intro d hd
      simp only [Ipfw.dynOf, List.mem_filter, List.any_eq_true, decide_eq_true_eq] at hd
      obtain ⟨_, r, h1, h2⟩ := hd
      exact ⟨r, (of_rules h1).1, h2, (of_rules h1).2⟩
    obtain ⟨m, h1, h2, h3⟩ := ipfwMark_run (cf := cf) (rs := s.world.1.of cf.expire_set)
      (fun r h => ⟨hi.text r (of_rules h).1 (.inr (of_rules h).2), hi.num r (of_rules h).1⟩)
      (ds := s.world.1.dynOf cf.expire_set)
      (fun d h => by
        obtain ⟨r, a, b, _⟩ := hdyn d h
        exact ⟨b ▸ hi.num r a, hi.dyn d (List.mem_filter.1 h).1⟩)
      (fun h => by
        obtain ⟨d, hd⟩ := List.exists_mem_of_ne_nil _ h
        obtain ⟨r, a, b, c⟩ := hdyn d hd
        exact List.ne_nil_of_mem (by simp only [Ipfw.of, List.mem_filter, decide_eq_true_eq]; exact ⟨a, c⟩))
      hi.len
    rw [h1, bind_ok]
    rcases h2 with rfl | ⟨ns, hns, rfl⟩
    · refine ⟨_, rfl, hi, hf', rfl, ⟨fun _ => true, (List.filter_eq_self.2 fun _ _ => rfl).symm⟩, fun r hr h => absurd hr h, fun hfit =>
        ⟨fun r hr h => absurd hr h, fun _ => ⟨fun hd => ?_, fun _ => rfl⟩⟩⟩
      have := h3 hfit
      rw [if_neg (by simp [hd])] at this
      cases this
    · have hum := unmark_enterAll hi hn (ns := ns) (fun n h => by
        obtain ⟨d, hd, rfl⟩ := hns n h
        exact hdyn d hd)
      obtain ⟨s', g1, g2, g3, g4, g5, g6, g7⟩ := ipfwPurgeLoop_run (print := print) hn cf.max_rules 0
        { s with map := enterAll cf .marked ns s.map, world := (s.world.1, fs') } (by omega) (by simp only [hum]; exact hi) hf'
        (by omega)
      have hget : ∀ j : Nat, (enterAll cf .marked ns s.map)[j]? = some .expired → j < cf.max_rules ∧ cf.start + j ∉ ns := by
        intro j hj
        have hlt := (List.getElem?_eq_some_iff.1 hj).1
        rw [enterAll_length, hi.len] at hlt
        refine ⟨hlt, fun h => ?_⟩
        rw [enterAll_get cf _ ns s.map hi.len j hlt, if_pos h] at hj
        cases hj
      refine ⟨s', g1, g2, g3, g4, g5, ?_, fun hfit => ⟨?_, fun hnil0 => ⟨?_, ?_⟩⟩⟩
      · intro r hr h
        obtain ⟨a, j, _, b, c⟩ := g6 r hr h
        have := (hget j c).1
        exact ⟨a, by omega, by omega⟩
      · intro r hr h d hd hdn
        obtain ⟨a, j, _, b, c⟩ := g6 r hr h
        have hin : d ∈ s.world.1.dynOf cf.expire_set := by
          simp only [Ipfw.dynOf, List.mem_filter, List.any_eq_true, decide_eq_true_eq]
          exact ⟨hd, r, by simp only [Ipfw.of, List.mem_filter, decide_eq_true_eq]; exact ⟨hr, a⟩, hdn.symm⟩
        have e := h3 hfit
        rw [if_neg (by intro e; rw [e.1] at hin; cases hin)] at e
        injection e with e
        have hj := (hget j c).1
        simp only at c
        rw [e, enterAll_get cf _ _ s.map hi.len j hj, if_pos (List.mem_map.2 ⟨d, hin, by omega⟩)] at c
        cases c
      · intro hd r hr hset hge hlt
        obtain ⟨p, g5⟩ := g5
        have hr0 : r ∈ s.world.1.rules := (List.mem_filter.1 (g5 ▸ hr : r ∈ s.world.1.rules.filter p)).1
        apply Classical.byContradiction
        intro hno
        refine g7 (hnil hnil0) r hr hset (r.num - cf.start) (Nat.zero_le _) (by omega) ?_
        simp only
        have e := h3 hfit
        rw [if_neg (by simp [hd])] at e
        injection e with e
        rw [e, enterAll_get cf _ _ s.map hi.len (r.num - cf.start) (by omega), if_neg (by
          intro h
          obtain ⟨d, hd, e⟩ := List.mem_map.1 h
          exact hno ⟨d, (List.mem_filter.1 hd).1, by omega⟩)]
        have hs := List.getElem?_eq_getElem (show r.num - cf.start < s.map.length by rw [hi.len]; omega)
        rw [hs]
        cases hv : s.map[r.num - cf.start]'(by rw [hi.len]; omega) with
        | expired => rfl
        | free => exact absurd (show r.num = cf.start + (r.num - cf.start) by omega) (hi.free _ (by rw [hs, hv]) r hr0)
        | active => exact absurd ((hi.act _ (by rw [hs, hv]) r hr0 (by omega)).symm.trans hset) hn.differ
        | marked => exact absurd (hv ▸ List.getElem_mem _) hi.nomark
      · intro hd
        have e := h3 hfit
        by_cases he : s.world.1.of cf.expire_set = []
        · -- nothing to delete
          obtain ⟨p, g5⟩ := g5
          rw [g5]
          apply List.filter_eq_self.2
          intro r hr
          apply Classical.byContradiction
          intro h
          have : r ∈ s.world.1.of cf.expire_set := by
            simp only [Ipfw.of, List.mem_filter, decide_eq_true_eq]
            exact ⟨hr, (g6 r hr (by rw [g5]; intro h'; exact h (List.mem_filter.1 h').2)).1⟩
          rw [he] at this
          cases this
        · rw [if_pos ⟨hd, he⟩] at e
          cases e
  · rw [show s.world = (s.world.1, s.world.2) from rfl, hrun, bind_ok]
    exact ⟨_, rfl, hi, hf', rfl, ⟨fun _ => true, (List.filter_eq_self.2 fun _ _ => rfl).symm⟩, fun r hr h => absurd hr h, fun _ =>
      ⟨fun r hr h => absurd hr h, fun h => absurd h hne⟩⟩

/-! ## Initialisation -/

theorem ipfw_works (print : List Word → List Nat) {cmd : Str} {argv : List Word} (ha : strtoargv cmd = .ok (some argv))
    (size : Nat) (K : Ipfw) : run_extcmd (ipfwTool print) cmd size (K, []) = .ok (⟨true, truncate_partial_line
      ((ipfw print argv K).1.take (size - 1))⟩, ((ipfw print argv K).2, [])) := run_words _ ha _ _

theorem dropWhile_ne_nil {p : Nat → Bool} {l : Str} {a : Nat} (ha : a ∈ l) (hp : p a = false) : l.dropWhile p ≠ [] := by
  induction l with
  | nil => cases ha
  | cons b l ih =>
    rw [List.dropWhile_cons]
    split
    · rename_i h
      rcases List.mem_cons.1 ha with rfl | ha
      · rw [hp] at h; cases h
      · exact ih ha
    · simp

theorem truncate_eq_nil {s : Str} : truncate_partial_line s = [] ↔ s = [] := by
  unfold truncate_partial_line
  split
  · rename_i h
    simp only [List.contains_eq_mem, decide_eq_true_eq] at h
    constructor
    · intro e
      have e := List.reverse_eq_nil_iff.1 e
      exact absurd e (dropWhile_ne_nil (List.mem_reverse.2 h) (by simp))
    · intro e; subst e; cases h
  · exact Iff.rfl

theorem ipfw_cleanup_run {print : List Word → List Nat} {cf : IpfwConf} (hn : IpfwNames cf) (hfl : cf.flush_at_exit = true) (K : Ipfw) :
    ipfw_cleanup cf (ipfwTool print) (K, []) =
      .ok (true, ({ K with rules := K.rules.filter fun r => r.set ≠ cf.active_set }, [])) := by
  unfold ipfw_cleanup ipfw_set_exists
  have h1 := hn.act1
  rw [hfl]
  simp only [Bool.not_true, Bool.false_eq_true, if_false]
  rw [if_pos (show cf.active_set > 0 from h1)]
  rw [ipfw_works print (argv_list hn hn.act2)]
  simp only [bind_ok, ipfw_list, pure_eq, Bool.true_and]
  by_cases he : K.of cf.active_set = []
  · have hall : K.rules.filter (fun r => r.set ≠ cf.active_set) = K.rules := by
      apply List.filter_eq_self.2
      intro r hr
      simp only [Ipfw.of, List.filter_eq_nil_iff, decide_eq_true_eq] at he
      simpa using he r hr
    rw [he, hall]
    rfl
  · have : truncate_partial_line ((ipfwLines (K.of cf.active_set)).take (STANDARD_CMD_OUT_BUFSIZE - 1)) ≠ [] := by
      intro e
      rw [truncate_eq_nil, List.take_eq_nil_iff] at e
      rcases e with e | e
      · exact absurd e (by decide)
      · have := unlines_count ((K.of cf.active_set).map ipfwLine)
        have e : unlines ((K.of cf.active_set).map ipfwLine) = [] := e
        rw [e, List.length_map] at this
        exact he (List.eq_nil_of_length_eq_zero (by simpa using this))
    rw [if_pos (by simpa using this)]
    rw [ipfw_works print (argv_delset hn hn.act2)]
    simp only [bind_ok, ipfw_delset]

/-- What the firewall has to look like for the daemon to start from a clean state. -/
structure IpfwClean (cf : IpfwConf) (K : Ipfw) : Prop where
  num : ∀ r ∈ K.rules, r.num ≤ 65535
  range : ∀ r ∈ K.rules, cf.start ≤ r.num → r.num < cf.start + cf.max_rules → r.set = cf.active_set ∨ r.set = cf.expire_set
  text : ∀ r ∈ K.rules, r.set = cf.expire_set → OneLine r.body
  dyn : ∀ d ∈ K.dyn, 10 ∉ d.2
  fits : (ipfwSetLines true (K.of cf.expire_set)).length ≤ 4095
  check : cf.check_state = true → 0 < cf.max_rules ∧ ∀ r ∈ K.rules, r.set = cf.expire_set → r.num ≠ cf.start

theorem inv_clean {cf : IpfwConf} {K : Ipfw} (hc : IpfwClean cf K) (hne : ∀ r ∈ K.rules, r.set ≠ cf.active_set) :
    IpfwInv cf (enterAll cf .expired ((K.of cf.expire_set).map (·.num)) (List.replicate cf.max_rules .free)) K := by
  have hlen : (List.replicate cf.max_rules RuleState.free).length = cf.max_rules := by simp
  have hget : ∀ i : Nat, ∀ v, (enterAll cf .expired ((K.of cf.expire_set).map (·.num)) (List.replicate cf.max_rules .free))[i]? = some v →
      i < cf.max_rules ∧ (v = .expired ∧ (∃ r ∈ K.rules, r.set = cf.expire_set ∧ r.num = cf.start + i) ∨
        v = .free ∧ ∀ r ∈ K.rules, r.set = cf.expire_set → r.num ≠ cf.start + i) := by
    intro i v hv
    have hlt := (List.getElem?_eq_some_iff.1 hv).1
    rw [enterAll_length, hlen] at hlt
    rw [enterAll_get cf _ _ _ hlen i hlt] at hv
    refine ⟨hlt, ?_⟩
    split at hv
    · rename_i h
      injection hv with hv
      obtain ⟨r, hr, e⟩ := List.mem_map.1 h
      exact .inl ⟨hv.symm, r, (of_rules hr).1, (of_rules hr).2, e⟩
    · rename_i h
      rw [List.getElem?_replicate, if_pos hlt] at hv
      injection hv with hv
      refine .inr ⟨hv.symm, fun r hr hs e => h (List.mem_map.2 ⟨r, ?_, e⟩)⟩
      simp only [Ipfw.of, List.mem_filter, decide_eq_true_eq]
      exact ⟨hr, hs⟩
  constructor
  · rw [enterAll_length, hlen]
  · intro h
    obtain ⟨j, hj⟩ := List.getElem?_of_mem h
    rcases (hget j _ hj).2 with ⟨h, _⟩ | ⟨h, _⟩ <;> cases h
  · intro i hi r hr e
    obtain ⟨hlt, ⟨h, _⟩ | ⟨_, h⟩⟩ := hget i _ hi
    · cases h
    · rcases hc.range r hr (by omega) (by omega) with h' | h'
      · exact hne r hr h'
      · exact h r hr h' e
  · intro i hi r hr e
    have hlt := (hget i _ hi).1
    rcases hc.range r hr (by omega) (by omega) with h' | h'
    · exact absurd h' (hne r hr)
    · exact h'
  · intro i hi
    rcases (hget i _ hi).2 with ⟨h, _⟩ | ⟨h, _⟩ <;> cases h
  · intro i v hv hne
    obtain ⟨hlt, ⟨_, r, hr, _, e⟩ | ⟨h, _⟩⟩ := hget i _ hv
    · have := hc.num r hr; omega
    · exact absurd h hne
  · intro r hr h; exact absurd h (hne r hr)
  · exact hc.num
  · intro r hr h
    rcases h with h | h
    · exact absurd h (hne r hr)
    · exact hc.text r hr h
  · exact hc.dyn

theorem setLines_truncate {b : Bool} {rs : List IpfwRule} (hr : ∀ r ∈ rs, OneLine r.body) (hf : (ipfwSetLines b rs).length ≤ 4095) :
    truncate_partial_line ((ipfwSetLines b rs).take (STANDARD_CMD_OUT_BUFSIZE - 1)) = ipfwSetLines b rs := by
  unfold ipfwSetLines at *
  obtain ⟨k, h1, h2, _⟩ := truncate_lines 4095 (rs.map fun r => (if b then b!"# DISABLED " else []) ++ pad5 r.num ++ b!" set " ++ decimal r.set ++ 32 :: r.body) (fun l hl => by
    obtain ⟨r, hr', rfl⟩ := List.mem_map.1 hl
    have h5 : (10 : Nat) ∉ decimal r.set := by
      intro e
      rw [← decStr_decimal] at e
      exact absurd (decStr_digits _ _ e) (by decide)
    have h6 := not_mem_pad5 (c := 10) (by decide) r.num
    have h7 := (hr r hr').1
    cases b <;> simp [h5, h6, h7]) (fun l hl => by
      cases hq : rs.map (fun r => (if b then b!"# DISABLED " else []) ++ pad5 r.num ++ b!" set " ++ decimal r.set ++ 32 :: r.body) with
      | nil => rw [hq] at hl; cases hl
      | cons x xs =>
        rw [hq] at hl hf
        injection hl with hl
        subst hl
        rw [unlines_cons] at hf
        simp only [List.length_append, List.length_cons] at hf
        omega)
  rw [show STANDARD_CMD_OUT_BUFSIZE - 1 = 4095 from rfl, h1, h2 hf]

theorem of_insert_ne {K : Ipfw} {x : IpfwRule} {n : Nat} (h : x.set ≠ n) :
    ({ K with rules := insertRule x K.rules } : Ipfw).of n = K.of n := by
  unfold Ipfw.of
  have : ∀ l, (insertRule x l).filter (fun r => decide (r.set = n)) = l.filter fun r => decide (r.set = n) := by
    intro l
    induction l with
    | nil => simp [insertRule, h]
    | cons y l ih =>
      unfold insertRule
      split
      · rw [List.filter_cons, List.filter_cons, ih]
      · rw [List.filter_cons, if_neg (by simpa using h)]
  exact this _

/-- Starting on a clean firewall, when every call works. -/
theorem ipfw_init_run {print : List Word → List Nat} (hprint : PrintsLines print) {cf : IpfwConf} (hn : IpfwNames cf)
    (h1 : cf.flush_at_init = true) (h2 : cf.flush_at_exit = true) {K : Ipfw} (hc : IpfwClean cf K) :
    ∃ s, ipfw_initialize cf (ipfwTool print) (K, []) = .ok (some s) ∧ IpfwInv cf s.map s.world.1 ∧ s.world.2 = [] ∧
      (∀ r, r ∈ s.world.1.rules ↔ r ∈ K.rules ∧ r.set ≠ cf.active_set ∨
        cf.check_state = true ∧ r = ⟨cf.start, cf.active_set, print [b!"check-state"]⟩) ∧
      cf.expire_set ∈ s.world.1.disabled := by
  have hlen : (List.replicate cf.max_rules RuleState.free).length = cf.max_rules := by simp
  have hK1 : ({ K with rules := K.rules.filter fun r => r.set ≠ cf.active_set } : Ipfw).of cf.expire_set = K.of cf.expire_set := by
    unfold Ipfw.of
    rw [List.filter_filter]
    congr 1
    funext r
    have := hn.differ
    by_cases e : r.set = cf.expire_set
    · simp [e, Ne.symm this]
    · simp [e]
  have hc1 : IpfwClean cf { K with rules := K.rules.filter fun r => r.set ≠ cf.active_set } := by
    have hsub : ∀ {r}, r ∈ K.rules.filter (fun r => r.set ≠ cf.active_set) → r ∈ K.rules := fun h => (List.mem_filter.1 h).1
    refine ⟨fun r hr => hc.num r (hsub hr), fun r hr => hc.range r (hsub hr), fun r hr => hc.text r (hsub hr), hc.dyn, ?_,
      fun h => ⟨(hc.check h).1, fun r hr => (hc.check h).2 r (hsub hr)⟩⟩
    rw [hK1]; exact hc.fits
  have hinv := inv_clean hc1 (by intro r hr; have := (List.mem_filter.1 hr).2; simpa using this)
  rw [hK1] at hinv
  have htrunc := setLines_truncate (b := true) (fun r hr => hc.text r (of_rules hr).1 (of_rules hr).2) hc.fits
  have hloop : ∀ map : List RuleState, map.length = cf.max_rules →
      initLoop cf ((ipfwSetLines true (K.of cf.expire_set)).length + 1) (ipfwSetLines true (K.of cf.expire_set)) map =
        .ok (enterAll cf .expired ((K.of cf.expire_set).map (·.num)) map) := by
    intro map hm
    have := initLoop_lines (cf := cf) (K.of cf.expire_set) (fun r hr => ⟨hc.num r (of_rules hr).1,
      (hc.text r (of_rules hr).1 (of_rules hr).2).2.1⟩) [] map ((ipfwSetLines true (K.of cf.expire_set)).length + 1) (by simp) hm (by
        have := unlines_count ((K.of cf.expire_set).map fun r => (if true then b!"# DISABLED " else []) ++ pad5 r.num ++ b!" set " ++ decimal r.set ++ 32 :: r.body)
        rw [List.length_map] at this
        have e : (ipfwSetLines true (K.of cf.expire_set)).length = (unlines ((K.of cf.expire_set).map fun r => (if true then b!"# DISABLED " else []) ++ pad5 r.num ++ b!" set " ++ decimal r.set ++ 32 :: r.body)).length := rfl
        omega)
    simpa using this
  unfold ipfw_initialize
  rw [h1]
  simp only [if_true]
  rw [ipfw_cleanup_run hn h2, bind_ok]
  simp only [Bool.not_true, Bool.false_eq_true, if_false]
  unfold ipfwCheckState
  cases hcs : cf.check_state with
  | false =>
    simp only [Bool.false_eq_true, if_false, pure_eq, bind_ok]
    unfold ipfwDisable
    rw [if_pos ⟨hn.exp1, h1⟩, ipfw_works print (argv_disable hn hn.exp2)]
    simp only [bind_ok, pure_eq, ipfw_disable]
    rw [ipfw_works print (argv_listS hn hn.exp2)]
    simp only [bind_ok, ipfw_listS, Bool.not_true, Bool.false_eq_true, if_false]
    have hcont : (cf.expire_set :: K.disabled).contains cf.expire_set = true := by simp
    have hof : ({ rules := K.rules.filter fun r => decide (r.set ≠ cf.active_set), disabled := cf.expire_set :: K.disabled, dyn := K.dyn } : Ipfw).of cf.expire_set
        = K.of cf.expire_set := hK1
    rw [hcont, hof, htrunc, hloop _ hlen, bind_ok]
    refine ⟨_, rfl, ?_, rfl, fun r => ?_, by simp⟩
    · exact ⟨hinv.len, hinv.nomark, hinv.free, hinv.expired, hinv.act, hinv.used, hinv.active, hinv.num, hinv.text, hinv.dyn⟩
    · simp
  | true =>
    have hm := (hc.check hcs).1
    have hst : cf.start ≤ 65535 := hn.start2
    simp only [if_true, pure_eq]
    rw [ipfw_works print (argv_check hn hst hn.act2)]
    simp only [bind_ok, ipfw_add, if_true]
    rw [setMap_ok (by omega) (by omega), bind_ok, Nat.sub_self]
    unfold ipfwDisable
    simp only [bind_ok]
    rw [if_pos ⟨hn.exp1, h1⟩, ipfw_works print (argv_disable hn hn.exp2)]
    simp only [bind_ok, pure_eq, ipfw_disable]
    rw [ipfw_works print (argv_listS hn hn.exp2)]
    simp only [bind_ok, ipfw_listS, Bool.not_true, Bool.false_eq_true, if_false]
    have hcont : (cf.expire_set :: K.disabled).contains cf.expire_set = true := by simp
    have hof : ({ rules := insertRule ⟨cf.start, cf.active_set, print [b!"check-state"]⟩ (K.rules.filter fun r => decide (r.set ≠ cf.active_set)), disabled := cf.expire_set :: K.disabled, dyn := K.dyn } : Ipfw).of cf.expire_set
        = K.of cf.expire_set := by
      rw [← hK1]
      exact of_insert_ne (K := { K with rules := K.rules.filter fun r => decide (r.set ≠ cf.active_set) }) hn.differ
    rw [hcont, hof, htrunc, hloop _ (by simp), bind_ok]
    have hnot : cf.start + 0 ∉ (K.of cf.expire_set).map (·.num) := by
      intro h
      obtain ⟨r, hr, e⟩ := List.mem_map.1 h
      exact (hc.check hcs).2 r (of_rules hr).1 (of_rules hr).2 e
    have hmap : enterAll cf .expired ((K.of cf.expire_set).map (·.num)) ((List.replicate cf.max_rules .free).set 0 .active) =
        (enterAll cf .expired ((K.of cf.expire_set).map (·.num)) (List.replicate cf.max_rules .free)).set 0 .active := by
      apply map_ext
      intro i
      rw [get_set (by rw [enterAll_length]; simpa using hm)]
      by_cases hi : i < cf.max_rules
      · rw [enterAll_get cf _ _ _ (by simp) i hi, enterAll_get cf _ _ _ hlen i hi]
        by_cases e : 0 = i
        · subst e
          rw [if_neg hnot, if_pos rfl, get_set (by simpa using hm), if_pos rfl]
        · rw [if_neg e, get_set (by simpa using hm), if_neg e]
      · rw [if_neg (by omega), List.getElem?_eq_none (by rw [enterAll_length]; simp; omega),
          List.getElem?_eq_none (by rw [enterAll_length]; simp; omega)]
    rw [hmap]
    have hget0 : (enterAll cf .expired ((K.of cf.expire_set).map (·.num)) (List.replicate cf.max_rules .free))[0]? = some .free := by
      rw [enterAll_get cf _ _ _ hlen 0 hm, if_neg hnot, List.getElem?_replicate, if_pos hm]
    have := inv_insert hinv hm (.inl hget0) (by omega) hprint.check.1
    refine ⟨_, rfl, ?_, rfl, fun r => ?_, by simp⟩
    · exact ⟨this.len, this.nomark, this.free, this.expired, this.act, this.used, this.active, this.num, this.text, this.dyn⟩
    · simp only [mem_insertRule, List.mem_filter, decide_eq_true_eq, true_and]
      exact Or.comm

end Fwknop
