import Verif.Lemmas.Ipfw

/-!
# The rule map and the rules
-/

namespace Fwknop

open Spec Res

/-- The rule map and the rules agree. -/
structure IpfwInv (cf : IpfwConf) (map : List RuleState) (K : Ipfw) : Prop where
  len : map.length = cf.max_rules
  nomark : RuleState.marked ∉ map
  free : ∀ i, map[i]? = some .free → ∀ r ∈ K.rules, r.num ≠ cf.start + i
  expired : ∀ i, map[i]? = some .expired → ∀ r ∈ K.rules, r.num = cf.start + i → r.set = cf.expire_set
  act : ∀ i, map[i]? = some .active → ∀ r ∈ K.rules, r.num = cf.start + i → r.set = cf.active_set
  used : ∀ i v, map[i]? = some v → v ≠ .free → cf.start + i ≤ 65535
  active : ∀ r ∈ K.rules, r.set = cf.active_set → cf.start ≤ r.num ∧ r.num < cf.start + cf.max_rules
  num : ∀ r ∈ K.rules, r.num ≤ 65535
  text : ∀ r ∈ K.rules, r.set = cf.active_set ∨ r.set = cf.expire_set → OneLine r.body
  dyn : ∀ d ∈ K.dyn, 10 ∉ d.2

theorem mem_insertRule (x : IpfwRule) (l : List IpfwRule) (r : IpfwRule) : r ∈ insertRule x l ↔ r = x ∨ r ∈ l := by
  induction l with
  | nil => simp [insertRule]
  | cons a l ih =>
    rw [insertRule]
    split
    · simp only [List.mem_cons, ih]
      exact ⟨fun h => by rcases h with h | h | h <;> simp [h], fun h => by rcases h with h | h | h <;> simp [h]⟩
    · simp

theorem filter_insertRule (x : IpfwRule) (l : List IpfwRule) (p : IpfwRule → Bool) (h : p x = false) :
    (insertRule x l).filter p = l.filter p := by
  induction l with
  | nil => simp [insertRule, h]
  | cons a l ih =>
    rw [insertRule]
    split
    · rw [List.filter_cons, List.filter_cons, ih]
    · rw [List.filter_cons, if_neg (by simp [h])]

/-! ## The next number -/

theorem next_num (start : Nat) (map : List RuleState) : ∀ i n, get_next_rule_num start i map = n → n ≠ 0 →
    ∃ j, map[j]? = some .free ∧ n = (start + (i + j)) % 2 ^ 16 ∧ ∀ k < j, map[k]? ≠ some .free := by
  induction map with
  | nil => intro i n h h0; exact absurd h.symm h0
  | cons m ms ih =>
    intro i n h h0
    rw [get_next_rule_num] at h
    split at h
    · rename_i hm
      exact ⟨0, by simp [hm], h.symm, fun k hk => absurd hk (by omega)⟩
    · rename_i hm
      obtain ⟨j, h1, h2, h3⟩ := ih _ _ h h0
      refine ⟨j + 1, by simpa using h1, by rw [h2]; congr 1; omega, fun k hk => ?_⟩
      cases k with
      | zero => simpa using hm
      | succ k => simpa using h3 k (by omega)

theorem next_num_zero (start : Nat) (map : List RuleState) : ∀ i, (∀ m ∈ map, m ≠ .free) → get_next_rule_num start i map = 0 := by
  induction map with
  | nil => intro i _; rfl
  | cons m ms ih =>
    intro i h
    rw [get_next_rule_num, if_neg (h m List.mem_cons_self)]
    exact ih _ fun x hx => h x (List.mem_cons_of_mem _ hx)

/-- No number is given out only if none of the free entries has one. -/
theorem next_zero (start : Nat) (h1 : 1 ≤ start) (map : List RuleState) : ∀ i, get_next_rule_num start i map = 0 →
    ∀ j, map[j]? = some .free → 65535 < start + (i + j) := by
  induction map with
  | nil => intro i _ j hj; simp at hj
  | cons m ms ih =>
    intro i h j hj
    rw [get_next_rule_num] at h
    split at h
    · omega
    · rename_i hm
      cases j with
      | zero => exact absurd (by simpa using hj) hm
      | succ j => have := ih _ h j (by simpa using hj); omega

/-- A number that is given out is that of a free entry. -/
theorem next_free {cf : IpfwConf} {map : List RuleState} {K : Ipfw} (hi : IpfwInv cf map K) (h2 : cf.start ≤ 65535)
    (h0 : get_next_rule_num cf.start 0 map ≠ 0) :
    ∃ i, map[i]? = some .free ∧ get_next_rule_num cf.start 0 map = cf.start + i ∧ cf.start + i ≤ 65535 := by
  obtain ⟨j, h1, h3, h4⟩ := next_num cf.start map 0 _ rfl h0
  have hle : cf.start + j ≤ 65535 := by
    apply Classical.byContradiction
    intro hc
    by_cases he : j = 65536 - cf.start
    · exact h0 (by rw [h3]; omega)
    · have hk := h4 (65536 - cf.start) (by omega)
      have hlt : 65536 - cf.start < map.length := by
        have := (List.getElem?_eq_some_iff.1 h1).1
        omega
      have hs := List.getElem?_eq_getElem hlt
      have := hi.used (65536 - cf.start) _ hs (fun e => hk (by rw [hs, e]))
      omega
  exact ⟨j, h1, by rw [h3]; omega, hle⟩

theorem get_set {map : List RuleState} {i : Nat} (h : i < map.length) (v : RuleState) (j : Nat) :
    (map.set i v)[j]? = if i = j then some v else map[j]? := by
  by_cases e : i = j
  · subst e; rw [if_pos rfl, List.getElem?_set_self h]
  · rw [if_neg e, List.getElem?_set_ne e]

/-! ## Requests -/

theorem inv_insert {cf : IpfwConf} {map : List RuleState} {K : Ipfw} (hi : IpfwInv cf map K) {i : Nat}
    (hlt : i < cf.max_rules) (hst : map[i]? = some .free ∨ map[i]? = some .active) (hle : cf.start + i ≤ 65535) {b : List Nat} (hb : OneLine b) :
    IpfwInv cf (map.set i .active) { K with rules := insertRule ⟨cf.start + i, cf.active_set, b⟩ K.rules } := by
  have hl := hi.len
  have hget := fun j => get_set (map := map) (i := i) (by omega) .active j
  constructor
  · simp [hl]
  · intro h
    obtain ⟨j, hj⟩ := List.getElem?_of_mem h
    rw [hget] at hj
    split at hj
    · cases hj
    · exact hi.nomark (List.mem_of_getElem? hj)
  · intro j hj r hr
    rw [hget] at hj
    split at hj
    · cases hj
    · rcases (mem_insertRule _ _ _).1 hr with rfl | hr
      · simp only; omega
      · exact hi.free j hj r hr
  · intro j hj r hr he
    rw [hget] at hj
    split at hj
    · cases hj
    · rcases (mem_insertRule _ _ _).1 hr with rfl | hr
      · simp only at he; omega
      · exact hi.expired j hj r hr he
  · intro j hj r hr he
    rcases (mem_insertRule _ _ _).1 hr with rfl | hr
    · rfl
    · rw [hget] at hj
      split at hj
      · rename_i e
        subst e
        rcases hst with h | h
        · exact absurd he (hi.free i h r hr)
        · exact hi.act i h r hr he
      · exact hi.act j hj r hr he
  · intro j v hj hv
    rw [hget] at hj
    split at hj
    · rename_i e; subst e; exact hle
    · exact hi.used j v hj hv
  · intro r hr he
    rcases (mem_insertRule _ _ _).1 hr with rfl | hr
    · simp only; omega
    · exact hi.active r hr he
  · intro r hr
    rcases (mem_insertRule _ _ _).1 hr with rfl | hr
    · exact hle
    · exact hi.num r hr
  · intro r hr he
    rcases (mem_insertRule _ _ _).1 hr with rfl | hr
    · exact hb
    · exact hi.text r hr he
  · exact hi.dyn

/-- The addresses of a request. -/
structure IpfwAddrs (cf : IpfwConf) (sp : SpaData) : Prop where
  src : IpfwAddr sp.use_src_ip
  dst : IpfwAddr (ipfwDst cf sp)

/-- The rule for a port. -/
def ipfwRuleOf (print : List Word → List Nat) (cf : IpfwConf) (sp : SpaData) (num e : Nat) (p : PortEnt) : IpfwRule :=
  ⟨num, cf.active_set, print (ipfwAccess sp.use_src_ip (ipfwDst cf sp) e p.proto p.port.toNat)⟩

theorem ipfwPorts_run {print : List Word → List Nat} (hprint : PrintsLines print) {cf : IpfwConf} (hn : IpfwNames cf)
    {sp : SpaData} (ha : IpfwAddrs cf sp) {e : Nat} (he : e < 2 ^ 32) (now : Int) {i : Nat} (hlt : i < cf.max_rules)
    (hle : cf.start + i ≤ 65535) (ps : List PortEnt) (hp : ∀ p ∈ ps, p.proto < 1000 ∧ 0 ≤ p.port ∧ p.port ≤ 65535) :
    ∀ (s : IpfwSt (Ipfw × List Fate)), IpfwInv cf s.map s.world.1 → Fate.refused ∉ s.world.2 →
      (s.map[i]? = some .free ∨ s.map[i]? = some .active) →
      ∃ s', ipfwPorts cf (ipfwTool print) sp (cf.start + i) e now ps s = .ok s' ∧
        IpfwInv cf s'.map s'.world.1 ∧ Fate.refused ∉ s'.world.2 ∧ (s.world.2 = [] → s'.world.2 = []) ∧
        s'.world.1.rules.filter (fun r => r.num ≠ cf.start + i) = s.world.1.rules.filter (fun r => r.num ≠ cf.start + i) ∧
        (∀ r ∈ s'.world.1.rules, r ∈ s.world.1.rules ∨ ∃ p ∈ ps, r = ipfwRuleOf print cf sp (cf.start + i) e p) ∧
        (∀ r ∈ s.world.1.rules, r ∈ s'.world.1.rules) ∧
        (s.world.2 = [] → ∀ p ∈ ps, ipfwRuleOf print cf sp (cf.start + i) e p ∈ s'.world.1.rules) ∧
        s'.world.1.dyn = s.world.1.dyn ∧ s'.world.1.disabled = s.world.1.disabled := by
  induction ps with
  | nil =>
    intro s hi hf _
    exact ⟨s, rfl, hi, hf, id, rfl, fun r hr => .inl hr, fun r hr => hr, fun _ p hp => by simp at hp, rfl, rfl⟩
  | cons p ps ih =>
    intro s hi hf hst
    obtain ⟨h1, h2, h3⟩ := hp p List.mem_cons_self
    have ihp := ih fun q hq => hp q (List.mem_cons_of_mem _ hq)
    have hargv := argv_add (num := cf.start + i) (e := e) (proto := p.proto) (port := p.port.toNat) hn (by omega) ha.src.1 ha.dst.1 ha.src.2.1 ha.dst.2.1 h1
      (by omega) he
    rw [show ((p.port.toNat : Nat) : Int) = p.port from by omega] at hargv
    obtain ⟨fs', hf', hnil, hrun⟩ := ipfw_run print hargv CMD_BUFSIZE s.world.1 hf
    rw [ipfwPorts]
    rcases hrun with hrun | ⟨hne, hrun⟩
    · rw [show s.world = (s.world.1, s.world.2) from rfl, hrun, bind_ok]
      simp only [ipfw_add, if_true]
      rw [setMap_ok (by omega) (by rw [hi.len]; omega), bind_ok, show cf.start + i - cf.start = i from by omega]
      have hinv := inv_insert hi hlt hst hle (hprint.access sp.use_src_ip (ipfwDst cf sp) e p.proto p.port.toNat ha.src ha.dst he h1 (by omega)).1
      obtain ⟨s', g1, g2, g3, g4, g5, g6, g7, g8, g9, g10⟩ := ihp ⟨s.map.set i .active, (s.active_rules + 1) % 2 ^ 16,
        nextExpire s.next_expire e now, ({ s.world.1 with rules := insertRule ⟨cf.start + i, cf.active_set,
          print (ipfwAccess sp.use_src_ip (ipfwDst cf sp) e p.proto p.port.toNat)⟩ s.world.1.rules }, fs')⟩ hinv hf'
        (.inr (by simp only; rw [get_set (by rw [hi.len]; omega), if_pos rfl]))
      refine ⟨s', g1, g2, g3, fun h => g4 (hnil h), ?_, ?_, ?_, ?_, g9, g10⟩
      · rw [g5]
        exact filter_insertRule _ _ _ (by simp)
      · intro r hr
        rcases g6 r hr with hr | ⟨q, hq, hr⟩
        · rcases (mem_insertRule _ _ _).1 hr with rfl | hr
          · exact .inr ⟨p, List.mem_cons_self, rfl⟩
          · exact .inl hr
        · exact .inr ⟨q, List.mem_cons_of_mem _ hq, hr⟩
      · exact fun r hr => g7 r ((mem_insertRule _ _ _).2 (.inr hr))
      · intro h q hq
        rcases List.mem_cons.1 hq with rfl | hq
        · exact g7 _ ((mem_insertRule _ _ _).2 (.inl rfl))
        · exact g8 (hnil h) q hq
    · rw [show s.world = (s.world.1, s.world.2) from rfl, hrun, bind_ok]
      simp only [Bool.false_eq_true, if_false]
      obtain ⟨s', g1, g2, g3, g4, g5, g6, g7, g8, g9, g10⟩ := ihp { s with world := (s.world.1, fs') } hi hf' hst
      refine ⟨s', g1, g2, g3, fun h => absurd h hne, g5, ?_, g7, fun h => absurd h hne, g9, g10⟩
      intro r hr
      rcases g6 r hr with hr | ⟨q, hq, hr⟩
      · exact .inl hr
      · exact .inr ⟨q, List.mem_cons_of_mem _ hq, hr⟩

theorem parse_bounds {s : Str} {p : PortEnt} (h : parse_proto_and_port s = some p) :
    p.proto < 1000 ∧ 0 ≤ p.port ∧ p.port ≤ 65535 := by
  unfold parse_proto_and_port at h
  split at h
  · cases h
  · rename_i n _
    split at h
    · cases h
    · simp only at h
      cases hr : strtol_wrapper (s.drop (n + 1)) 0 MAX_PORT with
      | mk v ok =>
        rw [hr] at h
        cases ok with
        | false => simp at h
        | true =>
          obtain ⟨h1, h2, _⟩ := strtol_wrapper_range _ _ _ _ hr
          have h2 : v ≤ 65535 := h2 (by decide)
          simp only [if_true] at h
          cases hp : protoOf (s.take n) with
          | none => rw [hp] at h; cases h
          | some q =>
            rw [hp] at h
            injection h with h
            subst h
            refine ⟨?_, h1, h2⟩
            unfold protoOf at hp
            simp only
            split at hp
            · injection hp with hp; subst hp; decide
            · split at hp
              · injection hp with hp; subst hp; decide
              · cases hp

theorem portsRead_bounds (s : Str) : ∀ cur, ∀ p ∈ portsRead s cur, p.proto < 1000 ∧ 0 ≤ p.port ∧ p.port ≤ 65535 := by
  have item : ∀ {cur : Str} {p : PortEnt}, (listItem cur).bind parse_proto_and_port = some p →
      p.proto < 1000 ∧ 0 ≤ p.port ∧ p.port ≤ 65535 := by
    intro cur p h
    cases h1 : listItem cur with
    | none => rw [h1] at h; cases h
    | some x => rw [h1] at h; exact parse_bounds h
  induction s with
  | nil =>
    intro cur p hp
    rw [portsRead] at hp
    cases h : (listItem cur).bind parse_proto_and_port with
    | none => rw [h] at hp; simp at hp
    | some q => rw [h] at hp; simp at hp; subst hp; exact item h
  | cons c cs ih =>
    intro cur p hp
    rw [portsRead] at hp
    split at hp
    · cases h : (listItem cur).bind parse_proto_and_port with
      | none => rw [h] at hp; simp at hp
      | some q =>
        rw [h] at hp
        rcases List.mem_cons.1 hp with rfl | hp
        · exact item h
        · exact ih _ p hp
    · exact ih _ p hp

theorem expTs_lt (now : Int) (t : Nat) : expTs now t < 2 ^ 32 := by unfold expTs; omega

/-! ## Checks -/

/-- Move the rules with a number to a set. -/
def moveRules (n set : Nat) (rs : List IpfwRule) : List IpfwRule :=
  rs.map fun r => if r.num = n then { r with set := set } else r

theorem mem_moveRules {n set : Nat} {rs : List IpfwRule} {r : IpfwRule} (h : r ∈ moveRules n set rs) :
    ∃ x ∈ rs, x.num = r.num ∧ x.body = r.body ∧ (r.num = n ∧ r.set = set ∨ r.num ≠ n ∧ r = x) := by
  obtain ⟨x, hx, rfl⟩ := List.mem_map.1 h
  refine ⟨x, hx, ?_⟩
  by_cases e : x.num = n <;> simp [e]

theorem inv_move {cf : IpfwConf} (hn : IpfwNames cf) {map : List RuleState} {K : Ipfw} (hi : IpfwInv cf map K) {a : IpfwRule}
    (ha : a ∈ K.rules) (hs : a.set = cf.active_set) :
    IpfwInv cf (map.set (a.num - cf.start) .expired) { K with rules := moveRules a.num cf.expire_set K.rules } := by
  have hl := hi.len
  obtain ⟨hr1, hr2⟩ := hi.active a ha hs
  have hget := fun j => get_set (map := map) (i := a.num - cf.start) (by omega) .expired j
  have hdiff := hn.differ
  constructor
  · simp [hl]
  · intro h
    obtain ⟨j, hj⟩ := List.getElem?_of_mem h
    rw [hget] at hj
    split at hj
    · cases hj
    · exact hi.nomark (List.mem_of_getElem? hj)
  · intro j hj r hr
    obtain ⟨x, hx, h1, -⟩ := mem_moveRules hr
    rw [hget] at hj
    split at hj
    · cases hj
    · rw [← h1]; exact hi.free j hj x hx
  · intro j hj r hr he
    obtain ⟨x, hx, h1, -, h3⟩ := mem_moveRules hr
    rcases h3 with ⟨_, h3⟩ | ⟨h3, rfl⟩
    · exact h3
    · rw [hget] at hj
      split at hj
      · rename_i e; omega
      · exact hi.expired j hj r hx he
  · intro j hj r hr he
    obtain ⟨x, hx, h1, -, h3⟩ := mem_moveRules hr
    rw [hget] at hj
    split at hj
    · cases hj
    · rcases h3 with ⟨h3, _⟩ | ⟨h3, rfl⟩
      · omega
      · exact hi.act j hj r hx he
  · intro j v hj hv
    rw [hget] at hj
    split at hj
    · have := hi.num a ha; omega
    · exact hi.used j v hj hv
  · intro r hr he
    obtain ⟨x, hx, h1, -, h3⟩ := mem_moveRules hr
    rcases h3 with ⟨_, h3⟩ | ⟨h3, rfl⟩
    · rw [h3] at he; exact absurd he.symm hdiff
    · exact hi.active r hx he
  · intro r hr
    obtain ⟨x, hx, h1, -⟩ := mem_moveRules hr
    rw [← h1]; exact hi.num x hx
  · intro r hr he
    obtain ⟨x, hx, h1, h2, h3⟩ := mem_moveRules hr
    rw [← h2]
    rcases h3 with ⟨h3, _⟩ | ⟨h3, rfl⟩
    · apply hi.text x hx
      have hlt : a.num - cf.start < map.length := by omega
      have hs' := List.getElem?_eq_getElem hlt
      cases hm : map[a.num - cf.start] with
      | free => exact absurd (show a.num = cf.start + (a.num - cf.start) by omega) (hi.free _ (by rw [hs', hm]) a ha)
      | active => exact .inl (hi.act _ (by rw [hs', hm]) x hx (by omega))
      | expired => exact .inr (hi.expired _ (by rw [hs', hm]) x hx (by omega))
      | marked => exact absurd (hm ▸ List.getElem_mem hlt) hi.nomark
    · exact hi.text r hx he
  · exact hi.dyn

/-- A line of a listing. -/
def ipfwLine (r : IpfwRule) : List Nat := pad5 r.num ++ 32 :: r.body

theorem ipfwLine_oneLine {r : IpfwRule} (h : OneLine r.body) : 10 ∉ ipfwLine r := by
  intro e
  rcases List.mem_append.1 e with e | e
  · exact not_mem_pad5 (by decide) _ e
  · rcases List.mem_cons.1 e with e | e
    · cases e
    · exact h.1 e

theorem ipfwLine_length {r : IpfwRule} (h : OneLine r.body) (hn : r.num ≤ 65535) : (ipfwLine r).length < 4095 := by
  have := pad5_length hn
  have := h.2.2
  simp only [ipfwLine, List.length_append, List.length_cons]
  omega

/-- The listing of a set in the buffer. -/
theorem list_buffer {rs : List IpfwRule} (h : ∀ r ∈ rs, OneLine r.body ∧ r.num ≤ 65535) :
    ∃ k, truncate_partial_line ((ipfwLines rs).take (STANDARD_CMD_OUT_BUFSIZE - 1)) = unlines ((rs.take k).map ipfwLine) ∧
      ((ipfwLines rs).length ≤ 4095 → rs.take k = rs) := by
  obtain ⟨k, h1, h2, _⟩ := truncate_lines 4095 (rs.map ipfwLine)
    (fun l hl => by obtain ⟨r, hr, rfl⟩ := List.mem_map.1 hl; exact ipfwLine_oneLine (h r hr).1)
    (fun l hl => by
      have := List.mem_of_mem_head? hl
      obtain ⟨r, hr, rfl⟩ := List.mem_map.1 this
      exact ipfwLine_length (h r hr).1 (h r hr).2)
  refine ⟨k, ?_, fun hlen => ?_⟩
  · rw [List.map_take]; exact h1
  · have h3 : (rs.map ipfwLine).take k = rs.map ipfwLine := h2 hlen
    have h4 := congrArg List.length h3
    rw [List.length_take, List.length_map] at h4
    exact List.take_of_length_le (by omega)

theorem ipfwScan_rules (now : Int) {rs : List IpfwRule} (h : ∀ r ∈ rs, OneLine r.body ∧ r.num ≤ 65535)
    {p : Nat} (hp : findExp (chop_newline (unlines (rs.map ipfwLine))) = some p) (fuel : Nat) :
    ∃ g, ipfwScan now (chop_newline (unlines (rs.map ipfwLine))) fuel (some p) = .ok g ∧
      (g = .nothing ∨ ∃ r ∈ rs, g = .rule r.num) := by
  rcases List.eq_nil_or_concat rs with rfl | ⟨init, last, rfl⟩
  · have h0 : findExp (chop_newline (unlines (([] : List IpfwRule).map ipfwLine))) = none := by decide
    rw [h0] at hp
    cases hp
  · rw [List.concat_eq_append] at h hp ⊢
    have hbuf : chop_newline (unlines ((init ++ [last]).map ipfwLine)) = unlines (init.map ipfwLine) ++ ipfwLine last := by
      rw [List.map_append]
      exact unlines_concat _ _ (by simp [ipfwLine])
    rw [hbuf] at hp ⊢
    apply ipfwScan_found now ipfwLine rfl (fun r hr => ⟨(h r hr).2, (h r hr).1.1⟩)
    intro q hq
    injection hq with hq
    subst hq
    obtain ⟨_, h2, _⟩ := findSuffix_some hp
    simpa [hasPrefix] using h2

theorem ipfwDone_map {σ : Type} (s : IpfwSt σ) : (ipfwDone s).map = s.map ∧ (ipfwDone s).world = s.world := by
  unfold ipfwDone; split <;> exact ⟨rfl, rfl⟩

theorem ipfwMove_run {print : List Word → List Nat} {cf : IpfwConf} (hn : IpfwNames cf) {s : IpfwSt (Ipfw × List Fate)}
    (hi : IpfwInv cf s.map s.world.1) (hf : Fate.refused ∉ s.world.2) {a : IpfwRule} (ha : a ∈ s.world.1.rules)
    (hs : a.set = cf.active_set) :
    ∃ s', ipfwMove cf (ipfwTool print) a.num s = .ok s' ∧ IpfwInv cf s'.map s'.world.1 ∧ Fate.refused ∉ s'.world.2 ∧
      (s'.world.1 = s.world.1 ∧ s.world.2 ≠ [] ∨
        s'.world.1 = { s.world.1 with rules := moveRules a.num cf.expire_set s.world.1.rules }) := by
  obtain ⟨hr1, hr2⟩ := hi.active a ha hs
  obtain ⟨fs', hf', hnil, hrun⟩ := ipfw_run print (argv_move hn (hi.num a ha) hn.exp2) CMD_BUFSIZE s.world.1 hf
  unfold ipfwMove
  rcases hrun with hrun | ⟨hne, hrun⟩
  · rw [show s.world = (s.world.1, s.world.2) from rfl, hrun, bind_ok]
    simp only [ipfw_move, if_true]
    rw [setMap_ok hr1 (by rw [hi.len]; exact hr2), bind_ok]
    exact ⟨_, rfl, inv_move hn hi ha hs, hf', .inr rfl⟩
  · rw [show s.world = (s.world.1, s.world.2) from rfl, hrun, bind_ok]
    exact ⟨_, rfl, hi, hf', .inl ⟨rfl, hne⟩⟩

theorem of_rules {K : Ipfw} {n : Nat} {r : IpfwRule} (h : r ∈ K.of n) : r ∈ K.rules ∧ r.set = n := by
  simpa [Ipfw.of] using h

theorem ipfw_check_run {print : List Word → List Nat} {cf : IpfwConf} (hn : IpfwNames cf) {s : IpfwSt (Ipfw × List Fate)}
    (hi : IpfwInv cf s.map s.world.1) (hf : Fate.refused ∉ s.world.2) (now : Int) :
    ∃ s', ipfw_check_firewall_rules cf (ipfwTool print) now s = .ok s' ∧ IpfwInv cf s'.map s'.world.1 ∧
      Fate.refused ∉ s'.world.2 ∧
      (s'.world.1 = s.world.1 ∨ ∃ a ∈ s.world.1.rules, a.set = cf.active_set ∧
        s'.world.1 = { s.world.1 with rules := moveRules a.num cf.expire_set s.world.1.rules }) := by
  have key : ∀ (s : IpfwSt (Ipfw × List Fate)), IpfwInv cf s.map s.world.1 → Fate.refused ∉ s.world.2 →
      ∃ s', ipfwCheckDue cf (ipfwTool print) now s = .ok s' ∧ IpfwInv cf s'.map s'.world.1 ∧
      Fate.refused ∉ s'.world.2 ∧
      (s'.world.1 = s.world.1 ∨ ∃ a ∈ s.world.1.rules, a.set = cf.active_set ∧
        s'.world.1 = { s.world.1 with rules := moveRules a.num cf.expire_set s.world.1.rules }) := by
    intro s hi hf
    unfold ipfwCheckDue
    obtain ⟨fs', hf', hnil, hrun⟩ := ipfw_run print (argv_list hn hn.act2) STANDARD_CMD_OUT_BUFSIZE s.world.1 hf
    rcases hrun with hrun | ⟨hne, hrun⟩
    · rw [show s.world = (s.world.1, s.world.2) from rfl, hrun, bind_ok]
      simp only [ipfw_list, Bool.not_true, Bool.false_eq_true, if_false]
      have hrs : ∀ r ∈ s.world.1.of cf.active_set, OneLine r.body ∧ r.num ≤ 65535 := fun r hr =>
        ⟨hi.text r (of_rules hr).1 (.inl (of_rules hr).2), hi.num r (of_rules hr).1⟩
      obtain ⟨k, hk, _⟩ := list_buffer hrs
      rw [hk]
      cases hfe : findExp (chop_newline (unlines (((s.world.1.of cf.active_set).take k).map ipfwLine))) with
      | none => exact ⟨_, rfl, hi, hf', .inl rfl⟩
      | some p =>
        obtain ⟨g, hg, hg2⟩ := ipfwScan_rules now (fun r hr => hrs r (List.mem_of_mem_take hr)) hfe
          ((chop_newline (unlines (((s.world.1.of cf.active_set).take k).map ipfwLine))).length + 1)
        simp only [hg, bind_ok]
        rcases hg2 with rfl | ⟨r, hr, rfl⟩
        · refine ⟨_, rfl, ?_⟩
          rw [(ipfwDone_map _).1, (ipfwDone_map _).2]
          exact ⟨hi, hf', .inl rfl⟩
        · obtain ⟨ha, hs⟩ := of_rules (List.mem_of_mem_take hr)
          obtain ⟨s', h1, h2, h3, h4⟩ := ipfwMove_run (print := print) hn (s := { s with world := (s.world.1, fs') }) hi hf' ha hs
          simp only [h1, bind_ok]
          refine ⟨_, rfl, ?_⟩
          rw [(ipfwDone_map _).1, (ipfwDone_map _).2]
          refine ⟨h2, h3, ?_⟩
          rcases h4 with ⟨h4, _⟩ | h4
          · exact .inl h4
          · exact .inr ⟨r, ha, hs, h4⟩
    · rw [show s.world = (s.world.1, s.world.2) from rfl, hrun, bind_ok]
      exact ⟨_, rfl, hi, hf', .inl rfl⟩
  unfold ipfw_check_firewall_rules
  by_cases hm : s.active_rules > cf.max_rules
  · simp only [if_pos hm, true_or, if_true]
    exact ⟨_, rfl, hi, hf, .inl rfl⟩
  · simp only [if_neg hm]
    split
    · exact ⟨_, rfl, hi, hf, .inl rfl⟩
    · exact key s hi hf

end Fwknop
