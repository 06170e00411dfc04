import Verif.Lemmas.Pf
import Verif.Props.Access

/-!
# Properties of the pf back end (C55)
-/

namespace Fwknop.Props

open Fwknop Spec Res

/-- C55 (part): a check that is due leaves exactly the rules in the anchor that have not expired, in their
order, and does not touch other anchors.  Missing: rules whose time does not have ten digits, rules that
are not printed as `pass … label "_exp_…"` (`C55_unlabelled`, `C55_other_action`), and anchors whose listing
does not fit the buffer (`C55_overflow`). -/
theorem C55_check_partial (read : List Nat → Option (List Nat)) (cf : PfConf) (hn : PfNames cf) (K : Anchors)
    (hok : AnchorOk read (K cf.anchor)) (hne : K cf.anchor ≠ []) (now : Int) (h0 : 0 ≤ now)
    (s : PfSt Anchors) (hs : s.world = K) (hz : s.next_expire ≠ 0) (hdue : s.next_expire ≤ now) :
    ∃ s', pf_check_firewall_rules cf (pfTool read) now s = .ok s' ∧
      s'.world cf.anchor = (K cf.anchor).filter (fun l => now < labelTime l) ∧
      ∀ a, a ≠ cf.anchor → s'.world a = K a := by
  obtain ⟨act, nxt, w⟩ := s
  simp only at hs
  subst hs
  obtain ⟨nxt', h, _⟩ := pf_check_run hn hok hne h0 hz hdue
  exact ⟨_, h, anchors_put_get _ _ _, fun a ha => by simp [Anchors.put, ha]⟩

/-- The counters of the daemon are right: the number of active rules is the number of rules in the anchor,
and the time of the next check is the earliest of the times at which they expire, or 0 if there are none. -/
def PfInStep (rs : List (List Nat)) (active : Nat) (next : Int) : Prop :=
  active = rs.length ∧ (∀ l ∈ rs, next ≤ labelTime l) ∧ ((∃ l ∈ rs, next = labelTime l) ∨ rs = [] ∧ next = 0)

/-- What is asked of a request: it is for access to the ports `ps` until the time `e`, the addresses are
words of at most fifteen characters, and there is room for the rules in the daemon's buffer. -/
structure PfRequest (read : List Nat → Option (List Nat)) (cf : PfConf) (sp : SpaData) (now : Int) (e : Nat)
    (ps : List (Nat × Nat)) (rs : List (List Nat)) : Prop where
  type : sp.message_type = 1 ∨ sp.message_type = 3
  ports : ProtoPorts sp.spa_message_remain ps
  src : AddrWord sp.use_src_ip ∧ sp.use_src_ip.length ≤ 15
  dst : AddrWord (pfDst cf sp) ∧ (pfDst cf sp).length ≤ 15
  time : (e : Int) = now + sp.fw_access_timeout ∧ 10 ^ 9 ≤ e ∧ e < 2 ^ 32 ∧ 0 < now
  room : ∀ n p, ps[n]? = some p →
    (unlines (rs ++ pfPrinted read sp.use_src_ip (pfDst cf sp) e (ps.take n))).length +
      (pfAccess sp.use_src_ip (pfDst cf sp) e p.1 p.2).length < 4095
  after : (unlines (rs ++ pfPrinted read sp.use_src_ip (pfDst cf sp) e ps)).length ≤ 4095

theorem anchorOk_add {read : List Nat → Option (List Nat)} (hread : Reads read) {rs : List (List Nat)} (h : AnchorOk read rs)
    {t l : List Nat} {e : Nat} (hl : read t = some l) (hp : PassUntil l e) (h1 : 10 ^ 9 ≤ e) (h2 : e < 2 ^ 32)
    (hfit : (unlines (rs ++ [l])).length ≤ 4095) : AnchorOk read (rs ++ [l]) := by
  refine ⟨fun m hm => ?_, hfit⟩
  rcases List.mem_append.1 hm with hm | hm
  · exact h.rule m hm
  · rw [List.mem_singleton] at hm
    subst hm
    exact ⟨hread.again _ _ hl, e, hp, h1, by omega⟩

theorem pfInStep_add {rs : List (List Nat)} {act : Nat} {nxt now : Int} (h : PfInStep rs act nxt) {l : List Nat} {e : Nat}
    (hl : labelTime l = e) (h0 : 0 < now) (hlive : ∀ m ∈ rs, now ≤ labelTime m)
    (hlen : rs.length < 65535) : PfInStep (rs ++ [l]) ((act + 1) % 2 ^ 16) (nextExpire nxt e now) := by
  obtain ⟨h1, h2, h3⟩ := h
  refine ⟨by rw [h1, List.length_append, List.length_singleton]; omega, ?_, .inl ?_⟩
  · intro m hm
    unfold nextExpire
    rcases List.mem_append.1 hm with hm | hm
    · have a := h2 m hm
      have b := hlive m hm
      rcases h3 with ⟨z, hz, hzw⟩ | ⟨h3, _⟩
      · have c := hlive z hz
        split <;> omega
      · subst h3; simp at hm
    · rw [List.mem_singleton] at hm
      subst hm
      rw [hl]
      split <;> omega
  · unfold nextExpire
    rcases h3 with ⟨z, hz, hzw⟩ | ⟨h3, hz⟩
    · split
      · exact ⟨l, by simp, by rw [hl]⟩
      · exact ⟨z, by simp [hz], hzw⟩
    · rw [if_pos (by left; omega)]
      exact ⟨l, by simp, by rw [hl]⟩

theorem pfPorts_run {read : List Nat → Option (List Nat)} (hread : Reads read) {cf : PfConf} (hn : PfNames cf)
    {sp : SpaData} {now : Int} {e : Nat} (h1 : 10 ^ 9 ≤ e) (h2 : e < 2 ^ 32) (hs : AddrWord sp.use_src_ip)
    (hd : AddrWord (pfDst cf sp)) (hsl : sp.use_src_ip.length ≤ 15) (hdl : (pfDst cf sp).length ≤ 15)
    (ps : List (Nat × Nat)) : ∀ (K : Anchors) (act : Nat) (nxt : Int), (∀ p ∈ ps, p.1 < 1000 ∧ p.2 ≤ 65535) →
      AnchorOk read (K cf.anchor) →
      (∀ n p, ps[n]? = some p →
        (unlines (K cf.anchor ++ pfPrinted read sp.use_src_ip (pfDst cf sp) e (ps.take n))).length +
          (pfAccess sp.use_src_ip (pfDst cf sp) e p.1 p.2).length < 4095) →
      (unlines (K cf.anchor ++ pfPrinted read sp.use_src_ip (pfDst cf sp) e ps)).length ≤ 4095 →
      ∃ act' nxt', pfPorts cf (pfTool read) sp e now (ps.map toEnt) ⟨act, nxt, K⟩ =
          .ok ⟨act', nxt', K.put cf.anchor (K cf.anchor ++ pfPrinted read sp.use_src_ip (pfDst cf sp) e ps)⟩ ∧
        (pfPrinted read sp.use_src_ip (pfDst cf sp) e ps).length = ps.length ∧
        AnchorOk read (K cf.anchor ++ pfPrinted read sp.use_src_ip (pfDst cf sp) e ps) ∧
        (0 < now → now ≤ e → (∀ l ∈ K cf.anchor, now ≤ labelTime l) → PfInStep (K cf.anchor) act nxt →
          PfInStep (K cf.anchor ++ pfPrinted read sp.use_src_ip (pfDst cf sp) e ps) act' nxt') := by
  induction ps with
  | nil =>
    intro K act nxt _ hok _ _
    refine ⟨act, nxt, ?_, rfl, by simpa [pfPrinted] using hok, fun _ _ _ h => by simpa [pfPrinted] using h⟩
    rw [show pfPrinted read sp.use_src_ip (pfDst cf sp) e [] = [] from rfl, List.append_nil, anchors_put_same rfl]
    rfl
  | cons p ps ih =>
    intro K act nxt hb hok hroom hafter
    obtain ⟨l, hl, hpu, hrun⟩ := pfPort_run hread hn h2 hs hd hsl hdl (hb p List.mem_cons_self) hok
      (by simpa [pfPrinted] using hroom 0 p rfl) now act nxt
    have hpr : ∀ qs, pfPrinted read sp.use_src_ip (pfDst cf sp) e (p :: qs) =
        l :: pfPrinted read sp.use_src_ip (pfDst cf sp) e qs := by
      intro qs; simp [pfPrinted, hl]
    have hfit : (unlines (K cf.anchor ++ [l])).length ≤ 4095 := by
      rw [hpr, show K cf.anchor ++ l :: pfPrinted read sp.use_src_ip (pfDst cf sp) e ps =
        (K cf.anchor ++ [l]) ++ pfPrinted read sp.use_src_ip (pfDst cf sp) e ps from by simp, unlines_append,
        List.length_append] at hafter
      omega
    have hok' := anchorOk_add hread hok hl hpu h1 h2 hfit
    obtain ⟨act', nxt', e1, e2, e3, e4⟩ := ih (K.put cf.anchor (K cf.anchor ++ [l])) ((act + 1) % 2 ^ 16)
      (nextExpire nxt e now) (fun q hq => hb q (List.mem_cons_of_mem _ hq))
      (by rw [anchors_put_get]; exact hok')
      (by
        rw [anchors_put_get]
        intro n q hq
        have := hroom (n + 1) q hq
        rw [List.take_succ_cons, hpr] at this
        simpa using this)
      (by
        rw [anchors_put_get]
        rw [hpr] at hafter
        simpa using hafter)
    rw [anchors_put_get] at e1 e3 e4
    rw [hpr]
    rw [show K cf.anchor ++ l :: pfPrinted read sp.use_src_ip (pfDst cf sp) e ps =
        (K cf.anchor ++ [l]) ++ pfPrinted read sp.use_src_ip (pfDst cf sp) e ps from by simp]
    refine ⟨act', nxt', ?_, by simp [e2], e3, ?_⟩
    · rw [List.map_cons, pfPorts, hrun, bind_ok]
      simp only [if_true]
      rw [e1, anchors_put_put]
    · intro a0 a1 a2 a3
      have hlt := labelTime_eq hpu
      refine e4 a0 a1 ?_ (pfInStep_add a3 hlt a0 a2 ?_)
      · intro m hm
        rcases List.mem_append.1 hm with hm | hm
        · exact a2 m hm
        · rw [List.mem_singleton] at hm
          subst hm
          rw [hlt]; exact a1
      · have := unlines_length_ge (K cf.anchor)
        have := hok.fits
        omega

/-- A request adds its rules at the end of the anchor. -/
theorem pf_request_run {read : List Nat → Option (List Nat)} (hread : Reads read) {cf : PfConf} (hn : PfNames cf)
    {sp : SpaData} {now : Int} {e : Nat} {ps : List (Nat × Nat)} {s : PfSt Anchors}
    (hok : AnchorOk read (s.world cf.anchor)) (hreq : PfRequest read cf sp now e ps (s.world cf.anchor)) :
    ∃ act' nxt', pf_process_spa_request cf (pfTool read) sp now s =
        .ok ⟨act', nxt', s.world.put cf.anchor (s.world cf.anchor ++ pfPrinted read sp.use_src_ip (pfDst cf sp) e ps)⟩ ∧
      (pfPrinted read sp.use_src_ip (pfDst cf sp) e ps).length = ps.length ∧
      AnchorOk read (s.world cf.anchor ++ pfPrinted read sp.use_src_ip (pfDst cf sp) e ps) ∧
      ((∀ l ∈ s.world cf.anchor, now ≤ labelTime l) → PfInStep (s.world cf.anchor) s.active_rules s.next_expire →
        PfInStep (s.world cf.anchor ++ pfPrinted read sp.use_src_ip (pfDst cf sp) e ps) act' nxt') := by
  obtain ⟨act, nxt, K⟩ := s
  obtain ⟨t1, t2, t3, t4⟩ := hreq.time
  have hbound : ∀ p ∈ ps, p.1 < 1000 ∧ p.2 ≤ 65535 := by
    obtain ⟨items, _, hi, _, rfl⟩ := hreq.ports
    intro p hp
    obtain ⟨i, hi1, rfl⟩ := List.mem_map.1 hp
    obtain ⟨_, _, _, _, hpr, _, _, _, hle, _⟩ := hi i hi1
    refine ⟨?_, hle⟩
    rcases hpr with ⟨_, h⟩ | ⟨_, h⟩ <;> omega
  obtain ⟨act', nxt', e1, e2, e3, e4⟩ := pfPorts_run (now := now) hread hn t2 t3 hreq.src.1 hreq.dst.1 hreq.src.2 hreq.dst.2 ps
    K act nxt hbound hok hreq.room hreq.after
  refine ⟨act', nxt', ?_, e2, e3, e4 t4 (by omega)⟩
  unfold pf_process_spa_request
  rw [if_pos (show sp.message_type = 1 ∨ sp.message_type = 3 from hreq.type)]
  rw [portsRead_expand _ _ _ (protoPorts_expand hreq.ports)]
  have : expTs now sp.fw_access_timeout = e := by unfold expTs; omega
  rw [this]
  exact e1

/-- C55 (part): a request for access adds one rule for each port of the request at the end of the anchor,
for the address of the request until its time, keeps every rule that is there and does not touch other
anchors.  Missing: what is missing in `C55_check_partial`, and requests there is no room for. -/
theorem C55_request_partial (read : List Nat → Option (List Nat)) (hread : Reads read) (cf : PfConf) (hn : PfNames cf)
    (sp : SpaData) (now : Int) (e : Nat) (ps : List (Nat × Nat)) (s : PfSt Anchors)
    (hok : AnchorOk read (s.world cf.anchor)) (hreq : PfRequest read cf sp now e ps (s.world cf.anchor)) :
    ∃ s' ls, pf_process_spa_request cf (pfTool read) sp now s = .ok s' ∧
      s'.world cf.anchor = s.world cf.anchor ++ ls ∧ ls.length = ps.length ∧
      (∀ (n : Nat) (l : List Nat) (p : Nat × Nat), ls[n]? = some l → ps[n]? = some p → 
        read (pfAccess sp.use_src_ip (if cf.use_destination then sp.pkt_destination_ip else b!"any") e p.1 p.2) = some l) ∧
      ∀ a, a ≠ cf.anchor → s'.world a = s.world a := by
  obtain ⟨act', nxt', h1, h2, h3, h4⟩ := pf_request_run hread hn hok hreq
  refine ⟨_, _, h1, anchors_put_get _ _ _, h2, ?_, fun a ha => by simp [Anchors.put, ha]⟩
  have hsome : ∀ p : Nat × Nat, ∃ l, read (pfAccess sp.use_src_ip (pfDst cf sp) e p.1 p.2) = some l := fun p =>
    (hread.access _ _ e p.1 p.2 hreq.src.1 hreq.dst.1).imp fun _ h => h.1
  have hmap : pfPrinted read sp.use_src_ip (pfDst cf sp) e ps =
      ps.map fun p : Nat × Nat => (read (pfAccess sp.use_src_ip (pfDst cf sp) e p.1 p.2)).getD [] := by
    clear h1 h2 h3 h4 hreq
    induction ps with
    | nil => rfl
    | cons p ps ih =>
      obtain ⟨l, hl⟩ := hsome p
      have : pfPrinted read sp.use_src_ip (pfDst cf sp) e (p :: ps) = l :: pfPrinted read sp.use_src_ip (pfDst cf sp) e ps := by
        simp [pfPrinted, hl]
      rw [this, ih]
      simp [hl]
  intro n l p hl hp
  rw [hmap, List.getElem?_map, hp] at hl
  obtain ⟨l', hl'⟩ := hsome p
  simp only [Option.map_some, hl', Option.getD_some, Option.some.injEq] at hl
  show read (pfAccess sp.use_src_ip (pfDst cf sp) e p.1 p.2) = some l
  rw [hl', hl]

/-- The states of the daemon and of the anchors that come about when the daemon starts with an empty
anchor, handles requests at times when no rule in the anchor is overdue, and checks the anchor. -/
inductive PfReach (read : List Nat → Option (List Nat)) (cf : PfConf) : PfSt Anchors → Prop where
  | start (K : Anchors) : K cf.anchor = [] → PfReach read cf ⟨0, 0, K⟩
  | check {s s' : PfSt Anchors} (now : Int) : PfReach read cf s → 0 < now →
      pf_check_firewall_rules cf (pfTool read) now s = .ok s' → PfReach read cf s'
  | request {s s' : PfSt Anchors} (sp : SpaData) (now : Int) (e : Nat) (ps : List (Nat × Nat)) : PfReach read cf s →
      PfRequest read cf sp now e ps (s.world cf.anchor) → (∀ l ∈ s.world cf.anchor, now ≤ labelTime l) →
      pf_process_spa_request cf (pfTool read) sp now s = .ok s' → PfReach read cf s'

theorem pf_check_inStep {read : List Nat → Option (List Nat)} {cf : PfConf} (hn : PfNames cf) {s : PfSt Anchors}
    (hok : AnchorOk read (s.world cf.anchor)) (hst : PfInStep (s.world cf.anchor) s.active_rules s.next_expire)
    {now : Int} (h0 : 0 < now) :
    ∃ s', pf_check_firewall_rules cf (pfTool read) now s = .ok s' ∧
      s'.world = s.world.put cf.anchor ((s.world cf.anchor).filter fun l => now < labelTime l) ∧
      PfInStep (s'.world cf.anchor) s'.active_rules s'.next_expire := by
  obtain ⟨act, nxt, K⟩ := s
  simp only at hok hst
  obtain ⟨h1, h2, h3⟩ := hst
  have h9 : ∀ l ∈ K cf.anchor, (0 : Int) < labelTime l := by
    intro l hl
    have := (anchorOk_time hok l hl).2.1
    omega
  by_cases hdue : nxt = 0 ∨ nxt > now
  · refine ⟨_, by unfold pf_check_firewall_rules; rw [if_pos hdue], ?_, h1, h2, h3⟩
    show K = _
    have hall : (K cf.anchor).filter (fun l => decide (now < labelTime l)) = K cf.anchor := by
      rw [List.filter_eq_self]
      intro l hl
      have a := h2 l hl
      have b := h9 l hl
      rcases hdue with h | h
      · rcases h3 with ⟨z, hz, hzw⟩ | ⟨h3, _⟩
        · have := h9 z hz; omega
        · rw [h3] at hl; simp at hl
      · simpa using by omega
    rw [hall, anchors_put_same rfl]
  · have hz : nxt ≠ 0 := fun h => hdue (.inl h)
    have hd : nxt ≤ now := by
      have : ¬ nxt > now := fun h => hdue (.inr h)
      omega
    have hne : K cf.anchor ≠ [] := by
      rcases h3 with ⟨z, hz', _⟩ | ⟨_, h⟩
      · exact List.ne_nil_of_mem hz'
      · exact absurd h hz
    obtain ⟨nxt', e1, e2, e3⟩ := pf_check_run (act := act) hn hok hne (by omega : 0 ≤ now) hz hd
    have hlen : act - ((K cf.anchor).filter fun l => decide ((labelTime l : Int) ≤ now)).length =
        ((K cf.anchor).filter fun l => decide (now < labelTime l)).length := by
      have hsum : ∀ rs : List (List Nat), (rs.filter fun l => decide ((labelTime l : Int) ≤ now)).length +
          (rs.filter fun l => decide (now < labelTime l)).length = rs.length := by
        intro rs
        induction rs with
        | nil => rfl
        | cons l rs ih =>
          rw [List.filter_cons, List.filter_cons]
          by_cases h : (labelTime l : Int) ≤ now
          · have h' : ¬ now < (labelTime l : Int) := by omega
            simp only [h, h', decide_true, decide_false, if_true, List.length_cons]
            simp only [Bool.false_eq_true, if_false]
            omega
          · have h' : now < (labelTime l : Int) := by omega
            simp only [h, h', decide_true, decide_false, if_true, List.length_cons]
            simp only [Bool.false_eq_true, if_false]
            omega
      have := hsum (K cf.anchor)
      omega
    refine ⟨_, e1, rfl, ?_⟩
    simp only [anchors_put_get]
    rw [hlen] at e2 e3
    rw [hlen]
    refine ⟨rfl, ?_, ?_⟩
    · intro l hl
      obtain ⟨hl1, hl2⟩ := List.mem_filter.1 hl
      have hne' : ((K cf.anchor).filter fun l => decide (now < labelTime l)).length ≠ 0 := by
        intro h
        rw [List.length_eq_zero_iff.1 h] at hl
        simp at hl
      exact (e3 hne').1 l hl1 (by simpa using hl2)
    · by_cases hne' : ((K cf.anchor).filter fun l => decide (now < labelTime l)).length = 0
      · exact .inr ⟨List.length_eq_zero_iff.1 hne', e2 hne'⟩
      · left
        rcases (e3 hne').2 with ⟨_, hall⟩ | ⟨l, hl, hlt, heq⟩
        · exfalso
          apply hne'
          rw [List.length_eq_zero_iff, List.filter_eq_nil_iff]
          intro l hl
          have := hall l hl
          simpa using this
        · exact ⟨l, List.mem_filter.2 ⟨hl, by simpa using hlt⟩, heq⟩

theorem pfReach_inv {read : List Nat → Option (List Nat)} (hread : Reads read) {cf : PfConf} (hn : PfNames cf)
    {s : PfSt Anchors} (h : PfReach read cf s) :
    AnchorOk read (s.world cf.anchor) ∧ PfInStep (s.world cf.anchor) s.active_rules s.next_expire := by
  induction h with
  | start K hK =>
    rw [show (⟨0, 0, K⟩ : PfSt Anchors).world = K from rfl, hK]
    exact ⟨⟨fun l hl => by simp at hl, by simp [unlines]⟩, rfl, fun l hl => by simp at hl, .inr ⟨rfl, rfl⟩⟩
  | check now _ h0 hrun ih =>
    obtain ⟨s2, e1, e2, e3⟩ := pf_check_inStep hn ih.1 ih.2 h0
    rw [e1] at hrun
    injection hrun with hrun
    subst hrun
    refine ⟨?_, e3⟩
    rw [e2, anchors_put_get]
    exact anchorOk_filter ih.1 _
  | request sp now e ps _ hreq hlive hrun ih =>
    obtain ⟨act', nxt', e1, _, e3, e4⟩ := pf_request_run hread hn ih.1 hreq
    rw [e1] at hrun
    injection hrun with hrun
    subst hrun
    simp only [anchors_put_get]
    exact ⟨e3, e4 hlive ih.2⟩

/-- C55 (part): whatever requests and checks there have been, a check at any time leaves exactly the rules
in the anchor that have not expired at that time, and does not touch other anchors.  Missing: what is
missing in `C55_request_partial`, and requests at a time when a rule in the anchor is overdue
(`C55_postponed`). -/
theorem C55_history_partial (read : List Nat → Option (List Nat)) (hread : Reads read) (cf : PfConf) (hn : PfNames cf)
    (s : PfSt Anchors) (h : PfReach read cf s) (now : Int) (h0 : 0 < now) :
    ∃ s', pf_check_firewall_rules cf (pfTool read) now s = .ok s' ∧
      s'.world cf.anchor = (s.world cf.anchor).filter (fun l => now < labelTime l) ∧
      ∀ a, a ≠ cf.anchor → s'.world a = s.world a := by
  obtain ⟨i1, i2⟩ := pfReach_inv hread hn h
  obtain ⟨s', e1, e2, _⟩ := pf_check_inStep hn i1 i2 h0
  exact ⟨s', e1, by rw [e2, anchors_put_get], fun a ha => by rw [e2]; simp [Anchors.put, ha]⟩

/-- C55: on exit the anchor is emptied and no other anchor is touched. -/
theorem C55_cleanup (read : List Nat → Option (List Nat)) (cf : PfConf) (hn : PfNames cf) (s : PfSt Anchors) :
    ∃ s', pf_cleanup cf (pfTool read) s = .ok s' ∧ s'.world cf.anchor = [] ∧
      ∀ a, a ≠ cf.anchor → s'.world a = s.world a := by
  refine ⟨{ s with world := s.world.put cf.anchor [] }, ?_, anchors_put_get _ _ _, fun a ha => by simp [Anchors.put, ha]⟩
  unfold pf_cleanup
  rw [pf_flush_run hn, bind_ok]
  rfl

/-! ## Examples -/

/-- A pfctl that prints a rule as it was written, with quotes around the label. -/
def quoteRead (l : List Nat) : Option (List Nat) :=
  if l.getLast? = some 34 then some l
  else
    let w := (l.reverse.takeWhile (· ≠ 32)).reverse
    some (l.take (l.length - w.length) ++ 34 :: w ++ [34])

theorem quoteRead_word (a w : List Nat) (hw : 32 ∉ w) (hne : w ≠ []) (hq : w.getLast? ≠ some 34) :
    quoteRead (a ++ 32 :: w) = some (a ++ 32 :: 34 :: w ++ [34]) := by
  have h1 : (a ++ 32 :: w).getLast? = w.getLast? := by
    cases w with
    | nil => exact absurd rfl hne
    | cons c w =>
      rw [List.getLast?_append, List.getLast?_cons_cons, List.getLast?_eq_some_getLast (by simp : c :: w ≠ [])]
      rfl
  have h2 : ((a ++ 32 :: w).reverse.takeWhile (· ≠ 32)).reverse = w := by
    rw [List.reverse_append, List.reverse_cons, List.append_assoc, List.singleton_append,
      takeWhile_until _ _ _ _ ?_ (by simp), List.reverse_reverse]
    intro c hc
    have : c ≠ 32 := by rintro rfl; exact hw (List.mem_reverse.1 hc)
    simpa using this
  unfold quoteRead
  rw [h1, if_neg hq]
  simp only [h2]
  rw [show (a ++ 32 :: w).length - w.length = (a ++ [32]).length from by
      simp only [List.length_append, List.length_cons, List.length_nil]; omega,
    show a ++ 32 :: w = (a ++ [32]) ++ w from by simp, List.take_left]
  simp

/-- The hypotheses about pfctl can be met. -/
theorem quoteRead_reads : Reads quoteRead := by
  constructor
  · intro src dst e proto port hs hd
    have hdec : ∀ n, ∀ c ∈ decimal n, 48 ≤ c ∧ c ≤ 57 := by
      intro n c hc
      rw [← decStr_decimal] at hc
      have := decStr_digits n c hc
      simpa [isDigit] using this
    have h32 : ∀ n, 32 ∉ decimal n := fun n h => by have := hdec n _ h; omega
    have h95 : ∀ n, 95 ∉ decimal n := fun n h => by have := hdec n _ h; omega
    have hx : pfAccess src dst e proto port =
        (b!"pass" ++ (b!" in quick proto " ++ decimal proto ++ b!" from " ++ src ++ b!" to " ++ dst ++ b!" port " ++
          decimal port ++ b!" keep state ") ++ b!"label") ++ 32 :: (b!"_exp_" ++ decimal e) := by
      simp [pfAccess, unwords]
    generalize hgx : b!" in quick proto " ++ decimal proto ++ b!" from " ++ src ++ b!" to " ++ dst ++ b!" port " ++
          decimal port ++ b!" keep state " = x at hx
    refine ⟨b!"pass" ++ x ++ b!"label \"_exp_" ++ decimal e ++ b!"\"", ?_, ?_, x, ?_, rfl⟩
    · rw [hx, quoteRead_word _ _ (by simp [h32]) (by simp)]
      · simp
      · intro h
        rcases List.eq_nil_or_concat (decimal e) with h' | ⟨i, c, h'⟩
        · rw [h'] at h; revert h; decide
        · rw [h', List.concat_eq_append, ← List.append_assoc, List.getLast?_concat] at h
          injection h with h
          have := hdec e c (by rw [h']; simp)
          omega
    · have h10 : ∀ n, 10 ∉ decimal n := fun n h => by have := hdec n _ h; omega
      have hw : ∀ w, AddrWord w → 10 ∉ w := fun w h h' => h.1.2 10 h' (by unfold IsBlank; decide)
      rw [← hgx]
      simp [h10, hw _ hs, hw _ hd]
    · apply noMark_of_no_underscore
      rw [← hgx]
      simp [h95, hs.2, hd.2]
  · intro t l h
    unfold quoteRead at h ⊢
    split at h
    · injection h with h
      subst h
      rw [if_pos (by assumption)]
    · injection h with h
      rw [if_pos]
      rw [← h, List.getLast?_concat]

def pfConf : PfConf where
  fw_command := b!"/sbin/pfctl"
  anchor := b!"fwknop"

theorem pfConf_names : PfNames pfConf := by
  refine ⟨?_, ?_, by decide⟩ <;> (unfold PlainWord IsBlank; decide)

/-- The rule for 192.0.2.`n` until `e`, as this pfctl prints it. -/
def pfLine (n e : Nat) : List Nat :=
  b!"pass in quick proto 6 from 192.0.2." ++ decimal n ++ b!" to any port 22 keep state label \"_exp_" ++ decimal e ++
    b!"\""

theorem pfLine_until (n e : Nat) : PassUntil (pfLine n e) e := by
  have hdec : ∀ n, ∀ c ∈ decimal n, 48 ≤ c ∧ c ≤ 57 := by
    intro n c hc
    rw [← decStr_decimal] at hc
    have := decStr_digits n c hc
    simpa [isDigit] using this
  have h10 : ∀ n, 10 ∉ decimal n := fun n h => by have := hdec n _ h; omega
  have h95 : ∀ n, 95 ∉ decimal n := fun n h => by have := hdec n _ h; omega
  refine ⟨by simp [pfLine, h10], b!" in quick proto 6 from 192.0.2." ++ decimal n ++ b!" to any port 22 keep state ", ?_, ?_⟩
  · apply noMark_of_no_underscore
    simp [h95]
  · simp [pfLine]

theorem pfLine_again (n e : Nat) : quoteRead (pfLine n e) = some (pfLine n e) := by
  unfold quoteRead
  rw [if_pos]
  unfold pfLine
  rw [List.getLast?_concat]

/-- An anchor with one rule that expires at 1700000000 and one that expires at 1700000060, and a rule in
another anchor. -/
def pfTwo : Anchors := fun a =>
  if a = b!"fwknop" then [pfLine 7 1700000000, pfLine 8 1700000060]
  else if a = b!"other" then [pfLine 9 1700000000] else []

theorem pfTwo_ok : AnchorOk quoteRead (pfTwo pfConf.anchor) := by
  have : pfTwo pfConf.anchor = [pfLine 7 1700000000, pfLine 8 1700000060] := by
    unfold pfTwo; rw [if_pos (by decide)]
  rw [this]
  refine ⟨?_, by decide +kernel⟩
  intro l hl
  rcases List.mem_cons.1 hl with rfl | hl
  · exact ⟨pfLine_again _ _, _, pfLine_until _ _, by omega, by omega⟩
  · rw [List.mem_singleton] at hl
    subst hl
    exact ⟨pfLine_again _ _, _, pfLine_until _ _, by omega, by omega⟩

/-- `C55_check_partial` is about something: at 1700000000 the first rule goes. -/
example : ∃ s', pf_check_firewall_rules pfConf (pfTool quoteRead) 1700000000 ⟨2, 1700000000, pfTwo⟩ = .ok s' ∧
    s'.world pfConf.anchor = [pfLine 8 1700000060] ∧ s'.world b!"other" = [pfLine 9 1700000000] := by
  obtain ⟨s', h1, h2, h3⟩ := C55_check_partial quoteRead pfConf pfConf_names pfTwo pfTwo_ok (by decide +kernel) 1700000000
    (by decide) ⟨2, 1700000000, pfTwo⟩ rfl (by decide) (by decide)
  exact ⟨s', h1, h2.trans (by decide +kernel), (h3 b!"other" (by decide)).trans (by decide +kernel)⟩

/-- A request for ssh and dns. -/
def pfSpa : SpaData where
  message_type := 1
  spa_message_remain := b!"tcp/22, UDP/53"
  use_src_ip := b!"192.0.2.9"
  fw_access_timeout := 30

theorem pfSpa_request {rs : List (List Nat)} (h : (unlines rs).length ≤ 1000) (now : Int) (e : Nat)
    (h1 : (e : Int) = now + 30) (h2 : 10 ^ 9 ≤ e) (h3 : e < 2 ^ 32) :
    PfRequest quoteRead pfConf pfSpa now e [(6, 22), (17, 53)] rs := by
  have ha : AddrWord b!"192.0.2.9" := by unfold AddrWord PlainWord IsBlank; decide
  have hd : AddrWord b!"any" := by unfold AddrWord PlainWord IsBlank; decide
  have hlen : ∀ proto port, proto < 1000 → port ≤ 65535 →
      (pfAccess b!"192.0.2.9" b!"any" e proto port).length ≤ 138 := by
    intro proto port hp hq
    have := pfRuleText_eq (src := b!"192.0.2.9") (dst := b!"any") (by decide) (by decide) hp hq h3
    have hle : (pfRuleText proto b!"192.0.2.9" b!"any" (port : Int) e).length ≤ 138 := List.length_take_le _ _
    rw [this, List.length_append] at hle
    omega
  have hread : ∀ proto port, proto < 1000 → port ≤ 65535 →
      ∃ l, quoteRead (pfAccess b!"192.0.2.9" b!"any" e proto port) = some l ∧ l.length ≤ 300 := by
    intro proto port hp hq
    have := hlen proto port hp hq
    unfold quoteRead
    split
    · exact ⟨_, rfl, by omega⟩
    · refine ⟨_, rfl, ?_⟩
      simp only [List.length_append, List.length_take, List.length_cons, List.length_nil]
      have : ((pfAccess b!"192.0.2.9" b!"any" e proto port).reverse.takeWhile (· ≠ 32)).reverse.length ≤
          (pfAccess b!"192.0.2.9" b!"any" e proto port).length := by
        rw [List.length_reverse]
        have := (List.takeWhile_prefix (fun c : Nat => decide (c ≠ 32))
          (l := (pfAccess b!"192.0.2.9" b!"any" e proto port).reverse)).length_le
        rw [List.length_reverse] at this
        exact this
      omega
  obtain ⟨l1, r1, n1⟩ := hread 6 22 (by decide) (by decide)
  obtain ⟨l2, r2, n2⟩ := hread 17 53 (by decide) (by decide)
  have b1 := hlen 6 22 (by decide) (by decide)
  have b2 := hlen 17 53 (by decide) (by decide)
  have hpr : pfPrinted quoteRead pfSpa.use_src_ip (pfDst pfConf pfSpa) e [(6, 22), (17, 53)] = [l1, l2] := by
    show List.filterMap _ _ = _
    simp only [List.filterMap_cons, List.filterMap_nil]
    rw [show quoteRead (pfAccess pfSpa.use_src_ip (pfDst pfConf pfSpa) e 6 22) = some l1 from r1,
      show quoteRead (pfAccess pfSpa.use_src_ip (pfDst pfConf pfSpa) e 17 53) = some l2 from r2]
  have hpr1 : pfPrinted quoteRead pfSpa.use_src_ip (pfDst pfConf pfSpa) e [(6, 22)] = [l1] := by
    show List.filterMap _ _ = _
    simp only [List.filterMap_cons, List.filterMap_nil]
    rw [show quoteRead (pfAccess pfSpa.use_src_ip (pfDst pfConf pfSpa) e 6 22) = some l1 from r1]
  refine ⟨.inl rfl, ports_22_53, ⟨ha, by decide⟩, ⟨hd, by decide⟩, ⟨h1, h2, h3, by omega⟩, ?_, ?_⟩
  · intro n p hp
    match n with
    | 0 =>
      simp only [List.getElem?_cons_zero, Option.some.injEq] at hp
      subst hp
      rw [List.take_zero, show pfPrinted quoteRead pfSpa.use_src_ip (pfDst pfConf pfSpa) e [] = [] from rfl, List.append_nil]
      show _ + (pfAccess b!"192.0.2.9" b!"any" e 6 22).length < 4095
      omega
    | 1 =>
      simp only [List.getElem?_cons_succ, List.getElem?_cons_zero, Option.some.injEq] at hp
      subst hp
      rw [show [(6, 22), (17, 53)].take 1 = [(6, 22)] from rfl, hpr1, unlines_append, List.length_append, unlines_cons]
      show _ + (l1 ++ 10 :: []).length + (pfAccess b!"192.0.2.9" b!"any" e 17 53).length < 4095
      simp only [List.length_append, List.length_cons, List.length_nil]
      omega
    | n + 2 => simp at hp
  · rw [hpr, unlines_append, List.length_append, unlines_cons, unlines_cons]
    show _ + (l1 ++ 10 :: (l2 ++ 10 :: [])).length ≤ 4095
    simp only [List.length_append, List.length_cons, List.length_nil]
    omega

/-- `C55_request_partial` is about something. -/
example : ∃ s', pf_process_spa_request pfConf (pfTool quoteRead) pfSpa 1700000000 ⟨2, 1700000000, pfTwo⟩ = .ok s' ∧
    (s'.world pfConf.anchor).length = 4 := by
  obtain ⟨s', ls, h1, h2, h3, _⟩ := C55_request_partial quoteRead quoteRead_reads pfConf pfConf_names pfSpa 1700000000 1700000030
    [(6, 22), (17, 53)] ⟨2, 1700000000, pfTwo⟩ pfTwo_ok (pfSpa_request (by decide +kernel) _ _ (by decide) (by decide) (by decide))
  exact ⟨s', h1, by rw [h2, List.length_append, h3]; decide +kernel⟩

/-- `C55_history_partial` is about something: after a request at 1700000000 and a check at 1700000010, both
rules are there, and a check at 1700000030 removes them. -/
example : ∃ s, PfReach quoteRead pfConf s ∧ (s.world pfConf.anchor).length = 2 ∧
    ∃ s', pf_check_firewall_rules pfConf (pfTool quoteRead) 1700000030 s = .ok s' ∧ s'.world pfConf.anchor = [] := by
  have r0 : PfReach quoteRead pfConf ⟨0, 0, fun _ => []⟩ := .start _ rfl
  have hreq := pfSpa_request (rs := []) (by decide) 1700000000 1700000030 (by decide) (by decide) (by decide)
  have r1 : PfReach quoteRead pfConf (match pf_process_spa_request pfConf (pfTool quoteRead) pfSpa 1700000000 ⟨0, 0, fun _ => []⟩ with
      | .ok s => s
      | _ => ⟨0, 0, fun _ => []⟩) := by
    refine .request pfSpa 1700000000 1700000030 [(6, 22), (17, 53)] r0 hreq (by simp) ?_
    obtain ⟨act', nxt', h1, _⟩ := pf_request_run quoteRead_reads pfConf_names
      (s := ⟨0, 0, fun _ => []⟩) ⟨by simp, by simp [unlines]⟩ hreq
    rw [h1]
  obtain ⟨s', h1, h2, _⟩ := C55_history_partial quoteRead quoteRead_reads pfConf pfConf_names _ r1 1700000010 (by decide)
  have r2 := r1.check 1700000010 (by decide) h1
  obtain ⟨s'', h3, h4, _⟩ := C55_history_partial quoteRead quoteRead_reads pfConf pfConf_names _ r2 1700000030 (by decide)
  refine ⟨s', r2, ?_, s'', h3, ?_⟩
  · rw [h2]; decide +kernel
  · rw [h4, h2]; decide +kernel

/-! ## Where it fails -/

/-- The rules of the anchor after a run. -/
def anchorOf (r : Res (PfSt Anchors)) : Option (List (List Nat)) :=
  match r with
  | .ok s => some (s.world pfConf.anchor)
  | _ => none

def pfOnly (rs : List (List Nat)) : Anchors := fun a => if a = b!"fwknop" then rs else []

/-- C55 fails for a rule without a label: when a rule expires, it is removed as well. -/
theorem C55_unlabelled :
    anchorOf (pf_check_firewall_rules pfConf (pfTool quoteRead) 1700000000
      ⟨1, 1700000000, pfOnly [b!"pass in quick proto 6 from any to any port 80", pfLine 7 1700000000]⟩) = some [] := by
  decide +kernel

/-- C55 fails if a rule does not begin with `pass`: the rules after it are removed, although they have not
expired. -/
theorem C55_other_action :
    anchorOf (pf_check_firewall_rules pfConf (pfTool quoteRead) 1700000000
      ⟨3, 1700000000, pfOnly [pfLine 7 1700000000, b!"block drop in from 192.0.2.1 to any label \"_exp_1800000000\"",
        pfLine 8 1700000060]⟩) = some [] := by
  decide +kernel

/-- C55 fails after a request that came when a rule was overdue: the next check is put off, and the expired
rule stays. -/
theorem C55_postponed :
    anchorOf (pf_process_spa_request pfConf (pfTool quoteRead) { pfSpa with spa_message_remain := b!"tcp/22" } 1700000001
        ⟨1, 1700000000, pfOnly [pfLine 7 1700000000]⟩ >>= fun s =>
      pf_check_firewall_rules pfConf (pfTool quoteRead) 1700000002 s) =
      some [pfLine 7 1700000000, pfLine 9 1700000031] := by
  decide +kernel

/-- A rule with a destination address. -/
def pfLong : List Nat :=
  b!"pass in quick proto 6 from 192.0.2.8 to 198.51.100.100 port 22 keep state label \"_exp_1800000000\""

/-- C55 fails if the listing does not fit the buffer: a request removes the last rule, which has not expired. -/
theorem C55_overflow :
    anchorOf (pf_process_spa_request pfConf (pfTool quoteRead) { pfSpa with spa_message_remain := b!"tcp/22" } 1700000000
        ⟨47, 1800000000, pfOnly (List.replicate 46 (pfLine 7 1800000000) ++ [pfLong])⟩) =
      some (List.replicate 46 (pfLine 7 1800000000) ++ [pfLine 9 1700000030]) := by
  decide +kernel

end Fwknop.Props
