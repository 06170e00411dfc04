import Verif.Lemmas.IpfwExp
import Verif.Props.Access

/-!
# Properties of the ipfw back end (C54, C72, C73)
-/

namespace Fwknop.Props

open Fwknop Spec Res

/-- The histories of the daemon on a firewall: it starts on a clean one, with both flush options on; then
connections come and go, requests arrive, rules are checked and purged, in any order.  A call of ipfw may
work or be killed (`fs` are the fates of the coming calls).  The times at which access ends are between
2001 and 2106. -/
inductive IpfwReach (print : List Word → List Nat) (cf : IpfwConf) : IpfwSt (Ipfw × List Fate) → Prop
  | start {K : Ipfw} {s} : IpfwClean cf K → ipfw_initialize cf (ipfwTool print) (K, []) = .ok (some s) →
      IpfwReach print cf s
  | outside {s} (ds : List (Nat × List Nat)) (fs : List Fate) : IpfwReach print cf s →
      (∀ d ∈ ds, 10 ∉ d.2) → Fate.refused ∉ fs →
      IpfwReach print cf { s with world := ({ s.world.1 with dyn := ds }, fs) }
  | request {s s'} (sp : SpaData) (now : Int) : IpfwReach print cf s → IpfwAddr sp.use_src_ip →
      IpfwAddr (if cf.use_destination then sp.pkt_destination_ip else b!"me") →
      10 ^ 9 ≤ now + sp.fw_access_timeout → now + sp.fw_access_timeout < 2 ^ 32 →
      ipfw_process_spa_request cf (ipfwTool print) sp now s = .ok s' → IpfwReach print cf s'
  | check {s s'} (now : Int) : IpfwReach print cf s →
      ipfw_check_firewall_rules cf (ipfwTool print) now s = .ok s' → IpfwReach print cf s'
  | purge {s s'} : IpfwReach print cf s → ipfw_purge_expired_rules cf (ipfwTool print) s = .ok s' →
      IpfwReach print cf s'

/-- What is asked of the configuration. -/
structure IpfwSetup (cf : IpfwConf) : Prop where
  names : IpfwNames cf
  flush_at_init : cf.flush_at_init = true
  flush_at_exit : cf.flush_at_exit = true

theorem ipfw_request_run {print : List Word → List Nat} (hprint : PrintsLines print) {cf : IpfwConf} (hn : IpfwNames cf)
    {sp : SpaData} (hs : IpfwAddr sp.use_src_ip) (hd : IpfwAddr (if cf.use_destination then sp.pkt_destination_ip else b!"me"))
    (now : Int) {s : IpfwSt (Ipfw × List Fate)} (hi : IpfwInv cf s.map s.world.1) (hf : Fate.refused ∉ s.world.2) :
    ∃ s', ipfw_process_spa_request cf (ipfwTool print) sp now s = .ok s' ∧ IpfwInv cf s'.map s'.world.1 ∧
      Fate.refused ∉ s'.world.2 ∧
      (s' = s ∧ (¬ (sp.message_type = 1 ∨ sp.message_type = 3) ∨ ∀ j : Nat, s.map[j]? = some .free → 65535 < cf.start + j) ∨
        (sp.message_type = 1 ∨ sp.message_type = 3) ∧ ∃ i, i < cf.max_rules ∧ (∀ r ∈ s.world.1.rules, r.num ≠ cf.start + i) ∧
          s'.world.1.rules.filter (fun r => r.num ≠ cf.start + i) = s.world.1.rules ∧
          (∀ r ∈ s'.world.1.rules, r ∈ s.world.1.rules ∨ ∃ p ∈ portsRead sp.spa_message_remain [],
            r = ipfwRuleOf print cf sp (cf.start + i) (expTs now sp.fw_access_timeout) p) ∧
          (s.world.2 = [] → ∀ p ∈ portsRead sp.spa_message_remain [],
            ipfwRuleOf print cf sp (cf.start + i) (expTs now sp.fw_access_timeout) p ∈ s'.world.1.rules)) := by
  unfold ipfw_process_spa_request
  by_cases ht : sp.message_type = FKO_ACCESS_MSG ∨ sp.message_type = FKO_CLIENT_TIMEOUT_ACCESS_MSG
  · rw [if_pos ht]
    by_cases h0 : get_next_rule_num cf.start 0 s.map = 0
    · simp only [if_pos h0]
      exact ⟨s, rfl, hi, hf, .inl ⟨rfl, .inr fun j hj => by
        have := next_zero cf.start hn.start1 s.map 0 h0 j hj; omega⟩⟩
    · simp only [if_neg h0]
      obtain ⟨i, h1, h2, h3⟩ := next_free hi hn.start2 h0
      have hlt : i < cf.max_rules := by
        have := (List.getElem?_eq_some_iff.1 h1).1
        rw [hi.len] at this; exact this
      rw [h2]
      obtain ⟨s', g1, g2, g3, _, g5, g6, _, g8, _, _⟩ := ipfwPorts_run hprint hn (sp := sp) ⟨hs, hd⟩ (expTs_lt now sp.fw_access_timeout)
        now hlt h3 (portsRead sp.spa_message_remain []) (portsRead_bounds _ _) s hi hf (.inl h1)
      refine ⟨s', g1, g2, g3, .inr ⟨ht, i, hlt, fun r hr => hi.free i h1 r hr, ?_, g6, g8⟩⟩
      rw [g5]
      apply List.filter_eq_self.2
      intro r hr
      simpa using hi.free i h1 r hr
  · rw [if_neg ht]
    exact ⟨s, rfl, hi, hf, .inl ⟨rfl, .inl ht⟩⟩

theorem expTs_ge {now : Int} {t : Nat} (h1 : 10 ^ 9 ≤ now + t) (h2 : now + t < 2 ^ 32) : 10 ^ 9 ≤ expTs now t := by
  unfold expTs; omega

theorem ipfwReach_inv {print : List Word → List Nat} (hprint : PrintsLines print) {cf : IpfwConf} (hc : IpfwSetup cf)
    {s : IpfwSt (Ipfw × List Fate)} (h : IpfwReach print cf s) :
    IpfwInv cf s.map s.world.1 ∧ Fate.refused ∉ s.world.2 ∧
      ∀ r ∈ s.world.1.rules, r.set = cf.active_set → 95 ∉ r.body ∨ ∃ t, ExpiresAt r.body t := by
  induction h with
  | start hk hi =>
    obtain ⟨s1, h1, h2, h3, h4, _⟩ := ipfw_init_run hprint hc.names hc.flush_at_init hc.flush_at_exit hk
    rw [h1] at hi
    injection hi with hi
    injection hi with hi
    subst hi
    refine ⟨h2, by rw [h3]; simp, fun r hr hs => ?_⟩
    rcases (h4 r).1 hr with ⟨_, h⟩ | ⟨_, rfl⟩
    · exact absurd hs h
    · exact .inl hprint.check.2
  | outside ds fs _ hd hf ih =>
    obtain ⟨hi, _, h⟩ := ih
    exact ⟨⟨hi.len, hi.nomark, hi.free, hi.expired, hi.act, hi.used, hi.active, hi.num, hi.text, hd⟩, hf, h⟩
  | request sp now _ hs hd h1 h2 hr ih =>
    obtain ⟨hi, hf, h⟩ := ih
    obtain ⟨s2, g1, g2, g3, g4⟩ := ipfw_request_run hprint hc.names hs hd now hi hf
    rw [g1] at hr
    injection hr with hr
    subst hr
    refine ⟨g2, g3, ?_⟩
    rcases g4 with ⟨rfl, _⟩ | ⟨_, i, _, _, _, g5, _⟩
    · exact h
    · intro r hr hset
      rcases g5 r hr with hr | ⟨p, hp, rfl⟩
      · exact h r hr hset
      · obtain ⟨b1, b2, b3⟩ := portsRead_bounds _ _ p hp
        exact .inr ⟨_, (hprint.access _ _ _ _ _ hs hd (expTs_lt _ _) b1 (by omega)).2 (expTs_ge h1 h2)⟩
  | check now _ hr ih =>
    obtain ⟨hi, hf, h⟩ := ih
    obtain ⟨s2, g1, g2, g3, g4⟩ := ipfw_check_run (print := print) hc.names hi hf now
    rw [g1] at hr
    injection hr with hr
    subst hr
    refine ⟨g2, g3, ?_⟩
    rcases g4 with g4 | ⟨a, ha, hs, g4⟩
    · rw [g4]; exact h
    · intro r hr hset
      rw [g4] at hr
      obtain ⟨q, hq, hbody⟩ : ∃ q ∈ _, r = if q.num = a.num then { q with set := cf.expire_set } else q := by
        obtain ⟨q, hq, e⟩ := List.mem_map.1 (show r ∈ List.map _ _ from hr)
        exact ⟨q, hq, e.symm⟩
      split at hbody
      · rw [hbody] at hset
        exact absurd hset.symm hc.names.differ
      · rw [hbody] at hset ⊢
        exact h q hq hset
  | purge _ hr ih =>
    obtain ⟨hi, hf, h⟩ := ih
    obtain ⟨s2, g1, g2, g3, _, ⟨p, g5⟩, _⟩ := ipfw_purge_run (print := print) hc.names hi hf
    rw [g1] at hr
    injection hr with hr
    subst hr
    refine ⟨g2, g3, fun r hr => h r ?_⟩
    rw [g5] at hr
    exact (List.mem_filter.1 hr).1

/-- C54 (part): whatever has happened before, a request either changes nothing, or there is a number that no
rule of the firewall has, whatever its set, and all that changes is that rules with this number are added: rules
in the active set that let packets from the source of the request in.  Missing: calls that fail
without being seen to fail (`C54_refused`), firewalls with other rules in the range of numbers
(`C54_foreign`), and rules that are kept when the daemon starts (`C54_kept`). -/
theorem C54_number_partial (print : List Word → List Nat) (hprint : PrintsLines print) (cf : IpfwConf) (hc : IpfwSetup cf)
    (s : IpfwSt (Ipfw × List Fate)) (h : IpfwReach print cf s) (sp : SpaData) (now : Int)
    (hs : IpfwAddr sp.use_src_ip) (hd : IpfwAddr (if cf.use_destination then sp.pkt_destination_ip else b!"me")) :
    ∃ s', ipfw_process_spa_request cf (ipfwTool print) sp now s = .ok s' ∧
      (s'.world.1.rules = s.world.1.rules ∨
        ∃ n, cf.start ≤ n ∧ n < cf.start + cf.max_rules ∧ (∀ r ∈ s.world.1.rules, r.num ≠ n) ∧
          s'.world.1.rules.filter (fun r => r.num ≠ n) = s.world.1.rules ∧
          ∀ r ∈ s'.world.1.rules, r.num = n → r.set = cf.active_set ∧ ∃ e proto port, r.body =
            print (ipfwAccess sp.use_src_ip (if cf.use_destination then sp.pkt_destination_ip else b!"me") e proto port)) := by
  obtain ⟨hi, hf, _⟩ := ipfwReach_inv hprint hc h
  obtain ⟨s', g1, _, _, g4⟩ := ipfw_request_run hprint hc.names hs hd now hi hf
  refine ⟨s', g1, ?_⟩
  rcases g4 with ⟨rfl, _⟩ | ⟨_, i, g5, g6, g7, g8, _⟩
  · exact .inl rfl
  · refine .inr ⟨cf.start + i, by omega, by omega, g6, g7, fun r hr hnum => ?_⟩
    rcases g8 r hr with hr | ⟨p, _, rfl⟩
    · exact absurd hnum (g6 r hr)
    · exact ⟨rfl, _, _, _, rfl⟩

/-- C54 (part): if the calls work and the daemon has a free number, all ports of the request are opened, under
one number that no rule had, until the time at which access ends. -/
theorem C54_opened_partial (print : List Word → List Nat) (hprint : PrintsLines print) (cf : IpfwConf) (hc : IpfwSetup cf)
    (s : IpfwSt (Ipfw × List Fate)) (h : IpfwReach print cf s) (hw : s.world.2 = []) (sp : SpaData) (now : Int)
    (hs : IpfwAddr sp.use_src_ip) (hd : IpfwAddr (if cf.use_destination then sp.pkt_destination_ip else b!"me"))
    (ht : sp.message_type = 1 ∨ sp.message_type = 3) (ps : List (Nat × Nat)) (hp : ProtoPorts sp.spa_message_remain ps)
    (e : Nat) (he : (e : Int) = now + sp.fw_access_timeout) (he2 : e < 2 ^ 32)
    (hfree : ∃ j : Nat, s.map[j]? = some .free ∧ cf.start + j ≤ 65535) :
    ∃ s', ipfw_process_spa_request cf (ipfwTool print) sp now s = .ok s' ∧
      ∃ n, (∀ r ∈ s.world.1.rules, r.num ≠ n) ∧
        ∀ r, r ∈ s'.world.1.rules ↔ r ∈ s.world.1.rules ∨ ∃ p ∈ ps, r = ⟨n, cf.active_set,
          print (ipfwAccess sp.use_src_ip (if cf.use_destination then sp.pkt_destination_ip else b!"me") e p.1 p.2)⟩ := by
  obtain ⟨hi, hf, _⟩ := ipfwReach_inv hprint hc h
  obtain ⟨s', g1, _, _, g4⟩ := ipfw_request_run hprint hc.names hs hd now hi hf
  refine ⟨s', g1, ?_⟩
  rcases g4 with ⟨_, h1 | h1⟩ | ⟨_, i, g5, g6, g7, g8, g9⟩
  · exact absurd ht h1
  · obtain ⟨j, hj, hj2⟩ := hfree
    have := h1 j hj
    omega
  · have hexp : expTs now sp.fw_access_timeout = e := by unfold expTs; omega
    have hports := portsRead_expand _ _ _ (protoPorts_expand hp)
    rw [hexp, hports] at g8 g9
    have key : ∀ p : Nat × Nat, ipfwRuleOf print cf sp (cf.start + i) e ⟨p.1, (p.2 : Int)⟩ = ⟨cf.start + i, cf.active_set,
        print (ipfwAccess sp.use_src_ip (if cf.use_destination then sp.pkt_destination_ip else b!"me") e p.1 p.2)⟩ := fun p => rfl
    refine ⟨cf.start + i, g6, fun r => ⟨fun hr => ?_, fun hr => ?_⟩⟩
    · rcases g8 r hr with hr | ⟨p, hp, rfl⟩
      · exact .inl hr
      · obtain ⟨q, hq, rfl⟩ := List.mem_map.1 hp
        exact .inr ⟨q, hq, rfl⟩
    · rcases hr with hr | ⟨p, hp, rfl⟩
      · rw [← g7] at hr
        exact (List.mem_filter.1 hr).1
      · exact g9 hw _ (List.mem_map.2 ⟨p, hp, rfl⟩)

/-- C54 (part): no history writes outside the daemon's table of rule numbers or another buffer: the next
check and the next purge end normally, like the next request (`C54_number_partial`). -/
theorem C54_safe_partial (print : List Word → List Nat) (hprint : PrintsLines print) (cf : IpfwConf) (hc : IpfwSetup cf)
    (s : IpfwSt (Ipfw × List Fate)) (h : IpfwReach print cf s) (now : Int) :
    (∃ s', ipfw_check_firewall_rules cf (ipfwTool print) now s = .ok s') ∧
    (∃ s', ipfw_purge_expired_rules cf (ipfwTool print) s = .ok s') := by
  obtain ⟨hi, hf, _⟩ := ipfwReach_inv hprint hc h
  obtain ⟨s1, h1, _⟩ := ipfw_check_run (print := print) hc.names hi hf now
  obtain ⟨s2, h2, _⟩ := ipfw_purge_run (print := print) hc.names hi hf
  exact ⟨⟨s1, h1⟩, ⟨s2, h2⟩⟩

/-! ## Expiry -/

/-- C72 (part): whatever has happened before, a check that is due looks at the last rule of the active set only:
if it has expired, all rules with its number are moved to the expire set, and nothing else happens; if it has not,
nothing happens.  Missing: all other rules (`C72_stuck`), active sets whose listing does not fit
the daemon's buffer. -/
theorem C72_last_partial (print : List Word → List Nat) (hprint : PrintsLines print) (cf : IpfwConf) (hc : IpfwSetup cf)
    (s : IpfwSt (Ipfw × List Fate)) (h : IpfwReach print cf s) (hw : s.world.2 = []) (now : Int)
    (last : IpfwRule) (hlast : (s.world.1.rules.filter (·.set = cf.active_set)).getLast? = some last)
    (hfit : (ipfwLines (s.world.1.rules.filter (·.set = cf.active_set))).length ≤ 4095)
    (e : Nat) (he : ExpiresAt last.body e)
    (hact : s.active_rules ≠ 0 ∧ s.active_rules ≤ cf.max_rules) (hdue : s.next_expire ≤ now) :
    ∃ s', ipfw_check_firewall_rules cf (ipfwTool print) now s = .ok s' ∧
      s'.world.1.rules = if (e : Int) ≤ now
        then s.world.1.rules.map (fun r => if r.num = last.num then { r with set := cf.expire_set } else r)
        else s.world.1.rules := by
  obtain ⟨hi, _, hx⟩ := ipfwReach_inv hprint hc h
  obtain ⟨init, hinit⟩ := List.getLast?_eq_some_iff.1 hlast
  obtain ⟨s', h1, _, _, h4, _⟩ := ipfw_check_last (print := print) hc.names hi hw now (init := init) (last := last) hinit hfit
    (fun r hr => by
      obtain ⟨a, b⟩ := of_rules (K := s.world.1) (show r ∈ s.world.1.of cf.active_set from by
        show r ∈ s.world.1.rules.filter (·.set = cf.active_set)
        rw [hinit]; simp [hr])
      exact hx r a b) he hact hdue
  exact ⟨s', h1, by rw [h4]; rfl⟩

/-- A sequence of checks. -/
def ipfwChecks (cf : IpfwConf) (T : Tool (Ipfw × List Fate)) : List Int → IpfwSt (Ipfw × List Fate) →
    Res (IpfwSt (Ipfw × List Fate))
  | [], s => .ok s
  | t :: ts, s => do
    let s ← ipfw_check_firewall_rules cf T t s
    ipfwChecks cf T ts s

/-- C72 is false: as long as the last rule of the active set has not expired, no number of checks takes any other
rule out of service, however long ago it has expired. -/
theorem C72_stuck (print : List Word → List Nat) (hprint : PrintsLines print) (cf : IpfwConf) (hc : IpfwSetup cf)
    (s : IpfwSt (Ipfw × List Fate)) (h : IpfwReach print cf s) (hw : s.world.2 = [])
    (last : IpfwRule) (hlast : (s.world.1.rules.filter (·.set = cf.active_set)).getLast? = some last)
    (hfit : (ipfwLines (s.world.1.rules.filter (·.set = cf.active_set))).length ≤ 4095)
    (e : Nat) (he : ExpiresAt last.body e) (hact : s.active_rules ≤ cf.max_rules)
    (times : List Int) (ht : ∀ t ∈ times, t < e) :
    ipfwChecks cf (ipfwTool print) times s = .ok s := by
  obtain ⟨hi, _, hx⟩ := ipfwReach_inv hprint hc h
  obtain ⟨init, hinit⟩ := List.getLast?_eq_some_iff.1 hlast
  induction times with
  | nil => rfl
  | cons t ts ih =>
    have hlt := ht t List.mem_cons_self
    rw [ipfwChecks]
    have : ipfw_check_firewall_rules cf (ipfwTool print) t s = .ok s := by
      by_cases hz : s.active_rules = 0 ∨ s.next_expire > t
      · unfold ipfw_check_firewall_rules
        simp only [if_neg (show ¬ s.active_rules > cf.max_rules by omega)]
        rw [if_pos hz]
      · obtain ⟨s', h1, _, _, _, h5⟩ := ipfw_check_last (print := print) hc.names hi hw t (init := init) (last := last) hinit hfit
          (fun r hr => by
            obtain ⟨a, b⟩ := of_rules (K := s.world.1) (show r ∈ s.world.1.of cf.active_set from by
              show r ∈ s.world.1.rules.filter (·.set = cf.active_set)
              rw [hinit]; simp [hr])
            exact hx r a b) he ⟨by omega, hact⟩ (by omega)
        rw [h1, h5 (by omega)]
    rw [this, bind_ok]
    exact ih fun u hu => ht u (List.mem_cons_of_mem _ hu)

/-! ## Purging -/

/-- C73 (part): whatever has happened before, a purge deletes only rules of the expire set for
which there is no connection.  Missing: listings that do not fit the daemon's buffer (`C73_truncated`). -/
theorem C73_kept_partial (print : List Word → List Nat) (hprint : PrintsLines print) (cf : IpfwConf) (hc : IpfwSetup cf)
    (s : IpfwSt (Ipfw × List Fate)) (h : IpfwReach print cf s)
    (hfit : (ipfw print [b!"ipfw", b!"-d", b!"set", decimal cf.expire_set, b!"list"] s.world.1).1.length ≤ 4095) :
    ∃ s', ipfw_purge_expired_rules cf (ipfwTool print) s = .ok s' ∧ (∀ r ∈ s'.world.1.rules, r ∈ s.world.1.rules) ∧
      ∀ r ∈ s.world.1.rules, (r.set ≠ cf.expire_set ∨ ∃ d ∈ s.world.1.dyn, d.1 = r.num) → r ∈ s'.world.1.rules := by
  rw [← decStr_decimal, ipfw_listd] at hfit
  obtain ⟨hi, hf, _⟩ := ipfwReach_inv hprint hc h
  obtain ⟨s', h1, _, _, _, ⟨p, h5⟩, h6, h7⟩ := ipfw_purge_run (print := print) hc.names hi hf
  obtain ⟨h8, _⟩ := h7 hfit
  refine ⟨s', h1, fun r hr => ?_, fun r hr hor => ?_⟩
  · rw [h5] at hr; exact (List.mem_filter.1 hr).1
  · apply Classical.byContradiction
    intro hno
    rcases hor with hor | ⟨d, hd, hdn⟩
    · exact hor (h6 r hr hno).1
    · exact h8 r hr hno d hd hdn

/-- C73 (part): if the calls work and there is a connection for some rule of the expire set, a purge deletes
exactly the rules of the expire set with numbers of the daemon for which there is none.  Missing: if
there is no connection at all nothing is deleted (`C73_idle`). -/
theorem C73_purged_partial (print : List Word → List Nat) (hprint : PrintsLines print) (cf : IpfwConf) (hc : IpfwSetup cf)
    (s : IpfwSt (Ipfw × List Fate)) (h : IpfwReach print cf s) (hw : s.world.2 = [])
    (hfit : (ipfw print [b!"ipfw", b!"-d", b!"set", decimal cf.expire_set, b!"list"] s.world.1).1.length ≤ 4095)
    (hconn : ∃ d ∈ s.world.1.dyn, ∃ r ∈ s.world.1.rules, r.set = cf.expire_set ∧ r.num = d.1) :
    ∃ s', ipfw_purge_expired_rules cf (ipfwTool print) s = .ok s' ∧
      ∀ r, r ∈ s'.world.1.rules ↔ r ∈ s.world.1.rules ∧ ¬ (r.set = cf.expire_set ∧ cf.start ≤ r.num ∧
        r.num < cf.start + cf.max_rules ∧ ∀ d ∈ s.world.1.dyn, d.1 ≠ r.num) := by
  rw [← decStr_decimal, ipfw_listd] at hfit
  obtain ⟨hi, hf, _⟩ := ipfwReach_inv hprint hc h
  obtain ⟨s', h1, _, _, _, ⟨p, h5⟩, h6, h7⟩ := ipfw_purge_run (print := print) hc.names hi hf
  obtain ⟨h8, h9⟩ := h7 hfit
  refine ⟨s', h1, fun r => ⟨fun hr => ⟨?_, ?_⟩, fun ⟨hr, hno⟩ => ?_⟩⟩
  · rw [h5] at hr; exact (List.mem_filter.1 hr).1
  · rintro ⟨a, b, c, d⟩
    obtain ⟨x, hx, hxn⟩ := (h9 hw).1 (by
      obtain ⟨d, hd, r, hr, hrs, hrn⟩ := hconn
      refine List.ne_nil_of_mem (a := d) ?_
      simp only [Ipfw.dynOf, Ipfw.of, List.mem_filter, List.any_eq_true, decide_eq_true_eq]
      exact ⟨hd, r, ⟨hr, hrs⟩, hrn⟩) r hr a b c
    exact d x hx hxn
  · apply Classical.byContradiction
    intro hgone
    obtain ⟨a, b, c⟩ := h6 r hr hgone
    exact hno ⟨a, b, c, h8 r hr hgone⟩

/-- C73, other direction, is false: when no rule of the expire set has a connection left, nothing is ever
deleted, however many rules have expired. -/
theorem C73_idle (print : List Word → List Nat) (hprint : PrintsLines print) (cf : IpfwConf) (hc : IpfwSetup cf)
    (s : IpfwSt (Ipfw × List Fate)) (h : IpfwReach print cf s) (hw : s.world.2 = [])
    (hfit : (ipfw print [b!"ipfw", b!"-d", b!"set", decimal cf.expire_set, b!"list"] s.world.1).1.length ≤ 4095)
    (hnone : ∀ d ∈ s.world.1.dyn, ∀ r ∈ s.world.1.rules, r.set = cf.expire_set → r.num ≠ d.1) :
    ∃ s', ipfw_purge_expired_rules cf (ipfwTool print) s = .ok s' ∧ s'.world.1.rules = s.world.1.rules := by
  rw [← decStr_decimal, ipfw_listd] at hfit
  obtain ⟨hi, hf, _⟩ := ipfwReach_inv hprint hc h
  obtain ⟨s', h1, _, _, _, _, _, h7⟩ := ipfw_purge_run (print := print) hc.names hi hf
  refine ⟨s', h1, ((h7 hfit).2 hw).2 ?_⟩
  simp only [Ipfw.dynOf, Ipfw.of, List.filter_eq_nil_iff, List.any_eq_true, List.mem_filter, decide_eq_true_eq, not_exists, not_and]
  exact fun d hd r ⟨hr, hs⟩ => hnone d hd r hr hs

/-! ## A concrete firewall -/

/-- A way of printing rules. -/
def ipfwShow (ws : List Word) : List Nat := (ws.intersperse [32]).flatten

theorem ipfwShow_access (src dst : Word) (e proto port : Nat) : ipfwShow (ipfwAccess src dst e proto port) =
    (b!"pass " ++ decimal proto ++ b!" from " ++ src ++ b!" to " ++ dst ++ b!" dst-port " ++ decimal port
      ++ b!" setup keep-state // ") ++ b!"_exp_" ++ decimal e := by
  simp [ipfwShow, ipfwAccess, List.intersperse]

/-- It is as required. -/
theorem ipfwShow_lines : PrintsLines ipfwShow := by
  have hlen : ∀ n, n < 10 ^ 10 → (decimal n).length ≤ 10 := fun n h => by
    rw [← decStr_decimal]; exact decStr_length_le n 10 (by decide) h
  refine ⟨fun src dst e proto port hs hd he hp hq => ⟨?_, fun h1 => ⟨_, ?_, ipfwShow_access .., h1, by omega⟩⟩, ?_⟩
  · rw [ipfwShow_access]
    obtain ⟨s1, s2, s3, s4⟩ := hs
    obtain ⟨d1, d2, d3, d4⟩ := hd
    have a : ∀ n, 10 ∉ decimal n := decimal_no (by decide)
    have b : ∀ n, 35 ∉ decimal n := decimal_no (by decide)
    have p1 : 10 ∉ src := fun h => s1.2 10 h (by unfold IsBlank; decide)
    have p2 : 10 ∉ dst := fun h => d1.2 10 h (by unfold IsBlank; decide)
    have l1 := hlen e (by omega)
    have l2 := hlen proto (by omega)
    have l3 := hlen port (by omega)
    refine ⟨by simp [a, p1, p2], by simp [b, s3, d3], ?_⟩
    simp only [List.length_append, List.length_cons, List.length_nil]
    omega
  · have c : ∀ n, 95 ∉ decimal n := decimal_no (by decide)
    simp [c, hs.2.2.2, hd.2.2.2]
  · unfold OneLine; decide

/-- A configuration. -/
def ipfwCf : IpfwConf := { fw_command := b!"/sbin/ipfw", max_rules := 10, use_destination := false, flush_at_init := true, flush_at_exit := true, check_state := true }

theorem ipfwCf_setup : IpfwSetup ipfwCf := by
  refine ⟨⟨?_, ?_, ?_, ?_, ?_, ?_, ?_, ?_, ?_, ?_⟩, rfl, rfl⟩ <;> first | decide | (unfold PlainWord IsBlank; decide)

/-- A firewall with a rule of the administrator and two rules that an earlier run of the daemon has left. -/
def ipfwK0 : Ipfw :=
  { rules := [⟨100, 0, b!"allow ip from any to any via lo0"⟩, ⟨10001, 1, b!"pass 6 from 9.9.9.9 to me dst-port 22 setup keep-state // _exp_1600000000"⟩,
      ⟨10003, 2, b!"pass 6 from 8.8.8.8 to me dst-port 22 setup keep-state // _exp_1500000000"⟩],
    dyn := [(10003, b!"5 900 (295s) STATE tcp 8.8.8.8 4000 <-> 7.7.7.7 22")] }

theorem ipfwK0_clean : IpfwClean ipfwCf ipfwK0 := by
  refine ⟨by decide, by decide, ?_, by decide, by decide +kernel, by decide⟩
  unfold OneLine
  decide

/-- A request. -/
def ipfwSp (src : Str) (timeout : Nat) : SpaData :=
  { message_type := 1, spa_message_remain := b!"tcp/22,udp/53", use_src_ip := src, fw_access_timeout := timeout }

abbrev IpfwW := IpfwSt (Ipfw × List Fate)

/-- The state an operation ends in. -/
def ipfwEnd : Res IpfwW → IpfwW
  | .ok s => s
  | _ => ⟨[], 0, 0, (⟨[], [], []⟩, [])⟩

def ipfwRequest (src : Str) (timeout : Nat) (now : Int) (s : IpfwW) : Res IpfwW :=
  ipfw_process_spa_request ipfwCf (ipfwTool ipfwShow) (ipfwSp src timeout) now s

/-- The daemon starts on `ipfwK0`; there is a request for 3600 seconds and, later, one for 30 seconds; then it
is checked, and purged while there is a connection. -/
def ipfwS1 : IpfwW := ipfwEnd (do
  match ← ipfw_initialize ipfwCf (ipfwTool ipfwShow) (ipfwK0, []) with
  | some s => return s
  | none => .err)
def ipfwS2 : IpfwW := ipfwEnd (ipfwRequest b!"1.2.3.4" 3600 1700000000 ipfwS1)
def ipfwS3 : IpfwW := ipfwEnd (ipfwRequest b!"1.2.3.5" 30 1700003000 ipfwS2)
def ipfwS4 : IpfwW := ipfwEnd (ipfw_check_firewall_rules ipfwCf (ipfwTool ipfwShow) 1700003600 ipfwS3)
def ipfwS5 : IpfwW := ipfwEnd (ipfw_purge_expired_rules ipfwCf (ipfwTool ipfwShow) ipfwS4)

theorem ipfwAddr_me : IpfwAddr (if ipfwCf.use_destination then (ipfwSp b!"1.2.3.4" 0).pkt_destination_ip else b!"me") := by
  unfold IpfwAddr PlainWord IsBlank; decide

theorem ipfwS1_reach : IpfwReach ipfwShow ipfwCf ipfwS1 := .start ipfwK0_clean (by decide +kernel)
theorem ipfwS2_reach : IpfwReach ipfwShow ipfwCf ipfwS2 :=
  .request (ipfwSp b!"1.2.3.4" 3600) 1700000000 ipfwS1_reach (by unfold IpfwAddr PlainWord IsBlank; decide) ipfwAddr_me
    (by decide) (by decide) (by decide +kernel)
theorem ipfwS3_reach : IpfwReach ipfwShow ipfwCf ipfwS3 :=
  .request (ipfwSp b!"1.2.3.5" 30) 1700003000 ipfwS2_reach (by unfold IpfwAddr PlainWord IsBlank; decide) ipfwAddr_me
    (by decide) (by decide) (by decide +kernel)
theorem ipfwS4_reach : IpfwReach ipfwShow ipfwCf ipfwS4 := .check 1700003600 ipfwS3_reach (by decide +kernel)
theorem ipfwS5_reach : IpfwReach ipfwShow ipfwCf ipfwS5 := .purge ipfwS4_reach (by decide +kernel)

-- What happens: the rule with number 10002 has expired and is moved, and purged since it has no connection.
example : ipfwS3.world.1.rules.map (fun r => (r.num, r.set)) =
    [(100, 0), (10000, 1), (10001, 1), (10001, 1), (10002, 1), (10002, 1), (10003, 2)] := by decide +kernel
example : ipfwS4.world.1.rules.map (fun r => (r.num, r.set)) =
    [(100, 0), (10000, 1), (10001, 1), (10001, 1), (10002, 2), (10002, 2), (10003, 2)] := by decide +kernel
example : ipfwS5.world.1.rules.map (fun r => (r.num, r.set)) =
    [(100, 0), (10000, 1), (10001, 1), (10001, 1), (10003, 2)] := by decide +kernel

-- The hypotheses of the theorems are met.
example := C54_number_partial ipfwShow ipfwShow_lines ipfwCf ipfwCf_setup ipfwS5 ipfwS5_reach (ipfwSp b!"1.2.3.6" 30) 1700003700
  (by unfold IpfwAddr PlainWord IsBlank; decide) ipfwAddr_me
example := C54_opened_partial ipfwShow ipfwShow_lines ipfwCf ipfwCf_setup ipfwS5 ipfwS5_reach (by decide +kernel)
  (ipfwSp b!"1.2.3.6" 30) 1700003700 (by unfold IpfwAddr PlainWord IsBlank; decide) ipfwAddr_me (by decide) [(6, 22), (17, 53)]
  ⟨[([], b!"tcp/22", (6, 22)), ([], b!"udp/53", (17, 53))], by decide, by
    intro i hi
    simp only [List.mem_cons, List.not_mem_nil, or_false] at hi
    rcases hi with rfl | rfl
    · exact ⟨by simp, b!"tcp", b!"22", by decide, by decide, by decide, by unfold IsDigitChar; decide, by decide, by decide, by decide⟩
    · exact ⟨by simp, b!"udp", b!"53", by decide, by decide, by decide, by unfold IsDigitChar; decide, by decide, by decide, by decide⟩, by decide, by decide⟩
  1700003730 (by decide) (by decide) ⟨2, by decide +kernel, by decide⟩
example := C72_last_partial ipfwShow ipfwShow_lines ipfwCf ipfwCf_setup ipfwS3 ipfwS3_reach (by decide +kernel) 1700003600
  ⟨10002, 1, b!"pass 17 from 1.2.3.5 to me dst-port 53 setup keep-state // _exp_1700003030"⟩ (by decide +kernel) (by decide +kernel)
  1700003030 ⟨b!"pass 17 from 1.2.3.5 to me dst-port 53 setup keep-state // ", by decide, by decide +kernel, by decide, by decide⟩
  (by decide +kernel) (by decide +kernel)
example := C73_kept_partial ipfwShow ipfwShow_lines ipfwCf ipfwCf_setup ipfwS4 ipfwS4_reach (by decide +kernel)
example := C73_purged_partial ipfwShow ipfwShow_lines ipfwCf ipfwCf_setup ipfwS4 ipfwS4_reach (by decide +kernel) (by decide +kernel)
  (by decide +kernel)

/-- A rule that stays: the request for 3600 seconds comes second. -/
def ipfwT2 : IpfwW := ipfwEnd (ipfwRequest b!"1.2.3.4" 30 1700000000 ipfwS1)
def ipfwT3 : IpfwW := ipfwEnd (ipfwRequest b!"1.2.3.5" 3600 1700000010 ipfwT2)

theorem ipfwT3_reach : IpfwReach ipfwShow ipfwCf ipfwT3 :=
  .request (ipfwSp b!"1.2.3.5" 3600) 1700000010
    (.request (s' := ipfwT2) (ipfwSp b!"1.2.3.4" 30) 1700000000 ipfwS1_reach (by unfold IpfwAddr PlainWord IsBlank; decide) ipfwAddr_me
      (by decide) (by decide) (by decide +kernel))
    (by unfold IpfwAddr PlainWord IsBlank; decide) ipfwAddr_me (by decide) (by decide) (by decide +kernel)

/-- C72 is false, on a concrete firewall: access was granted for 30 seconds, and is still open after any
checks in the following 3000 seconds. -/
theorem C72_stuck_example (times : List Int) (ht : ∀ t ∈ times, t < 1700003610) :
    ⟨10001, 1, b!"pass 6 from 1.2.3.4 to me dst-port 22 setup keep-state // _exp_1700000030"⟩ ∈ ipfwT3.world.1.rules ∧
    ipfwChecks ipfwCf (ipfwTool ipfwShow) times ipfwT3 = .ok ipfwT3 :=
  ⟨by decide +kernel, C72_stuck ipfwShow ipfwShow_lines ipfwCf ipfwCf_setup ipfwT3 ipfwT3_reach (by decide +kernel)
    ⟨10002, 1, b!"pass 17 from 1.2.3.5 to me dst-port 53 setup keep-state // _exp_1700003610"⟩ (by decide +kernel) (by decide +kernel)
    1700003610 ⟨b!"pass 17 from 1.2.3.5 to me dst-port 53 setup keep-state // ", by decide, by decide +kernel, by decide, by decide⟩
    (by decide +kernel) times ht⟩

/-- The connection ends. -/
def ipfwU4 : IpfwW := { ipfwS4 with world := ({ ipfwS4.world.1 with dyn := [] }, []) }
theorem ipfwU4_reach : IpfwReach ipfwShow ipfwCf ipfwU4 := .outside [] [] ipfwS4_reach (by simp) (by simp)

-- Three rules of the expire set have no connection, and a purge leaves them.
example : (ipfwU4.world.1.rules.filter (·.set = 2)).length = 3 ∧
    ∃ s', ipfw_purge_expired_rules ipfwCf (ipfwTool ipfwShow) ipfwU4 = .ok s' ∧ s'.world.1.rules = ipfwU4.world.1.rules :=
  ⟨by decide +kernel, C73_idle ipfwShow ipfwShow_lines ipfwCf ipfwCf_setup ipfwU4 ipfwU4_reach (by decide +kernel) (by decide +kernel)
    (by decide +kernel)⟩

/-! ## Numbers that are given out twice -/

/-- C54 is false if ipfw exits with an error message when a rule is to be moved: the daemon takes no notice,
gives the number up at the next purge, and gives it out again while the rule is active. -/
theorem C54_refused :
    let s1 := ipfwEnd (ipfwRequest b!"1.2.3.4" 30 1700000000 { ipfwS1 with world := ({ ipfwS1.world.1 with rules := [] }, []) })
    let s2 := ipfwEnd (ipfw_check_firewall_rules ipfwCf (ipfwTool ipfwShow) 1700000100 { s1 with world := (s1.world.1, [.works, .refused]) })
    let s3 := ipfwEnd (ipfw_purge_expired_rules ipfwCf (ipfwTool ipfwShow) s2)
    let s4 := ipfwEnd (ipfwRequest b!"1.2.3.5" 30 1700000200 s3)
    s4.world.1.rules.map (fun r => (r.num, r.set, r.body.take 19)) =
      [(10001, 1, b!"pass 6 from 1.2.3.4"), (10001, 1, b!"pass 17 from 1.2.3."), (10001, 1, b!"pass 6 from 1.2.3.5"), (10001, 1, b!"pass 17 from 1.2.3.")] := by
  decide +kernel

/-- C54 is false if the administrator has a rule in the range of numbers: it is not looked at when the daemon
starts, gets company, and is moved to the expire set when the access ends. -/
theorem C54_foreign :
    let K : Ipfw := { rules := [⟨10001, 0, b!"allow tcp from any to me 80"⟩] }
    let s1 := ipfwEnd (do
      match ← ipfw_initialize ipfwCf (ipfwTool ipfwShow) (K, []) with
      | some s => return s
      | none => .err)
    let s2 := ipfwEnd (ipfwRequest b!"1.2.3.4" 30 1700000000 s1)
    let s3 := ipfwEnd (ipfw_check_firewall_rules ipfwCf (ipfwTool ipfwShow) 1700000100 s2)
    ((⟨10001, 0, b!"allow tcp from any to me 80"⟩ : IpfwRule) ∈ s2.world.1.rules ∧
      (⟨10001, 1, b!"pass 6 from 1.2.3.4 to me dst-port 22 setup keep-state // _exp_1700000030"⟩ : IpfwRule) ∈ s2.world.1.rules) ∧
    (⟨10001, 2, b!"allow tcp from any to me 80"⟩ : IpfwRule) ∈ s3.world.1.rules := by
  decide +kernel

/-- C54 is false if FLUSH_IPFW_AT_INIT is on and FLUSH_IPFW_AT_EXIT is off: nothing is flushed when the daemon
starts, and the rules in the active set get company. -/
theorem C54_kept :
    let cf := { ipfwCf with flush_at_exit := false }
    let K : Ipfw := { rules := [⟨10001, 1, b!"pass 6 from 9.9.9.9 to me dst-port 22 setup keep-state // _exp_1800000000"⟩] }
    let s1 := ipfwEnd (do
      match ← ipfw_initialize cf (ipfwTool ipfwShow) (K, []) with
      | some s => return s
      | none => .err)
    let s2 := ipfwEnd (ipfw_process_spa_request cf (ipfwTool ipfwShow) (ipfwSp b!"1.2.3.4" 30) 1700000000 s1)
    (⟨10001, 1, b!"pass 6 from 9.9.9.9 to me dst-port 22 setup keep-state // _exp_1800000000"⟩ : IpfwRule) ∈ s2.world.1.rules ∧
    (⟨10001, 1, b!"pass 6 from 1.2.3.4 to me dst-port 22 setup keep-state // _exp_1700000030"⟩ : IpfwRule) ∈ s2.world.1.rules := by
  decide +kernel

/-- C73 is false if the listing does not fit the daemon's buffer: the rule 10003 has a connection, which is listed
behind those of the rule 10002, and is deleted. -/
theorem C73_truncated :
    let s : IpfwW := { ipfwS4 with world := ({ ipfwS4.world.1 with
      dyn := List.replicate 80 (10002, b!"5 900 (295s) STATE tcp 1.2.3.5 4000 <-> 7.7.7.7 22") ++
        [(10003, b!"5 900 (295s) STATE tcp 8.8.8.8 4000 <-> 7.7.7.7 22")] }, []) }
    (ipfwEnd (ipfw_purge_expired_rules ipfwCf (ipfwTool ipfwShow) s)).world.1.rules.map (fun r => (r.num, r.set)) =
      [(100, 0), (10000, 1), (10001, 1), (10001, 1), (10002, 2), (10002, 2)] := by
  decide +kernel

end Fwknop.Props
