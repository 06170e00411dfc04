import Verif.Lemmas.DaemonRules
import Verif.Props.CmdCycle

/-!
# Lemmas: what the daemon does outside, and why
-/

namespace Fwknop

open Spec Res Props

/-! ## Deeds -/

/-- The stanzas at their places are the configured ones, or marked as expired. -/
def MarkedAt (S l : List Stanza) : Prop := ∀ (k : Nat) (acc : Stanza), l[k]? = some acc →
  ∃ acc0, S[k]? = some acc0 ∧ (acc = acc0 ∨ acc = { acc0 with expired := true } ∧ 0 < acc0.access_expire_time)

theorem MarkedAt.refl (S : List Stanza) : MarkedAt S S := fun _ acc h => ⟨acc, h, .inl rfl⟩

theorem MarkedAt.step {conf : Conf} {E : Env} {now : Int} {p : Pkt} {open_ok : Nat → Bool} {sv sv' : Server} {effs : List Effect} {S : List Stanza}
    (h : incoming_spa conf E now p open_ok sv = .ok (sv', effs)) (hm : MarkedAt S sv.stanzas) : MarkedAt S sv'.stanzas := by
  intro k acc hk
  obtain ⟨hl, hs⟩ := incoming_stanzas h
  have hlt : k < sv.stanzas.length := by
    have := (List.getElem?_eq_some_iff.1 hk).1
    omega
  obtain ⟨acc2, hk2, hor2⟩ := hs k _ (List.getElem?_eq_getElem hlt)
  rw [hk] at hk2
  cases hk2
  obtain ⟨acc0, h0, hor⟩ := hm _ _ (List.getElem?_eq_getElem hlt)
  refine ⟨acc0, h0, ?_⟩
  rcases hor with h1 | ⟨h1, ht⟩ <;> rcases hor2 with h2 | ⟨h2, he⟩
  · exact .inl (by rw [h2, h1])
  · exact .inr ⟨by rw [h2, h1], by rw [← h1]; exact he.1⟩
  · exact .inr ⟨by rw [h2, h1], ht⟩
  · exact .inr ⟨by rw [h2, h1], ht⟩

theorem MarkedAt.keys {S l : List Stanza} (h : MarkedAt S l) (hk : ∀ acc ∈ S, KeysOk acc) : ∀ acc ∈ l, KeysOk acc := by
  intro acc ha
  obtain ⟨k, hk'⟩ := List.mem_iff_getElem?.1 ha
  obtain ⟨acc0, h0, hor⟩ := h k acc hk'
  have := hk acc0 (List.mem_of_getElem? h0)
  rcases hor with rfl | ⟨rfl, _⟩ <;> exact this

/-! ## The pending closings -/

theorem roomy_loop {v : CycleVals} (hv : v.ip.length ≤ 20 ∧ v.pkt_src.length ≤ 20 ∧ v.dst.length ≤ 20 ∧ v.port.length ≤ 20 ∧ v.proto.length ≤ 20 ∧
      v.timeout.length ≤ 20 ∧ v.client_timeout.length ≤ 20) (t : Str) : ∀ (fuel i idx : Nat) (buf : Str),
    idx + (t.drop i).length + 20 * (t.drop i).count 36 ≤ 255 → buildLoop v t fuel i idx buf ≠ .ok none
  | 0, i, idx, buf, _ => by rw [buildLoop]; intro h; cases h
  | fuel + 1, i, idx, buf, hb => by
    rw [buildLoop]
    by_cases hi : i < min t.length CMD_CYCLE_BUFSIZE
    case neg => rw [if_neg hi]; intro h; cases h
    rw [if_pos hi]
    have hit : i < t.length := by omega
    have hd : t.drop i = t.getD i 0 :: t.drop (i + 1) := by
      rw [List.getD_eq_getElem?_getD, List.getElem?_eq_getElem hit]
      exact List.drop_eq_getElem_cons hit
    by_cases h36 : t.getD i 0 = 36
    · rw [if_pos h36]
      rw [hd, h36, List.count_cons_self, List.length_cons] at hb
      cases hc : cycleVar v (t.drop (i + 1)) with
      | none => exact roomy_loop hv t fuel (i + 1) idx buf (by omega)
      | some q =>
        obtain ⟨n, x⟩ := q
        have hx : x.length ≤ 20 := by
          unfold cycleVar at hc
          repeat' (split at hc; · cases hc; omega)
          cases hc
        refine roomy_loop hv t fuel (i + n + 1) (idx + x.length) _ ?_
        have e : t.drop (i + n + 1) = (t.drop (i + 1)).drop n := by rw [List.drop_drop]; congr 1; omega
        rw [e]
        have h1 := List.Sublist.count_le 36 (List.drop_sublist n (t.drop (i + 1)))
        have h2 := (List.drop_sublist n (t.drop (i + 1))).length_le
        omega
    · rw [if_neg h36]
      rw [hd, List.count_cons_of_ne (fun h => h36 h), List.length_cons] at hb
      intro h
      obtain ⟨_, _, h⟩ := bind_eq_ok h
      rw [if_neg (by show ¬ idx + 1 = 256; omega)] at h
      exact roomy_loop hv t fuel (i + 1) (idx + 1) _ (by omega) h

theorem roomy_build {sp : SpaData} (hs : sp.use_src_ip.length ≤ 20 ∧ sp.pkt_source_ip.length ≤ 20 ∧ sp.pkt_destination_ip.length ≤ 20) {t : Str} (ht : Roomy t) {timer : Int}
    (hp : expand_acc_port_list sp.spa_message_remain ≠ none) : build_cmd sp t timer ≠ .ok none := by
  unfold build_cmd
  split
  · rename_i h; exact absurd h hp
  · intro h; cases h
  · refine roomy_loop ⟨hs.1, hs.2.1, hs.2.2, ?_, ?_, ?_, ?_⟩ t _ _ _ _ (by rw [List.drop_zero, Nat.zero_add]; exact ht) <;>
    · unfold cycleVals
      dsimp only
      rw [List.length_take]
      omega

theorem Spec.Scheduled.append {S : List Stanza} {es es' : List CycleEnt} {ds ds' : List Deed} (h : Scheduled S es ds) (h' : Scheduled S es' ds') :
    Scheduled S (es ++ es') (ds ++ ds') := by
  induction h with
  | nil => exact h'
  | cycle acc e asked h1 h2 h3 h4 _ ih => exact .cycle acc e asked h1 h2 h3 h4 ih
  | «open» acc h1 h2 _ ih => exact .open acc h1 h2 ih
  | long acc h1 h2 h3 _ ih => exact .long acc h1 h2 h3 ih
  | other d h1 _ ih => exact .other d h1 ih

/-- The timers fit. -/
def TimersOk (S : List Stanza) : Prop := ∀ acc ∈ S, 0 ≤ acc.cmd_cycle_timer ∧ acc.cmd_cycle_timer < 2 ^ 32

theorem act_list {conf : Conf} {now : Int} {acc : Stanza} {n : Nat} {sp : SpaData} {l : List CycleEnt} {r : Acted} {S : List Stanza} {acc0 : Stanza}
    (hs : sp.use_src_ip.length ≤ 20 ∧ sp.pkt_source_ip.length ≤ 20 ∧ sp.pkt_destination_ip.length ≤ 20)
    (hS : stanzaAt S n = some acc0) (hT : TimersOk S) (ha : acc = acc0 ∨ acc = { acc0 with expired := true })
    (h : act conf now acc n sp l = .ok r) :
    ∃ new, r.cycles = l ++ new ∧ Scheduled S new (r.effects.map (.effect now)) := by
  have e1 : acc.cmd_cycle_do_close = acc0.cmd_cycle_do_close := by rcases ha with rfl | rfl <;> rfl
  have e2 : acc.cmd_cycle_timer = acc0.cmd_cycle_timer := by rcases ha with rfl | rfl <;> rfl
  have e3 : acc.cmd_cycle_close = acc0.cmd_cycle_close := by rcases ha with rfl | rfl <;> rfl
  have ht := hT acc0 (List.mem_of_getElem? hS)
  unfold act at h
  split at h
  · unfold actCycle at h
    obtain ⟨r1, h1, h⟩ := bind_eq_ok h
    cases h
    unfold cmd_cycle_open at h1
    obtain ⟨b, hb, h1⟩ := bind_eq_ok h1
    cases b with
    | none => cases h1; exact ⟨[], by simp, .nil⟩
    | some cmd =>
      have hp : expand_acc_port_list sp.spa_message_remain ≠ none := by
        intro hn
        unfold build_cmd at hb
        rw [hn] at hb
        cases hb
      dsimp only at h1
      split at h1
      · rename_i hdc
        obtain ⟨r2, h2, h1⟩ := bind_eq_ok h1
        unfold add_cmd_close at h2
        obtain ⟨b2, hb2, h2⟩ := bind_eq_ok h2
        cases b2 with
        | none =>
          cases h2
          cases h1
          refine ⟨[], by simp, .long acc0 hS (by rw [← e1]; exact hdc) ?_ .nil⟩
          intro hroom
          rw [e3] at hb2
          exact roomy_build hs hroom hp hb2
        | some c =>
          cases h2
          cases h1
          refine ⟨_, rfl, .cycle acc0 _ sp.client_timeout hS (by rw [← e1]; exact hdc) rfl ?_ .nil⟩
          show now + cycleTime sp acc.cmd_cycle_timer = _
          unfold cycleTime
          rw [e2, Int.emod_eq_of_lt ht.1 ht.2]
      · rename_i hdc
        cases h1
        exact ⟨[], by simp, .open acc0 hS (by rw [← e1]; simpa using hdc) .nil⟩
  · split at h
    · unfold actCommand at h
      obtain ⟨x, _, h⟩ := bind_eq_ok h
      cases x with
      | none => cases h; exact ⟨[], by simp, .nil⟩
      | some x => cases h; exact ⟨[], by simp, .other _ (by intro _ _ _ h; cases h) .nil⟩
    · cases h
      unfold actAccess
      split
      · exact ⟨[], by simp, .nil⟩
      · split
        · exact ⟨[], by simp, .nil⟩
        · exact ⟨[], by simp, .other _ (by intro _ _ _ h; cases h) .nil⟩

theorem loop_list {conf : Conf} {E : Env} {now : Int} {p : Pkt} {proxy text : Str} {digest : Option Str} {open_ok : Nat → Bool}
    (hrec : Received conf p text proxy) {S : List Stanza} (hT : TimersOk S) :
    ∀ (stanzas : List Stanza) (n : Nat) (s : Loop) {st' : List Stanza} {s' : Loop}, (∀ acc ∈ stanzas, KeysOk acc) →
    (∀ (k : Nat) acc, stanzas[k]? = some acc → ∃ acc0, stanzaAt S (n + k) = some acc0 ∧ (acc = acc0 ∨ acc = { acc0 with expired := true })) →
    stanzaLoop conf E now p (addrsOf p proxy) text digest open_ok n stanzas s = .ok (st', s') →
    ∃ new ne, s'.cycles = s.cycles ++ new ∧ s'.effects = s.effects ++ ne ∧ Scheduled S new (ne.map (.effect now))
  | [], n, s, st', s', _, _, h => by cases h; exact ⟨[], [], by simp, by simp, .nil⟩
  | acc :: rest, n, s, st', s', hk, hm, h => by
    unfold stanzaLoop at h
    obtain ⟨⟨acc', s1, stop⟩, h1, h⟩ := bind_eq_ok h
    have hstep : ∃ new ne, s1.cycles = s.cycles ++ new ∧ s1.effects = s.effects ++ ne ∧ Scheduled S new (ne.map (.effect now)) := by
      rcases try_cases (hk acc List.mem_cons_self) h1 with ⟨e1, e2, _⟩ | ⟨c, sp, r, hA, e1, e2, _⟩
      · exact ⟨[], [], by simp [e2], by simp [e1], .nil⟩
      · obtain ⟨acc0, hS, ha⟩ := hm 0 acc rfl
        obtain ⟨-, ip, rst, hmsg, -, rfl, -⟩ := acting_request (hk acc List.mem_cons_self) hA
        have l1 := (isIPv4_length (grantee_ipv4 hrec hmsg)).2
        have l2 := (isIPv4_length (ntop_ipv4 p.src_ip)).2
        have l3 := (isIPv4_length (ntop_ipv4 p.dst_ip)).2
        obtain ⟨new, e3, hn⟩ := act_list ⟨by show (grantee (inet_ntop p.src_ip) proxy ip).length ≤ 20; omega, by show (inet_ntop p.src_ip).length ≤ 20; omega,
          by show (inet_ntop p.dst_ip).length ≤ 20; omega⟩ hS hT ha hA.acted
        exact ⟨new, r.effects, by rw [e2, e3], e1, hn⟩
    obtain ⟨new, ne, e1, e2, hn⟩ := hstep
    dsimp only at h
    split at h
    · cases h; exact ⟨new, ne, e1, e2, hn⟩
    · obtain ⟨⟨st2, s2⟩, h2, h⟩ := bind_eq_ok h
      cases h
      obtain ⟨new2, ne2, e3, e4, hn2⟩ := loop_list hrec hT rest (n + 1) s1 (fun a ha => hk a (List.mem_cons_of_mem _ ha))
        (fun k a hka => by
          have := hm (k + 1) a (by simpa using hka)
          rwa [show n + (k + 1) = n + 1 + k by omega] at this) h2
      exact ⟨new ++ new2, ne ++ ne2, by rw [e3, e1, List.append_assoc], by rw [e4, e2, List.append_assoc], by rw [List.map_append]; exact hn.append hn2⟩

theorem incoming_list {conf : Conf} {E : Env} {now : Int} {p : Pkt} {open_ok : Nat → Bool} {sv sv' : Server} {effs : List Effect} {S : List Stanza}
    (hT : TimersOk S) (hm : MarkedAt S sv.stanzas) (hk : ∀ acc ∈ sv.stanzas, KeysOk acc) (h : incoming_spa conf E now p open_ok sv = .ok (sv', effs)) :
    ∃ new, sv'.cycles = sv.cycles ++ new ∧ Scheduled S new (effs.map (.effect now)) := by
  rcases incoming_cases h with ⟨rfl, rfl⟩ | ⟨text, proxy, d, hrec, _, hp⟩
  · exact ⟨[], by simp, .nil⟩
  · unfold process at hp
    obtain ⟨r, hl, hp⟩ := bind_eq_ok hp
    cases hp
    obtain ⟨new, ne, e1, e2, hn⟩ := loop_list hrec hT sv.stanzas 1 _ hk (fun k acc hka => by
      obtain ⟨acc0, h0, hor⟩ := hm k acc hka
      refine ⟨acc0, ?_, hor.imp id And.left⟩
      unfold stanzaAt
      rw [Nat.add_sub_cancel_left]
      exact h0) hl
    refine ⟨new, e1, ?_⟩
    rw [e2]
    simpa using hn

variable {σ : Type}

theorem upkeep_srv {D : DConf} {T : Tool σ} {now : Int} {d d' : Daemon σ} {l : List Deed} (hr : upkeep D T now d = .ok (d', l)) :
    d'.srv.stanzas = d.srv.stanzas ∧ (∀ now' e, .effect now' e ∉ l) ∧
    (D.conf.test = false → d'.srv.cycles = d.srv.cycles.filter (fun e => !decide (e.expire ≤ now)) ∧
      l = (d.srv.cycles.filter (fun e => decide (e.expire ≤ now))).map (.closed now)) := by
  unfold upkeep at hr
  split at hr
  · rename_i ht
    cases hr
    exact ⟨rfl, by simp, fun h => by rw [h] at ht; cases ht⟩
  · obtain ⟨⟨s, n⟩, _, hr⟩ := bind_eq_ok hr
    obtain ⟨⟨cy, cl⟩, h2, hr⟩ := bind_eq_ok hr
    cases hr
    rw [cmd_cycle_close_eq] at h2
    cases h2
    exact ⟨rfl, by simp, fun _ => ⟨rfl, rfl⟩⟩

theorem receive_srv {D : DConf} {E : Env} {T : Tool σ} {now : Int} {p : Pkt} {o : Nat → Bool} {d d' : Daemon σ} {l : List Deed}
    (hr : receive D E T now p o d = .ok (d', l)) :
    ∃ effs, incoming_spa D.conf E now p o d.srv = .ok (d'.srv, effs) ∧ l = effs.map (.effect now) := by
  unfold receive at hr
  obtain ⟨⟨sv, effs⟩, hi, hr⟩ := bind_eq_ok hr
  obtain ⟨s, _, hr⟩ := bind_eq_ok hr
  cases hr
  exact ⟨effs, hi, rfl⟩

theorem acts_upkeep {D : DConf} {E : Env} {T : Tool σ} {now : Int} {as : List Act} {d d' : Daemon σ} {l : List Deed}
    (h : acts D E T (.upkeep now :: as) d = .ok (d', l)) :
    ∃ d1 l1 l2, upkeep D T now d = .ok (d1, l1) ∧ acts D E T as d1 = .ok (d', l2) ∧ l = l1 ++ l2 := by
  obtain ⟨⟨d1, l1⟩, h1, hr⟩ := bind_eq_ok (show (upkeep D T now d >>= fun r => (acts D E T as r.1 >>= fun q => pure (q.1, r.2 ++ q.2))) = .ok (d', l) from h)
  obtain ⟨⟨d2, l2⟩, h2, hr⟩ := bind_eq_ok hr
  cases hr
  exact ⟨d1, l1, l2, h1, h2, rfl⟩

theorem acts_packet {D : DConf} {E : Env} {T : Tool σ} {now : Int} {p : Pkt} {o : Nat → Bool} {as : List Act} {d d' : Daemon σ} {l : List Deed}
    (h : acts D E T (.packet now p o :: as) d = .ok (d', l)) :
    ∃ d1 l1 l2, receive D E T now p o d = .ok (d1, l1) ∧ acts D E T as d1 = .ok (d', l2) ∧ l = l1 ++ l2 := by
  obtain ⟨⟨d1, l1⟩, h1, hr⟩ := bind_eq_ok (show (receive D E T now p o d >>= fun r => (acts D E T as r.1 >>= fun q => pure (q.1, r.2 ++ q.2))) = .ok (d', l) from h)
  obtain ⟨⟨d2, l2⟩, h2, hr⟩ := bind_eq_ok hr
  cases hr
  exact ⟨d1, l1, l2, h1, h2, rfl⟩

/-- Every effect is that of a packet of the history. -/
theorem acts_effect {D : DConf} {E : Env} {T : Tool σ} {S : List Stanza} : ∀ (as : List Act) {d d' : Daemon σ} {l : List Deed},
    MarkedAt S d.srv.stanzas → acts D E T as d = .ok (d', l) → ∀ now e, .effect now e ∈ l →
    ∃ p o sv sv' effs, .packet now p o ∈ as ∧ incoming_spa D.conf E now p o sv = .ok (sv', effs) ∧ e ∈ effs ∧
      MarkedAt S sv.stanzas ∧ sv.stanzas.length = d.srv.stanzas.length
  | [], d, d', l, _, h => by cases h; intro now e he; cases he
  | .upkeep t :: as, d, d', l, hm, h => by
    intro now e he
    obtain ⟨d1, l1, l2, h1, h2, rfl⟩ := acts_upkeep h
    obtain ⟨e1, hne, -⟩ := upkeep_srv h1
    rcases List.mem_append.1 he with he | he
    · exact absurd he (hne now e)
    · obtain ⟨p, o, sv, sv', effs, g1, g2, g3, g4, g5⟩ := acts_effect as (by rw [e1]; exact hm) h2 now e he
      exact ⟨p, o, sv, sv', effs, List.mem_cons_of_mem _ g1, g2, g3, g4, by rw [g5, e1]⟩
  | .packet t q o :: as, d, d', l, hm, h => by
    intro now e he
    obtain ⟨d1, l1, l2, h1, h2, rfl⟩ := acts_packet h
    obtain ⟨effs, hi, rfl⟩ := receive_srv h1
    rcases List.mem_append.1 he with he | he
    · obtain ⟨e', he', heq⟩ := List.mem_map.1 he
      cases heq
      exact ⟨q, o, d.srv, d1.srv, effs, List.mem_cons_self, hi, he', hm, rfl⟩
    · obtain ⟨p, o, sv, sv', effs, g1, g2, g3, g4, g5⟩ := acts_effect as (hm.step hi) h2 now e he
      exact ⟨p, o, sv, sv', effs, List.mem_cons_of_mem _ g1, g2, g3, g4, by rw [g5]; exact (incoming_stanzas hi).1⟩

/-- Every scheduled closing happens once, and not early, or is still pending. -/
theorem acts_cycles {D : DConf} {E : Env} {T : Tool σ} {S : List Stanza} (ht : D.conf.test = false) (hT : TimersOk S) : ∀ (as : List Act) {d d' : Daemon σ} {l : List Deed},
    MarkedAt S d.srv.stanzas → (∀ acc ∈ d.srv.stanzas, KeysOk acc) → acts D E T as d = .ok (d', l) →
    ∃ es, Scheduled S es l ∧ (d.srv.cycles ++ es).Perm (l.filterMap Deed.entry ++ d'.srv.cycles) ∧
      (∀ now c, .closed now c ∈ l → c.expire ≤ now ∧ .upkeep now ∈ as)
  | [], d, d', l, _, _, h => by
    cases h
    exact ⟨[], .nil, by simp, by simp⟩
  | .upkeep now :: as, d, d', l, hm, hk, h => by
    obtain ⟨d1, l1, l2, h1, h2, rfl⟩ := acts_upkeep h
    obtain ⟨e1, hne, hc⟩ := upkeep_srv h1
    obtain ⟨hc1, rfl⟩ := hc ht
    obtain ⟨es, g1, g2, g3⟩ := acts_cycles ht hT as (by rw [e1]; exact hm) (by rw [e1]; exact hk) h2
    refine ⟨es, ?_, ?_, ?_⟩
    · have : ∀ cs : List CycleEnt, Scheduled S [] (cs.map (Deed.closed now)) := by
        intro cs
        induction cs with
        | nil => exact .nil
        | cons c cs ih => exact .other _ (by intro _ _ _ h; cases h) ih
      exact (this _).append g1
    · rw [List.filterMap_append]
      have e2 : ((d.srv.cycles.filter fun e => decide (e.expire ≤ now)).map (Deed.closed now)).filterMap Deed.entry =
          d.srv.cycles.filter fun e => decide (e.expire ≤ now) := by
        rw [List.filterMap_map]
        exact List.filterMap_some
      rw [e2, List.append_assoc]
      rw [hc1] at g2
      have hp := List.filter_append_perm (fun e : CycleEnt => decide (e.expire ≤ now)) d.srv.cycles
      refine (List.Perm.append_right es hp.symm).trans ?_
      rw [List.append_assoc]
      exact List.Perm.append_left _ g2
    · intro t c hm
      rcases List.mem_append.1 hm with hm | hm
      · obtain ⟨c', hc', heq⟩ := List.mem_map.1 hm
        cases heq
        exact ⟨of_decide_eq_true (List.mem_filter.1 hc').2, List.mem_cons_self⟩
      · exact ⟨(g3 t c hm).1, List.mem_cons_of_mem _ (g3 t c hm).2⟩
  | .packet now p o :: as, d, d', l, hm, hk, h => by
    obtain ⟨d1, l1, l2, h1, h2, rfl⟩ := acts_packet h
    obtain ⟨effs, hi, rfl⟩ := receive_srv h1
    obtain ⟨new, hn1, hn2⟩ := incoming_list hT hm hk hi
    obtain ⟨es, g1, g2, g3⟩ := acts_cycles ht hT as (hm.step hi) (incoming_keys hi hk) h2
    refine ⟨new ++ es, hn2.append g1, ?_, ?_⟩
    · rw [List.filterMap_append]
      have e1 : (effs.map (Deed.effect now)).filterMap Deed.entry = [] := by
        rw [List.filterMap_map]
        exact List.filterMap_eq_nil_iff.2 fun _ _ => rfl
      rw [e1, List.nil_append, ← List.append_assoc, ← hn1]
      exact g2
    · intro t c hm
      rcases List.mem_append.1 hm with hm | hm
      · obtain ⟨e, _, heq⟩ := List.mem_map.1 hm
        cases heq
      · exact ⟨(g3 t c hm).1, List.mem_cons_of_mem _ (g3 t c hm).2⟩

end Fwknop
