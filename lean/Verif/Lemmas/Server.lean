import Verif.Lemmas.Incoming
import Verif.Lemmas.Replay

/-!
# Lemmas about `incoming_spa` and histories of packets
-/

namespace Fwknop
open Res Spec

theorem incoming_cases {conf : Conf} {E : Env} {now : Int} {p : Pkt} {open_ok : Nat → Bool} {sv sv' : Server}
    {effs : List Effect} (h : incoming_spa conf E now p open_ok sv = .ok (sv', effs)) :
    (sv' = sv ∧ effs = []) ∨
    ∃ text proxy digest, Received conf p text proxy ∧
      src_check conf E sv.stanzas sv.cache p.src_ip text = .ok digest ∧
      process conf E now p open_ok sv text proxy digest = .ok (sv', effs) := by
  unfold incoming_spa at h
  cases hp : preprocess_spa_data conf p.data p.len with
  | ub => rw [hp] at h; cases h
  | err => rw [hp] at h; cases h; exact .inl ⟨rfl, rfl⟩
  | ok x =>
    obtain ⟨buf, proxy⟩ := x
    rw [hp] at h
    dsimp only at h
    cases hs : src_check conf E sv.stanzas sv.cache p.src_ip (cstr buf) with
    | ub => rw [hs] at h; cases h
    | err => rw [hs] at h; cases h; exact .inl ⟨rfl, rfl⟩
    | ok d =>
      rw [hs] at h
      exact .inr ⟨cstr buf, proxy, d, ⟨buf, hp, rfl⟩, hs, h⟩

/-- The addresses of a packet as texts. -/
def addrsOf (p : Pkt) (proxy : Str) : Addrs := ⟨inet_ntop p.src_ip, inet_ntop p.dst_ip, proxy⟩

theorem process_cases {conf : Conf} {E : Env} {now : Int} {p : Pkt} {open_ok : Nat → Bool} {sv sv' : Server}
    {text proxy : Str} {digest : Option Str}
    {effs : List Effect} (h : process conf E now p open_ok sv text proxy digest = .ok (sv', effs)) :
    ∃ s', stanzaLoop conf E now p (addrsOf p proxy) text digest open_ok 1 sv.stanzas
        ⟨sv.cache, sv.file, false, sv.cycles, []⟩ = .ok (sv'.stanzas, s') ∧
      sv'.cache = s'.cache ∧ effs = s'.effects := by
  unfold process at h
  obtain ⟨⟨sts, s'⟩, hl, h⟩ := bind_eq_ok h
  cases h
  exact ⟨s', hl, rfl, rfl⟩

theorem act_effect_no {conf : Conf} {now : Int} {acc : Stanza} {n : Nat} {sp : SpaData} {cyc : List CycleEnt}
    {r : Acted} (h : act conf now acc n sp cyc = .ok r) {e : Effect} (he : e ∈ r.effects) : stanzaNo e = n := by
  rcases act_effects h he with ⟨_, cmd, rfl, _⟩ | ⟨_, _, _, _, cmd, rfl, _⟩ | ⟨_, _, _, _, rfl⟩ <;> rfl

/-- Every effect comes from a stanza that was satisfied. -/
theorem effect_cause {conf : Conf} {E : Env} {now : Int} {p : Pkt} {open_ok : Nat → Bool} {sv sv' : Server}
    {effs : List Effect} (hk : ∀ acc ∈ sv.stanzas, KeysOk acc)
    (h : incoming_spa conf E now p open_ok sv = .ok (sv', effs)) {e : Effect} (he : e ∈ effs) :
    ∃ text proxy acc cyc c sp r, Received conf p text proxy ∧ 1 ≤ stanzaNo e ∧
      stanzaAt sv.stanzas (stanzaNo e) = some acc ∧ KeysOk acc ∧
      Acting conf E now p (addrsOf p proxy) text (stanzaNo e) acc cyc c sp r ∧ e ∈ r.effects := by
  rcases incoming_cases h with ⟨_, rfl⟩ | ⟨text, proxy, d, hr, _, hp⟩
  · cases he
  obtain ⟨s', hl, _, rfl⟩ := process_cases hp
  obtain ⟨new, hn, hall⟩ := loop_effects hk hl
  rw [hn] at he
  obtain ⟨k, acc, cyc, c, sp, r, hka, hact, her⟩ := hall e (by simpa using he)
  have hno := act_effect_no hact.acted her
  refine ⟨text, proxy, acc, cyc, c, sp, r, hr, by omega, ?_, hk acc (List.mem_of_getElem? hka), hno ▸ hact, her⟩
  unfold stanzaAt
  rw [hno]
  simpa using hka

/-- The request a stanza acts on. -/
theorem acting_request {conf : Conf} {E : Env} {now : Int} {p : Pkt} {a : Addrs} {text : Str} {n : Nat}
    {acc : Stanza} {cyc : List CycleEnt} {c : Ctx} {sp : SpaData} {r : Acted} (hk : KeysOk acc)
    (h : Acting conf E now p a text n acc cyc c sp r) :
    Decoded c ∧ ∃ ip rest, Message c ip rest ∧ rest.length < 256 ∧ sp = requestOf acc a c ip rest ∧
      check_pkt_age conf now c.timestamp = true ∧ (acc.require_source_address = true → ip ≠ anyAddr) ∧
      (∀ u, acc.require_username = some u → c.username = some u) ∧
      (WantsForward c → conf.forwarding = true) ∧ (WantsLocalNat c → conf.local_nat = true) := by
  have hd : Decoded c := authenticate_decoded E acc text hk c h.auth
  refine ⟨hd, ?_⟩
  obtain ⟨ip, rest, hm, hl, ⟨hj, hc⟩ | ⟨hj, _⟩⟩ := judge_eq conf now acc a hd
  · rw [h.judged] at hj
    cases hj
    exact ⟨ip, rest, hm, hl, rfl, hc⟩
  · rw [h.judged] at hj; cases hj

/-- What the clock may show so that no difference of times overflows. -/
theorem acting_meets {conf : Conf} {E : Env} {now : Int} {p : Pkt} {a : Addrs} {text : Str} {n : Nat}
    {acc : Stanza} {cyc : List CycleEnt} {c : Ctx} {sp : SpaData} {r : Acted} (hk : KeysOk acc)
    (hnow : 0 ≤ now ∧ now < 2 ^ 31)
    (h : Acting conf E now p a text n acc cyc c sp r) :
    Decoded c ∧ ∃ ip rest, Message c ip rest ∧ sp = requestOf acc a c ip rest ∧
      Meets conf now p.src_ip p.dst_ip acc c ip := by
  obtain ⟨hd, ip, rest, hm, _, hsp, h1, h2, h3, h4, h5⟩ := acting_request hk h
  have := hd.timestamp
  exact ⟨hd, ip, rest, hm, hsp, h.addresses, h.live, (pkt_age_iff _ _ _ (by omega)).1 h1, h3, h2, h4, h5⟩

/-! ## A stanza acts when it is satisfied -/

theorem message_unique {c : Ctx} {ip rest ip' rest' : Str} (h : Message c ip rest) (h' : Message c ip' rest') :
    ip = ip' ∧ rest = rest' := by
  have nc : ∀ {s : Str}, IsIPv4 s → 44 ∉ s := by
    rintro s ⟨a, b, c, d, ha, hb, hc, hd, rfl, _⟩ hm
    have no : ∀ {x : List Nat}, IsOctet x → 44 ∉ x := fun hx h => by
      rcases hx.2 with ⟨_, hx, _⟩ | ⟨_, hx, _⟩
      · have := hx 44 h; unfold IsDigitChar at this; omega
      · have := hx 44 h; omega
    simp at hm
    rcases hm with h | h | h | h
    · exact no ha h
    · exact no hb h
    · exact no hc h
    · exact no hd h
  have e := h.2.symm.trans h'.2
  have e := Option.some.inj e
  have key : ∀ (s t x y : Str), 44 ∉ s → 44 ∉ t → s ++ 44 :: x = t ++ 44 :: y → s = t ∧ x = y := by
    intro s
    induction s with
    | nil =>
      intro t x y _ ht he
      cases t with
      | nil => simpa using he
      | cons b t => simp at he; exact absurd (he.1 ▸ List.mem_cons_self) ht
    | cons b s ih =>
      intro t x y hs ht he
      cases t with
      | nil => simp at he; exact absurd (he.1 ▸ List.mem_cons_self) hs
      | cons b' t =>
        simp at he
        have := ih t x y (fun h => hs (List.mem_cons_of_mem _ h)) (fun h => ht (List.mem_cons_of_mem _ h)) he.2
        exact ⟨by rw [he.1, this.1], this.2⟩
  exact key _ _ _ _ (nc h.1) (nc h'.1) e

theorem permitted_acts {conf : Conf} (now : Int) {acc : Stanza} (n : Nat) {c : Ctx} {sp : SpaData}
    (cyc : List CycleEnt) (hc : ClosingBuilds acc) (hs : SudoOk acc) (ht : sp.message_type = c.message_type)
    (h : Permitted conf acc c sp sp.spa_message_remain) :
    ∃ r, act conf now acc n sp cyc = .ok r ∧ r.effects ≠ [] := by
  obtain ⟨h1, h2, h3⟩ := h
  unfold act
  by_cases ho : acc.cmd_cycle_open ≠ none
  · rw [if_pos ho]
    obtain ⟨cmd, hcmd⟩ := h1 ho
    unfold actCycle cmd_cycle_open
    rw [hcmd]
    by_cases hdo : acc.cmd_cycle_do_close = true
    · obtain ⟨cmd', hcmd'⟩ := hc ho hdo sp cmd hcmd
      simp [hdo, add_cmd_close, hcmd']
    · simp [hdo]
  · rw [if_neg ho]
    have ho : acc.cmd_cycle_open = none := by simpa using ho
    by_cases hm : sp.message_type = FKO_COMMAND_MSG
    · rw [if_pos hm]
      obtain ⟨he, htest⟩ := h2 ho (by unfold IsCommand; rw [← ht, hm])
      unfold actCommand process_cmd_msg
      by_cases hsudo : acc.enable_cmd_sudo_exec = true
      · have : ∃ s, sudoCmd conf acc sp.spa_message_remain = .ok s := by
          unfold sudoCmd
          dsimp only
          cases hg : acc.cmd_exec_group with
          | none => exact ⟨_, rfl⟩
          | some g =>
            obtain ⟨g', hg'⟩ := Option.ne_none_iff_exists'.1 (hs hsudo (by rw [hg]; simp))
            rw [hg']
            exact ⟨_, rfl⟩
        obtain ⟨s, hss⟩ := this
        simp [he, htest, hsudo, hss]
      · simp [he, htest, hsudo]
    · rw [if_neg hm]
      obtain ⟨he, htest⟩ := h3 ho (by unfold IsCommand; rw [← ht]; exact hm)
      unfold actAccess
      simp [he, htest]

theorem acts_permitted {conf : Conf} {now : Int} {acc : Stanza} {n : Nat} {c : Ctx} {sp : SpaData}
    {cyc : List CycleEnt} {r : Acted} (ht : sp.message_type = c.message_type)
    (h : act conf now acc n sp cyc = .ok r) {e : Effect} (he : e ∈ r.effects) :
    Permitted conf acc c sp sp.spa_message_remain := by
  rcases act_effects h he with ⟨h1, cmd, _, h2⟩ | ⟨h1, h2, h3, h4, _⟩ | ⟨h1, h2, h3, h4, _⟩
  · exact ⟨fun _ => ⟨cmd, h2⟩, fun h => absurd h h1, fun h => absurd h h1⟩
  · exact ⟨fun h => absurd h1 h, fun _ _ => ⟨h3, h4⟩, fun _ hn => absurd (ht.symm.trans h2) hn⟩
  · exact ⟨fun h => absurd h1 h, fun _ hc => absurd (ht.trans hc) h2, fun _ _ => ⟨h3, h4⟩⟩

/-! ## Test mode -/

theorem try_test_cache {conf : Conf} {E : Env} {now : Int} {p : Pkt} {a : Addrs} {text : Str} {digest : Option Str}
    {open_ok : Bool} {n : Nat} {acc acc' : Stanza} {s s' : Loop} {stop : Bool} (ht : conf.test = true)
    (h : tryStanza conf E now p a text digest open_ok n acc s = .ok (acc', s', stop)) : s'.cache = s.cache := by
  have hadd : ∀ i, (add_replay_cache conf open_ok i digest s).1 = s := by
    intro i; unfold add_replay_cache; simp [ht]
  unfold tryStanza at h
  split at h
  · cases h; rfl
  dsimp only at h
  split at h
  · cases h; rfl
  split at h
  · cases h
  · cases h; rfl
  obtain ⟨⟨s1, st⟩, h1, h⟩ := bind_eq_ok h
  cases h
  unfold afterAuth at h1
  dsimp only at h1
  rw [hadd] at h1
  split at h1
  · cases h1; rfl
  split at h1
  · cases h1
  · cases h1; rfl
  obtain ⟨v, _, h1⟩ := bind_eq_ok h1
  cases v with
  | next => cases h1; rfl
  | stop => cases h1; rfl
  | go sp =>
    unfold carryOut at h1
    obtain ⟨r, _, h1⟩ := bind_eq_ok h1
    cases h1; rfl

theorem loop_test_cache {conf : Conf} {E : Env} {now : Int} {p : Pkt} {a : Addrs} {text : Str} {digest : Option Str}
    {open_ok : Nat → Bool} (ht : conf.test = true) {sts : List Stanza} : ∀ {n : Nat} {sts' : List Stanza} {s s' : Loop},
    stanzaLoop conf E now p a text digest open_ok n sts s = .ok (sts', s') → s'.cache = s.cache := by
  induction sts with
  | nil => intro n sts' s s' h; cases h; rfl
  | cons acc rest ih =>
    intro n sts' s s' h
    obtain ⟨acc1, s1, stop, h1, h2⟩ := loop_cons h
    have e := try_test_cache ht h1
    rcases h2 with ⟨_, _, rfl⟩ | ⟨_, rest', _, h3⟩
    · exact e
    · rw [ih h3, e]

/-! ## Histories -/

theorem serve_cons {conf : Conf} {E : Env} {sv sv' : Server} {a : Arrival} {as : List Arrival}
    {outs : List (List Effect)} (h : serve conf E sv (a :: as) = .ok (sv', outs)) :
    ∃ sv1 o os, incoming_spa conf E a.now a.pkt a.open_ok sv = .ok (sv1, o) ∧
      serve conf E sv1 as = .ok (sv', os) ∧ outs = o :: os := by
  rw [serve] at h
  obtain ⟨⟨sv1, o⟩, h1, h⟩ := bind_eq_ok h
  obtain ⟨⟨sv2, os⟩, h2, h⟩ := bind_eq_ok h
  cases h
  exact ⟨sv1, o, os, h1, h2, rfl⟩

/-- Packets change nothing in the stanzas except that they may mark one as expired. -/
theorem incoming_stanzas {conf : Conf} {E : Env} {now : Int} {p : Pkt} {open_ok : Nat → Bool} {sv sv' : Server}
    {effs : List Effect} (h : incoming_spa conf E now p open_ok sv = .ok (sv', effs)) :
    sv'.stanzas.length = sv.stanzas.length ∧ ∀ (k : Nat) (acc : Stanza), sv.stanzas[k]? = some acc →
      ∃ acc', sv'.stanzas[k]? = some acc' ∧ (acc' = acc ∨ acc' = { acc with expired := true } ∧ Expired acc now) := by
  rcases incoming_cases h with ⟨rfl, _⟩ | ⟨text, proxy, d, _, _, hp⟩
  · exact ⟨rfl, fun k acc hk => ⟨acc, hk, .inl rfl⟩⟩
  obtain ⟨s', hl, _, _⟩ := process_cases hp
  exact loop_stanzas hl

theorem incoming_keys {conf : Conf} {E : Env} {now : Int} {p : Pkt} {open_ok : Nat → Bool} {sv sv' : Server}
    {effs : List Effect} (h : incoming_spa conf E now p open_ok sv = .ok (sv', effs))
    (hk : ∀ acc ∈ sv.stanzas, KeysOk acc) : ∀ acc ∈ sv'.stanzas, KeysOk acc := by
  obtain ⟨hlen, hst⟩ := incoming_stanzas h
  intro acc' ha
  obtain ⟨k, hkl, hk'⟩ := List.mem_iff_getElem.1 ha
  have hlt : k < sv.stanzas.length := by omega
  obtain ⟨acc'', h1, h2⟩ := hst k sv.stanzas[k] (List.getElem?_eq_getElem hlt)
  rw [List.getElem?_eq_getElem hkl, hk'] at h1
  cases h1
  have := hk _ (List.getElem_mem hlt)
  rcases h2 with h2 | ⟨h2, _⟩ <;> rw [h2] <;> exact this

/-- The replay cache only grows. -/
theorem incoming_cache {conf : Conf} {E : Env} {now : Int} {p : Pkt} {open_ok : Nat → Bool} {sv sv' : Server}
    {effs : List Effect} (hk : ∀ acc ∈ sv.stanzas, KeysOk acc)
    (h : incoming_spa conf E now p open_ok sv = .ok (sv', effs)) : ∀ d ∈ sv.cache, d ∈ sv'.cache := by
  rcases incoming_cases h with ⟨rfl, _⟩ | ⟨text, proxy, d, _, _, hp⟩
  · exact fun _ h => h
  obtain ⟨s', hl, hc, _⟩ := process_cases hp
  rw [hc]
  exact (loop_cache hk hl).1

/-- The text of a packet with effects is in the cache afterwards. -/
theorem incoming_recorded {conf : Conf} {E : Env} {now : Int} {p : Pkt} {open_ok : Nat → Bool} {sv sv' : Server}
    {effs : List Effect} (hk : ∀ acc ∈ sv.stanzas, KeysOk acc) (hper : conf.persistence = true)
    (htest : conf.test = false)
    (h : incoming_spa conf E now p open_ok sv = .ok (sv', effs)) (he : effs ≠ []) {text proxy : Str}
    (hr : Received conf p text proxy) : ∃ d, get_raw_digest E text = .ok d ∧ d ∈ sv'.cache := by
  rcases incoming_cases h with ⟨_, rfl⟩ | ⟨text', proxy', d, ⟨buf', hr1, rfl⟩, hs, hp⟩
  · exact absurd rfl he
  obtain ⟨buf, hr2, rfl⟩ := hr
  rw [hr1] at hr2
  cases hr2
  obtain ⟨s', hl, hc, rfl⟩ := process_cases hp
  obtain ⟨-, h2, -, h4⟩ := loop_cache hk hl
  have hd : ∃ d0, d = some d0 ∧ get_raw_digest E (cstr buf') = .ok d0 := by
    unfold src_check at hs
    rw [if_pos hper] at hs
    split at hs
    · obtain ⟨d0, hd0, hs⟩ := bind_eq_ok hs
      cases hrep : is_replay sv.cache d0 with
      | true => rw [hrep] at hs; cases hs
      | false => rw [hrep] at hs; cases hs; exact ⟨d0, rfl, hd0⟩
    · cases hs
  obtain ⟨d0, rfl, hd0⟩ := hd
  refine ⟨d0, hd0, ?_⟩
  rw [hc]
  rcases h2 (h4 (by simpa using he) htest hper) with h | h
  · cases h
  · exact h

/-- A text whose digest is in the cache has no effect. -/
theorem incoming_known {conf : Conf} {E : Env} {now : Int} {p : Pkt} {open_ok : Nat → Bool} {sv sv' : Server}
    {effs : List Effect} (hper : conf.persistence = true)
    (h : incoming_spa conf E now p open_ok sv = .ok (sv', effs)) {text proxy d : Str}
    (hr : Received conf p text proxy) (hd : get_raw_digest E text = .ok d) (hm : d ∈ sv.cache) : effs = [] := by
  rcases incoming_cases h with ⟨_, rfl⟩ | ⟨text', proxy', d', ⟨buf', hr1, rfl⟩, hs, hp⟩
  · rfl
  obtain ⟨buf, hr2, rfl⟩ := hr
  rw [hr1] at hr2
  cases hr2
  unfold src_check at hs
  rw [if_pos hper, hd] at hs
  split at hs
  · simp only [bind_ok, is_replay_of_mem hm] at hs
    cases hs
  · cases hs

end Fwknop
