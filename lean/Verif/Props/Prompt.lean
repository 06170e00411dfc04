import Verif.Props.Iptables

/-!
# Properties of the iptables back end: how soon expired rules go (C41)
-/

namespace Fwknop.Props

open Fwknop Spec Res

/-- The counters of a chain are right: the number of active rules is the number of rules with an expiry
time, and the time of the next check is the earliest of these times, or 0 if there are none. -/
def InStep (ex : Rule → Option Nat) (ch : FwChain) (rs : List Rule) : Prop :=
  ch.active_rules = (rs.filter fun r => (ex r).isSome).length ∧
  (∀ r ∈ rs, ∀ e, ex r = some e → ch.next_expire ≤ e) ∧
  ((∃ r ∈ rs, ∃ e, ex r = some e ∧ ch.next_expire = e) ∨ ((∀ r ∈ rs, ex r = none) ∧ ch.next_expire = 0))

theorem inStep_add {ex : Rule → Option Nat} {ch : FwChain} {rs : List Rule} (h : InStep ex ch rs) {r : Rule} {e : Nat}
    (hr : ex r = some e) (hn : r ∉ rs) (front : Bool) {now : Int} (h0 : 0 < now) (he : now ≤ e)
    (hlive : ∀ r ∈ rs, ∀ e, ex r = some e → now ≤ e) :
    InStep ex { ch with
      active_rules := ch.active_rules + 1
      next_expire := nextExpire ch.next_expire e now } (addRule front rs r) := by
  obtain ⟨h1, h2, h3⟩ := h
  have hmem : ∀ x, x ∈ addRule front rs r ↔ x = r ∨ x ∈ rs := by
    intro x
    rw [addRule, if_neg hn]
    cases front
    · simp only [Bool.false_eq_true, if_false, List.mem_append, List.mem_singleton]
      exact or_comm
    · simp only [if_true, List.mem_cons]
  refine ⟨?_, ?_, ?_⟩
  · show ch.active_rules + 1 = _
    rw [h1, addRule, if_neg hn]
    cases front <;> simp [hr]
  · intro x hx y hy
    show nextExpire ch.next_expire e now ≤ y
    unfold nextExpire
    rcases (hmem x).1 hx with rfl | hx
    · rw [hr] at hy
      injection hy with hy
      subst hy
      split <;> omega
    · have a := h2 x hx y hy
      have b := hlive x hx y hy
      rcases h3 with ⟨z, hz, w, hw, hzw⟩ | ⟨h3, _⟩
      · have c := hlive z hz w hw
        split <;> omega
      · rw [h3 x hx] at hy
        simp at hy
  · left
    show ∃ x ∈ addRule front rs r, ∃ y, ex x = some y ∧ nextExpire ch.next_expire e now = y
    unfold nextExpire
    rcases h3 with ⟨z, hz, w, hw, hzw⟩ | ⟨h3, hz⟩
    · split
      · exact ⟨r, (hmem r).2 (.inl rfl), e, hr, rfl⟩
      · exact ⟨z, (hmem z).2 (.inr hz), w, hw, hzw⟩
    · rw [if_pos (by left; omega)]
      exact ⟨r, (hmem r).2 (.inl rfl), e, hr, rfl⟩

theorem portLoop_inStep {print : Host} {cf : FwConf} {sp : SpaData} {ex : Rule → Option Nat} {e : Nat}
    (he32 : e < 2 ^ 32) {now : Int} (h0 : 0 < now) (he : now ≤ e) {t f c : Word} (hfc : f ≠ c)
    (ps : List (Nat × Nat)) : ∀ (s : FwSt (Tables × List Fate)) (K : Tables) (rs fr : List Rule),
    s.chain ≠ [] → RequestOk cf (s.at IPT_INPUT_ACCESS) sp.use_src_ip (dstOf cf sp) →
    (s.at IPT_OUTPUT_ACCESS).to_chain = [] →
    (s.at IPT_INPUT_ACCESS).table = t → (s.at IPT_INPUT_ACCESS).from_chain = f →
    (s.at IPT_INPUT_ACCESS).to_chain = c → s.world = (K, []) →
    K t c = some rs → K t f = some fr → [b!"-j", c] ∈ fr →
    (∀ p ∈ ps, p.1 < 1000 ∧ p.2 ≤ 65535) →
    (∀ p ∈ ps, ex (inputRule p.1 sp.use_src_ip (dstOf cf sp) p.2 e (s.at IPT_INPUT_ACCESS).target) = some e) →
    (∀ r ∈ rs, ∀ e, ex r = some e → now ≤ e) → InStep ex (s.at IPT_INPUT_ACCESS) rs →
    ∃ s' K' rs', portLoopRules cf (iptTool print) sp e now (ps.map toEnt) s = .ok s' ∧ s'.world = (K', []) ∧
      K' t c = some rs' ∧ InStep ex (s'.at IPT_INPUT_ACCESS) rs' ∧ (s'.at IPT_INPUT_ACCESS).bare = (s.at IPT_INPUT_ACCESS).bare := by
  induction ps with
  | nil =>
    intro s K rs fr _ _ _ _ _ _ hs hrs _ _ _ _ _ hst
    exact ⟨s, K, rs, rfl, hs, hrs, hst, rfl⟩
  | cons p ps ih =>
    intro s K rs fr hlen hin hout ht hf hc hs hrs hfr hj hb hex hlive hst
    obtain ⟨hb1, hb2⟩ := hb p List.mem_cons_self
    obtain ⟨chs, h1, h2, h3⟩ := input_run (print := print) hin hb1 hb2 he32 hs now
    rw [ht, hf, hc] at h1 h3
    rw [make_same hrs, jump_same hfr hj, hasRule, hrs] at h3
    rw [grant_there hrs hfr hj] at h1
    simp only [decide_eq_true_eq, decide_eq_false_iff_not] at h3
    rw [List.map_cons, portLoopRules, portRules]
    simp only [toEnt]
    rw [h1, bind_ok, if_neg (by
      rw [(bare_fields (h2 IPT_OUTPUT_ACCESS _)).2.2.2.2]; exact not_not_intro hout), Res.pure_eq, bind_ok]
    have hrule := hex p List.mem_cons_self
    generalize hr : inputRule p.1 sp.use_src_ip (dstOf cf sp) p.2 e (s.at IPT_INPUT_ACCESS).target = r at *
    have hst' : InStep ex ((⟨chs, (K.put t c (addRule cf.prepend rs r), [])⟩ : FwSt (Tables × List Fate)).at IPT_INPUT_ACCESS)
        (addRule cf.prepend rs r) := by
      rcases h3 with ⟨hm, rfl⟩ | ⟨hm, rfl⟩
      · rw [addRule, if_pos hm]; exact hst
      · have : ∀ (x : FwChain) w, (⟨s.chain.set IPT_INPUT_ACCESS x, w⟩ : FwSt (Tables × List Fate)).at IPT_INPUT_ACCESS = x := by
          intro x w
          unfold FwSt.at
          simp only
          cases hsc : s.chain with
          | nil => exact absurd hsc hlen
          | cons a l => rfl
        rw [this]
        exact inStep_add hst hrule hm _ h0 he hlive
    have hin' := h2 IPT_INPUT_ACCESS (K.put t c (addRule cf.prepend rs r), [])
    obtain ⟨g1, g2, g3, g4, g5⟩ := bare_fields hin'
    obtain ⟨s', K', rs', e1, e2, e3, e4, e5⟩ := ih ⟨chs, (K.put t c (addRule cf.prepend rs r), [])⟩ _ _ fr
      (by rcases h3 with ⟨_, rfl⟩ | ⟨_, rfl⟩
          · exact hlen
          · simpa using hlen)
      (RequestOk.bare hin' hin) (by rw [(bare_fields (h2 IPT_OUTPUT_ACCESS _)).2.2.2.2]; exact hout)
      (g2.trans ht) (g3.trans hf) (g5.trans hc) rfl (put_get _ _ _ _)
      (by rw [put_other _ _ (fun he => hfc he.2)]; exact hfr) hj (fun x hx => hb x (List.mem_cons_of_mem _ hx))
      (by rw [g1]; exact fun x hx => hex x (List.mem_cons_of_mem _ hx)) (by
        intro x hx y hy
        rw [addRule] at hx
        split at hx
        · exact hlive x hx y hy
        · have : x = r ∨ x ∈ rs := by
            cases hpp : cf.prepend
            · simp only [hpp, Bool.false_eq_true, if_false, List.mem_append, List.mem_singleton] at hx
              exact hx.symm
            · simpa only [hpp, if_true, List.mem_cons] using hx
          rcases this with rfl | hx
          · rw [hrule] at hy
            injection hy with hy
            subst hy
            exact he
          · exact hlive x hx y hy) hst'
    exact ⟨s', K', rs', e1, e2, e3, e4, e5.trans hin'⟩

/-- C41 (part): a request that is not for NAT keeps the counters of the input chain right, if at that
time no rule of the chain is overdue.  (If one is, they go wrong: `C41_postponed`.)  Missing are the
other chains and what is missing in `C39_tables_partial`. -/
theorem C41_grant_partial (print : Host) (cf : FwConf) (acc : Stanza) (sp : SpaData) (now : Int)
    (s : FwSt (Tables × List Fate)) (K : Tables) (hs : s.world = (K, [])) (ex : Rule → Option Nat)
    (ps : List (Nat × Nat)) (hps : ProtoPorts sp.spa_message_remain ps) (hnat : ¬ ForNat acc.force_nat sp.message_type)
    (e : Nat) (he : (e : Int) = now + sp.fw_access_timeout) (he32 : e < 2 ^ 32) (h0 : 0 < now)
    (hto : 0 ≤ sp.fw_access_timeout) (hlen : s.chain ≠ [])
    (hin : RequestOk cf (s.at IPT_INPUT_ACCESS) sp.use_src_ip (dstOf cf sp))
    (hout : (s.at IPT_OUTPUT_ACCESS).to_chain = [])
    (t f c : Word) (ht : (s.at IPT_INPUT_ACCESS).table = t) (hf : (s.at IPT_INPUT_ACCESS).from_chain = f)
    (hc : (s.at IPT_INPUT_ACCESS).to_chain = c) (hfc : f ≠ c)
    (rs fr : List Rule) (hrs : K t c = some rs) (hfr : K t f = some fr) (hj : [b!"-j", c] ∈ fr)
    (hex : ∀ p ∈ ps, ex (inputRule p.1 sp.use_src_ip (dstOf cf sp) p.2 e (s.at IPT_INPUT_ACCESS).target) = some e)
    (hlive : ∀ r ∈ rs, ∀ e, ex r = some e → now ≤ e) (hst : InStep ex (s.at IPT_INPUT_ACCESS) rs) :
    ∃ s' K' rs', process_spa_request cf (iptTool print) acc sp now s = .ok s' ∧ s'.world = (K', []) ∧
      K' t c = some rs' ∧ InStep ex (s'.at IPT_INPUT_ACCESS) rs' ∧
      (s'.at IPT_INPUT_ACCESS).bare = (s.at IPT_INPUT_ACCESS).bare := by
  have hbound : ∀ p ∈ ps, p.1 < 1000 ∧ p.2 ≤ 65535 := by
    obtain ⟨items, _, hi, _, rfl⟩ := hps
    intro p hp
    obtain ⟨i, hi', rfl⟩ := List.mem_map.1 hp
    obtain ⟨_, _, _, _, hn, _, _, _, h65, _⟩ := hi i hi'
    exact ⟨by rcases hn with h | h <;> omega, h65⟩
  have hne : ps ≠ [] := by
    obtain ⟨items, h0, _, _, rfl⟩ := hps
    simpa using h0
  obtain ⟨s', K', rs', h1, h2⟩ := portLoop_inStep (print := print) he32 h0 (by omega) hfc ps s K rs fr hlen hin hout ht hf hc hs hrs
    hfr hj hbound hex hlive hst
  refine ⟨s', K', rs', ?_, h2⟩
  unfold process_spa_request
  have hexp : expTs now sp.fw_access_timeout = e := by unfold expTs; omega
  rw [protoPorts_expand hps]
  cases ps with
  | nil => exact absurd rfl hne
  | cons p ps =>
    rw [List.map_cons]
    simp only
    rw [if_neg (fun h => hnat (wantsNat_iff.1 h)), hexp]
    exact h1

theorem filter_length_le {ex : Rule → Option Nat} {now : Int} (rs : List Rule) :
    (rs.filter fun r => (ex r).isSome).length = (rs.filter fun r => expired now (ex r)).length +
      ((rs.filter fun r => !expired now (ex r)).filter fun r => (ex r).isSome).length := by
  induction rs with
  | nil => rfl
  | cons r rs ih =>
    have hs : expired now (ex r) = true → (ex r).isSome = true := by
      cases ex r <;> simp [expired]
    simp only [List.filter_cons]
    cases h : expired now (ex r) with
    | true =>
      rw [hs h]
      simp only [if_true, Bool.not_true, Bool.false_eq_true, if_false, List.length_cons]
      omega
    | false =>
      simp only [Bool.not_false, if_true, Bool.false_eq_true, if_false, List.filter_cons]
      split
      · simp only [List.length_cons]; omega
      · exact ih

/-- C41 (part): if the counters of a chain are right, then *every* check of it, not only every
twentieth, removes all its expired rules and no other.  And the counters are still right after it,
unless the check removed some of the rules with an expiry time and left others: then the time of the next
check stays in the past, and a later grant can postpone it (`C41_stale`).  What is missing is what is
missing in `C40_check_partial`. -/
theorem C41_prompt_partial (print : Host) (cf : FwConf) (K : Tables) (ex : Rule → Option Nat) (i : Nat)
    (ch : FwChain) (rs : List Rule) (h : ChainOk print cf K ex i ch rs) (all : Bool) (now : Int)
    (hsize : (listing print ch.to_chain rs).length ≤ 4095) (hst : InStep ex ch rs) :
    ∃ ch', checkChain cf (iptTool print) all now i ch (K, []) =
        .ok (ch', (K.put ch.table ch.to_chain (rs.filter fun r => !expired now (ex r)), [])) ∧
      ((∀ r ∈ rs, expired now (ex r) = false) ∨ (∀ r ∈ rs, ∀ e, ex r = some e → expired now (ex r) = true) →
        InStep ex ch' (rs.filter fun r => !expired now (ex r))) := by
  obtain ⟨h1, h2, h3⟩ := hst
  by_cases hdue : Due all now ch
  · obtain ⟨ch', fs', rs', e1, _, _, e4⟩ := checkChain_run h hdue (fs := []) (by simp)
    obtain ⟨e5, e6, e7⟩ := e4 rfl hsize
    refine ⟨ch', by rw [e1, e5, e6], fun hall => ?_⟩
    rw [e7, checkedChain]
    have hcount := filter_length_le (ex := ex) (now := now) rs
    by_cases hno : ∀ r ∈ rs, ex r = none
    · rw [if_pos hno]
      have hkeep : (rs.filter fun r => !expired now (ex r)) = rs :=
        List.filter_eq_self.2 fun r hr => by rw [hno r hr]; rfl
      have hz : (rs.filter fun r => (ex r).isSome).length = 0 := by
        rw [List.length_eq_zero_iff, List.filter_eq_nil_iff]
        intro r hr; rw [hno r hr]; simp
      rw [hkeep]
      refine ⟨by show ch.active_rules - 1 = _; omega, h2, h3⟩
    · rw [if_neg hno]
      rcases hall with hall | hall
      · have hkeep : (rs.filter fun r => !expired now (ex r)) = rs :=
          List.filter_eq_self.2 fun r hr => by rw [hall r hr]; rfl
        have hz : (rs.filter fun r => expired now (ex r)).length = 0 := by
          rw [List.length_eq_zero_iff, List.filter_eq_nil_iff]
          intro r hr; rw [hall r hr]; simp
        have hpos : 0 < (rs.filter fun r => (ex r).isSome).length := by
          rw [List.length_pos_iff]
          intro hnil
          rw [List.filter_eq_nil_iff] at hnil
          exact hno fun r hr => by simpa using hnil r hr
        rw [hkeep, hz, Nat.sub_zero, if_neg (by omega)]
        exact ⟨h1, h2, h3⟩
      · have hz : ((rs.filter fun r => !expired now (ex r)).filter fun r => (ex r).isSome).length = 0 := by
          rw [List.length_eq_zero_iff, List.filter_eq_nil_iff]
          intro r hr
          rw [List.mem_filter] at hr
          cases hx : ex r with
          | none => simp
          | some e => have := hall r hr.1 e hx; rw [this] at hr; simp at hr
        have hnone : ∀ r ∈ rs.filter (fun r => !expired now (ex r)), ex r = none := by
          rw [List.length_eq_zero_iff, List.filter_eq_nil_iff] at hz
          intro r hr; simpa using hz r hr
        rw [if_pos (by omega)]
        refine ⟨by show _ - _ = _; omega, fun r hr e he => ?_, .inr ⟨hnone, rfl⟩⟩
        rw [hnone r hr] at he
        simp at he
  · rw [checkChain_skip _ _ _ fun hc => hdue hc.2]
    have hkeep : (rs.filter fun r => !expired now (ex r)) = rs := by
      refine List.filter_eq_self.2 fun r hr => ?_
      cases hx : ex r with
      | none => rfl
      | some e =>
        have a := h2 r hr e hx
        have hact : 0 < ch.active_rules := by
          rw [h1, List.length_pos_iff]
          intro hnil
          rw [List.filter_eq_nil_iff] at hnil
          have := hnil r hr
          rw [hx] at this
          simp at this
        unfold Due at hdue
        have : ¬ (e : Int) ≤ now := fun hle => hdue (.inr ⟨hact, by omega⟩)
        simpa [expired] using this
    rw [hkeep, put_same h.there]
    exact ⟨ch, rfl, fun _ => ⟨h1, h2, h3⟩⟩

/-- The counters of a chain with a rule of the administrator and one that expires at 100 are right if there
is one active rule and the next check is at 100. -/
example : InStep sampleEx { inChain with
    active_rules := 1
    next_expire := 100 } [foreignRule, sshRule 100] := by
  refine ⟨by decide +kernel, ?_, .inl ⟨sshRule 100, by simp, 100, by decide +kernel, rfl⟩⟩
  intro r hr e he
  have h1 : sampleEx foreignRule = none := by decide +kernel
  have h2 : sampleEx (sshRule 100) = some 100 := by decide +kernel
  rcases List.mem_cons.1 hr with rfl | hr
  · rw [h1] at he; simp at he
  · rw [List.mem_singleton] at hr
    subst hr
    rw [h2] at he
    injection he with he
    subst he
    decide

/-- The hypotheses of `C41_grant_partial` are met. -/
example : ∃ s' K' rs', process_spa_request fwSample ipt {} sshRequest 80 ⟨defaultChains, (inPlace, [])⟩ = .ok s' ∧
    s'.world = (K', []) ∧ K' b!"filter" b!"FWKNOP_INPUT" = some rs' ∧ InStep sampleEx (s'.at IPT_INPUT_ACCESS) rs' := by
  have hl : sampleEx [b!"-j", b!"LOG"] = none := by decide +kernel
  obtain ⟨s', K', rs', h1, h2, h3, h4, _⟩ := C41_grant_partial sampleHost fwSample {} sshRequest 80 ⟨defaultChains, (inPlace, [])⟩
    inPlace rfl sampleEx [(6, 22)] ssh_ports (by decide) 110 (by decide) (by decide) (by decide) (by decide) (by decide)
    fwSample_ok rfl b!"filter" b!"INPUT" b!"FWKNOP_INPUT" rfl
    rfl rfl (by decide) [[b!"-j", b!"LOG"]] [[b!"-j", b!"FWKNOP_INPUT"]] (by decide) (by decide) (by simp)
    (by decide +kernel) (by
      intro r hr e he
      rw [List.mem_singleton] at hr
      rw [hr, hl] at he
      simp at he) ⟨by decide +kernel, by
      intro r hr e he
      rw [List.mem_singleton] at hr
      rw [hr, hl] at he
      simp at he, .inr ⟨by
      intro r hr
      rw [List.mem_singleton] at hr
      rw [hr, hl], rfl⟩⟩
  exact ⟨s', K', rs', h1, h2, h3, h4⟩

/-- A run of the daemon: access is granted at 70 until 100, at 80 until 110, and at 105 until 135, with a
check in between. -/
def stale : Res (Nat × FwSt (Tables × List Fate)) :=
  fwRun fwSample ipt 20 [(sshAt 70, 70), (sshAt 80, 80), (Res.ok, 100), (sshAt 105, 105), (Res.ok, 111), (Res.ok, 134)]
    (0, ⟨defaultChains, (builtin, [])⟩)

/-- C41 is false even if there is a check at every moment a rule expires: the check at 100 leaves the time
of the next check at 100, so the grant at 105 moves it to 135, and the rule that expired at 110 is still
there after the check at 134. -/
theorem C41_stale : inputOf (stale.bind fun r => .ok r.2) = some (some [sshRule 110, sshRule 135]) := by
  decide +kernel

end Fwknop.Props
