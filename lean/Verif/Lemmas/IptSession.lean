import Verif.Lemmas.IptInit

/-!
# Lemmas: what the daemon does to iptables between its start and its end
-/

namespace Fwknop

open Spec Res

/-! ## The configuration stays -/

theorem map_bare_set {chs : List FwChain} {i : Nat} {c : FwChain} (h : c.bare = (chs.getD i {}).bare) :
    (chs.set i c).map FwChain.bare = chs.map FwChain.bare := by
  apply List.ext_getElem?
  intro j
  rw [List.getElem?_map, List.getElem?_map, List.getElem?_set]
  by_cases hij : i = j
  · subst hij
    rw [if_pos rfl]
    by_cases hl : i < chs.length
    · rw [if_pos hl, List.getElem?_eq_getElem hl]
      rw [List.getD_eq_getElem?_getD, List.getElem?_eq_getElem hl] at h
      simpa using h
    · rw [if_neg hl, List.getElem?_eq_none (by omega)]
  · rw [if_neg hij]

theorem ipt_rule_bare {σ : Type} {cf : FwConf} {T : Tool σ} {i : Nat} {rule : Str} {e : Nat} {now : Int} {s s' : FwSt σ}
    (h : ipt_rule cf T i rule e now s = .ok s') : s'.chain.map FwChain.bare = s.chain.map FwChain.bare := by
  unfold ipt_rule at h
  obtain ⟨w, -, h⟩ := bind_eq_ok h
  obtain ⟨x, -, h⟩ := bind_eq_ok h
  split at h
  · cases h; rfl
  · obtain ⟨c, -, h⟩ := bind_eq_ok h
    split at h
    · cases h; exact map_bare_set rfl
    · cases h; rfl

theorem portLoop_bare {σ : Type} {cf : FwConf} {T : Tool σ} {sp : SpaData} {e : Nat} {now : Int} : ∀ (ps : List PortEnt) {s s' : FwSt σ},
    portLoopRules cf T sp e now ps s = .ok s' → s'.chain.map FwChain.bare = s.chain.map FwChain.bare
  | [], s, s', h => by cases h; rfl
  | p :: ps, s, s', h => by
    unfold portLoopRules at h
    obtain ⟨s1, h1, h⟩ := bind_eq_ok h
    refine (portLoop_bare ps h).trans ?_
    unfold portRules at h1
    obtain ⟨s2, h2, h1⟩ := bind_eq_ok h1
    refine Eq.trans ?_ (ipt_rule_bare h2)
    split at h1
    · exact ipt_rule_bare h1
    · cases h1; rfl

theorem process_bare {σ : Type} {cf : FwConf} {T : Tool σ} {acc : Stanza} {sp : SpaData} {now : Int} {s s' : FwSt σ}
    (h : process_spa_request cf T acc sp now s = .ok s') : s'.chain.map FwChain.bare = s.chain.map FwChain.bare := by
  unfold process_spa_request at h
  split at h
  · cases h; rfl
  · cases h
  · split at h
    · obtain ⟨t, -, h⟩ := bind_eq_ok h
      split at h
      · cases h; rfl
      · unfold natRules at h
        obtain ⟨s1, h1, h⟩ := bind_eq_ok h
        obtain ⟨s2, h2, h⟩ := bind_eq_ok h
        have e1 : s1.chain.map FwChain.bare = s.chain.map FwChain.bare := by
          unfold natAccessRule at h1
          split at h1
          · exact ipt_rule_bare h1
          · split at h1
            · exact ipt_rule_bare h1
            · cases h1; rfl
        have e2 : s2.chain.map FwChain.bare = s1.chain.map FwChain.bare := by
          unfold natDestRule at h2
          split at h2
          · exact ipt_rule_bare h2
          · cases h2; rfl
        refine Eq.trans ?_ (e2.trans e1)
        split at h
        · exact ipt_rule_bare h
        · cases h; rfl
    · exact portLoop_bare _ h

theorem hooks_bare {a b : List FwChain} (h : a.map FwChain.bare = b.map FwChain.bare) : hooks a = hooks b := by
  induction a generalizing b with
  | nil =>
    cases b with
    | nil => rfl
    | cons y b => cases h
  | cons x a ih =>
    cases b with
    | nil => cases h
    | cons y b =>
      simp only [List.map_cons, List.cons.injEq] at h
      obtain ⟨h1, h2, h3, h4, h5⟩ := bare_fields h.1
      by_cases ht : x.target = []
      · rw [hooks_cons_neg ht, hooks_cons_neg (h1 ▸ ht), ih h.2]
      · rw [hooks_cons ht, hooks_cons (h1 ▸ ht), ih h.2]
        unfold hookOf
        rw [h2, h3, h5]

theorem initOk_bare {cf : FwConf} {a b : List FwChain} (h : a.map FwChain.bare = b.map FwChain.bare) (hb : InitOk cf b) : InitOk cf a := by
  intro ch hch ht
  have : ch.bare ∈ b.map FwChain.bare := by rw [← h]; exact List.mem_map.2 ⟨ch, hch, rfl⟩
  obtain ⟨c, hc, hcb⟩ := List.mem_map.1 this
  exact NatOk.bare hcb.symm (hb c hc (by rw [(bare_fields hcb).1]; exact ht))

theorem getD_bare {a b : List FwChain} (h : a.map FwChain.bare = b.map FwChain.bare) (i : Nat) : (a.getD i {}).bare = (b.getD i {}).bare := by
  have := congrArg (fun l : List FwChain => l[i]?) h
  simp only [List.getElem?_map] at this
  rw [List.getD_eq_getElem?_getD, List.getD_eq_getElem?_getD]
  cases ha : a[i]? with
  | none =>
    rw [ha] at this
    cases hb : b[i]? with
    | none => rfl
    | some y => rw [hb] at this; cases this
  | some x =>
    rw [ha] at this
    cases hb : b[i]? with
    | none => rw [hb] at this; cases this
    | some y => rw [hb] at this; simpa using this

/-! ## Checks take rules out of the daemon's chains only -/

theorem iptables_del_any {print : Host} {exe t c : Word} {n : Nat} {K : Tables} :
    (iptables print [exe, b!"-t", t, b!"-D", c, decimal n] K).2 = K ∨
    ∃ rs rs', K t c = some rs ∧ List.Sublist rs' rs ∧
      (iptables print [exe, b!"-t", t, b!"-D", c, decimal n] K).2 = K.put t c rs' := by
  unfold iptables
  simp only [List.tail_cons, List.foldl_cons, List.foldl_nil]
  have h : Call.feed (Call.feed (Call.feed (Call.feed (Call.feed {} b!"-t") t) b!"-D") c) (decimal n) =
      ⟨.word, t, .delete, c, some n, []⟩ := by
    simp [Call.feed, Call.plain, isNumber_decimal, number_decimal]
  rw [h]
  simp only [Call.perform]
  cases hK : K t c with
  | none => exact .inl rfl
  | some rs =>
    simp only [Option.getD_some]
    by_cases hn : 1 ≤ n ∧ n ≤ rs.length
    · rw [if_pos hn]
      exact .inr ⟨rs, rs.eraseIdx (n - 1), rfl, List.eraseIdx_sublist _ _, rfl⟩
    · rw [if_neg hn]
      exact .inl rfl

/-- Rules have been taken out of a chain, nothing else. -/
def Thinner (t c : Word) (K K' : Tables) : Prop := K' = K ∨ ∃ rs rs', K t c = some rs ∧ List.Sublist rs' rs ∧ K' = K.put t c rs'

theorem Thinner.trans {t c : Word} {K K' K'' : Tables} (h1 : Thinner t c K K') (h2 : Thinner t c K' K'') : Thinner t c K K'' := by
  rcases h1 with rfl | ⟨rs, rs', a1, a2, rfl⟩
  · exact h2
  · rcases h2 with rfl | ⟨qs, qs', b1, b2, rfl⟩
    · exact .inr ⟨rs, rs', a1, a2, rfl⟩
    · rw [put_get] at b1
      cases b1
      exact .inr ⟨rs, qs', a1, b2.trans a2, by rw [put_put]⟩

theorem rmRule_thinner {print : Host} {cf : FwConf} {ch : FwChain} (h : NatOk cf ch) {n : Int} {s s' : RmSt (Tables × List Fate)} {K : Tables}
    (hw : s.world = (K, [])) (h0 : (s.off : Int) ≤ n) (h1 : n ≤ 65536) (hr : rmRule cf (iptTool print) ch n s = .ok s') :
    ∃ K', s'.world = (K', []) ∧ Thinner ch.table ch.to_chain K K' := by
  have hroom := h.room
  unfold rmRule at hr
  have hl := decStr_length_le (n - s.off).toNat 10 (by decide) (by omega)
  rw [decStr_decimal] at hl
  rw [decStrInt_pos (by omega), hw, run_argv (ws := [cf.fw_command, b!"-t", ch.table, b!"-D", ch.to_chain, decimal (n - s.off).toNat])
    (by simp [spaced]) (by
      intro w hw
      rcases List.mem_cons.1 hw with rfl | hw
      · exact h.exe
      · refine five_plain h.table h.chain.1 plain_D ?_ w hw
        intro w hw
        rw [List.mem_singleton] at hw
        exact hw ▸ plain_decimal _)
    (by simp only [List.length_append, List.length_cons, List.length_nil]; omega) (by simp), bind_ok] at hr
  simp only [if_true] at hr
  cases hr
  exact ⟨_, rfl, iptables_del_any⟩

theorem ruleNum_range {buf : Str} {k off : Nat} {n : Int} (h : ruleNum buf k off = .ok (some n)) : (off : Int) ≤ n ∧ n ≤ 65536 := by
  unfold ruleNum at h
  split at h
  · cases h
  · split at h
    · cases h
    · obtain ⟨u, -, h⟩ := bind_eq_ok h
      simp only [pure_eq] at h
      injection h with h
      split at h
      · rename_i hv
        have := strtol_wrapper_range _ _ _ n (Prod.ext (Option.some.inj h) hv)
        exact ⟨this.1, this.2.1 (by decide)⟩
      · cases h

theorem rmLoop_thinner {print : Host} {cf : FwConf} {ch : FwChain} (h : NatOk cf ch) {now : Int} {buf : Str} : ∀ (fuel : Nat) (ndx : Option Nat)
    (s s' : RmSt (Tables × List Fate)) (K : Tables), s.world = (K, []) → rmLoop cf (iptTool print) ch now buf fuel ndx s = .ok s' →
    ∃ K', s'.world = (K', []) ∧ Thinner ch.table ch.to_chain K K'
  | 0, ndx, s, s', K, hw, hr => by cases hr; exact ⟨K, hw, .inl rfl⟩
  | fuel + 1, none, s, s', K, hw, hr => by cases hr; exact ⟨K, hw, .inl rfl⟩
  | fuel + 1, some p, s, s', K, hw, hr => by
    unfold rmLoop at hr
    dsimp only at hr
    split at hr
    · exact rmLoop_thinner h fuel _ s s' K hw hr
    · split at hr
      · obtain ⟨n, hn, hr⟩ := bind_eq_ok hr
        split at hr
        · cases hr; exact ⟨K, hw, .inl rfl⟩
        · obtain ⟨s1, h1, hr⟩ := bind_eq_ok hr
          have hrange := ruleNum_range hn
          obtain ⟨K1, hw1, ht1⟩ := rmRule_thinner h hw hrange.1 hrange.2 h1
          obtain ⟨K2, hw2, ht2⟩ := rmLoop_thinner h fuel _ s1 s' K1 hw1 hr
          exact ⟨K2, hw2, ht1.trans ht2⟩
      · refine rmLoop_thinner h fuel _ _ s' K ?_ hr
        exact hw

theorem checkChain_thinner {print : Host} {cf : FwConf} {ch ch' : FwChain} (h : NatOk cf ch) {all : Bool} {now : Int} {i : Nat}
    {K : Tables} {w' : Tables × List Fate} (hr : checkChain cf (iptTool print) all now i ch (K, []) = .ok (ch', w')) :
    ch'.bare = ch.bare ∧ ∃ K', w' = (K', []) ∧ Thinner ch.table ch.to_chain K K' := by
  have hroom := h.room
  unfold checkChain at hr
  split at hr
  · cases hr; exact ⟨rfl, K, rfl, .inl rfl⟩
  · split at hr
    · cases hr; exact ⟨rfl, K, rfl, .inl rfl⟩
    · rw [run_argv (ws := [cf.fw_command, b!"-t", ch.table, b!"-L", ch.to_chain, b!"--line-numbers", b!"-n"]) (by simp [spaced]) (by
          intro w hw
          rcases List.mem_cons.1 hw with rfl | hw
          · exact h.exe
          · refine five_plain h.table h.chain.1 plain_L ?_ w hw
            intro w hw
            simp only [List.mem_cons, List.not_mem_nil, or_false] at hw
            rcases hw with rfl | rfl <;> (unfold PlainWord IsBlank; decide))
        (by simp only [List.length_append, List.length_cons, List.length_nil]; omega) (by simp), bind_ok] at hr
      have hK : (iptables print [cf.fw_command, b!"-t", ch.table, b!"-L", ch.to_chain, b!"--line-numbers", b!"-n"] K).2 = K := by
        unfold iptables
        simp only [List.tail_cons, List.foldl_cons, List.foldl_nil]
        cases hq : K ch.table ch.to_chain <;> simp [Call.perform, Call.feed, Call.plain, hq]
      rw [hK] at hr
      simp only [Bool.not_true, Bool.false_eq_true, if_false] at hr
      split at hr
      · cases hr; exact ⟨rfl, K, rfl, .inl rfl⟩
      · unfold rm_expired_rules at hr
        obtain ⟨s', h1, hr⟩ := bind_eq_ok hr
        obtain ⟨K', hw, ht⟩ := rmLoop_thinner h _ _ _ s' K rfl h1
        cases hr
        exact ⟨rfl, K', hw, ht⟩

theorem over_thinner {hs : List Hook} (ha : Apart hs) {K0 K K' : Tables} (hO : Over hs K0 K) {h : Hook} (hm : h ∈ hs)
    (ht : Thinner h.table h.to K K') : Over hs K0 K' := by
  rcases ht with rfl | ⟨rs, rs', h1, h2, rfl⟩
  · exact hO
  · have hc := tidy_clean ha hO.tidy hm h1
    exact ⟨tidy_put_to ha hO.tidy hm (fun r hr => hc r (h2.subset hr)), (without_put_to hm K _).trans hO.rest⟩

theorem checkChains_over {print : Host} {cf : FwConf} {hs : List Hook} (ha : Apart hs) {K0 : Tables} {all : Bool} {now : Int} :
    ∀ (chs : List FwChain) (i : Nat) (K : Tables) (chs' : List FwChain) (w' : Tables × List Fate), InitOk cf chs →
      (∀ ch ∈ chs, ch.target = [] → ch.table = []) → (∀ h ∈ hooks chs, h ∈ hs) → Over hs K0 K →
      checkChains cf (iptTool print) all now i chs (K, []) = .ok (chs', w') →
      chs'.map FwChain.bare = chs.map FwChain.bare ∧ ∃ K', w' = (K', []) ∧ Over hs K0 K'
  | [], i, K, chs', w', _, _, _, hO, hr => by cases hr; exact ⟨rfl, K, rfl, hO⟩
  | ch :: chs, i, K, chs', w', hok, he, hm, hO, hr => by
    unfold checkChains at hr
    obtain ⟨r1, h1, hr⟩ := bind_eq_ok hr
    obtain ⟨r2, h2, hr⟩ := bind_eq_ok hr
    obtain ⟨c1, w1⟩ := r1
    have hstep : c1.bare = ch.bare ∧ ∃ K1, w1 = (K1, []) ∧ Over hs K0 K1 := by
      by_cases ht : ch.target = []
      · unfold checkChain at h1
        rw [if_pos (show ch.table = [] ∨ ch.to_chain.getD i 0 = 0 from .inl (he ch List.mem_cons_self ht))] at h1
        split at h1 <;> (cases h1; exact ⟨rfl, K, rfl, hO⟩)
      · obtain ⟨hb, K1, hw, hth⟩ := checkChain_thinner (hok ch List.mem_cons_self ht) h1
        exact ⟨hb, K1, hw, over_thinner ha hO (hm _ (mem_hooks List.mem_cons_self ht)) hth⟩
    obtain ⟨hb, K1, rfl, hO1⟩ := hstep
    obtain ⟨hb2, K2, hw2, hO2⟩ := checkChains_over ha chs (i + 1) K1 r2.1 r2.2 (fun c hc => hok c (List.mem_cons_of_mem _ hc))
      (fun c hc => he c (List.mem_cons_of_mem _ hc)) (fun h hh => hm h (by
        by_cases ht : ch.target = []
        · rw [hooks_cons_neg ht]; exact hh
        · rw [hooks_cons ht]; exact List.mem_cons_of_mem _ hh)) hO1 h2
    cases hr
    exact ⟨by simp [hb, hb2], K2, hw2, hO2⟩

/-! ## The rules of requests -/

theorem decimal_ne_j (n : Nat) : decimal n ≠ b!"-j" := by
  intro h
  have h1 := isNumber_decimal n
  rw [h] at h1
  exact absurd h1 (by decide)

theorem ipv4_ne_j {w : Word} (h : IsIPv4 w) : w ≠ b!"-j" := by
  rintro rfl
  obtain ⟨a, b, c, d, ha, hb, hc, hd, he, hl⟩ := h
  have := congrArg List.length he
  simp only [List.length_append, List.length_cons, List.length_nil] at this
  omega

theorem dst_ne_j {cf : FwConf} {sp : SpaData} (h : cf.use_destination = true → IsIPv4 sp.pkt_destination_ip) :
    dstOf cf sp ≠ b!"-j" ∧ AddrWord (dstOf cf sp) := by
  unfold dstOf
  cases hu : cf.use_destination with
  | true => exact ⟨ipv4_ne_j (h hu), addrWord_ipv4 (h hu)⟩
  | false =>
    rw [if_neg (by decide)]
    exact ⟨by decide, by unfold AddrWord RuleWord PlainWord IsBlank; decide⟩

theorem jumps_rules {c target src dst : Word} (hs : src ≠ b!"-j") (hd : dst ≠ b!"-j") (ht : target ≠ c) (htj : target ≠ b!"-j") (proto port e : Nat) :
    jumpsTo c (inputRule proto src dst port e target) = false ∧ jumpsTo c (outputRule proto src dst port e target) = false ∧
    jumpsTo c (forwardRule proto src port e target) = false ∧
    (∀ ip toPort, jumpsTo c (dnatRule proto src dst port e target ip toPort) = false) ∧
    (∀ opt val, opt ≠ b!"-j" → jumpsTo c (snatRule proto src port e target opt val) = false) := by
  refine ⟨?_, ?_, ?_, fun ip toPort => ?_, fun opt val ho => ?_⟩ <;>
    simp [inputRule, outputRule, forwardRule, dnatRule, snatRule, jumpsTo, decimal_ne_j, *]

/-! ## The chains after a start -/

theorem make_apply (K : Tables) (t c t' c' : Word) :
    K.make t c t' c' = if t' = t ∧ c' = c then some ((K t c).getD []) else K t' c' := by
  unfold Tables.make
  cases hK : K t c with
  | none =>
    dsimp only
    by_cases he : t' = t ∧ c' = c
    · rw [he.1, he.2, if_pos ⟨rfl, rfl⟩, put_get]; rfl
    · rw [if_neg he, put_other _ _ he]
  | some rs =>
    dsimp only
    by_cases he : t' = t ∧ c' = c
    · rw [he.1, he.2, if_pos ⟨rfl, rfl⟩, hK]; rfl
    · rw [if_neg he]

theorem jump_other {K : Tables} {t f c t' c' : Word} {n : Nat} (h : ¬ (t' = t ∧ c' = f)) : K.jump t f n c t' c' = K t' c' := by
  unfold Tables.jump
  cases K t f with
  | none => rfl
  | some fr =>
    dsimp only
    split
    · rfl
    · split
      · rw [put_other _ _ h]
      · rfl

theorem jump_self {K : Tables} {t f c : Word} {n : Nat} {fr : List Rule} (h : K t f = some fr) : K.jump t f n c t f =
    some (if [b!"-j", c] ∈ fr then fr else if 1 ≤ n ∧ n ≤ fr.length + 1 then insertAt fr n [b!"-j", c] else fr) := by
  unfold Tables.jump
  rw [h]
  dsimp only
  split
  · exact h
  · split
    · rw [put_get]
    · exact h

theorem length_insertAt (fr : List Rule) (n : Nat) (j : Rule) : (insertAt fr n j).length = fr.length + 1 := by
  have := congrArg List.length (List.take_append_drop (n - 1) fr)
  simp only [List.length_append] at this
  simp only [insertAt, List.length_append, List.length_cons]
  omega

theorem made_there {cs : List FwChain} {t c : Word} : ∀ {K : Tables}, (∃ rs, K t c = some rs) →
    ∃ rs, cs.foldl (fun K ch => madeChain ch K) K t c = some rs := by
  induction cs with
  | nil => exact fun {_} h => h
  | cons ch cs ih =>
    intro K ⟨rs, h⟩
    refine ih (K := madeChain ch K) ?_
    have h1 : ∃ rs1, K.make ch.table ch.to_chain t c = some rs1 := by
      rw [make_apply]
      split
      · exact ⟨_, rfl⟩
      · exact ⟨rs, h⟩
    obtain ⟨rs1, h1⟩ := h1
    unfold madeChain
    by_cases he : t = ch.table ∧ c = ch.from_chain
    · rw [he.1, he.2] at h1 ⊢
      rw [jump_self h1]
      exact ⟨_, rfl⟩
    · rw [jump_other he]
      exact ⟨rs1, h1⟩

/-- The chains that are made are empty, if they were not there. -/
theorem made_empty {hs : List Hook} (ha : Apart hs) : ∀ (cs : List FwChain), (∀ ch ∈ cs, hookOf ch ∈ hs) → ∀ (K : Tables),
    (∀ h ∈ hs, K h.table h.to = none ∨ K h.table h.to = some []) →
    (∀ ch ∈ cs, cs.foldl (fun K ch => madeChain ch K) K ch.table ch.to_chain = some []) ∧
    ∀ h ∈ hs, K h.table h.to = some [] → cs.foldl (fun K ch => madeChain ch K) K h.table h.to = some []
  | [], _, K, _ => ⟨fun ch hch => (by cases hch), fun h _ hK => hK⟩
  | c :: cs, hm, K, hK => by
    have hc := hm c List.mem_cons_self
    have happ : ∀ h ∈ hs, madeChain c K h.table h.to =
        if h.table = c.table ∧ h.to = c.to_chain then some ((K c.table c.to_chain).getD []) else K h.table h.to := by
      intro h hh
      unfold madeChain
      rw [jump_other (show ¬ (h.table = c.table ∧ h.to = c.from_chain) from fun hq => ha.from_ h hh (hookOf c) hc hq.1 hq.2), make_apply]
    have hget : (K c.table c.to_chain).getD [] = [] := by
      rcases hK _ hc with h | h
      · rw [show K c.table c.to_chain = none from h]; rfl
      · rw [show K c.table c.to_chain = some [] from h]; rfl
    have hK' : ∀ h ∈ hs, madeChain c K h.table h.to = none ∨ madeChain c K h.table h.to = some [] := by
      intro h hh
      rw [happ h hh]
      split
      · exact .inr (by rw [hget])
      · exact hK h hh
    have hself : madeChain c K c.table c.to_chain = some [] := by
      have := happ _ hc
      rw [if_pos ⟨rfl, rfl⟩, hget] at this
      exact this
    obtain ⟨h1, h2⟩ := made_empty ha cs (fun ch hch => hm ch (List.mem_cons_of_mem _ hch)) (madeChain c K) hK'
    refine ⟨fun ch hch => ?_, fun h hh hs => ?_⟩
    · rcases List.mem_cons.1 hch with rfl | hch
      · exact h2 _ hc hself
      · exact h1 ch hch
    · refine h2 h hh ?_
      rw [happ h hh]
      split
      · rw [hget]
      · exact hs

/-- One chain is made: what becomes of a chain that is not the daemon's. -/
theorem made_from {hs : List Hook} (ha : Apart hs) {c : FwChain} (hc : hookOf c ∈ hs) {h : Hook} (hh : h ∈ hs) {K : Tables} {fr : List Rule}
    (hf : K h.table h.from_ = some fr) : ∃ fr', madeChain c K h.table h.from_ = some fr' ∧ fr.length ≤ fr'.length ∧
      (¬ (h.table = c.table ∧ h.to = c.to_chain) → fr'.count h.jump = fr.count h.jump) ∧
      (h = hookOf c → h.jump ∉ fr → 1 ≤ c.jump_rule_pos.toNat ∧ c.jump_rule_pos.toNat ≤ fr.length + 1 → fr'.count h.jump = 1) := by
  have hmk : K.make c.table c.to_chain h.table h.from_ = some fr := by
    rw [make_apply, if_neg (fun hq => ha.from_ (hookOf c) hc h hh hq.1.symm hq.2.symm), hf]
  unfold madeChain
  by_cases he : h.table = c.table ∧ h.from_ = c.from_chain
  · rw [he.1, he.2] at hmk ⊢
    rw [jump_self hmk]
    refine ⟨_, rfl, ?_, ?_, ?_⟩
    · split
      · exact Nat.le_refl _
      · split
        · rw [length_insertAt]; omega
        · exact Nat.le_refl _
    · intro hne
      split
      · rfl
      · split
        · rw [count_insertAt, if_neg]
          · rfl
          · intro hj
            unfold Hook.jump at hj
            injection hj with _ hj
            injection hj with hj _
            exact hne ⟨rfl, hj.symm⟩
        · rfl
    · rintro rfl hnot hpos
      rw [if_neg (show [b!"-j", c.to_chain] ∉ fr from hnot), if_pos hpos, count_insertAt,
        if_pos (show [b!"-j", c.to_chain] = (hookOf c).jump from rfl), List.count_eq_zero.2 hnot]
  · rw [jump_other he]
    refine ⟨fr, hmk, Nat.le_refl _, fun _ => rfl, ?_⟩
    rintro rfl
    exact absurd ⟨rfl, rfl⟩ he

theorem made_count_keep {hs : List Hook} (ha : Apart hs) {h : Hook} (hh : h ∈ hs) : ∀ (cs : List FwChain), (∀ ch ∈ cs, hookOf ch ∈ hs) →
    (∀ ch ∈ cs, ¬ (h.table = ch.table ∧ h.to = ch.to_chain)) → ∀ (K : Tables) (fr : List Rule), K h.table h.from_ = some fr →
    ∃ fr', cs.foldl (fun K ch => madeChain ch K) K h.table h.from_ = some fr' ∧ fr'.count h.jump = fr.count h.jump
  | [], _, _, K, fr, hf => ⟨fr, hf, rfl⟩
  | c :: cs, hm, hne, K, fr, hf => by
    obtain ⟨fr1, h1, -, h2, -⟩ := made_from ha (hm c List.mem_cons_self) hh hf
    obtain ⟨fr', h3, h4⟩ := made_count_keep ha hh cs (fun ch hch => hm ch (List.mem_cons_of_mem _ hch))
      (fun ch hch => hne ch (List.mem_cons_of_mem _ hch)) (madeChain c K) fr1 h1
    exact ⟨fr', h3, h4.trans (h2 (hne c List.mem_cons_self))⟩

theorem made_count {hs : List Hook} (ha : Apart hs) : ∀ (cs : List FwChain), (∀ ch ∈ cs, hookOf ch ∈ hs) →
    cs.Pairwise (fun a b => ¬ (a.table = b.table ∧ a.to_chain = b.to_chain)) → ∀ ch ∈ cs, ∀ (K : Tables) (fr : List Rule),
    K ch.table ch.from_chain = some fr → (hookOf ch).jump ∉ fr → 1 ≤ ch.jump_rule_pos.toNat ∧ ch.jump_rule_pos.toNat ≤ fr.length + 1 →
    ∃ fr', cs.foldl (fun K ch => madeChain ch K) K ch.table ch.from_chain = some fr' ∧ fr'.count (hookOf ch).jump = 1
  | [], _, _, ch, hch, _, _, _, _, _ => by cases hch
  | c :: cs, hm, hp, ch, hch, K, fr, hf, hnot, hpos => by
    rw [List.pairwise_cons] at hp
    obtain ⟨fr1, h1, h2, h3, h4⟩ := made_from ha (hm c List.mem_cons_self) (hm ch hch) (K := K) (fr := fr) hf
    have hm' : ∀ x ∈ cs, hookOf x ∈ hs := fun x hx => hm x (List.mem_cons_of_mem _ hx)
    rcases List.mem_cons.1 hch with rfl | hcs
    · obtain ⟨fr', h5, h6⟩ := made_count_keep ha (hm ch hch) cs hm' (fun x hx => hp.1 x hx) (madeChain ch K) fr1 h1
      exact ⟨fr', h5, h6.trans (h4 rfl hnot hpos)⟩
    · have hne : ¬ ((hookOf ch).table = c.table ∧ (hookOf ch).to = c.to_chain) := fun hq => hp.1 ch hcs ⟨hq.1.symm, hq.2.symm⟩
      have hnot1 : (hookOf ch).jump ∉ fr1 := by
        have := h3 hne
        rw [List.count_eq_zero.2 hnot] at this
        exact List.count_eq_zero.1 this
      exact made_count ha cs hm' hp.2 ch hcs (madeChain c K) fr1 h1 hnot1 ⟨hpos.1, by omega⟩

end Fwknop
