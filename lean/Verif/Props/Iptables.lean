import Verif.Lemmas.IptGrant

/-!
# Properties of the iptables back end: C39, C40, C41, C42, C43

The program iptables is described in Spec/Iptables.lean, for any way of printing a rule in one line.
-/

namespace Fwknop.Props

open Fwknop Spec Res

/-! ## A concrete firewall -/

/-- A way of printing a rule: its words, the comment as iptables shows it. -/
def showRule : Rule → List Nat
  | [] => []
  | [w] => w
  | w :: x :: ws =>
    if w = b!"--comment" then b!"/* " ++ x ++ b!" */ " ++ showRule ws else w ++ 32 :: showRule (x :: ws)

abbrev fwSample : FwConf := { fw_command := b!"/sbin/iptables" }

abbrev inChain : FwChain :=
  { target := b!"ACCEPT", table := b!"filter", from_chain := b!"INPUT", jump_rule_pos := 1, to_chain := b!"FWKNOP_INPUT" }
abbrev fwdChain : FwChain :=
  { target := b!"ACCEPT", table := b!"filter", from_chain := b!"FORWARD", jump_rule_pos := 1
    to_chain := b!"FWKNOP_FORWARD" }
abbrev dnatChain : FwChain :=
  { target := b!"DNAT", table := b!"nat", from_chain := b!"PREROUTING", jump_rule_pos := 1
    to_chain := b!"FWKNOP_PREROUTING" }
abbrev masqChain : FwChain :=
  { target := b!"MASQUERADE", table := b!"nat", from_chain := b!"POSTROUTING", jump_rule_pos := 1
    to_chain := b!"FWKNOP_MASQUERADE" }

/-- The chains of the default configuration (without SNAT). -/
abbrev defaultChains : List FwChain := [inChain, {}, fwdChain, dnatChain, {}, masqChain]

/-- Tables with the built-in chains only. -/
def builtin : Tables := fun t c =>
  if t = b!"filter" ∧ (c = b!"INPUT" ∨ c = b!"FORWARD" ∨ c = b!"OUTPUT") then some []
  else if t = b!"nat" ∧ (c = b!"PREROUTING" ∨ c = b!"POSTROUTING") then some []
  else none

/-- The host of the examples. -/
abbrev sampleHost : Host :=
  ⟨showRule, [b!"INPUT", b!"FORWARD", b!"OUTPUT", b!"PREROUTING", b!"POSTROUTING", b!"FWKNOP_INPUT", b!"FWKNOP_FORWARD",
    b!"FWKNOP_PREROUTING", b!"FWKNOP_MASQUERADE"]⟩

def ipt := iptTool sampleHost

/-- A request for SSH from 1.2.3.4. -/
abbrev sshRequest : SpaData :=
  { message_type := FKO_ACCESS_MSG, spa_message_remain := b!"tcp/22", use_src_ip := b!"1.2.3.4", fw_access_timeout := 30 }

/-- The content of the input chain after a run. -/
def inputOf (r : Res (FwSt (Tables × List Fate))) : Option (Option (List Rule)) :=
  match r with
  | .ok s => some (s.world.1 b!"filter" b!"FWKNOP_INPUT")
  | _ => none

def sshRule (e : Nat) : Rule := inputRule 6 b!"1.2.3.4" b!"0.0.0.0/0" 22 e b!"ACCEPT"

/-! ## C39: the rules of a request -/

/-- C39 (part): a request that is not for NAT is carried out as follows, if iptables works and the
names are not too long: for each port in turn the input chain is made if need be, jumped to from its
parent chain, and given the rule for the source, the protocol and the port with the expiry now plus the
timeout, unless it has that rule; likewise the output chain, if one is configured.  Nothing else
changes.  What is missing: names for which the command does not fit its buffer, and iptables calls
that fail (`C39_long_name`, C42). -/
theorem C39_tables_partial (print : Host) (cf : FwConf) (acc : Stanza) (sp : SpaData) (now : Int)
    (s : FwSt (Tables × List Fate)) (K : Tables) (hs : s.world = (K, []))
    (ps : List (Nat × Nat)) (hps : ProtoPorts sp.spa_message_remain ps) (hnat : ¬ ForNat acc.force_nat sp.message_type)
    (e : Nat) (he : (e : Int) = now + sp.fw_access_timeout) (he32 : e < 2 ^ 32)
    (hin : RequestOk cf (s.at IPT_INPUT_ACCESS) sp.use_src_ip (dstOf cf sp))
    (hout : (s.at IPT_OUTPUT_ACCESS).to_chain ≠ [] →
      RequestOk cf (s.at IPT_OUTPUT_ACCESS) sp.use_src_ip (dstOf cf sp)) :
    ∃ s', process_spa_request cf (iptTool print) acc sp now s = .ok s' ∧
      s'.world = (ps.foldl (portTables cf.prepend (s.at IPT_INPUT_ACCESS) (s.at IPT_OUTPUT_ACCESS) sp.use_src_ip
        (dstOf cf sp) e) K, []) := by
  have hbound : ∀ p ∈ ps, p.1 < 1000 ∧ p.2 ≤ 65535 := by
    obtain ⟨items, _, hi, _, rfl⟩ := hps
    intro p hp
    obtain ⟨i, hi', rfl⟩ := List.mem_map.1 hp
    obtain ⟨_, _, _, _, hn, _, _, _, h65, _⟩ := hi i hi'
    exact ⟨by rcases hn with h | h <;> omega, h65⟩
  have hne : ps ≠ [] := by
    obtain ⟨items, h0, _, _, rfl⟩ := hps
    simpa using h0
  obtain ⟨s', h1, h2, _⟩ := portLoop_run (print := print) (sp := sp) he32 (now := now) ps s K hin hout hbound hs
  refine ⟨s', ?_, h2⟩
  unfold process_spa_request
  have hexp : expTs now sp.fw_access_timeout = e := by unfold expTs; omega
  rw [protoPorts_expand hps]
  cases ps with
  | nil => exact absurd rfl hne
  | cons p ps =>
    rw [List.map_cons]
    simp only
    rw [if_neg (fun h => hnat (wantsNat_iff.1 h)), hexp]
    exact h1

theorem make_same {K : Tables} {t c : Word} {rs : List Rule} (h : K t c = some rs) : K.make t c = K := by
  unfold Tables.make; rw [h]

theorem jump_same {K : Tables} {t f c : Word} {fr : List Rule} (h : K t f = some fr) (hj : [b!"-j", c] ∈ fr) (n : Nat) :
    K.jump t f n c = K := by
  unfold Tables.jump; rw [h]; simp only; rw [if_pos hj]

theorem grant_there {K : Tables} {t f c : Word} {rs fr : List Rule} (h : K t c = some rs) (hf : K t f = some fr)
    (hj : [b!"-j", c] ∈ fr) (n : Nat) (front : Bool) (r : Rule) :
    K.grant t f n c front r = K.put t c (addRule front rs r) := by
  unfold Tables.grant
  rw [make_same h, jump_same hf hj]
  simp only
  rw [h]

theorem decimal_inj {a b : Nat} (h : decimal a = decimal b) : a = b := by
  rw [← number_decimal a, h, number_decimal]

theorem inputRule_inj {p q : Nat × Nat} {src dst : Word} {e : Nat} {t : Word}
    (h : inputRule p.1 src dst p.2 e t = inputRule q.1 src dst q.2 e t) : p = q := by
  simp only [inputRule, List.cons.injEq, and_true, true_and] at h
  exact Prod.ext (decimal_inj h.1) (decimal_inj h.2)

theorem fold_grants {t f c : Word} {n : Nat} (hfc : f ≠ c) (src dst : Word) (e : Nat) (target : Word)
    (ps : List (Nat × Nat)) : ∀ (K : Tables) (rs fr : List Rule), K t c = some rs → K t f = some fr → [b!"-j", c] ∈ fr →
      ps.Nodup → (∀ p ∈ ps, inputRule p.1 src dst p.2 e target ∉ rs) →
      ps.foldl (fun K p => K.grant t f n c false (inputRule p.1 src dst p.2 e target)) K =
        K.put t c (rs ++ ps.map fun p => inputRule p.1 src dst p.2 e target) := by
  induction ps with
  | nil => intro K rs fr h _ _ _ _; simp [put_same h]
  | cons p ps ih =>
    intro K rs fr h hf hj hd hnew
    rw [List.nodup_cons] at hd
    rw [List.foldl_cons, grant_there h hf hj, addRule, if_neg (hnew p List.mem_cons_self), if_neg (by decide)]
    rw [ih _ _ fr (put_get _ _ _ _) (by rw [put_other _ _ (fun he => hfc he.2)]; exact hf) hj hd.2, put_put]
    · simp
    · intro q hq hm
      rcases List.mem_append.1 hm with hm | hm
      · exact hnew q (List.mem_cons_of_mem _ hq) hm
      · rw [List.mem_singleton] at hm
        exact hd.1 (inputRule_inj hm ▸ hq)

/-- C39 (part): with the chains in place, no output chain and no earlier rule for the same access
until the same second, a request adds to the input chain exactly one rule for each port, in the order
of the request; each has the authorised source address, the protocol, the port and the expiry time.
Every other chain stays as it is.  Missing is what is missing in `C39_tables_partial`. -/
theorem C39_input_rules_partial (print : Host) (cf : FwConf) (acc : Stanza) (sp : SpaData) (now : Int)
    (s : FwSt (Tables × List Fate)) (K : Tables) (hs : s.world = (K, []))
    (ps : List (Nat × Nat)) (hps : ProtoPorts sp.spa_message_remain ps) (hnat : ¬ ForNat acc.force_nat sp.message_type)
    (e : Nat) (he : (e : Int) = now + sp.fw_access_timeout) (he32 : e < 2 ^ 32)
    (hin : RequestOk cf (s.at IPT_INPUT_ACCESS) sp.use_src_ip (dstOf cf sp))
    (hout : (s.at IPT_OUTPUT_ACCESS).to_chain = []) (hpre : cf.prepend = false)
    (t f c : Word) (ht : (s.at IPT_INPUT_ACCESS).table = t) (hf : (s.at IPT_INPUT_ACCESS).from_chain = f)
    (hc : (s.at IPT_INPUT_ACCESS).to_chain = c) (hfc : f ≠ c)
    (rs fr : List Rule) (hrs : K t c = some rs) (hfr : K t f = some fr) (hj : [b!"-j", c] ∈ fr)
    (hnew : ∀ p ∈ ps, inputRule p.1 sp.use_src_ip (dstOf cf sp) p.2 e (s.at IPT_INPUT_ACCESS).target ∉ rs)
    (hnodup : ps.Nodup) :
    ∃ s', process_spa_request cf (iptTool print) acc sp now s = .ok s' ∧
      s'.world.1 t c = some (rs ++ ps.map fun p =>
        inputRule p.1 sp.use_src_ip (dstOf cf sp) p.2 e (s.at IPT_INPUT_ACCESS).target) ∧
      ∀ t' c', ¬ (t' = t ∧ c' = c) → s'.world.1 t' c' = K t' c' := by
  obtain ⟨s', h1, h2⟩ := C39_tables_partial print cf acc sp now s K hs ps hps hnat e he he32 hin
    (fun h => absurd hout h)
  refine ⟨s', h1, ?_⟩
  have : portTables cf.prepend (s.at IPT_INPUT_ACCESS) (s.at IPT_OUTPUT_ACCESS) sp.use_src_ip (dstOf cf sp) e =
      fun K p => K.grant t f (s.at IPT_INPUT_ACCESS).jump_rule_pos.toNat c false
        (inputRule p.1 sp.use_src_ip (dstOf cf sp) p.2 e (s.at IPT_INPUT_ACCESS).target) := by
    funext K p
    unfold portTables
    rw [if_pos hout, ht, hf, hc, hpre]
  rw [this, fold_grants hfc _ _ _ _ ps K rs fr hrs hfr hj hnodup hnew] at h2
  rw [h2]
  exact ⟨put_get _ _ _ _, fun t' c' h => put_other _ _ h⟩

theorem fwSample_ok : RequestOk fwSample inChain b!"1.2.3.4" b!"0.0.0.0/0" where
  exe := by unfold PlainWord IsBlank; decide
  table := by unfold PlainWord IsBlank; decide
  from_chain := by unfold PlainWord IsBlank; decide
  chain := by unfold RuleWord PlainWord IsBlank; decide
  target := by unfold RuleWord PlainWord IsBlank; decide
  src := by unfold RuleWord PlainWord IsBlank; decide
  dst := by unfold RuleWord PlainWord IsBlank; decide
  pos := by decide
  room := by decide

/-- The hypotheses of `C39_tables_partial` are met by the default configuration with empty tables, and
the rule is there afterwards. -/
example : ∃ s', process_spa_request fwSample ipt {} sshRequest 1000 ⟨defaultChains, (builtin, [])⟩ = .ok s' ∧
    s'.world.1 b!"filter" b!"FWKNOP_INPUT" = some [sshRule 1030] ∧
    s'.world.1 b!"filter" b!"INPUT" = some [[b!"-j", b!"FWKNOP_INPUT"]] := by
  obtain ⟨s', h1, h2⟩ := C39_tables_partial sampleHost fwSample {} sshRequest 1000 ⟨defaultChains, (builtin, [])⟩ builtin rfl
    [(6, 22)] ⟨[([], b!"tcp/22", (6, 22))], by decide, by
      intro i hi
      rw [List.mem_singleton] at hi
      subst hi
      refine ⟨by simp, b!"tcp", b!"22", rfl, .inl ⟨by decide, rfl⟩, by decide, ?_, by decide, by decide, by decide⟩
      unfold IsDigitChar
      decide, rfl, rfl⟩ (by decide) 1030 (by decide) (by decide) fwSample_ok (fun h => absurd rfl h)
  refine ⟨s', h1, ?_⟩
  rw [h2]
  exact ⟨by decide +kernel, by decide +kernel⟩

theorem ssh_ports : ProtoPorts sshRequest.spa_message_remain [(6, 22)] :=
  ⟨[([], b!"tcp/22", (6, 22))], by decide, by
    intro i hi
    rw [List.mem_singleton] at hi
    subst hi
    refine ⟨by simp, b!"tcp", b!"22", rfl, .inl ⟨by decide, rfl⟩, by decide, ?_, by decide, by decide, by decide⟩
    unfold IsDigitChar
    decide, rfl, rfl⟩

/-- Tables in which the input chain is in place, with a rule of the administrator. -/
def inPlace : Tables :=
  (builtin.put b!"filter" b!"INPUT" [[b!"-j", b!"FWKNOP_INPUT"]]).put b!"filter" b!"FWKNOP_INPUT" [[b!"-j", b!"LOG"]]

/-- The hypotheses of `C39_input_rules_partial` are met. -/
example : ∃ s', process_spa_request fwSample ipt {} sshRequest 1000 ⟨defaultChains, (inPlace, [])⟩ = .ok s' ∧
    s'.world.1 b!"filter" b!"FWKNOP_INPUT" = some [[b!"-j", b!"LOG"], sshRule 1030] := by
  obtain ⟨s', h1, h2, _⟩ := C39_input_rules_partial sampleHost fwSample {} sshRequest 1000 ⟨defaultChains, (inPlace, [])⟩ inPlace rfl
    [(6, 22)] ssh_ports (by decide) 1030 (by decide) (by decide) fwSample_ok rfl rfl b!"filter" b!"INPUT" b!"FWKNOP_INPUT" rfl
    rfl rfl (by decide) [[b!"-j", b!"LOG"]] [[b!"-j", b!"FWKNOP_INPUT"]] (by decide) (by decide) (by simp)
    (by decide +kernel) (by simp)
  exact ⟨s', h1, h2⟩

/-- A long path of the program: 161 characters. -/
abbrev longExe : FwConf := { fw_command := List.replicate 161 97 }

/-- C39 fails for long names: with this path, and all else as in the example above, the granted request
makes a rule that is not the one asked for: it has no expiry time and no target. -/
theorem C39_long_name :
    inputOf (process_spa_request longExe ipt {} sshRequest 1000 ⟨defaultChains, (builtin, [])⟩) =
      some (some [[b!"-p", b!"6", b!"-s", b!"1.2.3.4", b!"-d", b!"0.0.0.0/0", b!"--dport", b!"22", b!"-m", b!"comment",
        b!"--comment", b!"_exp_"]]) := by decide +kernel

/-! ## C40, C42, C43: expiry -/

/-- C40 (part): if iptables works, a check of a chain that is due removes exactly the rules whose
expiry is at or before the current time and keeps every other rule, in order.  What is missing:
listings of more than 4095 bytes (`C40_long_listing`), calls of iptables that fail (C42), names
shorter than the number of the chain (C43), names with blanks or too long for the command buffer. -/
theorem C40_check_partial (print : Host) (cf : FwConf) (K : Tables) (ex : Rule → Option Nat) (i : Nat)
    (ch : FwChain) (rs : List Rule) (h : ChainOk print cf K ex i ch rs) (all : Bool) (now : Int)
    (hdue : all = true ∨ (0 < ch.active_rules ∧ ch.next_expire ≤ now))
    (hsize : (listing print ch.to_chain rs).length ≤ 4095) :
    ∃ ch', checkChain cf (iptTool print) all now i ch (K, []) =
      .ok (ch', (K.put ch.table ch.to_chain (rs.filter fun r => !expired now (ex r)), [])) := by
  obtain ⟨ch', fs', rs', h1, _, _, h4⟩ := checkChain_run h hdue (fs := []) (by simp)
  obtain ⟨h5, h6, _⟩ := h4 rfl hsize
  exact ⟨ch', by rw [h1, h5, h6]⟩

/-- C42 (part): whichever calls of iptables are killed or do not start, and however long the listing
is, a check removes only expired rules: the others stay, in order, and so do all other chains.  What
is missing: calls that exit with an error status (`C42_refused`). -/
theorem C42_failures_partial (print : Host) (cf : FwConf) (K : Tables) (ex : Rule → Option Nat) (i : Nat)
    (ch : FwChain) (rs : List Rule) (h : ChainOk print cf K ex i ch rs) (all : Bool) (now : Int)
    (fs : List Fate) (hf : Fate.refused ∉ fs) :
    ∃ ch' fs' rs', checkChain cf (iptTool print) all now i ch (K, fs) =
        .ok (ch', (K.put ch.table ch.to_chain rs', fs')) ∧
      Pruned (fun r => expired now (ex r) = true) rs rs' := by
  by_cases hdue : Due all now ch
  · obtain ⟨ch', fs', rs', h1, _, h3, _⟩ := checkChain_run h hdue hf
    exact ⟨ch', fs', rs', h1, h3⟩
  · exact ⟨ch, fs, rs, by rw [checkChain_skip _ _ _ (fun hv => hdue hv.2), put_same h.there], Pruned.refl _ _⟩

/-- What being pruned means: a rule that must not go is still there. -/
theorem C42_live_rule_stays {p : Rule → Prop} {rs rs' : List Rule} (h : Pruned p rs rs') :
    (∀ r ∈ rs, ¬ p r → r ∈ rs') ∧ rs'.Sublist rs := by
  induction h with
  | nil => exact ⟨by simp, List.Sublist.refl _⟩
  | keep r _ ih =>
    refine ⟨fun x hx hp => ?_, ih.2.cons_cons r⟩
    rcases List.mem_cons.1 hx with rfl | hx
    · exact List.mem_cons_self
    · exact List.mem_cons_of_mem _ (ih.1 x hx hp)
  | drop r hr _ ih =>
    refine ⟨fun x hx hp => ?_, ih.2.cons r⟩
    rcases List.mem_cons.1 hx with rfl | hx
    · exact absurd hr hp
    · exact ih.1 x hx hp

/-- C43 (part): a check applies the expiry to every chain of the configuration that is due, if each
name is longer than the number of the chain: exactly the expired rules go.  All other chains of the
firewall stay as they are.  What is missing is what is missing in `C40_check_partial`. -/
theorem C43_every_chain_partial (print : Host) (cf : FwConf) (ex : Rule → Option Nat) (all : Bool) (now : Int)
    (s : FwSt (Tables × List Fate)) (K : Tables) (hs : s.world = (K, []))
    (hdistinct : s.chain.Pairwise fun a b =>
      Configured a → Configured b → ¬ (b.table = a.table ∧ b.to_chain = a.to_chain))
    (hok : ∀ i ch, s.chain[i]? = some ch → Configured ch →
      ∃ rs, ChainOk print cf K ex i ch rs ∧ (listing print ch.to_chain rs).length ≤ 4095) :
    ∃ s', check_firewall_rules cf (iptTool print) all now s = .ok s' ∧ s'.world.2 = [] ∧
      (∀ ch ∈ s.chain, Configured ch → (all = true ∨ (0 < ch.active_rules ∧ ch.next_expire ≤ now)) →
        ∃ rs, K ch.table ch.to_chain = some rs ∧
          s'.world.1 ch.table ch.to_chain = some (rs.filter fun r => !expired now (ex r))) ∧
      (∀ t c, (∀ ch ∈ s.chain, Configured ch → ¬ (t = ch.table ∧ c = ch.to_chain)) →
        s'.world.1 t c = K t c) := by
  have hfit : ∀ ch ∈ s.chain, Configured ch → ∀ rs, K ch.table ch.to_chain = some rs →
      (listing print ch.to_chain rs).length ≤ 4095 := by
    intro ch hch hc rs hrs
    obtain ⟨i, hi⟩ := List.getElem?_of_mem hch
    obtain ⟨rs', h1, h2⟩ := hok i ch hi hc
    have := h1.there
    rw [hrs] at this
    injection this with this
    rwa [this]
  obtain ⟨chs', K', fs', h1, h2, h3, h4⟩ := checkChains_run (print := print) (cf := cf) (ex := ex) (all := all) (now := now)
    s.chain 0 K [] (by simp) hdistinct (by
      intro j ch hj hc
      obtain ⟨rs, h, _⟩ := hok j ch hj hc
      exact ⟨rs, by rw [Nat.zero_add]; exact h⟩)
  refine ⟨⟨chs', (K', fs')⟩, ?_, h2 rfl hfit, ?_, ?_⟩
  · unfold check_firewall_rules
    rw [hs, h1]
    rfl
  · intro ch hch hc hd
    obtain ⟨rs, rs', e1, e2, _, e4⟩ := h4 ch hch hc hd
    exact ⟨rs, e1, by rw [← e4 rfl hfit]; exact e2⟩
  · intro t c hn
    exact h3 t c fun ch hch he => hn ch hch he.1 he.2.2

/-- The expiry of the rules of the samples. -/
def sampleEx (r : Rule) : Option Nat :=
  if r = sshRule 100 then some 100 else if r = sshRule 110 then some 110 else if r = sshRule 200 then some 200 else none

theorem sshRule_expiry (e : Nat) : HasExpiry showRule (sshRule e) (some e) := by
  have hs : showRule (sshRule e) = b!"-p 6 -s 1.2.3.4 -d 0.0.0.0/0 --dport 22 -m comment " ++ b!"/* _exp_" ++ decimal e ++
      b!" */" ++ b!" -j ACCEPT" := by
    have h1 : decimal 6 = b!"6" := by decide
    have h2 : decimal 22 = b!"22" := by decide
    simp [sshRule, inputRule, h1, h2, showRule]
  have hd : (10 : Nat) ∉ decimal e := by
    intro h
    exact (plain_decimal e).2 10 h (by unfold IsBlank; omega)
  refine ⟨by rw [hs]; simp [hd], _, _, noMark_of_no_underscore (by decide), noMark_of_no_underscore (by decide), hs⟩

abbrev foreignRule : Rule := [b!"-s", b!"9.9.9.9", b!"-j", b!"DROP"]

abbrev mixedRules : List Rule := [sshRule 100, foreignRule, sshRule 200, sshRule 110]

def mixed : Tables := builtin.put b!"filter" b!"FWKNOP_INPUT" mixedRules

theorem mixed_ok : ChainOk sampleHost fwSample mixed sampleEx 0 inChain mixedRules where
  names := ⟨by unfold PlainWord IsBlank; decide, by unfold PlainWord IsBlank; decide, by unfold PlainWord IsBlank; decide⟩
  room := by decide
  text := by decide
  long := by decide
  mark := by unfold NoMark; decide
  there := by decide
  expiry := by
    have h0 : sampleEx foreignRule = none := by decide +kernel
    have h1 : sampleEx (sshRule 100) = some 100 := by decide +kernel
    have h2 : sampleEx (sshRule 110) = some 110 := by decide +kernel
    have h3 : sampleEx (sshRule 200) = some 200 := by decide +kernel
    intro r hr
    simp only [List.mem_cons, List.not_mem_nil, or_false] at hr
    rcases hr with rfl | rfl | rfl | rfl
    · rw [h1]; exact ⟨sshRule_expiry _, by intro e he; injection he with he; omega⟩
    · rw [h0]; exact ⟨⟨by decide, by unfold NoMark; decide⟩, by intro e he; cases he⟩
    · rw [h3]; exact ⟨sshRule_expiry _, by intro e he; injection he with he; omega⟩
    · rw [h2]; exact ⟨sshRule_expiry _, by intro e he; injection he with he; omega⟩

/-- The hypotheses of C40 are met, and the rules that expired at 100 and 110 go at 150. -/
example : ∃ ch', checkChain fwSample ipt true 150 0 inChain (mixed, []) =
    .ok (ch', (mixed.put b!"filter" b!"FWKNOP_INPUT" [foreignRule, sshRule 200], [])) := by
  have := C40_check_partial sampleHost fwSample mixed sampleEx 0 inChain mixedRules mixed_ok true 150 (.inl rfl)
    (by decide +kernel)
  rwa [show mixedRules.filter (fun r => !expired 150 (sampleEx r)) = [foreignRule, sshRule 200] from by decide +kernel] at this

/-- The hypotheses of C42 are met with a deletion that does not run. -/
example : inputOf ((checkChain fwSample ipt true 150 0 inChain (mixed, [.works, .killed])).bind fun r =>
    .ok ⟨[r.1], r.2⟩) = some (some [sshRule 100, foreignRule, sshRule 200]) := by decide +kernel

/-- C42 is false: the first deletion exits with an error status (another process holds the lock of the
tables) and does nothing.  It counts as done, the number of the next rule is reduced by one, and the
rule that expires at 200 is deleted at 150 in place of the one that expired at 110. -/
theorem C42_refused :
    inputOf ((checkChain fwSample ipt true 150 0 inChain (mixed, [.works, .refused])).bind fun r =>
      .ok ⟨[r.1], r.2⟩) = some (some [sshRule 100, foreignRule, sshRule 110]) := by decide +kernel

/-- A chain of 110 rules of the administrator before one that expired at 100. -/
def crowded : Tables := builtin.put b!"filter" b!"FWKNOP_INPUT" (List.replicate 110 (foreignRule ++ foreignRule) ++ [sshRule 100])

/-- C40 fails for long listings: only the first 4095 bytes are looked at, so the last rule stays
although it has expired and iptables works. -/
theorem C40_long_listing :
    inputOf ((checkChain fwSample ipt true 150 0 inChain (crowded, [])).bind fun r => .ok ⟨[r.1], r.2⟩) =
      some (some (List.replicate 110 (foreignRule ++ foreignRule) ++ [sshRule 100])) := by decide +kernel

/-- A configuration whose SNAT chain, number 4, has a name of four characters. -/
abbrev shortChain : FwChain :=
  { target := b!"SNAT", table := b!"nat", from_chain := b!"POSTROUTING", jump_rule_pos := 1, to_chain := b!"SNAT"
    active_rules := 1, next_expire := 100 }

/-- C43 is false: the byte of the name that is tested is the one with the number of the chain, so a chain
with a short name is never looked at, whatever iptables does, whatever the time and even if everything
is to be looked at. -/
theorem C43_short_name {σ : Type} (cf : FwConf) (T : Tool σ) (all : Bool) (now : Int) (w : σ) :
    checkChain cf T all now IPT_SNAT_ACCESS shortChain w = .ok (shortChain, w) := by
  unfold checkChain
  by_cases h : !all ∧ (shortChain.active_rules = 0 ∨ shortChain.next_expire > now)
  · rw [if_pos h]
  · rw [if_neg h, if_pos (.inr (by decide))]

/-- The hypotheses of `C43_every_chain_partial` are met. -/
example : ∃ s', check_firewall_rules fwSample ipt true 150 ⟨[inChain, {}], (mixed, [])⟩ = .ok s' ∧
    s'.world.1 b!"filter" b!"FWKNOP_INPUT" = some [foreignRule, sshRule 200] := by
  obtain ⟨s', h1, _, h3, _⟩ := C43_every_chain_partial sampleHost fwSample sampleEx true 150 ⟨[inChain, {}], (mixed, [])⟩ mixed rfl
    (by
      refine List.pairwise_cons.2 ⟨fun b hb _ hc => ?_, by simp⟩
      rw [List.mem_singleton] at hb
      subst hb
      exact absurd rfl hc.1) (by
      intro i ch hi hc
      match i, hi with
      | 0, hi =>
        injection hi with hi
        subst hi
        exact ⟨mixedRules, mixed_ok, by decide +kernel⟩
      | 1, hi =>
        injection hi with hi
        subst hi
        exact absurd rfl hc.1
      | n + 2, hi => cases hi)
  refine ⟨s', h1, ?_⟩
  obtain ⟨rs, e1, e2⟩ := h3 inChain List.mem_cons_self ⟨by decide, by decide⟩ (.inl rfl)
  rw [show mixed inChain.table inChain.to_chain = some mixedRules from mixed_ok.there] at e1
  refine e2.trans ?_
  rw [← Option.some.inj e1]
  decide +kernel

/-! ## C41: expired rules are noticed -/

theorem ctr_lt {thr ctr : Nat} (h0 : 0 < thr) (h : ctr < thr) : (checkCtr thr ctr).2 < thr := by
  unfold checkCtr
  rw [if_pos h0]
  split
  · exact h0
  · rename_i hne
    show ctr + 1 < thr
    rcases Nat.lt_or_ge (ctr + 1) thr with h' | h'
    · exact h'
    · exact absurd (by rw [show ctr + 1 = thr from by omega, Nat.mod_self]) hne

theorem ctr_now {thr ctr : Nat} (h0 : 0 < thr) (h : ctr + 1 = thr) : (checkCtr thr ctr).1 = true := by
  unfold checkCtr
  rw [if_pos h0, if_pos (by rw [h, Nat.mod_self])]

theorem ctr_next {thr ctr : Nat} (h0 : 0 < thr) (h : ctr + 1 < thr) : (checkCtr thr ctr).2 = ctr + 1 := by
  unfold checkCtr
  rw [if_pos h0, if_neg (by rw [Nat.mod_eq_of_lt h]; omega)]

/-- What the check asks of the firewall, as in C43. -/
def FwReady (print : Host) (cf : FwConf) (ex : Rule → Option Nat) (s : FwSt (Tables × List Fate)) : Prop :=
  s.world.2 = [] ∧
  (s.chain.Pairwise fun a b => Configured a → Configured b → ¬ (b.table = a.table ∧ b.to_chain = a.to_chain)) ∧
  ∀ i ch, s.chain[i]? = some ch → Configured ch →
    ∃ rs, ChainOk print cf s.world.1 ex i ch rs ∧ (listing print ch.to_chain rs).length ≤ 4095

theorem check_names {σ : Type} {cf : FwConf} {T : Tool σ} {all : Bool} {now : Int} (chs : List FwChain) :
    ∀ {i : Nat} {w : σ} {r : List FwChain × σ}, checkChains cf T all now i chs w = .ok r →
      r.1.map FwChain.bare = chs.map FwChain.bare := by
  induction chs with
  | nil => intro i w r h; injection h with h; subst h; rfl
  | cons ch chs ih =>
    intro i w r h
    rw [checkChains] at h
    obtain ⟨x, hx, h⟩ := bind_eq_ok h
    obtain ⟨y, hy, h⟩ := bind_eq_ok h
    injection h with h
    subst h
    simp only [List.map_cons]
    rw [ih hy]
    congr 1
    unfold checkChain at hx
    split at hx
    · injection hx with hx; subst hx; rfl
    · split at hx
      · injection hx with hx; subst hx; rfl
      · obtain ⟨z, _, hx⟩ := bind_eq_ok hx
        split at hx
        · injection hx with hx; subst hx; rfl
        · simp only at hx
          split at hx
          · injection hx with hx; subst hx; rfl
          · unfold rm_expired_rules at hx
            obtain ⟨z', _, hx⟩ := bind_eq_ok hx
            injection hx with hx; subst hx; rfl

/-- C41 (part): within any `thr` consecutive iterations of the main loop (`thr` is
RULES_CHECK_THRESHOLD, 20 by default) there is one after whose check no configured chain contains a
rule that had expired by then.  This holds whatever the packets of the iterations do to the
firewall (`its` is any list of such actions and times), as long as the firewall meets the conditions of
C43 when it is checked.  What is missing: a check at *every* iteration, which the code does not do
(`C41_postponed`). -/
theorem C41_swept_partial (print : Host) (cf : FwConf) (ex : Rule → Option Nat) (thr ctr : Nat)
    (h0 : 0 < thr) (s : FwSt (Tables × List Fate)) (hctr : ctr < thr)
    (its : List ((FwSt (Tables × List Fate) → Res (FwSt (Tables × List Fate))) × Int)) (hlen : its.length = thr - ctr)
    (hready : ∀ a pk now b c1 s1 s2, its = a ++ (pk, now) :: b →
      fwRun cf (iptTool print) thr a (ctr, s) = .ok (c1, s1) → pk s1 = .ok s2 → FwReady print cf ex s2)
    (hpk : ∀ it ∈ its, ∀ s1, ∃ s2, it.1 s1 = .ok s2) :
    ∃ a pk now b c2 s2, its = a ++ (pk, now) :: b ∧
      fwRun cf (iptTool print) thr (a ++ [(pk, now)]) (ctr, s) = .ok (c2, s2) ∧
      ∀ ch ∈ s2.chain, Configured ch → ∀ rs, s2.world.1 ch.table ch.to_chain = some rs →
        ∀ r ∈ rs, expired now (ex r) = false := by
  induction its generalizing ctr s with
  | nil => simp only [List.length_nil] at hlen; omega
  | cons it its ih =>
    simp only [List.length_cons] at hlen
    obtain ⟨pk, now⟩ := it
    obtain ⟨s1, hs1⟩ := hpk (pk, now) List.mem_cons_self s
    have hr := hready [] pk now its ctr s s1 rfl rfl hs1
    obtain ⟨K, fs, hw⟩ : ∃ K fs, s1.world = (K, fs) := ⟨_, _, rfl⟩
    obtain ⟨hr1, hr2, hr3⟩ := hr
    rw [hw] at hr1 hr3
    simp only at hr1 hr3
    subst hr1
    obtain ⟨s2, g1, g2, g3, _⟩ := C43_every_chain_partial print cf ex (checkCtr thr ctr).1 now s1 K hw hr2 hr3
    have hiter : fwIter cf (iptTool print) thr (pk, now) (ctr, s) = .ok ((checkCtr thr ctr).2, s2) := by
      unfold fwIter
      simp only
      rw [show pk s = .ok s1 from hs1, bind_ok, g1, bind_ok]
      rfl
    by_cases hlast : ctr + 1 = thr
    · refine ⟨[], pk, now, its, (checkCtr thr ctr).2, s2, rfl, ?_, ?_⟩
      · simp only [List.nil_append, fwRun]
        rw [hiter, bind_ok]
      · intro ch hch hc rs hrs r hr
        -- the chain is one of `s1` up to the counters
        have hn : s2.chain.map FwChain.bare = s1.chain.map FwChain.bare := by
          unfold check_firewall_rules at g1
          obtain ⟨x, hx, g1⟩ := bind_eq_ok g1
          injection g1 with g1
          subst g1
          exact check_names _ hx
        have : ch.bare ∈ s1.chain.map FwChain.bare := hn ▸ List.mem_map.2 ⟨ch, hch, rfl⟩
        obtain ⟨ch1, hch1, hb⟩ := List.mem_map.1 this
        obtain ⟨_, b2, _, _, b5⟩ := bare_fields hb
        obtain ⟨rs1, e1, e2⟩ := g3 ch1 hch1 ⟨by rw [b2]; exact hc.1, by rw [b5]; exact hc.2⟩
          (.inl (ctr_now h0 hlast))
        rw [b2, b5, hrs] at e2
        injection e2 with e2
        rw [e2, List.mem_filter] at hr
        simpa using hr.2
    · have hc2 := ctr_next h0 (show ctr + 1 < thr by omega)
      obtain ⟨a, pk', now', b, c3, s3, e1, e2, e3⟩ := ih (ctr + 1) s2 (by omega) (by omega) (by
        intro a pk' now' b c1 s1' s2' he hrun hpk'
        refine hready ((pk, now) :: a) pk' now' b c1 s1' s2' (by rw [he]; rfl) ?_ hpk'
        rw [fwRun, hiter, bind_ok, hc2]
        exact hrun) (fun x hx => hpk x (List.mem_cons_of_mem _ hx))
      refine ⟨(pk, now) :: a, pk', now', b, c3, s3, by rw [e1]; rfl, ?_, e3⟩
      rw [List.cons_append, fwRun, hiter, bind_ok, hc2]
      exact e2

/-- Handling the SSH request at a time. -/
def sshAt (now : Int) : FwSt (Tables × List Fate) → Res (FwSt (Tables × List Fate)) :=
  process_spa_request fwSample ipt {} sshRequest now

/-- A run of the daemon, from empty tables: access is granted at 70, until 100, and then at 102, after
two seconds without an iteration, until 132. -/
def postponed : Res (Nat × FwSt (Tables × List Fate)) :=
  fwRun fwSample ipt 20 [(sshAt 70, 70), (sshAt 102, 102), (Res.ok, 103), (Res.ok, 131)] (0, ⟨defaultChains, (builtin, [])⟩)

/-- C41 is false: the second grant moves the time of the next check of the chain to 132, so that the
rule that expired at 100 is still there after the checks at 102, 103 and 131. -/
theorem C41_postponed : inputOf (postponed.bind fun r => .ok r.2) = some (some [sshRule 100, sshRule 132]) := by
  decide +kernel

/-- The hypotheses of `C41_swept_partial` are met: nothing happens for 20 iterations. -/
example : ∃ (a : List ((FwSt (Tables × List Fate) → Res (FwSt (Tables × List Fate))) × Int))
    (b : List ((FwSt (Tables × List Fate) → Res (FwSt (Tables × List Fate))) × Int)) (c2 : Nat) (s2 : FwSt (Tables × List Fate)),
    List.replicate 1 ((Res.ok : FwSt (Tables × List Fate) → Res (FwSt (Tables × List Fate))), (150 : Int)) = a ++ b ∧
    fwRun fwSample ipt 20 a (19, ⟨[inChain, {}], (mixed, [])⟩) = .ok (c2, s2) ∧
    s2.world.1 b!"filter" b!"FWKNOP_INPUT" = some [foreignRule, sshRule 200] :=
  ⟨[((Res.ok : FwSt (Tables × List Fate) → Res (FwSt (Tables × List Fate))), (150 : Int))], [], by
    have h : (fwRun fwSample ipt 20 [((Res.ok : FwSt (Tables × List Fate) → Res (FwSt (Tables × List Fate))), (150 : Int))]
      (19, ⟨[inChain, {}], (mixed, [])⟩)).check
        (fun r => decide (r.2.world.1 b!"filter" b!"FWKNOP_INPUT" = some [foreignRule, sshRule 200])) = true := by
      decide +kernel
    obtain ⟨r, h1, h2⟩ := exists_of_check h
    exact ⟨r.1, r.2, rfl, h1, by simpa using h2⟩⟩

end Fwknop.Props
