import Verif.Lemmas.IptList
import Verif.Props.Iptables

/-!
# C116: permissions without `iptables -C`

How iptables prints rules is described in Spec/IptList.lean.
-/

namespace Fwknop.Props

open Fwknop Spec Res

/-! ## A way of printing -/

/-- The columns of a rule; the options of the rule are known by their places. -/
def oldColumns : Rule → List Word
  | [_, pr, _, s, _, d, o, port, _, _, _, ex, _, tg] =>
    let n := if pr = b!"6" then b!"tcp" else b!"udp"
    [tg, n, b!"--", s, d, n, (if o = b!"--dport" then b!"dpt:" else b!"spt:") ++ port, b!"/*", ex, b!"*/"]
  | [_, pr, _, s, _, d, _, port, _, _, _, ex, _, tg, _, nat] =>
    let n := if pr = b!"6" then b!"tcp" else b!"udp"
    [tg, n, b!"--", s, d, n, b!"dpt:" ++ port, b!"/*", ex, b!"*/", b!"to:" ++ nat]
  | [_, c] => [c, b!"all", b!"--", b!"0.0.0.0/0", b!"0.0.0.0/0"]
  | r => r

/-- An old iptables. -/
abbrev oldHost : Host := { sampleHost with show_ := fun r => spaced (oldColumns r) }

theorem spaced_columns : ∀ ws : List Word, ws ≠ [] → Columns ws (spaced ws)
  | [], h => absurd rfl h
  | [w], _ => by
    have := Columns.one w 0
    rwa [List.replicate_zero, List.append_nil] at this
  | w :: x :: ws, _ => Columns.more w 0 (spaced_columns (x :: ws) (by simp))

theorem dotted_length {w : Word} (h : PrintedAddr w) : w.length ≤ 15 := by
  obtain ⟨a, b, c, d, ha, hb, hc, hd, rfl⟩ := h
  have h1 := decimal_length_le a 3 (by decide) (by omega)
  have h2 := decimal_length_le b 3 (by decide) (by omega)
  have h3 := decimal_length_le c 3 (by decide) (by omega)
  have h4 := decimal_length_le d 3 (by decide) (by omega)
  simp only [List.length_append, List.length_cons]
  omega

theorem oldHost_prints : PrintsGrants oldHost := by
  intro g hg
  have hc : oldColumns g.rule = g.columns := by
    have : (if decimal g.proto = b!"6" then b!"tcp" else b!"udp") = protoName g.proto := by
      rcases hg.proto with h | h <;> rw [h] <;> decide
    simp only [Grant.rule, inputRule, oldColumns, this, Grant.columns, if_true]
  show Columns g.columns (spaced (oldColumns g.rule)) ∧ (spaced (oldColumns g.rule)).length ≤ 240
  rw [hc]
  refine ⟨spaced_columns _ (by simp [Grant.columns]), ?_⟩
  have h1 := dotted_length hg.src
  have h2 : g.dst.length ≤ 15 := by
    rcases hg.dst with h | h
    · rw [h]; decide
    · exact dotted_length h
  have h3 : (protoName g.proto).length ≤ 3 := by unfold protoName; split <;> decide
  have h4 := hg.target.2.1
  have h5 := decimal_length_le g.port 5 (by decide) (by have := hg.port; omega)
  have h6 := decimal_length_le g.e 10 (by decide) (by have := hg.e; omega)
  simp only [Grant.columns, spaced, List.length_append, List.length_cons, List.length_nil]
  omega

/-! ## The search -/

/-- C116 (part): the search in the listing says that the rule is there exactly if it is the first of the
rules that end in the same second.  What is missing: a rule behind another one of the same second is
not found (`C116_same_second_twice`).  Nothing else is mistaken for the rule, if it is not for NAT
(`C116_nat_target_mistaken`). -/
theorem C116_search_partial (print : Host) (cf : FwConf) (ch : FwChain) (hN : NamesOk cf ch)
    (hroom : cf.fw_command.length + ch.table.length + ch.to_chain.length ≤ 220) (hpr : PrintsGrants print)
    (hc : PlainName ch.to_chain) (a : Grant) (ha : a.Fair) (ht : ch.target = a.target) (hs : a.src ≠ a.dst)
    (gs : List Grant) (hn : gs.length < 99999) (hg : ∀ g ∈ gs, g.Fair ∧ g.dst = a.dst) (K : Tables)
    (hK : K ch.table ch.to_chain = some (gs.map Grant.rule)) (rule : Str) :
    ∃ there, rule_exists cf (iptTool print) false ch rule
        { proto := a.proto, src := some a.src, dst := some a.dst, port := a.port, nat_ip := none,
          nat_port := NAT_ANY_PORT, exp_ts := a.e } (K, []) = .ok (there, (K, [])) ∧
      (there = true ↔ ∃ before after, gs = before ++ a :: after ∧ ∀ g ∈ before, g.e ≠ a.e) := by
  refine ⟨decide (gs.find? (fun g => g.e = a.e) = some a), ?_, ?_⟩
  · unfold rule_exists
    rw [if_neg (by decide)]
    exact listed_run hN hroom hpr hc ha ht hs hn hg hK cf.use_destination
  · rw [decide_eq_true_eq, List.find?_eq_some_iff_append]
    constructor
    · rintro ⟨_, b, c, h1, h2⟩
      exact ⟨b, c, h1, fun g hg => by simpa using h2 g hg⟩
    · rintro ⟨b, c, h1, h2⟩
      exact ⟨by simp, b, c, h1, fun g hg => by simpa using h2 g hg⟩

/-! ## Requests -/

theorem mem_addGrants {front : Bool} {g : Grant} : ∀ {as gs : List Grant},
    g ∈ as.foldl (addGrant front) gs ↔ g ∈ gs ∨ g ∈ as
  | [], gs => by simp
  | a :: as, gs => by
    rw [List.foldl_cons, mem_addGrants (as := as), mem_addGrant, List.mem_cons, or_assoc]

theorem sublist_addGrants {front : Bool} : ∀ {as gs : List Grant}, gs.Sublist (as.foldl (addGrant front) gs)
  | [], gs => List.Sublist.refl _
  | a :: as, gs => by
    rw [List.foldl_cons]
    refine List.Sublist.trans ?_ (sublist_addGrants (as := as))
    unfold addGrant
    split
    · exact List.Sublist.refl _
    · cases front
      · exact List.sublist_append_left _ _
      · exact List.sublist_cons_self _ _

theorem length_addGrants {front : Bool} : ∀ {as gs : List Grant},
    (as.foldl (addGrant front) gs).length ≤ gs.length + as.length
  | [], gs => Nat.le_refl _
  | a :: as, gs => by
    rw [List.foldl_cons]
    have h1 := length_addGrants (front := front) (as := as) (gs := addGrant front gs a)
    have h2 := addGrant_length front gs a
    simp only [List.length_cons]
    omega

/-- C116 (part): without `iptables -C`, with the chain in place and only rules of the daemon in it, a
request has every rule it asks for in the chain afterwards; every rule in the chain was there before or
is asked for; the rules of before stay, in order; at most one rule for each port is new; and no other
chain is changed.  What is missing: a rule may be added although it is there
(`C116_same_second_twice`, `C116_output_twice`), the rules of NAT requests
(`C116_nat_target_mistaken`), and port 0. -/
theorem C116_request_partial (print : Host) (cf : FwConf) (sp : SpaData) (now : Int)
    (s : FwSt (Tables × List Fate)) (K : Tables) (hs : s.world = (K, [])) (hpr : PrintsGrants print)
    (ps : List (Nat × Nat)) (hps : ProtoPorts sp.spa_message_remain ps)
    (e : Nat) (he : (e : Int) = now + sp.fw_access_timeout)
    (t f c target : Word) (ht : (s.at IPT_INPUT_ACCESS).table = t) (hf : (s.at IPT_INPUT_ACCESS).from_chain = f)
    (hc : (s.at IPT_INPUT_ACCESS).to_chain = c) (htg : (s.at IPT_INPUT_ACCESS).target = target) (hfc : f ≠ c)
    (hin : RequestOk cf (s.at IPT_INPUT_ACCESS) sp.use_src_ip (dstOf cf sp))
    (hout : (s.at IPT_OUTPUT_ACCESS).to_chain = [])
    (hpc : PlainName c) (hpf : PlainName f) (hne : sp.use_src_ip ≠ dstOf cf sp)
    (hfair : ∀ p ∈ ps, (asked sp.use_src_ip (dstOf cf sp) target e p).Fair)
    (gs : List Grant) (hg : ∀ g ∈ gs, g.Fair ∧ g.dst = dstOf cf sp) (hn : gs.length + ps.length < 99999)
    (fr : List Rule) (hp : ParentOk print c fr) (hfr : K t f = some fr) (hrs : K t c = some (gs.map Grant.rule)) :
    ∃ s' gs', processAccessL cf (iptTool print) false sp now s = .ok s' ∧ s'.world.1 t c = some (gs'.map Grant.rule) ∧
      (∀ p ∈ ps, ⟨p.1, sp.use_src_ip, dstOf cf sp, p.2, e, target⟩ ∈ gs') ∧
      (∀ g ∈ gs', g ∈ gs ∨ ∃ p ∈ ps, g = ⟨p.1, sp.use_src_ip, dstOf cf sp, p.2, e, target⟩) ∧
      gs.Sublist gs' ∧ gs'.length ≤ gs.length + ps.length ∧
      ∀ t' c', ¬ (t' = t ∧ c' = c) → s'.world.1 t' c' = K t' c' := by
  obtain ⟨s', h1, h2⟩ := portLoop_listed (e := e) (now := now) hpr hfc ps s K gs hin hout htg ht hc hf hpc hpf hp hne hfair hg hn
    hfr hrs hs
  have hps0 : ps ≠ [] := by
    obtain ⟨items, h0, _, _, rfl⟩ := hps
    simpa using h0
  have he32 : e < 2 ^ 32 := by
    cases ps with
    | nil => exact absurd rfl hps0
    | cons p ps => exact (hfair p List.mem_cons_self).e.2
  have hexp : expTs now sp.fw_access_timeout = e := by unfold expTs; omega
  refine ⟨s', _, ?_, by rw [h2]; exact put_get _ _ _ _, ?_, ?_, sublist_addGrants, ?_, ?_⟩
  · unfold processAccessL
    rw [protoPorts_expand hps, hexp]
    cases ps with
    | nil => exact absurd rfl hps0
    | cons p ps => exact h1
  · intro p hp'
    exact mem_addGrants.2 (.inr (List.mem_map.2 ⟨p, hp', rfl⟩))
  · intro g hg'
    rcases mem_addGrants.1 hg' with h | h
    · exact .inl h
    · obtain ⟨p, h3, h4⟩ := List.mem_map.1 h
      exact .inr ⟨p, h3, h4.symm⟩
  · have := length_addGrants (front := cf.prepend) (as := ps.map (asked sp.use_src_ip (dstOf cf sp) target e)) (gs := gs)
    rwa [List.length_map] at this
  · intro t' c' h
    rw [h2]
    exact put_other _ _ h

/-! ## Examples -/

abbrev oldAt : Int := 1700000000

/-- The permission of `sshRequest`, and that of another client in the same second. -/
abbrev oldSsh : Grant := ⟨6, b!"1.2.3.4", b!"0.0.0.0/0", 22, 1700000030, b!"ACCEPT"⟩
abbrev oldOther : Grant := ⟨6, b!"5.6.7.8", b!"0.0.0.0/0", 22, 1700000030, b!"ACCEPT"⟩

def oldTables (gs : List Grant) : Tables :=
  (builtin.put b!"filter" b!"INPUT" [[b!"-j", b!"FWKNOP_INPUT"]]).put b!"filter" b!"FWKNOP_INPUT" (gs.map Grant.rule)

theorem oldSsh_fair : oldSsh.Fair where
  proto := .inl rfl
  src := ⟨1, 2, 3, 4, by decide, by decide, by decide, by decide, rfl⟩
  dst := .inl rfl
  port := by decide
  e := by decide
  target := by unfold PlainName; decide

theorem oldOther_fair : oldOther.Fair where
  proto := .inl rfl
  src := ⟨5, 6, 7, 8, by decide, by decide, by decide, by decide, rfl⟩
  dst := .inl rfl
  port := by decide
  e := by decide
  target := by unfold PlainName; decide

theorem old_parent : ParentOk oldHost b!"FWKNOP_INPUT" [[b!"-j", b!"FWKNOP_INPUT"]] where
  jump := by simp
  shown := ⟨b!"all -- 0.0.0.0/0 0.0.0.0/0", by decide⟩
  short := by
    intro r hr
    rw [List.mem_singleton] at hr
    subst hr
    decide
  few := by decide

/-- The hypotheses of `C116_request_partial` are met when another client has a permission that ends in
the same second: it is not mistaken for the one asked for. -/
example : ∃ s', ∃ gs' : List Grant, processAccessL fwSample (iptTool oldHost) false sshRequest oldAt ⟨defaultChains, (oldTables [oldOther], [])⟩ = .ok s' ∧
    s'.world.1 b!"filter" b!"FWKNOP_INPUT" = some (gs'.map Grant.rule) ∧ oldSsh ∈ gs' ∧ oldOther ∈ gs' := by
  obtain ⟨s', gs', h1, h2, h3, _, h5, _⟩ := C116_request_partial oldHost fwSample sshRequest oldAt
    ⟨defaultChains, (oldTables [oldOther], [])⟩ _ rfl oldHost_prints [(6, 22)] ssh_ports 1700000030 (by decide)
    b!"filter" b!"INPUT" b!"FWKNOP_INPUT" b!"ACCEPT" rfl rfl rfl rfl (by decide) fwSample_ok rfl
    (by unfold PlainName; decide) (by unfold PlainName; decide) (by decide)
    (by intro p hp; rw [List.mem_singleton] at hp; subst hp; exact oldSsh_fair) [oldOther]
    (by intro g hg; rw [List.mem_singleton] at hg; subst hg; exact ⟨oldOther_fair, rfl⟩) (by decide)
    [[b!"-j", b!"FWKNOP_INPUT"]] old_parent (by decide) (by decide)
  exact ⟨s', gs', h1, h2, h3 (6, 22) (by simp), h5.subset (by simp)⟩

/-- The search tells the two apart (`C116_search_partial`), and finds the rule if it is there. -/
example : ∃ there, rule_exists fwSample (iptTool oldHost) false inChain []
      { proto := 6, src := some b!"1.2.3.4", dst := some b!"0.0.0.0/0", port := 22, nat_ip := none,
        nat_port := NAT_ANY_PORT, exp_ts := 1700000030 } (oldTables [oldSsh, oldOther], []) =
      .ok (there, (oldTables [oldSsh, oldOther], [])) ∧ there = true := by
  obtain ⟨there, h1, h2⟩ := C116_search_partial oldHost fwSample inChain
    ⟨fwSample_ok.exe, fwSample_ok.table, fwSample_ok.chain.1⟩ (by decide) oldHost_prints (by unfold PlainName; decide)
    oldSsh oldSsh_fair rfl (by decide) [oldSsh, oldOther] (by decide) (by
      intro g hg
      simp only [List.mem_cons, List.not_mem_nil, or_false] at hg
      rcases hg with rfl | rfl
      · exact ⟨oldSsh_fair, rfl⟩
      · exact ⟨oldOther_fair, rfl⟩) (oldTables [oldSsh, oldOther]) (by decide) []
  exact ⟨there, h1, h2.2 ⟨[], [oldOther], rfl, by simp⟩⟩

/-- C116 fails when two clients have permissions that end in the same second: the second client's rule
is not found, and is added again. -/
theorem C116_same_second_twice :
    inputOf (processAccessL fwSample (iptTool oldHost) false sshRequest oldAt
      ⟨defaultChains, (oldTables [oldOther, oldSsh], [])⟩) =
      some (some ([oldOther, oldSsh, oldSsh].map Grant.rule)) := by decide +kernel

/-- The output chain. -/
abbrev outChain : FwChain :=
  { target := b!"ACCEPT", table := b!"filter", from_chain := b!"OUTPUT", jump_rule_pos := 1, to_chain := b!"FWKNOP_OUTPUT" }

/-- The content of a chain after two requests. -/
def twice (run run2 : FwSt (Tables × List Fate) → Res (FwSt (Tables × List Fate)))
    (s : FwSt (Tables × List Fate)) (t c : Word) : Option (List Rule) :=
  match run s with
  | .ok s1 =>
    match run2 s1 with
    | .ok s2 => s2.world.1 t c
    | _ => none
  | _ => none

/-- C116 fails for the output chain: its rules are printed with `spt:`, and the daemon looks for
`dpt:`.  Two identical requests in one second leave one rule in the input chain and two in the output
chain. -/
theorem C116_output_twice :
    (let run := fun s => processAccessL fwSample (iptTool { oldHost with chains := b!"FWKNOP_OUTPUT" :: sampleHost.chains }) false
        sshRequest oldAt s
     let s : FwSt (Tables × List Fate) := ⟨[inChain, outChain, fwdChain, dnatChain, {}, masqChain], (builtin, [])⟩
     ((twice run run s b!"filter" b!"FWKNOP_INPUT").map List.length, (twice run run s b!"filter" b!"FWKNOP_OUTPUT").map List.length))
      = (some 1, some 2) := by decide +kernel

/-- C116 fails for NAT: where destinations are not in the rules, the daemon does not look for the
address of the NAT target.  A client who asks for port 80 of 10.0.0.5 and then, in the same second, of
10.0.0.6 has only the rule for the first. -/
theorem C116_nat_target_mistaken :
    (let run := fun ip => dnatRuleL fwSample (iptTool oldHost) false ip 80 ⟨6, 8080⟩ sshRequest 1700000030 oldAt
     twice (run b!"10.0.0.5") (run b!"10.0.0.6") ⟨defaultChains, (builtin, [])⟩ b!"nat" b!"FWKNOP_PREROUTING") =
      some [[b!"-p", b!"6", b!"-s", b!"1.2.3.4", b!"-d", b!"0.0.0.0/0", b!"--dport", b!"8080", b!"-m", b!"comment",
        b!"--comment", b!"_exp_1700000030", b!"-j", b!"DNAT", b!"--to-destination", b!"10.0.0.5:80"]] := by decide +kernel

end Fwknop.Props
