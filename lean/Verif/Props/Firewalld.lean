import Verif.Lemmas.FwdInit

/-!
# Properties of the firewalld back end: C109

firewall-cmd is described in Spec/Firewalld.lean, by means of the description of iptables.
-/

namespace Fwknop.Props

open Fwknop Spec Res

/-- There is room for the words before the arguments of iptables in the buffer of the command. -/
def Roomy (cf : FwConf) (ch : FwChain) : Prop :=
  cf.fw_command.length + ch.table.length + ch.from_chain.length + ch.to_chain.length + ch.target.length ≤ 73

instance (cf : FwConf) (ch : FwChain) : Decidable (Roomy cf ch) := by unfold Roomy; infer_instance

/-- An address in dotted decimal form is short. -/
theorem short_addr {w : Word} (h : AddrWord w) : Short w := ⟨h.1.1.2, h.2⟩

theorem RequestOk.fdOk {cf : FwConf} {ch : FwChain} {src dst : Word} (h : RequestOk cf ch src dst) (hr : Roomy cf ch) : FdOk cf ch :=
  ⟨h.exe, h.table, h.from_chain, h.chain.1, h.target.1.2, h.pos, hr⟩

/-! ## Requests -/

/-- **C109** (part): with the chains in place, no output chain and no earlier rule for the same access until the
same second, an ordinary request adds to the input chain of firewalld's tables exactly one rule for each port,
in the order of the request; each has the authorised source address, the protocol, the port and the expiry
time.  Every other chain stays as it is.  What is missing: calls that fail, names for which the command does
not fit its buffer (`C109_long_name`). -/
theorem C109_input_rules_partial (F : FirewalldHost) (cf : FwConf) (acc : Stanza) (sp : SpaData) (now : Int)
    (s : FwSt (Tables × List Fate)) (K : Tables) (hs : s.world = (K, []))
    (ps : List (Nat × Nat)) (hps : ProtoPorts sp.spa_message_remain ps) (hnat : ¬ ForNat acc.force_nat sp.message_type)
    (e : Nat) (he : (e : Int) = now + sp.fw_access_timeout) (he32 : e < 2 ^ 32)
    (hin : RequestOk cf (s.at IPT_INPUT_ACCESS) sp.use_src_ip (dstOf cf sp)) (hroom : Roomy cf (s.at IPT_INPUT_ACCESS))
    (hout : (s.at IPT_OUTPUT_ACCESS).to_chain = []) (hpre : cf.prepend = false)
    (t f c : Word) (ht : (s.at IPT_INPUT_ACCESS).table = t) (hf : (s.at IPT_INPUT_ACCESS).from_chain = f)
    (hc : (s.at IPT_INPUT_ACCESS).to_chain = c) (hfc : f ≠ c)
    (rs fr : List Rule) (hrs : K t c = some rs) (hfr : K t f = some fr) (hj : [b!"-j", c] ∈ fr)
    (hnew : ∀ p ∈ ps, inputRule p.1 sp.use_src_ip (dstOf cf sp) p.2 e (s.at IPT_INPUT_ACCESS).target ∉ rs)
    (hnodup : ps.Nodup) :
    ∃ s', fd_process_spa_request (fdConf cf) (fwdTool F).toTool acc sp now s = .ok s' ∧
      s'.world.1 t c = some (rs ++ ps.map fun p =>
        inputRule p.1 sp.use_src_ip (dstOf cf sp) p.2 e (s.at IPT_INPUT_ACCESS).target) ∧
      ∀ t' c', ¬ (t' = t ∧ c' = c) → s'.world.1 t' c' = K t' c' := by
  rw [fd_process_eq F ⟨⟨hin.src.1.1.2, hin.src.2⟩, ⟨hin.dst.1.1.2, hin.dst.2⟩, RequestOk.fdOk hin hroom, fun h => absurd hout h,
    fun h => absurd (wantsNat_iff.1 h) hnat, fun h => absurd (wantsNat_iff.1 h) hnat, fun h => absurd (wantsNat_iff.1 h) hnat⟩ (by rw [hs])]
  exact C39_input_rules_partial F.ipt cf acc sp now s K hs ps hps hnat e he he32 hin hout hpre t f c ht hf hc hfc rs fr hrs hfr hj hnew hnodup

/-- **C109** (part): an ordinary request with chains that may have to be made first, and with an output chain if one is
configured: see `C39_tables_partial`. -/
theorem C109_tables_partial (F : FirewalldHost) (cf : FwConf) (acc : Stanza) (sp : SpaData) (now : Int)
    (s : FwSt (Tables × List Fate)) (K : Tables) (hs : s.world = (K, []))
    (ps : List (Nat × Nat)) (hps : ProtoPorts sp.spa_message_remain ps) (hnat : ¬ ForNat acc.force_nat sp.message_type)
    (e : Nat) (he : (e : Int) = now + sp.fw_access_timeout) (he32 : e < 2 ^ 32)
    (hin : RequestOk cf (s.at IPT_INPUT_ACCESS) sp.use_src_ip (dstOf cf sp)) (hroom : Roomy cf (s.at IPT_INPUT_ACCESS))
    (hout : (s.at IPT_OUTPUT_ACCESS).to_chain ≠ [] →
      RequestOk cf (s.at IPT_OUTPUT_ACCESS) sp.use_src_ip (dstOf cf sp) ∧ Roomy cf (s.at IPT_OUTPUT_ACCESS)) :
    ∃ s', fd_process_spa_request (fdConf cf) (fwdTool F).toTool acc sp now s = .ok s' ∧
      s'.world = (ps.foldl (portTables cf.prepend (s.at IPT_INPUT_ACCESS) (s.at IPT_OUTPUT_ACCESS) sp.use_src_ip
        (dstOf cf sp) e) K, []) := by
  rw [fd_process_eq F ⟨⟨hin.src.1.1.2, hin.src.2⟩, ⟨hin.dst.1.1.2, hin.dst.2⟩, RequestOk.fdOk hin hroom, fun h => RequestOk.fdOk (hout h).1 (hout h).2,
    fun h => absurd (wantsNat_iff.1 h) hnat, fun h => absurd (wantsNat_iff.1 h) hnat, fun h => absurd (wantsNat_iff.1 h) hnat⟩ (by rw [hs])]
  exact C39_tables_partial F.ipt cf acc sp now s K hs ps hps hnat e he he32 hin (fun h => (hout h).1)

/-- **C109** (part): a NAT request for a stanza without FORWARD_ALL is carried out as `C68_tables_partial` says.  What is
missing is what is missing there, and what is missing in `C109_input_rules_partial`. -/
theorem C109_nat_partial (F : FirewalldHost) (cf : FwConf) (acc : Stanza) (sp : SpaData) (now : Int)
    (s : FwSt (Tables × List Fate)) (K : Tables) (hs : s.world = (K, []))
    (proto port : Nat) (ps : List (Nat × Nat)) (hps : ProtoPorts sp.spa_message_remain ((proto, port) :: ps))
    (hnat : ForNat acc.force_nat sp.message_type) (hall : acc.forward_all = false)
    (ip : Word) (toPort : Nat) (hip : IsIPv4 ip) (hto : toPort ≤ 65535)
    (hforced : acc.force_nat = true → acc.force_nat_ip = some ip ∧ acc.force_nat_port = toPort)
    (hasked : acc.force_nat = false → sp.nat_access = some (ip ++ 44 :: decimal toPort))
    (e : Nat) (he : (e : Int) = now + sp.fw_access_timeout) (he32 : e < 2 ^ 32)
    (hsrc : AddrWord sp.use_src_ip) (hdst : AddrWord (dstOf cf sp))
    (hin : NatOk cf (s.at 0) ∧ Roomy cf (s.at 0))
    (hothers : ∀ i ∈ [1, 2, 3], (s.at i).to_chain ≠ [] → NatOk cf (s.at i) ∧ Roomy cf (s.at i))
    (k : Nat) (opt val : Word)
    (hsnat : acc.force_snat = true ∨ cf.snat = true → NatOk cf (s.at k) ∧ Roomy cf (s.at k) ∧
      SourceNat acc.force_snat acc.force_masquerade acc.force_snat_ip cf.snat_translate_ip port k opt val ∧
      (∀ ip, acc.force_snat_ip = some ip → Short ip) ∧ (∀ ip, cf.snat_translate_ip = some ip → Short ip)) :
    ∃ s', fd_process_spa_request (fdConf cf) (fwdTool F).toTool acc sp now s = .ok s' ∧
      s'.world = (natTables cf acc sp s.at proto port ip toPort e k opt val K, []) := by
  have htarget : natTarget cf acc sp = .ok (some (ip, (toPort : Int))) := by
    cases hfn : acc.force_nat with
    | true => exact natTarget_forced hfn hip (hforced hfn).1 (hforced hfn).2
    | false => exact natTarget_text hfn hip hto (hasked hfn)
  have hone : ∀ i ∈ [1, 2, 3], (s.at i).to_chain ≠ [] → FdOk cf (s.at i) := fun i hi hc => (hothers i hi hc).1.fdOk (hothers i hi hc).2
  rw [fd_process_eq F (cf := cf) (acc := acc) (sp := sp) (s := s) ⟨short_addr hsrc, short_addr hdst, hin.1.fdOk hin.2, fun h => hone 1 (by simp) h,
    fun _ i hi hc => hone i (by
      simp only [List.mem_cons, List.not_mem_nil, or_false] at hi ⊢
      rcases hi with rfl | rfl <;> simp) hc,
    fun _ hsn => ?_, fun _ ip' port' ht => ?_⟩ (by rw [hs])]
  · exact C68_tables_partial F.ipt cf acc sp now s K hs proto port ps hps hnat hall ip toPort hip hto hforced hasked e he he32 hsrc hdst
      (fun _ => hin.1) (fun h => (hothers 2 (by simp) h).1) (fun h => (hothers 3 (by simp) h).1) k opt val
      (fun h => ⟨(hsnat h).1, (hsnat h).2.2.1, fun a ha => ((hsnat h).2.2.2.1 a ha).2, fun a ha => ((hsnat h).2.2.2.2 a ha).2⟩)
  · obtain ⟨g1, g2, g3, g4, g5⟩ := hsnat hsn
    refine ⟨fun fst more hx => ?_, g4, g5⟩
    rw [protoPorts_expand hps, List.map_cons] at hx
    simp only [Option.some.injEq, List.cons.injEq] at hx
    rw [← hx.1]
    show FdOk cf (s.at (snatTarget cf acc (port : Int)).1)
    rw [snatTarget_eq hall (fun a ha => (g4 a ha).2) (fun a ha => (g5 a ha).2) g3]
    exact g1.fdOk g2
  · rw [htarget] at ht
    simp only [Res.ok.injEq, Option.some.injEq, Prod.mk.injEq] at ht
    rw [← ht.1, ← ht.2]
    exact ⟨short_addr (addrWord_ipv4 hip), by omega, by omega⟩

/-- **C109** (part): requests of every kind, FORWARD_ALL included, are carried out by this back end exactly as by the iptables
back end on the same tables: the same rules, the same counters of active rules and the same times of the next
check, so that what is proved about the latter (C39, C41, C68) holds here too.  What is missing: calls that
fail, names for which the command does not fit its buffer. -/
theorem C109_as_iptables_partial (F : FirewalldHost) (cf : FwConf) (acc : Stanza) (sp : SpaData) (s : FwSt (Tables × List Fate))
    (h : FdRequest cf acc sp s) (hs : s.world.2 = []) (now : Int) :
    fd_process_spa_request (fdConf cf) (fwdTool F).toTool acc sp now s = process_spa_request cf (iptTool F.ipt) acc sp now s :=
  fd_process_eq F h hs now

/-! ## Expiry -/

/-- **C109** (part): if firewall-cmd works, a check of a chain that is due removes exactly the rules whose expiry is at or
before the current time and keeps every other rule, in order.  What is missing is what is missing in
`C40_check_partial`. -/
theorem C109_check_partial (F : FirewalldHost) (cf : FwConf) (K : Tables) (ex : Rule → Option Nat) (i : Nat)
    (ch : FwChain) (rs : List Rule) (h : ChainOk F.ipt cf K ex i ch rs)
    (hroom : cf.fw_command.length + ch.table.length + ch.to_chain.length ≤ 190) (all : Bool) (now : Int)
    (hdue : all = true ∨ (0 < ch.active_rules ∧ ch.next_expire ≤ now))
    (hsize : (listing F.ipt ch.to_chain rs).length ≤ 4095) :
    ∃ ch', checkChain (fdConf cf) (fwdTool F).toTool all now i ch (K, []) =
      .ok (ch', (K.put ch.table ch.to_chain (rs.filter fun r => !expired now (ex r)), [])) := by
  obtain ⟨ch', fs', rs', h1, _, _, h4⟩ := checkChain_gen h (fd_deletes F h.names hroom) (fd_reads F h hroom) hdue (fs := []) (by simp)
  obtain ⟨h5, h6, _⟩ := h4 rfl hsize
  exact ⟨ch', by rw [h1, h5, h6]⟩

/-- **C109** (part): whichever calls of firewall-cmd are killed or do not start, and however long the listing is, a check
removes only expired rules: the others stay, in order, and so do all other chains.  What is missing: calls in
which iptables exits with an error status (`C109_refused`). -/
theorem C109_failures_partial (F : FirewalldHost) (cf : FwConf) (K : Tables) (ex : Rule → Option Nat) (i : Nat)
    (ch : FwChain) (rs : List Rule) (h : ChainOk F.ipt cf K ex i ch rs)
    (hroom : cf.fw_command.length + ch.table.length + ch.to_chain.length ≤ 190) (all : Bool) (now : Int)
    (fs : List Fate) (hf : Fate.refused ∉ fs) :
    ∃ ch' fs' rs', checkChain (fdConf cf) (fwdTool F).toTool all now i ch (K, fs) =
        .ok (ch', (K.put ch.table ch.to_chain rs', fs')) ∧
      Pruned (fun r => expired now (ex r) = true) rs rs' := by
  by_cases hdue : Due all now ch
  · obtain ⟨ch', fs', rs', h1, _, h3, _⟩ := checkChain_gen h (fd_deletes F h.names hroom) (fd_reads F h hroom) hdue hf
    exact ⟨ch', fs', rs', h1, h3⟩
  · exact ⟨ch, fs, rs, by rw [checkChain_skip _ _ _ (fun hv => hdue hv.2), put_same h.there], Pruned.refl _ _⟩

/-- **C109** (part): a check applies the expiry to every chain of the configuration that is due, if each name is longer
than the number of the chain: exactly the expired rules go, and no other chain of the firewall changes.  What
is missing is what is missing in `C43_every_chain_partial`. -/
theorem C109_every_chain_partial (F : FirewalldHost) (cf : FwConf) (ex : Rule → Option Nat) (all : Bool) (now : Int)
    (s : FwSt (Tables × List Fate)) (K : Tables) (hs : s.world = (K, []))
    (hdistinct : s.chain.Pairwise fun a b =>
      Configured a → Configured b → ¬ (b.table = a.table ∧ b.to_chain = a.to_chain))
    (hok : ∀ i ch, s.chain[i]? = some ch → Configured ch →
      ∃ rs, ChainOk F.ipt cf K ex i ch rs ∧ cf.fw_command.length + ch.table.length + ch.to_chain.length ≤ 190 ∧
        (listing F.ipt ch.to_chain rs).length ≤ 4095) :
    ∃ s', check_firewall_rules (fdConf cf) (fwdTool F).toTool all now s = .ok s' ∧ s'.world.2 = [] ∧
      (∀ ch ∈ s.chain, Configured ch → (all = true ∨ (0 < ch.active_rules ∧ ch.next_expire ≤ now)) →
        ∃ rs, K ch.table ch.to_chain = some rs ∧
          s'.world.1 ch.table ch.to_chain = some (rs.filter fun r => !expired now (ex r))) ∧
      (∀ t c, (∀ ch ∈ s.chain, Configured ch → ¬ (t = ch.table ∧ c = ch.to_chain)) →
        s'.world.1 t c = K t c) := by
  have hfit : ∀ ch ∈ s.chain, Configured ch → ∀ rs, K ch.table ch.to_chain = some rs →
      (listing F.ipt ch.to_chain rs).length ≤ 4095 := by
    intro ch hch hc rs hrs
    obtain ⟨i, hi⟩ := List.getElem?_of_mem hch
    obtain ⟨rs', h1, -, h2⟩ := hok i ch hi hc
    have := h1.there
    rw [hrs] at this
    injection this with this
    rwa [this]
  obtain ⟨chs', K', fs', h1, h2, h3, h4⟩ := checkChains_gen (print := F.ipt) (cf := cf) (cf' := fdConf cf) (T := (fwdTool F).toTool) (ex := ex)
    (all := all) (now := now) (G := fun ch => cf.fw_command.length + ch.table.length + ch.to_chain.length ≤ 190)
    (fun hr h => fd_deletes F h.names hr) (fun hr h => fd_reads F h hr)
    s.chain 0 K [] (by simp) hdistinct (by
      intro j ch hj hc
      obtain ⟨rs, h, hr, _⟩ := hok j ch hj hc
      exact ⟨rs, by rw [Nat.zero_add]; exact h, hr⟩)
  refine ⟨⟨chs', (K', fs')⟩, ?_, h2 rfl hfit, ?_, ?_⟩
  · unfold check_firewall_rules
    rw [hs, h1]
    rfl
  · intro ch hch hc hd
    obtain ⟨rs, rs', e1, e2, _, e4⟩ := h4 ch hch hc hd
    exact ⟨rs, e1, by rw [← e4 rfl hfit]; exact e2⟩
  · intro t c hn
    exact h3 t c fun ch hch he => hn ch hch he.1 he.2.2

/-! ## Start and end -/

/-- **C109** (part): a start with FLUSH_FIREWD_AT_INIT (the default) succeeds, changes nothing that is not the daemon's, and
leaves the configured chains there and empty, each jumped to exactly once if the chain from which it is jumped
to is there and is not too short for the position asked for.  What is missing is what is missing in
`C94_start_partial`, and `C109_start_refused`. -/
theorem C109_start_partial (F : FirewalldHost) (cf : FwConf) (o : FwInit) (hchk : o.disable_check = false) (hfl : o.flush_at_init = true)
    (chs : List FwChain) (hok : InitOk cf chs) (hroom : ∀ ch ∈ chs, ch.target ≠ [] → Roomy cf ch) (ha : Apart (hooks chs))
    (hin : (chs.getD 0 {}).target ≠ [])
    (hp : PrintsComment F.ipt (chs.getD 0 {}).target) (K : Tables) (hK : Tidy (hooks chs) K)
    (hf : ∃ fr, K (chs.getD 0 {}).table (chs.getD 0 {}).from_chain = some fr) :
    ∃ K', fd_fw_initialize (fdConf cf) o (fwdTool F) chs (K, []) = .ok (some (true, (K', []))) ∧
      without (hooks chs) K' = without (hooks chs) K ∧
      ∀ ch ∈ chs, ch.target ≠ [] → K' ch.table ch.to_chain = some [] ∧
        ∀ fr, without (hooks chs) K ch.table ch.from_chain = some fr →
          1 ≤ ch.jump_rule_pos ∧ ch.jump_rule_pos ≤ fr.length + 1 →
          ∃ fr', K' ch.table ch.from_chain = some fr' ∧ fr'.count [b!"-j", ch.to_chain] = 1 := by
  obtain ⟨K', h1, h2⟩ := C94_start_partial F.ipt cf o hchk hfl chs hok ha hin hp K hK hf
  obtain ⟨fr, hf⟩ := hf
  refine ⟨K', ?_, h2⟩
  rw [init_run F.ipt cf o hchk chs hok ha hin hp K hK hf] at h1
  simp only [Res.ok.injEq, Prod.mk.injEq, and_true, true_and] at h1
  rw [← h1]
  exact fd_init_run F cf o hchk chs (fun ch hc ht => ⟨hok ch hc ht, hroom ch hc ht⟩) ha hin hp K hK hf

/-- **C109** (part): at its end the daemon takes away its chains, with all rules in them, and the jumps to them, and
nothing else.  What is missing is what is missing in `C94_cleanup_partial`. -/
theorem C109_cleanup_partial (F : FirewalldHost) (cf : FwConf) (o : FwInit) (ho : o.keep_at_exit = false ∨ o.fw_flush = true)
    (chs : List FwChain) (hok : InitOk cf chs) (hroom : ∀ ch ∈ chs, ch.target ≠ [] → Roomy cf ch)
    (hb : ∀ h ∈ hooks chs, isBuiltin h.to = false) (K : Tables) (hK : Tidy (hooks chs) K) :
    fd_fw_cleanup (fdConf cf) o (fwdTool F).toTool chs (K, []) = .ok (without (hooks chs) K, []) := by
  rw [fd_cleanup_eq F cf o chs (fun ch hc ht => ⟨hok ch hc ht, hroom ch hc ht⟩)]
  exact C94_cleanup_partial F.ipt cf o ho chs hok hb K hK

/-- With FLUSH_FIREWD_AT_EXIT N and without --fw-flush nothing happens at the end. -/
theorem C109_kept_at_exit {σ : Type} (cf : FwConf) (o : FwInit) (h1 : o.keep_at_exit = true) (h2 : o.fw_flush = false) (T : Tool σ)
    (chs : List FwChain) (w : σ) : fd_fw_cleanup cf o T chs w = .ok w := by
  unfold fd_fw_cleanup
  rw [if_pos ⟨h1, by rw [h2]; decide⟩]

/-! ## A concrete firewall -/

/-- What firewall-cmd says when iptables fails. -/
abbrev fdHost : FirewalldHost := ⟨sampleHost, fun _ out => b!"'/usr/sbin/iptables' failed: " ++ out⟩

abbrev fdTool : StatusTool (Tables × List Fate) := fwdTool fdHost

abbrev fdSample : FwConf := { fw_command := b!"/bin/firewall-cmd" }

theorem fdSample_ok : RequestOk fdSample inChain b!"1.2.3.4" b!"0.0.0.0/0" where
  exe := by unfold PlainWord IsBlank; decide
  table := by unfold PlainWord IsBlank; decide
  from_chain := by unfold PlainWord IsBlank; decide
  chain := by unfold RuleWord PlainWord IsBlank; decide
  target := by unfold RuleWord PlainWord IsBlank; decide
  src := by unfold RuleWord PlainWord IsBlank; decide
  dst := by unfold RuleWord PlainWord IsBlank; decide
  pos := by decide
  room := by decide

example : ∃ s', fd_process_spa_request (fdConf fdSample) fdTool.toTool {} sshRequest 1000 ⟨defaultChains, (inPlace, [])⟩ = .ok s' ∧
    s'.world.1 b!"filter" b!"FWKNOP_INPUT" = some [[b!"-j", b!"LOG"], sshRule 1030] := by
  obtain ⟨s', h1, h2, _⟩ := C109_input_rules_partial fdHost fdSample {} sshRequest 1000 ⟨defaultChains, (inPlace, [])⟩ inPlace rfl
    [(6, 22)] ssh_ports (by decide) 1030 (by decide) (by decide) fdSample_ok (by decide) rfl rfl b!"filter" b!"INPUT" b!"FWKNOP_INPUT" rfl
    rfl rfl (by decide) [[b!"-j", b!"LOG"]] [[b!"-j", b!"FWKNOP_INPUT"]] (by decide) (by decide) (by simp)
    (by decide +kernel) (by simp)
  exact ⟨s', h1, h2⟩

example : ∃ s', fd_process_spa_request (fdConf fdSample) fdTool.toTool {} sshRequest 1000 ⟨defaultChains, (builtin, [])⟩ = .ok s' ∧
    s'.world.1 b!"filter" b!"FWKNOP_INPUT" = some [sshRule 1030] ∧
    s'.world.1 b!"filter" b!"INPUT" = some [[b!"-j", b!"FWKNOP_INPUT"]] := by
  obtain ⟨s', h1, h2⟩ := C109_tables_partial fdHost fdSample {} sshRequest 1000 ⟨defaultChains, (builtin, [])⟩ builtin rfl
    [(6, 22)] ssh_ports (by decide) 1030 (by decide) (by decide) fdSample_ok (by decide) (fun h => absurd rfl h)
  refine ⟨s', h1, ?_⟩
  rw [h2]
  exact ⟨by decide +kernel, by decide +kernel⟩

theorem natOk_fdSample {ch : FwChain} (h : ch ∈ defaultChains) (ht : ch.target ≠ []) : NatOk fdSample ch ∧ Roomy fdSample ch := by
  have : ∀ ch ∈ defaultChains, ch.target ≠ [] → ch = inChain ∨ ch = fwdChain ∨ ch = dnatChain ∨ ch = masqChain := by decide
  rcases this ch h ht with rfl | rfl | rfl | rfl <;>
    exact ⟨⟨by unfold PlainWord IsBlank; decide, by unfold PlainWord IsBlank; decide, by unfold PlainWord IsBlank; decide,
      by unfold RuleWord PlainWord IsBlank; decide, by unfold RuleWord PlainWord IsBlank; decide, by decide, by decide⟩, by decide⟩

example : ∃ s', fd_process_spa_request (fdConf fdSample) fdTool.toTool {} natRequest 1000 ⟨defaultChains, (builtin, [])⟩ = .ok s' ∧
    s'.world.1 b!"filter" b!"FWKNOP_FORWARD" = some [forwardRule 6 b!"1.2.3.4" 22 1030 b!"ACCEPT"] ∧
    s'.world.1 b!"nat" b!"FWKNOP_PREROUTING" =
      some [dnatRule 6 b!"1.2.3.4" b!"0.0.0.0/0" 2222 1030 b!"DNAT" b!"10.0.0.5" 22] := by
  obtain ⟨s', h1, h2⟩ := C109_nat_partial fdHost fdSample {} natRequest 1000 ⟨defaultChains, (builtin, [])⟩ builtin rfl
    6 2222 [(6, 443)] nat_ports (by decide) rfl b!"10.0.0.5" 22
    ⟨b!"10", b!"0", b!"0", b!"5", by unfold IsOctet IsDigitChar; decide, by unfold IsOctet IsDigitChar; decide, by unfold IsOctet IsDigitChar; decide,
      by unfold IsOctet IsDigitChar; decide, by decide, by decide⟩ (by decide) (by decide) (fun _ => by decide +kernel) 1030 (by decide)
    (by decide) ⟨by unfold RuleWord PlainWord IsBlank; decide, by decide⟩ ⟨by unfold RuleWord PlainWord IsBlank; decide, by decide⟩
    (natOk_fdSample (ch := inChain) (by decide) (by decide)) (by
      intro i hi hc
      simp only [List.mem_cons, List.not_mem_nil, or_false] at hi
      rcases hi with rfl | rfl | rfl
      · exact absurd rfl hc
      · exact natOk_fdSample (ch := fwdChain) (by decide) (by decide)
      · exact natOk_fdSample (ch := dnatChain) (by decide) (by decide)) 0 [] [] (fun h => absurd h (by decide))
  refine ⟨s', h1, ?_⟩
  rw [h2]
  exact ⟨by decide +kernel, by decide +kernel⟩

/-- A stanza with FORWARD_ALL and FORCE_NAT. -/
abbrev allStanza : Stanza := { force_nat := true, force_nat_ip := some b!"10.0.0.5", force_nat_port := 22, forward_all := true }

/-- The hypotheses of `C109_as_iptables_partial` are met by a request for a stanza with FORWARD_ALL. -/
example : FdRequest fdSample allStanza sshRequest ⟨defaultChains, (builtin, [])⟩ where
  src := by unfold Short IsBlank; decide
  dst := by unfold Short IsBlank; decide
  input := (natOk_fdSample (ch := inChain) (by decide) (by decide)).1.fdOk (by decide)
  output := fun h => absurd rfl h
  other := by
    intro _ i hi _
    simp only [List.mem_cons, List.not_mem_nil, or_false] at hi
    rcases hi with rfl | rfl
    · exact (natOk_fdSample (ch := fwdChain) (by decide) (by decide)).1.fdOk (by decide)
    · exact (natOk_fdSample (ch := dnatChain) (by decide) (by decide)).1.fdOk (by decide)
  source := fun _ h => absurd h (by decide)
  to := by
    intro _ ip port h
    rw [show natTarget fdSample allStanza sshRequest = .ok (some (b!"10.0.0.5", 22)) from by decide +kernel] at h
    simp only [Res.ok.injEq, Option.some.injEq, Prod.mk.injEq] at h
    rw [← h.1, ← h.2]
    unfold Short IsBlank
    decide

theorem fdMixed_ok : ChainOk fdHost.ipt fdSample mixed sampleEx 0 inChain mixedRules :=
  ⟨⟨by unfold PlainWord IsBlank; decide, by unfold PlainWord IsBlank; decide, by unfold PlainWord IsBlank; decide⟩, by decide, mixed_ok.text,
    mixed_ok.long, mixed_ok.mark, mixed_ok.there, mixed_ok.expiry⟩

example : ∃ ch', checkChain (fdConf fdSample) fdTool.toTool true 150 0 inChain (mixed, []) =
    .ok (ch', (mixed.put b!"filter" b!"FWKNOP_INPUT" [foreignRule, sshRule 200], [])) := by
  have := C109_check_partial fdHost fdSample mixed sampleEx 0 inChain mixedRules fdMixed_ok (by decide) true 150 (.inl rfl)
    (by decide +kernel)
  rwa [show mixedRules.filter (fun r => !expired 150 (sampleEx r)) = [foreignRule, sshRule 200] from by decide +kernel] at this

/-- The hypotheses of `C109_failures_partial` are met with a deletion that does not run. -/
example : ∃ ch' fs' rs', checkChain (fdConf fdSample) fdTool.toTool true 150 0 inChain (mixed, [.works, .killed]) =
      .ok (ch', (mixed.put b!"filter" b!"FWKNOP_INPUT" rs', fs')) ∧
    Pruned (fun r => expired 150 (sampleEx r) = true) mixedRules rs' :=
  C109_failures_partial fdHost fdSample mixed sampleEx 0 inChain mixedRules fdMixed_ok (by decide) true 150 [.works, .killed] (by decide)

example : inputOf ((checkChain (fdConf fdSample) fdTool.toTool true 150 0 inChain (mixed, [.works, .killed])).bind fun r =>
    .ok ⟨[r.1], r.2⟩) = some (some [sshRule 100, foreignRule, sshRule 200]) := by decide +kernel

example : ∃ s', check_firewall_rules (fdConf fdSample) fdTool.toTool true 150 ⟨[inChain, {}], (mixed, [])⟩ = .ok s' ∧
    s'.world.1 b!"filter" b!"FWKNOP_INPUT" = some [foreignRule, sshRule 200] := by
  obtain ⟨s', h1, _, h3, _⟩ := C109_every_chain_partial fdHost fdSample sampleEx true 150 ⟨[inChain, {}], (mixed, [])⟩ mixed rfl
    (by
      refine List.pairwise_cons.2 ⟨fun b hb _ hc => ?_, by simp⟩
      rw [List.mem_singleton] at hb
      subst hb
      exact absurd rfl hc.1) (by
      intro i ch hi hc
      match i, hi with
      | 0, hi =>
        injection hi with hi
        subst hi
        exact ⟨mixedRules, fdMixed_ok, by decide, by decide +kernel⟩
      | 1, hi =>
        injection hi with hi
        subst hi
        exact absurd rfl hc.1
      | n + 2, hi => cases hi)
  refine ⟨s', h1, ?_⟩
  obtain ⟨rs, e1, e2⟩ := h3 inChain List.mem_cons_self ⟨by decide, by decide⟩ (.inl rfl)
  rw [show mixed inChain.table inChain.to_chain = some mixedRules from mixed_ok.there] at e1
  refine e2.trans ?_
  rw [← Option.some.inj e1]
  decide +kernel

theorem fd_init_sample : InitOk fdSample defaultChains := fun _ h ht => (natOk_fdSample h ht).1

example : ∃ K', fd_fw_initialize (fdConf fdSample) {} fdTool defaultChains (adminTables, []) = .ok (some (true, (K', []))) ∧
    K' b!"filter" b!"FWKNOP_INPUT" = some [] := by
  obtain ⟨K', h1, -, h3⟩ := C109_start_partial fdHost fdSample {} rfl rfl defaultChains fd_init_sample (fun _ h ht => (natOk_fdSample h ht).2)
    sample_conf.apart (by decide) sample_prints adminTables (untouched_tidy admin_untouched) ⟨_, rfl⟩
  exact ⟨K', h1, (h3 inChain (by decide) (by decide)).1⟩

/-- A firewall in which the daemon's input chain is in use. -/
example : fd_fw_cleanup (fdConf fdSample) {} fdTool.toTool defaultChains (adminTables, []) = .ok (without (hooks defaultChains) adminTables, []) :=
  C109_cleanup_partial fdHost fdSample {} (.inl rfl) defaultChains fd_init_sample (fun _ h ht => (natOk_fdSample h ht).2)
    sample_conf.apart.builtin adminTables (untouched_tidy admin_untouched)

/-- From start to end. -/
example : (match fd_fw_initialize (fdConf fdSample) {} fdTool defaultChains (adminTables, []) with
      | .ok (some (_, w)) =>
        (match fd_process_spa_request (fdConf fdSample) fdTool.toTool {} sshRequest 1000 ⟨defaultChains, w⟩ with
        | .ok s => some (s.world.1 b!"filter" b!"FWKNOP_INPUT", endOf (fd_fw_cleanup (fdConf fdSample) {} fdTool.toTool s.chain s.world) b!"filter" b!"INPUT")
        | _ => none)
      | _ => none) = some (some [sshRule 1030], some (some [[b!"-s", b!"10.6.6.6", b!"-j", b!"DROP"], [b!"-j", b!"LOG"]])) := by decide +kernel

/-! ## Where C109 fails -/

/-- A path of firewall-cmd of 130 characters. -/
abbrev fdLong : FwConf := { fw_command := List.replicate 130 97 }

/-- **C109** fails for long names: with this path, which is short enough for the iptables back end, the rule that is made has
another expiry time (`_exp_10` for 1030) and no target. -/
theorem C109_long_name :
    inputOf (fd_process_spa_request (fdConf fdLong) fdTool.toTool {} sshRequest 1000 ⟨defaultChains, (builtin, [])⟩) =
      some (some [[b!"-p", b!"6", b!"-s", b!"1.2.3.4", b!"-d", b!"0.0.0.0/0", b!"--dport", b!"22", b!"-m", b!"comment",
        b!"--comment", b!"_exp_10"]]) ∧
    inputOf (process_spa_request fdLong ipt {} sshRequest 1000 ⟨defaultChains, (builtin, [])⟩) = some (some [sshRule 1030]) :=
  ⟨by decide +kernel, by decide +kernel⟩

/-- **C109** is false if iptables exits with an error status: a deletion that does nothing counts as done, the number of the
next rule is reduced by one, and the rule that expires at 200 is deleted at 150 in place of the one that
expired at 110. -/
theorem C109_refused :
    inputOf ((checkChain (fdConf fdSample) fdTool.toTool true 150 0 inChain (mixed, [.works, .refused])).bind fun r =>
      .ok ⟨[r.1], r.2⟩) = some (some [sshRule 100, foreignRule, sshRule 110]) := by decide +kernel

/-- **C109** is false if the insertion of the rule that probes for `-C` is refused at the start: the deletion of rule number 1
that follows takes away the first rule of the administrator. -/
theorem C109_start_refused :
    (match firewd_chk_support (fdConf fdSample) fdTool.toTool inChain (adminTables, [.refused]) with
      | .ok r => some (r.1, r.2.1 b!"filter" b!"INPUT")
      | _ => none) = some (false, some [[b!"-j", b!"LOG"]]) := by decide +kernel

/-- **C109** is false if the deletion of that rule is refused: it stays for good, and lets packets of 127.0.0.2 in. -/
theorem C109_start_deletion_refused :
    (match fd_fw_initialize (fdConf fdSample) {} fdTool defaultChains (adminTables, [.works, .works, .refused]) with
      | .ok (some (b, w)) => some (b, w.1 b!"filter" b!"INPUT")
      | _ => none) =
      some (true, some [[b!"-j", b!"FWKNOP_INPUT"], [b!"-s", b!"127.0.0.2", b!"-p", b!"udp", b!"-j", b!"ACCEPT"],
        [b!"-s", b!"10.6.6.6", b!"-j", b!"DROP"], [b!"-j", b!"LOG"]]) := by decide +kernel

/-- The question whether the rule is there is killed: where the iptables back end takes an empty answer for a rule that is there, and does not add the
rule, the firewalld back end adds it. -/
theorem C109_killed_question :
    inputOf (fd_process_spa_request (fdConf fdSample) fdTool.toTool {} sshRequest 1000
      ⟨defaultChains, (inPlace, [.works, .works, .killed])⟩) = some (some [[b!"-j", b!"LOG"], sshRule 1030]) ∧
    inputOf (process_spa_request fwSample ipt {} sshRequest 1000
      ⟨defaultChains, (inPlace, [.works, .works, .works, .killed])⟩) = some (some [[b!"-j", b!"LOG"]]) :=
  ⟨by decide +kernel, by decide +kernel⟩

end Fwknop.Props
