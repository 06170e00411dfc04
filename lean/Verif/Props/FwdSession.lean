import Verif.Lemmas.FwdSession
import Verif.Props.Firewalld
import Verif.Props.IptInit

/-!
# C109: a run of the daemon with firewalld, from start to end
-/

namespace Fwknop.Props

open Fwknop Spec Res

/-- What the daemon does with the packets of an iteration of its main loop with firewalld: nothing, one of the requests of C95,
with names that fit the longer command, or several of these. -/
inductive FdHandled (F : FirewalldHost) (cf : FwConf) (chs : List FwChain) :
    (FwSt (Tables × List Fate) → Res (FwSt (Tables × List Fate))) → Prop where
  | nothing : FdHandled F cf chs (fun s => .ok s)
  | request (acc : Stanza) (sp : SpaData) (now : Int) (h : Handled F.ipt cf chs (process_spa_request cf (iptTool F.ipt) acc sp now))
      (hfit : FdRequest cf acc sp ⟨chs, (fun _ _ => none, [])⟩) :
      FdHandled F cf chs (fd_process_spa_request (fdConf cf) (fwdTool F).toTool acc sp now)
  | both {f g : FwSt (Tables × List Fate) → Res (FwSt (Tables × List Fate))} :
      FdHandled F cf chs f → FdHandled F cf chs g → FdHandled F cf chs (fun s => f s >>= g)

theorem fdRequest_bare {cf : FwConf} {acc : Stanza} {sp : SpaData} {chs : List FwChain} {w : Tables × List Fate} {s : FwSt (Tables × List Fate)}
    (hc : s.chain.map FwChain.bare = chs.map FwChain.bare) (h : FdRequest cf acc sp ⟨chs, w⟩) : FdRequest cf acc sp s := by
  have hat : ∀ i, (s.at i).bare = (FwSt.at ⟨chs, w⟩ i).bare := fun i => getD_bare hc i
  have hto : ∀ i, (s.at i).to_chain = (FwSt.at ⟨chs, w⟩ i).to_chain := fun i => (bare_fields (hat i)).2.2.2.2
  exact ⟨h.src, h.dst, FdOk.bare (hat _) h.input, fun hne => FdOk.bare (hat _) (h.output (by rw [← hto]; exact hne)),
    fun hn i hi hne => FdOk.bare (hat i) (h.other hn i hi (by rw [← hto]; exact hne)),
    fun hn hs => ⟨fun fst more hx => FdOk.bare (hat _) ((h.source hn hs).1 fst more hx), (h.source hn hs).2⟩, h.to⟩

theorem fdHandled_live {F : FirewalldHost} {cf : FwConf} {chs : List FwChain} (h : ConfOk cf chs) {K0 : Tables}
    {f : FwSt (Tables × List Fate) → Res (FwSt (Tables × List Fate))} (hf : FdHandled F cf chs f) :
    ∀ {s s' : FwSt (Tables × List Fate)}, Live chs K0 s → f s = .ok s' → Live chs K0 s' := by
  induction hf with
  | nothing =>
    intro s s' hL hr
    cases hr
    exact hL
  | both _ _ ih1 ih2 =>
    intro s s' hL hr
    obtain ⟨s1, h1, h2⟩ := bind_eq_ok hr
    exact ih2 (ih1 hL h1) h2
  | request acc sp now hH hfit =>
    intro s s' hL hr
    obtain ⟨K, hw, -⟩ := hL.fw
    rw [fd_process_eq F (fdRequest_bare hL.conf hfit) (by rw [hw])] at hr
    exact handled_live h hH hL hr

theorem fd_run_live {F : FirewalldHost} {cf : FwConf} {chs : List FwChain} (h : ConfOk cf chs) (hroom : ∀ ch ∈ chs, ch.target ≠ [] → Roomy cf ch)
    {K0 : Tables} {thr : Nat} :
    ∀ (its : List ((FwSt (Tables × List Fate) → Res (FwSt (Tables × List Fate))) × Int)), (∀ it ∈ its, FdHandled F cf chs it.1) →
    ∀ {st st' : Nat × FwSt (Tables × List Fate)}, Live chs K0 st.2 → fwRun (fdConf cf) (fwdTool F).toTool thr its st = .ok st' → Live chs K0 st'.2
  | [], _, st, st', hL, hr => by cases hr; exact hL
  | it :: its, hh, st, st', hL, hr => by
    unfold fwRun at hr
    obtain ⟨st1, h1, hr⟩ := bind_eq_ok hr
    refine fd_run_live h hroom its (fun x hx => hh x (List.mem_cons_of_mem _ hx)) ?_ hr
    unfold fwIter at h1
    obtain ⟨s1, h2, h1⟩ := bind_eq_ok h1
    obtain ⟨s2, h3, h1⟩ := bind_eq_ok h1
    cases h1
    have hL1 := fdHandled_live h (hh it List.mem_cons_self) hL h2
    obtain ⟨K, hw, hO⟩ := hL1.fw
    unfold check_firewall_rules at h3
    rw [hw] at h3
    obtain ⟨r, h4, h3⟩ := bind_eq_ok h3
    cases h3
    obtain ⟨hb, K', hw', hO'⟩ := fd_checkChains_over F h.apart s1.chain 0 K r.1 r.2
      (fdInit_bare hL1.conf (fun ch hc ht => ⟨h.ok ch hc ht, hroom ch hc ht⟩)) (by
      intro ch hch ht
      have : ch.bare ∈ chs.map FwChain.bare := by rw [← hL1.conf]; exact List.mem_map.2 ⟨ch, hch, rfl⟩
      obtain ⟨c, hc, hcb⟩ := List.mem_map.1 this
      obtain ⟨e1, e2, -⟩ := bare_fields hcb
      rw [← e2]
      exact (h.empty c hc (e1.trans ht)).1) (by rw [hooks_bare hL1.conf]; exact fun x hx => hx) hO h4
    exact ⟨hb.trans hL1.conf, K', hw', hO'⟩

/-- **C109** (part): a run of the daemon with firewalld leaves no trace: from a firewall that knows nothing of the daemon, a start, any
number of iterations of the main loop with whatever requests and expirations, and the end bring back exactly the firewall of the
administrator; and at every time in between, what is not the daemon's is as it was.  What is missing: what is missing in
`C95_no_trace_partial`, and names that leave no room for the longer command. -/
theorem C109_no_trace_partial (F : FirewalldHost) (cf : FwConf) (o : FwInit) (hchk : o.disable_check = false)
    (hex : o.keep_at_exit = false ∨ o.fw_flush = true) (chs : List FwChain) (h : ConfOk cf chs)
    (hroom : ∀ ch ∈ chs, ch.target ≠ [] → Roomy cf ch)
    (hp : PrintsComment F.ipt (chs.getD 0 {}).target) (K : Tables) (hK : Untouched (hooks chs) K)
    (hf : ∃ fr, K (chs.getD 0 {}).table (chs.getD 0 {}).from_chain = some fr) (thr ctr : Nat)
    (its : List ((FwSt (Tables × List Fate) → Res (FwSt (Tables × List Fate))) × Int)) (hits : ∀ it ∈ its, FdHandled F cf chs it.1) :
    ∃ K1, fd_fw_initialize (fdConf cf) o (fwdTool F) chs (K, []) = .ok (some (true, (K1, []))) ∧
      ∀ st, fwRun (fdConf cf) (fwdTool F).toTool thr its (ctr, ⟨chs, (K1, [])⟩) = .ok st →
        without (hooks chs) st.2.world.1 = K ∧
        fd_fw_cleanup (fdConf cf) o (fwdTool F).toTool st.2.chain st.2.world = .ok (K, []) := by
  obtain ⟨fr, hf⟩ := hf
  have hT := untouched_tidy hK
  have hfd : FdInit cf chs := fun ch hc ht => ⟨h.ok ch hc ht, hroom ch hc ht⟩
  have hat : atInit o chs K = K := by
    unfold atInit
    split
    · exact untouched_without hK
    · rfl
  refine ⟨_, fd_init_run F cf o hchk chs hfd h.apart h.input hp K hT hf, fun st hst => ?_⟩
  rw [hat] at hst
  have hL : Live chs K st.2 := fd_run_live h hroom its hits
    ⟨rfl, _, rfl, over_madeAll h.apart chs (fun x hx => hx) ⟨hT, untouched_without hK⟩⟩ hst
  obtain ⟨K', hw, hO⟩ := hL.fw
  have hh := hooks_bare hL.conf
  rw [hw]
  refine ⟨hO.rest, ?_⟩
  rw [fd_cleanup_eq F cf o _ (fdInit_bare hL.conf hfd),
    C94_cleanup_partial F.ipt cf o hex _ (initOk_bare hL.conf h.ok) (by rw [hh]; exact h.apart.builtin) K' (by rw [hh]; exact hO.tidy),
    hh, hO.rest]

theorem fdSample_conf : ConfOk fdSample defaultChains where
  ok := fun _ h ht => (natOk_fdSample h ht).1
  apart := sample_conf.apart
  target := by decide
  input := by decide
  empty := by decide

/-- A request for SSH at 1000, one for everything with FORWARD_ALL at 1005, nothing until the rules have expired. -/
abbrev fdSampleRun : List ((FwSt (Tables × List Fate) → Res (FwSt (Tables × List Fate))) × Int) :=
  [(fd_process_spa_request (fdConf fdSample) (fwdTool fdHost).toTool {} sshRequest 1000, 1000),
    (fd_process_spa_request (fdConf fdSample) (fwdTool fdHost).toTool everyStanza natRequest 1005, 1006), (fun s => .ok s, 1036)]

theorem fdSampleRun_handled : ∀ it ∈ fdSampleRun, FdHandled fdHost fdSample defaultChains it.1 := by
  have hone : ∀ ch ∈ defaultChains, ch.target ≠ [] → FdOk fdSample ch := fun ch hc ht => (natOk_fdSample hc ht).1.fdOk (natOk_fdSample hc ht).2
  intro it hit
  simp only [List.mem_cons, List.not_mem_nil, or_false] at hit
  rcases hit with rfl | rfl | rfl
  · refine .request {} sshRequest 1000 (Handled.plain (acc := {}) (sp := sshRequest) (now := 1000) [(6, 22)] ssh_ports (by decide) client_ipv4
      (fun h => absurd h (by decide)) (by decide)) ⟨by unfold Short IsBlank; decide, by unfold Short IsBlank; decide, hone inChain (by decide) (by decide),
      fun h => absurd rfl h, fun h => absurd h (by decide), fun h => absurd h (by decide), fun h => absurd h (by decide)⟩
  · refine .request everyStanza natRequest 1005 (Handled.natAll everyStanza natRequest 1005 6 2222 [(6, 443)] nat_ports (by decide) rfl b!"10.0.0.5" 22
      tenIPv4 (by decide) (fun _ => ⟨rfl, rfl⟩) (fun h => absurd h (by decide)) client_ipv4 (fun h => absurd h (by decide)) (by decide) 5 []
      (fun _ => ⟨by decide, .default (fun _ _ h => (by cases h)) (fun _ h => (by cases h)), fun _ h => (by cases h), fun _ h => (by cases h)⟩)) ?_
    refine ⟨by unfold Short IsBlank; decide, by unfold Short IsBlank; decide, hone inChain (by decide) (by decide), fun h => absurd rfl h, ?_, ?_, ?_⟩
    · intro _ i hi _
      simp only [List.mem_cons, List.not_mem_nil, or_false] at hi
      rcases hi with rfl | rfl
      · exact hone fwdChain (by decide) (by decide)
      · exact hone dnatChain (by decide) (by decide)
    · intro _ _
      refine ⟨fun fst more _ => ?_, fun a ha => (by cases ha), fun a ha => (by cases ha)⟩
      rw [show (snatTarget fdSample everyStanza fst.port).1 = 5 from rfl]
      exact hone masqChain (by decide) (by decide)
    · intro _ ip port h
      rw [show natTarget fdSample everyStanza natRequest = .ok (some (b!"10.0.0.5", 22)) from by decide +kernel] at h
      simp only [Res.ok.injEq, Option.some.injEq, Prod.mk.injEq] at h
      rw [← h.1, ← h.2]
      unfold Short IsBlank
      decide
  · exact .nothing

/-- The hypotheses of `C109_no_trace_partial` are met. -/
example : ∃ K1, fd_fw_initialize (fdConf fdSample) {} (fwdTool fdHost) defaultChains (adminTables, []) = .ok (some (true, (K1, []))) ∧
    ∀ st, fwRun (fdConf fdSample) (fwdTool fdHost).toTool 5 fdSampleRun (0, ⟨defaultChains, (K1, [])⟩) = .ok st →
      fd_fw_cleanup (fdConf fdSample) {} (fwdTool fdHost).toTool st.2.chain st.2.world = .ok (adminTables, []) := by
  obtain ⟨K1, h1, h2⟩ := C109_no_trace_partial fdHost fdSample {} rfl (.inl rfl) defaultChains fdSample_conf
    (fun _ h ht => (natOk_fdSample h ht).2) sample_prints adminTables admin_untouched ⟨_, rfl⟩ 5 0 fdSampleRun fdSampleRun_handled
  exact ⟨K1, h1, fun st hst => (h2 st hst).2⟩

/-- **C109** (part): a NAT request for a stanza with FORWARD_ALL is carried out as `C68_forward_all_partial` says.  What is
missing is what is missing there, and what is missing in `C109_input_rules_partial`. -/
theorem C109_forward_all_partial (F : FirewalldHost) (cf : FwConf) (acc : Stanza) (sp : SpaData) (now : Int)
    (s : FwSt (Tables × List Fate)) (K : Tables) (hs : s.world = (K, []))
    (proto port : Nat) (ps : List (Nat × Nat)) (hps : ProtoPorts sp.spa_message_remain ((proto, port) :: ps))
    (hnat : ForNat acc.force_nat sp.message_type) (hall : acc.forward_all = true)
    (ip : Word) (toPort : Nat) (hip : IsIPv4 ip) (hto : toPort ≤ 65535)
    (hforced : acc.force_nat = true → acc.force_nat_ip = some ip ∧ acc.force_nat_port = toPort)
    (hasked : acc.force_nat = false → sp.nat_access = some (ip ++ 44 :: decimal toPort))
    (e : Nat) (he : (e : Int) = now + sp.fw_access_timeout) (he32 : e < 2 ^ 32)
    (hsrc : AddrWord sp.use_src_ip) (hdst : AddrWord (dstOf cf sp))
    (hin : NatOk cf (s.at 0) ∧ Roomy cf (s.at 0))
    (hothers : ∀ i ∈ [1, 2, 3], (s.at i).to_chain ≠ [] → NatOk cf (s.at i) ∧ Roomy cf (s.at i))
    (k : Nat) (extra : List Word)
    (hsnat : acc.force_snat = true ∨ cf.snat = true → NatOk cf (s.at k) ∧ Roomy cf (s.at k) ∧
      SourceNatAll acc.force_snat acc.force_snat_ip cf.snat_translate_ip k extra ∧
      (∀ ip, acc.force_snat_ip = some ip → Short ip) ∧ (∀ ip, cf.snat_translate_ip = some ip → Short ip)) :
    ∃ s', fd_process_spa_request (fdConf cf) (fwdTool F).toTool acc sp now s = .ok s' ∧
      s'.world = (natAllTables cf acc sp s.at proto ip toPort e k extra K, []) := by
  have htarget : natTarget cf acc sp = .ok (some (ip, (toPort : Int))) := by
    cases hfn : acc.force_nat with
    | true => exact natTarget_forced hfn hip (hforced hfn).1 (hforced hfn).2
    | false => exact natTarget_text hfn hip hto (hasked hfn)
  have hone : ∀ i ∈ [1, 2, 3], (s.at i).to_chain ≠ [] → FdOk cf (s.at i) := fun i hi hc => (hothers i hi hc).1.fdOk (hothers i hi hc).2
  rw [fd_process_eq F (cf := cf) (acc := acc) (sp := sp) (s := s) ⟨short_addr hsrc, short_addr hdst, hin.1.fdOk hin.2, fun h => hone 1 (by simp) h,
    fun _ i hi hc => hone i (by
      simp only [List.mem_cons, List.not_mem_nil, or_false] at hi ⊢
      rcases hi with rfl | rfl <;> simp) hc,
    fun _ hsn => ?_, fun _ ip' port' ht => ?_⟩ (by rw [hs])]
  · exact C68_forward_all_partial F.ipt cf acc sp now s K hs proto port ps hps hnat hall ip toPort hip hto hforced hasked e he he32 hsrc hdst
      (fun _ => hin.1) (fun h => (hothers 2 (by simp) h).1) (fun h => (hothers 3 (by simp) h).1) k extra
      (fun h => ⟨(hsnat h).1, (hsnat h).2.2.1, fun a ha => ((hsnat h).2.2.2.1 a ha).2, fun a ha => ((hsnat h).2.2.2.2 a ha).2⟩)
  · obtain ⟨g1, g2, g3, g4, g5⟩ := hsnat hsn
    refine ⟨fun fst more _ => ?_, g4, g5⟩
    rw [snatAll_target hall (fun a ha => (g4 a ha).2) (fun a ha => (g5 a ha).2) g3]
    exact g1.fdOk g2
  · rw [htarget] at ht
    simp only [Res.ok.injEq, Option.some.injEq, Prod.mk.injEq] at ht
    rw [← ht.1, ← ht.2]
    exact ⟨short_addr (addrWord_ipv4 hip), by omega, by omega⟩

/-- The hypotheses of `C109_forward_all_partial` are met: everything from 1.2.3.4 is forwarded, sent on to 10.0.0.5 and
masqueraded. -/
example : ∃ s', fd_process_spa_request (fdConf fdSample) (fwdTool fdHost).toTool everyStanza natRequest 1000 ⟨defaultChains, (builtin, [])⟩ = .ok s' ∧
    s'.world.1 b!"filter" b!"FWKNOP_FORWARD" = some [forwardAllRule b!"1.2.3.4" 1030 b!"ACCEPT"] ∧
    s'.world.1 b!"nat" b!"FWKNOP_PREROUTING" = some [dnatAllRule b!"1.2.3.4" b!"0.0.0.0/0" 1030 b!"DNAT" b!"10.0.0.5"] ∧
    s'.world.1 b!"nat" b!"FWKNOP_MASQUERADE" = some [snatAllRule b!"1.2.3.4" 1030 b!"MASQUERADE" []] := by
  obtain ⟨s', h1, h2⟩ := C109_forward_all_partial fdHost fdSample everyStanza natRequest 1000 ⟨defaultChains, (builtin, [])⟩ builtin rfl
    6 2222 [(6, 443)] nat_ports (by decide) rfl b!"10.0.0.5" 22 tenIPv4 (by decide) (fun _ => ⟨rfl, rfl⟩) (fun h => absurd h (by decide)) 1030
    (by decide) (by decide) ⟨by unfold RuleWord PlainWord IsBlank; decide, by decide⟩ ⟨by unfold RuleWord PlainWord IsBlank; decide, by decide⟩
    (natOk_fdSample (ch := inChain) (by decide) (by decide)) (by
      intro i hi hc
      simp only [List.mem_cons, List.not_mem_nil, or_false] at hi
      rcases hi with rfl | rfl | rfl
      · exact absurd rfl hc
      · exact natOk_fdSample (ch := fwdChain) (by decide) (by decide)
      · exact natOk_fdSample (ch := dnatChain) (by decide) (by decide)) 5 []
    (fun _ => ⟨(natOk_fdSample (ch := masqChain) (by decide) (by decide)).1, (natOk_fdSample (ch := masqChain) (by decide) (by decide)).2,
      .default (fun _ _ h => (by cases h)) (fun _ h => (by cases h)), fun _ h => (by cases h), fun _ h => (by cases h)⟩)
  refine ⟨s', h1, ?_⟩
  rw [h2]
  exact ⟨by decide +kernel, by decide +kernel, by decide +kernel⟩

end Fwknop.Props
