import Verif.Lemmas.IptNat
import Verif.Props.Iptables

/-!
# Properties of the iptables back end: NAT requests (C68, C69), what rules let in (C39)
-/

namespace Fwknop.Props

open Fwknop Spec Res

/-! ## C39: what the rules of a request let in -/

theorem inputRule_matches (pk : Packet) (proto : Nat) (src dst : Word) (port e : Nat) (target : Word) :
    ruleMatches pk (inputRule proto src dst port e target) = true ↔
      pk.proto = proto ∧ inNet src pk.src = true ∧ inNet dst pk.dst = true ∧ pk.dport = port := by
  simp only [inputRule, ruleMatches]
  simp only [↓reduceIte, Bool.and_eq_true, decide_eq_true_eq, reduceCtorEq, and_true, List.cons.injEq, Nat.reduceEqDiff,
    and_false]
  constructor
  · rintro ⟨h1, h2, h3, h4⟩
    exact ⟨(decimal_inj h1).symm, h2, h3, (decimal_inj h4).symm⟩
  · rintro ⟨rfl, h2, h3, rfl⟩
    exact ⟨rfl, h2, h3, rfl⟩

theorem forwardRule_matches (pk : Packet) (proto : Nat) (src : Word) (port e : Nat) (target : Word) :
    ruleMatches pk (forwardRule proto src port e target) = true ↔
      pk.proto = proto ∧ inNet src pk.src = true ∧ pk.dport = port := by
  simp only [forwardRule, ruleMatches]
  simp only [↓reduceIte, Bool.and_eq_true, decide_eq_true_eq, reduceCtorEq, and_true, List.cons.injEq, Nat.reduceEqDiff,
    and_false]
  constructor
  · rintro ⟨h1, h2, h4⟩
    exact ⟨(decimal_inj h1).symm, h2, (decimal_inj h4).symm⟩
  · rintro ⟨rfl, h2, rfl⟩
    exact ⟨rfl, h2, rfl⟩

/-- C39 (part): under the hypotheses of `C39_input_rules_partial`, the rules that a request adds match
exactly the packets that come from the authorised address and are for one of the ports asked for (and
for the destination of the SPA packet, if ENABLE_DESTINATION_RULE is set).  Missing is what is missing
there. -/
theorem C39_lets_in_partial (print : Host) (cf : FwConf) (acc : Stanza) (sp : SpaData) (now : Int)
    (s : FwSt (Tables × List Fate)) (K : Tables) (hs : s.world = (K, []))
    (ps : List (Nat × Nat)) (hps : ProtoPorts sp.spa_message_remain ps) (hnat : ¬ ForNat acc.force_nat sp.message_type)
    (e : Nat) (he : (e : Int) = now + sp.fw_access_timeout) (he32 : e < 2 ^ 32)
    (hin : RequestOk cf (s.at IPT_INPUT_ACCESS) sp.use_src_ip (dstOf cf sp))
    (hout : (s.at IPT_OUTPUT_ACCESS).to_chain = []) (hpre : cf.prepend = false)
    (t f c : Word) (ht : (s.at IPT_INPUT_ACCESS).table = t) (hf : (s.at IPT_INPUT_ACCESS).from_chain = f)
    (hc : (s.at IPT_INPUT_ACCESS).to_chain = c) (hfc : f ≠ c)
    (rs fr : List Rule) (hrs : K t c = some rs) (hfr : K t f = some fr) (hj : [b!"-j", c] ∈ fr)
    (hnew : ∀ p ∈ ps, inputRule p.1 sp.use_src_ip (dstOf cf sp) p.2 e (s.at IPT_INPUT_ACCESS).target ∉ rs)
    (hnodup : ps.Nodup) (hsrc : sp.use_src_ip ≠ b!"0.0.0.0/0") (hdst : cf.use_destination = true →
      sp.pkt_destination_ip ≠ b!"0.0.0.0/0") :
    ∃ s' new, process_spa_request cf (iptTool print) acc sp now s = .ok s' ∧
      s'.world.1 t c = some (rs ++ new) ∧
      ∀ pk : Packet, (∃ r ∈ new, ruleMatches pk r = true) ↔
        pk.src = sp.use_src_ip ∧ (cf.use_destination = true → pk.dst = sp.pkt_destination_ip) ∧
          (pk.proto, pk.dport) ∈ ps := by
  obtain ⟨s', h1, h2, _⟩ := C39_input_rules_partial print cf acc sp now s K hs ps hps hnat e he he32 hin hout hpre t f c
    ht hf hc hfc rs fr hrs hfr hj hnew hnodup
  refine ⟨s', _, h1, h2, fun pk => ?_⟩
  have hs' : inNet sp.use_src_ip pk.src = true ↔ pk.src = sp.use_src_ip := by
    simp [inNet, hsrc, eq_comm]
  have hd' : inNet (dstOf cf sp) pk.dst = true ↔ (cf.use_destination = true → pk.dst = sp.pkt_destination_ip) := by
    unfold dstOf
    cases hu : cf.use_destination with
    | false => simp [inNet]
    | true => simp [inNet, hdst hu, eq_comm]
  constructor
  · rintro ⟨r, hr, hm⟩
    obtain ⟨p, hp, rfl⟩ := List.mem_map.1 hr
    obtain ⟨a, b, c, d⟩ := (inputRule_matches _ _ _ _ _ _ _).1 hm
    exact ⟨hs'.1 b, hd'.1 c, by rw [a, d]; exact hp⟩
  · rintro ⟨a, b, c⟩
    exact ⟨_, List.mem_map.2 ⟨_, c, rfl⟩, (inputRule_matches _ _ _ _ _ _ _).2 ⟨rfl, hs'.2 a, hd'.2 b, rfl⟩⟩

/-- The hypotheses are met: the rules of the SSH request match the packets from 1.2.3.4 to port 22, to
whichever address. -/
example : ∃ s' new, process_spa_request fwSample ipt {} sshRequest 1000 ⟨defaultChains, (inPlace, [])⟩ = .ok s' ∧
    s'.world.1 b!"filter" b!"FWKNOP_INPUT" = some ([[b!"-j", b!"LOG"]] ++ new) ∧
    ∀ pk : Packet, (∃ r ∈ new, ruleMatches pk r = true) ↔
      pk.src = b!"1.2.3.4" ∧ (false = true → pk.dst = []) ∧ (pk.proto, pk.dport) ∈ [(6, 22)] :=
  C39_lets_in_partial sampleHost fwSample {} sshRequest 1000 ⟨defaultChains, (inPlace, [])⟩ inPlace rfl
    [(6, 22)] ssh_ports (by decide) 1030 (by decide) (by decide) fwSample_ok rfl rfl b!"filter" b!"INPUT" b!"FWKNOP_INPUT" rfl
    rfl rfl (by decide) [[b!"-j", b!"LOG"]] [[b!"-j", b!"FWKNOP_INPUT"]] (by decide) (by decide) (by simp)
    (by decide +kernel) (by simp) (by decide) (by decide)

/-! ## C68: NAT requests -/

/-- Is this a request for local NAT? -/
def wantsLocal (sp : SpaData) : Bool :=
  sp.message_type = FKO_LOCAL_NAT_ACCESS_MSG || sp.message_type = FKO_CLIENT_TIMEOUT_LOCAL_NAT_ACCESS_MSG

/-- The tables after a NAT request for the port `port` to be sent on to `ip` and `toPort`: in turn, the
rule that lets the packets in or through, the rule that changes their destination, and the rule that
changes their source. -/
def natTables (cf : FwConf) (acc : Stanza) (sp : SpaData) (chain : Nat → FwChain) (proto port : Nat) (ip : Word)
    (toPort e k : Nat) (opt val : Word) (K : Tables) : Tables :=
  let K1 :=
    if wantsLocal sp then
      grantIn cf.prepend (chain 0) K (inputRule proto sp.use_src_ip (dstOf cf sp) toPort e (chain 0).target)
    else if (chain 2).to_chain = [] then K
    else grantIn cf.prepend (chain 2) K (forwardRule proto sp.use_src_ip toPort e (chain 2).target)
  let K2 :=
    if (chain 3).to_chain = [] ∨ acc.disable_dnat = true then K1
    else grantIn cf.prepend (chain 3) K1
      (dnatRule proto sp.use_src_ip (dstOf cf sp) port e (chain 3).target ip toPort)
  if acc.force_snat = true ∨ cf.snat = true then
    grantIn cf.prepend (chain k) K2 (snatRule proto ip toPort e (chain k).target opt val)
  else K2

/-- The rules of a NAT request, whatever the target is. -/
theorem natRules_run (print : Host) (cf : FwConf) (acc : Stanza) (sp : SpaData) (now : Int)
    (s : FwSt (Tables × List Fate)) (K : Tables) (hs : s.world = (K, []))
    (proto port : Nat) (hp : proto < 1000) (hport : port ≤ 65535) (hall : acc.forward_all = false)
    (ip : Word) (toPort : Nat) (hip : AddrWord ip) (hto : toPort ≤ 65535) (e : Nat) (he32 : e < 2 ^ 32)
    (hsrc : AddrWord sp.use_src_ip) (hdst : AddrWord (dstOf cf sp))
    (hin : wantsLocal sp = true → NatOk cf (s.at 0)) (hfwd : (s.at 2).to_chain ≠ [] → NatOk cf (s.at 2))
    (hdnat : (s.at 3).to_chain ≠ [] → NatOk cf (s.at 3))
    (k : Nat) (opt val : Word)
    (hsnat : acc.force_snat = true ∨ cf.snat = true → NatOk cf (s.at k) ∧
      SourceNat acc.force_snat acc.force_masquerade acc.force_snat_ip cf.snat_translate_ip port k opt val ∧
      (∀ ip, acc.force_snat_ip = some ip → ip.length ≤ 15) ∧ (∀ ip, cf.snat_translate_ip = some ip → ip.length ≤ 15)) :
    ∃ s', natRules cf (iptTool print) acc sp ⟨proto, (port : Int)⟩ ip toPort e now s = .ok s' ∧
      s'.world = (natTables cf acc sp s.at proto port ip toPort e k opt val K, []) := by
  unfold natRules
  -- the first rule
  have h1 : ∃ s1, natAccessRule cf (iptTool print) acc sp ⟨proto, (port : Int)⟩ toPort e now s = .ok s1 ∧ s1.world = (if wantsLocal sp then
        grantIn cf.prepend (s.at 0) K (inputRule proto sp.use_src_ip (dstOf cf sp) toPort e (s.at 0).target)
      else if (s.at 2).to_chain = [] then K
      else grantIn cf.prepend (s.at 2) K (forwardRule proto sp.use_src_ip toPort e (s.at 2).target), []) ∧
      ∀ j, (s1.at j).bare = (s.at j).bare := by
    unfold natAccessRule
    cases hl : wantsLocal sp with
    | true =>
      rw [if_pos (by simpa [wantsLocal] using hl), if_pos rfl]
      obtain ⟨chs, hc, hb, _⟩ := input_run (print := print) (i := IPT_INPUT_ACCESS) ((hin hl).request hsrc hdst) hp hto he32 hs now
      exact ⟨_, hc, rfl, fun j => hb j _⟩
    | false =>
      rw [if_neg (by simpa [wantsLocal] using hl), if_neg (show ¬ (false = true) by decide)]
      by_cases hf : (s.at IPT_FORWARD_ACCESS).to_chain = []
      · rw [if_neg (not_not_intro hf), if_pos hf]
        exact ⟨s, rfl, hs, fun _ => rfl⟩
      · rw [if_pos hf, if_neg hf]
        exact forward_run (hfwd hf) hsrc hall hp hto he32 hs now
  obtain ⟨s1, g1, w1, b1⟩ := h1
  rw [g1, bind_ok]
  generalize hK1 : (if wantsLocal sp then
        grantIn cf.prepend (s.at 0) K (inputRule proto sp.use_src_ip (dstOf cf sp) toPort e (s.at 0).target)
      else if (s.at 2).to_chain = [] then K
      else grantIn cf.prepend (s.at 2) K (forwardRule proto sp.use_src_ip toPort e (s.at 2).target)) = K1 at w1
  have h2 : ∃ s2, natDestRule cf (iptTool print) acc sp ⟨proto, (port : Int)⟩ ip toPort e now s1 = .ok s2 ∧ s2.world = (if (s.at 3).to_chain = [] ∨ acc.disable_dnat = true then K1
        else grantIn cf.prepend (s.at 3) K1
          (dnatRule proto sp.use_src_ip (dstOf cf sp) port e (s.at 3).target ip toPort), []) ∧
      ∀ j, (s2.at j).bare = (s.at j).bare := by
    unfold natDestRule
    have ht := (bare_fields (b1 IPT_DNAT_ACCESS)).2.2.2.2
    have htg := (bare_fields (b1 IPT_DNAT_ACCESS)).1
    by_cases hd : (s.at 3).to_chain = [] ∨ acc.disable_dnat = true
    · rw [if_neg (by rw [ht]; rintro ⟨h3, h4⟩; rcases hd with h | h; exact h3 h; simp [h] at h4), if_pos hd]
      exact ⟨s1, rfl, w1, b1⟩
    · rw [not_or] at hd
      rw [if_pos ⟨by rw [ht]; exact hd.1, by simpa using hd.2⟩, if_neg (by rw [not_or]; exact hd)]
      obtain ⟨s2, a, b, c⟩ := dnat_run (print := print) (NatOk.bare (b1 3) (hdnat hd.1)) hsrc hdst hall hip hp hport hto he32 w1 now
      refine ⟨s2, a, ?_, fun j => (c j).trans (b1 j)⟩
      rw [b, grantIn_bare (b1 3), htg]
  obtain ⟨s2, g2, w2, b2⟩ := h2
  rw [g2, bind_ok]
  unfold natTables
  simp only
  rw [hK1]
  by_cases hsn : acc.force_snat = true ∨ cf.snat = true
  · rw [if_pos hsn, if_pos hsn]
    obtain ⟨hk, hc, hl1, hl2⟩ := hsnat hsn
    obtain ⟨s3, a, b, _⟩ := snat_run (print := print) (sp := sp) hall hl1 hl2 hc (NatOk.bare (b2 k) hk) hip hp hport hto he32 w2 now
    refine ⟨s3, a, ?_⟩
    rw [b, grantIn_bare (b2 k), (bare_fields (b2 k)).1]
  · rw [if_neg hsn, if_neg hsn]
    exact ⟨s2, rfl, w2⟩

/-- C68 (part): a granted NAT request for a stanza without FORWARD_ALL is carried out as follows, if
iptables works and the names are not too long.  `ip` and `toPort` are the target: the one of
FORCE_NAT, or else the one of the request.  For the first port of the request, and no other, the packets
from the authorised address are let in or through to `toPort`; the destination of such packets to the
port asked for is changed to `ip` and `toPort`, unless DISABLE_DNAT is set or there is no chain for it;
their source is changed if the configuration asks for it.  Nothing else changes.  What is missing: the
other ports of the request (`C68_first_port_only`), the destination in the forward rule
(`C68_forward_to_anywhere`), targets of 16 characters (`C69_target_cut`), names of hosts; for FORWARD_ALL see `C68_forward_all_partial`. -/
theorem C68_tables_partial (print : Host) (cf : FwConf) (acc : Stanza) (sp : SpaData) (now : Int)
    (s : FwSt (Tables × List Fate)) (K : Tables) (hs : s.world = (K, []))
    (proto port : Nat) (ps : List (Nat × Nat)) (hps : ProtoPorts sp.spa_message_remain ((proto, port) :: ps))
    (hnat : ForNat acc.force_nat sp.message_type) (hall : acc.forward_all = false)
    (ip : Word) (toPort : Nat) (hip : IsIPv4 ip) (hto : toPort ≤ 65535)
    (hforced : acc.force_nat = true → acc.force_nat_ip = some ip ∧ acc.force_nat_port = toPort)
    (hasked : acc.force_nat = false → sp.nat_access = some (ip ++ 44 :: decimal toPort))
    (e : Nat) (he : (e : Int) = now + sp.fw_access_timeout) (he32 : e < 2 ^ 32)
    (hsrc : AddrWord sp.use_src_ip) (hdst : AddrWord (dstOf cf sp))
    (hin : wantsLocal sp = true → NatOk cf (s.at 0)) (hfwd : (s.at 2).to_chain ≠ [] → NatOk cf (s.at 2))
    (hdnat : (s.at 3).to_chain ≠ [] → NatOk cf (s.at 3))
    (k : Nat) (opt val : Word)
    (hsnat : acc.force_snat = true ∨ cf.snat = true → NatOk cf (s.at k) ∧
      SourceNat acc.force_snat acc.force_masquerade acc.force_snat_ip cf.snat_translate_ip port k opt val ∧
      (∀ ip, acc.force_snat_ip = some ip → ip.length ≤ 15) ∧ (∀ ip, cf.snat_translate_ip = some ip → ip.length ≤ 15)) :
    ∃ s', process_spa_request cf (iptTool print) acc sp now s = .ok s' ∧
      s'.world = (natTables cf acc sp s.at proto port ip toPort e k opt val K, []) := by
  have hbound : proto < 1000 ∧ port ≤ 65535 := by
    obtain ⟨items, _, hi, _, hm⟩ := hps
    have hp : (proto, port) ∈ items.map fun i => i.2.2 := by rw [← hm]; exact List.mem_cons_self
    obtain ⟨i, hi', hii⟩ := List.mem_map.1 hp
    obtain ⟨_, _, _, _, hn, _, _, _, h65, _⟩ := hi i hi'
    rw [hii] at hn h65
    exact ⟨by rcases hn with h | h <;> (simp only at h; omega), h65⟩
  obtain ⟨hp, hport⟩ := hbound
  have hexp : expTs now sp.fw_access_timeout = e := by unfold expTs; omega
  have htarget : natTarget cf acc sp = .ok (some (ip, (toPort : Int))) := by
    cases hfn : acc.force_nat with
    | true => exact natTarget_forced hfn hip (hforced hfn).1 (hforced hfn).2
    | false => exact natTarget_text hfn hip hto (hasked hfn)
  unfold process_spa_request
  rw [protoPorts_expand hps, List.map_cons]
  simp only
  rw [if_pos (wantsNat_iff.2 hnat), htarget, bind_ok, hexp]
  exact natRules_run print cf acc sp now s K hs proto port hp hport hall ip toPort (addrWord_ipv4 hip) hto e (by omega) hsrc hdst hin hfwd hdnat k opt val hsnat

/-- A request for SSH and HTTPS on 10.0.0.5. -/
abbrev natRequest : SpaData :=
  { message_type := FKO_NAT_ACCESS_MSG, spa_message_remain := b!"tcp/2222,tcp/443", use_src_ip := b!"1.2.3.4"
    nat_access := some b!"10.0.0.5,22", fw_access_timeout := 30 }

theorem nat_ports : ProtoPorts natRequest.spa_message_remain [(6, 2222), (6, 443)] :=
  ⟨[([], b!"tcp/2222", (6, 2222)), ([], b!"tcp/443", (6, 443))], by decide, by
    intro i hi
    simp only [List.mem_cons, List.not_mem_nil, or_false] at hi
    rcases hi with rfl | rfl
    · refine ⟨by simp, b!"tcp", b!"2222", rfl, .inl ⟨by decide, rfl⟩, by decide, ?_, by decide, by decide, by decide⟩
      unfold IsDigitChar
      decide
    · refine ⟨by simp, b!"tcp", b!"443", rfl, .inl ⟨by decide, rfl⟩, by decide, ?_, by decide, by decide, by decide⟩
      unfold IsDigitChar
      decide, rfl, rfl⟩

theorem fwdChain_ok : NatOk fwSample fwdChain where
  exe := by unfold PlainWord IsBlank; decide
  table := by unfold PlainWord IsBlank; decide
  from_chain := by unfold PlainWord IsBlank; decide
  chain := by unfold RuleWord PlainWord IsBlank; decide
  target := by unfold RuleWord PlainWord IsBlank; decide
  pos := by decide
  room := by decide

theorem dnatChain_ok : NatOk fwSample dnatChain where
  exe := by unfold PlainWord IsBlank; decide
  table := by unfold PlainWord IsBlank; decide
  from_chain := by unfold PlainWord IsBlank; decide
  chain := by unfold RuleWord PlainWord IsBlank; decide
  target := by unfold RuleWord PlainWord IsBlank; decide
  pos := by decide
  room := by decide

/-- The hypotheses of `C68_tables_partial` are met: the request is carried out with a rule that forwards to
port 22 and one that sends port 2222 on to 10.0.0.5. -/
example : ∃ s', process_spa_request fwSample ipt {} natRequest 1000 ⟨defaultChains, (builtin, [])⟩ = .ok s' ∧
    s'.world.1 b!"filter" b!"FWKNOP_FORWARD" = some [forwardRule 6 b!"1.2.3.4" 22 1030 b!"ACCEPT"] ∧
    s'.world.1 b!"nat" b!"FWKNOP_PREROUTING" =
      some [dnatRule 6 b!"1.2.3.4" b!"0.0.0.0/0" 2222 1030 b!"DNAT" b!"10.0.0.5" 22] := by
  obtain ⟨s', h1, h2⟩ := C68_tables_partial sampleHost fwSample {} natRequest 1000 ⟨defaultChains, (builtin, [])⟩ builtin rfl
    6 2222 [(6, 443)] nat_ports (by decide) rfl b!"10.0.0.5" 22
    ⟨b!"10", b!"0", b!"0", b!"5", by unfold IsOctet IsDigitChar; decide, by unfold IsOctet IsDigitChar; decide, by unfold IsOctet IsDigitChar; decide,
      by unfold IsOctet IsDigitChar; decide, by decide, by decide⟩ (by decide) (by decide) (fun _ => by decide +kernel) 1030 (by decide)
    (by decide) ⟨by unfold RuleWord PlainWord IsBlank; decide, by decide⟩ ⟨by unfold RuleWord PlainWord IsBlank; decide, by decide⟩
    (fun h => absurd h (by decide)) (fun _ => fwdChain_ok) (fun _ => dnatChain_ok) 0 [] [] (fun h => absurd h (by decide))
  refine ⟨s', h1, ?_⟩
  rw [h2]
  exact ⟨by decide +kernel, by decide +kernel⟩

/-- The rules of a chain after a run. -/
def rulesOf (r : Res (FwSt (Tables × List Fate))) (t c : Word) : Option (List Rule) :=
  match r with
  | .ok s => s.world.1 t c
  | _ => none

/-- The run of the request in the default configuration. -/
def natRun := process_spa_request fwSample ipt {} natRequest 1000 ⟨defaultChains, (builtin, [])⟩

/-- C68 is false: of the two ports of the request only the first is redirected. -/
theorem C68_first_port_only :
    rulesOf natRun b!"nat" b!"FWKNOP_PREROUTING" =
      some [dnatRule 6 b!"1.2.3.4" b!"0.0.0.0/0" 2222 1030 b!"DNAT" b!"10.0.0.5" 22] := by decide +kernel

/-- C68 is false: the request is for 10.0.0.5, but the rule that is made lets packets through to the
same port of any other host. -/
theorem C68_forward_to_anywhere :
    ∃ rs, rulesOf natRun b!"filter" b!"FWKNOP_FORWARD" = some rs ∧
      ∀ host sport, ∃ r ∈ rs, ruleMatches ⟨6, b!"1.2.3.4", host, sport, 22⟩ r = true := by
  refine ⟨[forwardRule 6 b!"1.2.3.4" 22 1030 b!"ACCEPT"], by decide +kernel, fun host sport => ⟨_, List.mem_cons_self, ?_⟩⟩
  exact (forwardRule_matches _ _ _ _ _ _).2 ⟨rfl, rfl, rfl⟩

/-! ## C69: the text of the target -/

/-- C69 (part): whatever target a request has, reading it touches no memory outside its array unless
the host has exactly 70 characters (the case that is missing, `C69_overflow`). -/
theorem C69_target_safe_partial (cf : FwConf) (acc : Stanza) (sp : SpaData) (na host rest : Word)
    (hf : acc.force_nat = false) (hn : sp.nat_access = some na) (hna : na = host ++ 44 :: rest) (hc : 44 ∉ host)
    (hl : host.length ≠ 70) : natTarget cf acc sp ≠ .ub := by
  unfold natTarget
  rw [if_neg (by simp [hf]), hn]
  simp only
  rw [hna, strchr_split _ _ _ hc]
  simp only
  by_cases h : host.length ≤ MAX_HOSTNAME_LEN
  · rw [if_pos h, show decide (host.length + 1 > MAX_HOSTNAME_LEN) = false from decide_eq_false
      (show ¬ host.length + 1 > 70 from by have : host.length ≤ 70 := h; omega), mem_false, bind_ok]
    cases natAddr cf ((host ++ 44 :: rest).take host.length) with
    | none => simp
    | some ip => simp
  · rw [if_neg h]; simp

/-- The hypotheses are met by an ordinary target. -/
example : natTarget fwSample {} natRequest ≠ .ub :=
  C69_target_safe_partial fwSample {} natRequest _ b!"10.0.0.5" b!"22" rfl rfl (by decide) (by decide) (by decide)

/-- C69 is false: every target with a host of 70 characters is accepted by the check of the protocol
library, if its port and its characters are all right, and makes the server write one byte past the end
of its array. -/
theorem C69_overflow (cf : FwConf) (acc : Stanza) (sp : SpaData) (host port : Word) (hf : acc.force_nat = false)
    (hn : sp.nat_access = some (host ++ 44 :: port)) (hl : host.length = 70) (hc : 44 ∉ host) :
    natTarget cf acc sp = .ub := by
  unfold natTarget
  rw [if_neg (by simp [hf]), hn]
  simp only
  rw [strchr_split _ _ _ hc]
  simp only
  rw [if_pos (show host.length ≤ 70 by omega), show decide (host.length + 1 > MAX_HOSTNAME_LEN) = true from
    decide_eq_true (show host.length + 1 > 70 by omega)]
  rfl

/-- There are such targets that the protocol library lets pass. -/
example : validate_nat_access_msg (List.replicate 70 97 ++ b!",22") = true ∧
    (List.replicate 70 97).length = 70 ∧ 44 ∉ List.replicate 70 97 := by decide +kernel

/-- C69 is false: a target with an address of 16 characters is taken for another address: the last
character is cut off. -/
theorem C69_target_cut : natTarget fwSample {} { natRequest with nat_access := some b!"010.000.0000.015,22" } =
      .ok (some (b!"010.000.0000.01", 22)) ∧
    validate_nat_access_msg b!"010.000.0000.015,22" = true := by decide +kernel

end Fwknop.Props
