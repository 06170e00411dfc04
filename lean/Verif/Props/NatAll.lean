import Verif.Lemmas.NatAll
import Verif.Props.Nat

/-!
# C68: NAT requests for a stanza with FORWARD_ALL
-/

namespace Fwknop.Props

open Fwknop Spec Res

/-- The tables after a NAT request to be sent on to `ip` for a stanza with FORWARD_ALL: in turn, the rule that lets the packets
in (local NAT) or all packets from the address through, the rule that changes their destination, and the one that changes their
source. -/
def natAllTables (cf : FwConf) (acc : Stanza) (sp : SpaData) (chain : Nat → FwChain) (proto : Nat) (ip : Word)
    (toPort e k : Nat) (extra : List Word) (K : Tables) : Tables :=
  let K1 :=
    if wantsLocal sp then
      grantIn cf.prepend (chain 0) K (inputRule proto sp.use_src_ip (dstOf cf sp) toPort e (chain 0).target)
    else if (chain 2).to_chain = [] then K
    else grantIn cf.prepend (chain 2) K (forwardAllRule sp.use_src_ip e (chain 2).target)
  let K2 :=
    if (chain 3).to_chain = [] ∨ acc.disable_dnat = true then K1
    else grantIn cf.prepend (chain 3) K1 (dnatAllRule sp.use_src_ip (dstOf cf sp) e (chain 3).target ip)
  if acc.force_snat = true ∨ cf.snat = true then
    grantIn cf.prepend (chain k) K2 (snatAllRule sp.use_src_ip e (chain k).target extra)
  else K2

/-- **C68** (part): a granted NAT request for a stanza with FORWARD_ALL is carried out as follows, if iptables works and the
names are not too long.  `ip` and `toPort` are the target: the one of FORCE_NAT, or else the one of the request.  All packets
from the authorised address are let through (for local NAT, those to `toPort` are let in); the destination of all packets from
there is changed to `ip`, unless DISABLE_DNAT is set or there is no chain for it; their source is changed if the configuration
asks for it, to the address of FORCE_SNAT, or else to SNAT_TRANSLATE_IP, or else by MASQUERADE.  Nothing else changes.  What is
missing: FORCE_MASQUERADE is not looked at (`C68_false_masquerade_all`), names of hosts, targets of 16 characters. -/
theorem C68_forward_all_partial (print : Host) (cf : FwConf) (acc : Stanza) (sp : SpaData) (now : Int)
    (s : FwSt (Tables × List Fate)) (K : Tables) (hs : s.world = (K, []))
    (proto port : Nat) (ps : List (Nat × Nat)) (hps : ProtoPorts sp.spa_message_remain ((proto, port) :: ps))
    (hnat : ForNat acc.force_nat sp.message_type) (hall : acc.forward_all = true)
    (ip : Word) (toPort : Nat) (hip : IsIPv4 ip) (hto : toPort ≤ 65535)
    (hforced : acc.force_nat = true → acc.force_nat_ip = some ip ∧ acc.force_nat_port = toPort)
    (hasked : acc.force_nat = false → sp.nat_access = some (ip ++ 44 :: decimal toPort))
    (e : Nat) (he : (e : Int) = now + sp.fw_access_timeout) (he32 : e < 2 ^ 32)
    (hsrc : AddrWord sp.use_src_ip) (hdst : AddrWord (dstOf cf sp))
    (hin : wantsLocal sp = true → NatOk cf (s.at 0)) (hfwd : (s.at 2).to_chain ≠ [] → NatOk cf (s.at 2))
    (hdnat : (s.at 3).to_chain ≠ [] → NatOk cf (s.at 3))
    (k : Nat) (extra : List Word)
    (hsnat : acc.force_snat = true ∨ cf.snat = true → NatOk cf (s.at k) ∧
      SourceNatAll acc.force_snat acc.force_snat_ip cf.snat_translate_ip k extra ∧
      (∀ ip, acc.force_snat_ip = some ip → ip.length ≤ 15) ∧ (∀ ip, cf.snat_translate_ip = some ip → ip.length ≤ 15)) :
    ∃ s', process_spa_request cf (iptTool print) acc sp now s = .ok s' ∧
      s'.world = (natAllTables cf acc sp s.at proto ip toPort e k extra K, []) := by
  have hp : proto < 1000 := by
    obtain ⟨items, _, hi, _, hm⟩ := hps
    have hp : (proto, port) ∈ items.map fun i => i.2.2 := by rw [← hm]; exact List.mem_cons_self
    obtain ⟨i, hi', hii⟩ := List.mem_map.1 hp
    obtain ⟨_, _, _, _, hn, _, _, _, h65, _⟩ := hi i hi'
    rw [hii] at hn
    rcases hn with h | h <;> (simp only at h; omega)
  have hexp : expTs now sp.fw_access_timeout = e := by unfold expTs; omega
  have htarget : natTarget cf acc sp = .ok (some (ip, (toPort : Int))) := by
    cases hfn : acc.force_nat with
    | true => exact natTarget_forced hfn hip (hforced hfn).1 (hforced hfn).2
    | false => exact natTarget_text hfn hip hto (hasked hfn)
  unfold process_spa_request
  rw [protoPorts_expand hps, List.map_cons]
  simp only
  rw [if_pos (wantsNat_iff.2 hnat), htarget, bind_ok, hexp]
  have hipw := addrWord_ipv4 hip
  change ∃ s', natRules cf (iptTool print) acc sp ⟨proto, (port : Int)⟩ ip toPort e now s = .ok s' ∧ _
  unfold natRules
  have h1 : ∃ s1, natAccessRule cf (iptTool print) acc sp ⟨proto, (port : Int)⟩ toPort e now s = .ok s1 ∧ s1.world = (if wantsLocal sp then
        grantIn cf.prepend (s.at 0) K (inputRule proto sp.use_src_ip (dstOf cf sp) toPort e (s.at 0).target)
      else if (s.at 2).to_chain = [] then K
      else grantIn cf.prepend (s.at 2) K (forwardAllRule sp.use_src_ip e (s.at 2).target), []) ∧
      ∀ j, (s1.at j).bare = (s.at j).bare := by
    unfold natAccessRule
    cases hl : wantsLocal sp with
    | true =>
      rw [if_pos (by simpa [wantsLocal] using hl), if_pos rfl]
      obtain ⟨chs, hc, hb, _⟩ := input_run (print := print) (i := IPT_INPUT_ACCESS) ((hin hl).request hsrc hdst) hp hto he32 hs now
      exact ⟨_, hc, rfl, fun j => hb j _⟩
    | false =>
      rw [if_neg (by simpa [wantsLocal] using hl), if_neg (show ¬ (false = true) by decide)]
      by_cases hf : (s.at IPT_FORWARD_ACCESS).to_chain = []
      · rw [if_neg (not_not_intro hf), if_pos hf]
        exact ⟨s, rfl, hs, fun _ => rfl⟩
      · rw [if_pos hf, if_neg hf]
        exact forwardAll_run (hfwd hf) hsrc hall proto toPort he32 hs now
  obtain ⟨s1, g1, w1, b1⟩ := h1
  rw [g1, bind_ok]
  generalize hK1 : (if wantsLocal sp then
        grantIn cf.prepend (s.at 0) K (inputRule proto sp.use_src_ip (dstOf cf sp) toPort e (s.at 0).target)
      else if (s.at 2).to_chain = [] then K
      else grantIn cf.prepend (s.at 2) K (forwardAllRule sp.use_src_ip e (s.at 2).target)) = K1 at w1
  have h2 : ∃ s2, natDestRule cf (iptTool print) acc sp ⟨proto, (port : Int)⟩ ip toPort e now s1 = .ok s2 ∧ s2.world = (if (s.at 3).to_chain = [] ∨ acc.disable_dnat = true then K1
        else grantIn cf.prepend (s.at 3) K1 (dnatAllRule sp.use_src_ip (dstOf cf sp) e (s.at 3).target ip), []) ∧
      ∀ j, (s2.at j).bare = (s.at j).bare := by
    unfold natDestRule
    have ht := (bare_fields (b1 IPT_DNAT_ACCESS)).2.2.2.2
    have htg := (bare_fields (b1 IPT_DNAT_ACCESS)).1
    by_cases hd : (s.at 3).to_chain = [] ∨ acc.disable_dnat = true
    · rw [if_neg (by rw [ht]; rintro ⟨h3, h4⟩; rcases hd with h | h; exact h3 h; simp [h] at h4), if_pos hd]
      exact ⟨s1, rfl, w1, b1⟩
    · rw [not_or] at hd
      rw [if_pos ⟨by rw [ht]; exact hd.1, by simpa using hd.2⟩, if_neg (by rw [not_or]; exact hd)]
      obtain ⟨s2, a, b, c⟩ := dnatAll_run (print := print) (NatOk.bare (b1 3) (hdnat hd.1)) hsrc hdst hall hipw ⟨proto, (port : Int)⟩ toPort he32 w1 now
      refine ⟨s2, a, ?_, fun j => (c j).trans (b1 j)⟩
      rw [b, grantIn_bare (b1 3), htg]
  obtain ⟨s2, g2, w2, b2⟩ := h2
  rw [g2, bind_ok]
  unfold natAllTables
  simp only
  rw [hK1]
  by_cases hsn : acc.force_snat = true ∨ cf.snat = true
  · rw [if_pos hsn, if_pos hsn]
    obtain ⟨hk, hc, hl1, hl2⟩ := hsnat hsn
    obtain ⟨s3, a, b, _⟩ := snatAll_run (print := print) (sp := sp) hall hl1 hl2 hc (NatOk.bare (b2 k) hk) hsrc ip ⟨proto, (port : Int)⟩ toPort he32 w2 now
    refine ⟨s3, a, ?_⟩
    rw [b, grantIn_bare (b2 k), (bare_fields (b2 k)).1]
  · rw [if_neg hsn, if_neg hsn]
    exact ⟨s2, rfl, w2⟩

/-- **C68**: the rule of FORWARD_ALL in the forwarding chain matches exactly the packets from the authorised address. -/
theorem C68_forward_all_matches (pk : Packet) (src : Word) (hs : src ≠ b!"0.0.0.0/0") (e : Nat) (target : Word) :
    ruleMatches pk (forwardAllRule src e target) = true ↔ pk.src = src := by
  simp only [forwardAllRule, ruleMatches]
  simp only [↓reduceIte, Bool.and_eq_true, decide_eq_true_eq, reduceCtorEq, and_true, List.cons.injEq, Nat.reduceEqDiff,
    and_false]
  unfold inNet
  simp only [hs, decide_false, Bool.false_or, decide_eq_true_eq]
  exact eq_comm

/-- The stanza of the examples: everything to 10.0.0.5, with MASQUERADE. -/
abbrev everyStanza : Stanza :=
  { force_nat := true, force_nat_ip := some b!"10.0.0.5", force_nat_port := 22, forward_all := true, force_snat := true, force_masquerade := true }

theorem tenIPv4 : IsIPv4 b!"10.0.0.5" :=
  ⟨b!"10", b!"0", b!"0", b!"5", by unfold IsOctet IsDigitChar; decide, by unfold IsOctet IsDigitChar; decide, by unfold IsOctet IsDigitChar; decide,
    by unfold IsOctet IsDigitChar; decide, by decide, by decide⟩

theorem masqChain_ok : NatOk fwSample masqChain where
  exe := by unfold PlainWord IsBlank; decide
  table := by unfold PlainWord IsBlank; decide
  from_chain := by unfold PlainWord IsBlank; decide
  chain := by unfold RuleWord PlainWord IsBlank; decide
  target := by unfold RuleWord PlainWord IsBlank; decide
  pos := by decide
  room := by decide

/-- The hypotheses of `C68_forward_all_partial` are met: everything from 1.2.3.4 is forwarded, sent on to 10.0.0.5 and
masqueraded. -/
example : ∃ s', process_spa_request fwSample ipt everyStanza natRequest 1000 ⟨defaultChains, (builtin, [])⟩ = .ok s' ∧
    s'.world.1 b!"filter" b!"FWKNOP_FORWARD" = some [forwardAllRule b!"1.2.3.4" 1030 b!"ACCEPT"] ∧
    s'.world.1 b!"nat" b!"FWKNOP_PREROUTING" = some [dnatAllRule b!"1.2.3.4" b!"0.0.0.0/0" 1030 b!"DNAT" b!"10.0.0.5"] ∧
    s'.world.1 b!"nat" b!"FWKNOP_MASQUERADE" = some [snatAllRule b!"1.2.3.4" 1030 b!"MASQUERADE" []] := by
  obtain ⟨s', h1, h2⟩ := C68_forward_all_partial sampleHost fwSample everyStanza natRequest 1000 ⟨defaultChains, (builtin, [])⟩ builtin rfl
    6 2222 [(6, 443)] nat_ports (by decide) rfl b!"10.0.0.5" 22 tenIPv4 (by decide) (fun _ => ⟨rfl, rfl⟩) (fun h => absurd h (by decide)) 1030
    (by decide) (by decide) ⟨by unfold RuleWord PlainWord IsBlank; decide, by decide⟩ ⟨by unfold RuleWord PlainWord IsBlank; decide, by decide⟩
    (fun h => absurd h (by decide)) (fun _ => fwdChain_ok) (fun _ => dnatChain_ok) 5 []
    (fun _ => ⟨masqChain_ok, .default (fun _ _ h => (by cases h)) (fun _ h => (by cases h)), fun _ h => (by cases h), fun _ h => (by cases h)⟩)
  refine ⟨s', h1, ?_⟩
  rw [h2]
  exact ⟨by decide +kernel, by decide +kernel, by decide +kernel⟩

/-- The chains with one for SNAT. -/
abbrev snatChains : List FwChain := [inChain, {}, fwdChain, dnatChain,
  { target := b!"SNAT", table := b!"nat", from_chain := b!"POSTROUTING", jump_rule_pos := 1, to_chain := b!"FWKNOP_POSTROUTING" }, masqChain]

/-- **C68 is false** of FORCE_MASQUERADE with FORWARD_ALL and SNAT_TRANSLATE_IP: the source is changed to that address and
nothing is masqueraded; without FORWARD_ALL it is masqueraded. -/
theorem C68_false_masquerade_all :
    let cf : FwConf := { fwSample with snat_translate_ip := some b!"192.0.2.1" }
    let run (acc : Stanza) := process_spa_request cf ipt acc natRequest 1000 ⟨snatChains, (builtin, [])⟩
    rulesOf (run everyStanza) b!"nat" b!"FWKNOP_MASQUERADE" = none ∧
      rulesOf (run everyStanza) b!"nat" b!"FWKNOP_POSTROUTING" =
        some [snatAllRule b!"1.2.3.4" 1030 b!"SNAT" [b!"--to-source", b!"192.0.2.1"]] ∧
      rulesOf (run { everyStanza with forward_all := false }) b!"nat" b!"FWKNOP_MASQUERADE" =
        some [snatRule 6 b!"10.0.0.5" 22 1030 b!"MASQUERADE" b!"--to-ports" b!"2222"] ∧
      rulesOf (run { everyStanza with forward_all := false }) b!"nat" b!"FWKNOP_POSTROUTING" = none := by
  refine ⟨by decide +kernel, by decide +kernel, by decide +kernel, by decide +kernel⟩

end Fwknop.Props
