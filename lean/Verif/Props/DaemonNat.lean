import Verif.Props.DaemonFile

/-!
# The daemon and requests for NAT (C114): samples, and what the stanza does not decide
-/

namespace Fwknop.Props

open Spec Res

/-- The text the client sends for `5.6.7.8,tcp/22`, to be sent on to port 3306 of 192.168.1.9. -/
def onwardText : Str :=
  b!"9zYWx0c2FsdEFIQERCSElDSENIREZJQ0DKm6a/isPJxcnCycXHyMLBQRk5PhVCQkZCPStARDUZE4Xny/eUqsC2hcHwuM/J/MlNGhADF1QyM0w8K2INNTc1i+XGiOeSzsa8+teX/fPLwHsjOn0XVDIzTDwrYg01NzWL5caI55LOxrz615f988uF"

/-- The text for `5.6.7.8,tcp/22`, to be sent on to port 3306 of the server itself. -/
def localText : Str :=
  b!"9zYWx0c2FsdEFIQERCSElDSENIREZJQ0DKm6a/isPJxcnCycXHyMLBQRk5PhVCQkFCPStARDUZE4Xny/eUqsCxhcHwuM/J/OsHGhAHUFYyNEw8BUQENQkDjPjk3qi0xu203vGd/Nf92nQaEAdQVjI0TDwFRAQ1CQOM+OTeqLTG7bTe8ZKxgLy2"

example : packed b!"mbr" 1700000000 none [.set (.msgType 2), .set (.message b!"5.6.7.8,tcp/22"), .set (.natAccess b!"192.168.1.9,3306")] =
    .ok (some onwardText) := by
  decide +kernel

example : packed b!"mbr" 1700000000 none [.set (.msgType 5), .set (.message b!"5.6.7.8,tcp/22"), .set (.natAccess b!"127.0.0.1,3306")] =
    .ok (some localText) := by
  decide +kernel

/-- A daemon that allows both kinds of NAT. -/
def natConf : DConf := { conf := { forwarding := true, local_nat := true }, fw := fwSample }

/-- The text arrives, and then nothing. -/
def turnsOf (t : Str) : List UdpTurn :=
  [⟨false, 1700000009, .gram (some ⟨t, 0x0A000001, 40000⟩) 1700000010 (fun _ => true) used⟩, ⟨false, 1700000011, .nothing⟩]

/-- The rules in a chain after a run. -/
def natChainAfter (t c : Word) (r : Res (Daemon (Tables × List Fate) × List Deed × Option Int)) : Option (List Rule) :=
  match r with
  | .ok (d, _, _) => some (rulesIn d.fw.world.1 t c)
  | _ => none

theorem onward_rules : natChainAfter b!"nat" b!"FWKNOP_PREROUTING" (udpLoop natConf sampleEnv (iptTool sampleHost) (turnsOf onwardText) sampleDaemon) =
      some [dnatRule 6 b!"5.6.7.8" b!"0.0.0.0/0" 22 1700000040 b!"DNAT" b!"192.168.1.9" 3306] := by
  decide +kernel

theorem nat_stanzas : StanzasFit natConf defaultChains sampleDaemon.srv.stanzas where
  keys := sample_stanzas.keys
  nat := by
    intro acc h _
    rw [List.mem_singleton.1 h]
    exact ⟨fun hq => (by cases hq), by decide, fun a ha => (by cases ha), fun n a ha => (by cases ha), fun a ha => (by cases ha),
      fun hq => (by rcases hq with hq | hq <;> cases hq), fun hq => (by rcases hq with hq | hq <;> cases hq)⟩
  time := sample_stanzas.time

/-- The hypotheses of `C114_every_nat_rule_has_a_packet_partial` are met, and the rule of the sample has a packet. -/
example : BackedNat natConf sampleEnv [sampleStanza] defaultChains ((turnsOf onwardText).flatMap (UdpTurn.acts 62201))
    ⟨b!"nat", b!"PREROUTING", b!"FWKNOP_PREROUTING"⟩ (dnatRule 6 b!"5.6.7.8" b!"0.0.0.0/0" 22 1700000040 b!"DNAT" b!"192.168.1.9" 3306) := by
  have hs := onward_rules
  generalize hr : udpLoop natConf sampleEnv (iptTool sampleHost) (turnsOf onwardText) sampleDaemon = r at hs
  cases r with
  | ub => cases hs
  | err => cases hs
  | ok r =>
    obtain ⟨d', l, v⟩ := r
    have hs := Option.some.inj hs
    obtain ⟨-, hx⟩ := C114_every_nat_rule_has_a_packet_partial iptTool_atMost (hist := (turnsOf onwardText).flatMap (UdpTurn.acts 62201)) sample_conf nat_stanzas (by
        intro a ha
        simp only [turnsOf, UdpTurn.acts, List.flatMap_cons, List.flatMap_nil, List.cons_append, List.nil_append, List.append_nil, List.mem_cons,
          List.not_mem_nil, or_false] at ha
        rcases ha with rfl | rfl | rfl <;> exact ⟨by decide, by decide⟩) rfl (.udp (turnsOf onwardText) v rfl hr)
    have := hx ⟨b!"nat", b!"PREROUTING", b!"FWKNOP_PREROUTING"⟩ (by decide) _ (hs ▸ List.mem_singleton.2 rfl)
    rcases this with h | h
    · exact absurd h (by decide +kernel)
    · exact h

theorem file_onward : natChainAfter b!"nat" b!"FWKNOP_PREROUTING" (udpLoop natConf sampleEnv (iptTool sampleHost) (turnsOf onwardText) fileDaemon) =
      some [dnatRule 6 b!"5.6.7.8" b!"0.0.0.0/0" 22 1700000040 b!"DNAT" b!"192.168.1.9" 3306] := by
  decide +kernel

theorem turns_hist : ∀ a ∈ (turnsOf onwardText).flatMap (UdpTurn.acts 62201), (0 ≤ a.now ∧ a.now < 2 ^ 31) ∧
    ∀ now p o, a = .packet now p o → p.src_ip < 2 ^ 32 ∧ p.dst_ip < 2 ^ 32 := by
  intro a ha
  simp only [turnsOf, UdpTurn.acts, List.flatMap_cons, List.flatMap_nil, List.cons_append, List.nil_append, List.append_nil, List.mem_cons,
    List.not_mem_nil, or_false] at ha
  rcases ha with rfl | rfl | rfl
  · exact ⟨⟨by decide, by decide⟩, fun _ _ _ h => by cases h⟩
  · exact ⟨⟨by decide, by decide⟩, fun _ _ _ h => by cases h; exact ⟨by decide, by decide⟩⟩
  · exact ⟨⟨by decide, by decide⟩, fun _ _ _ h => by cases h⟩

/-- The hypotheses of `C114_nat_rules_follow_the_file_partial` are met: it gives the packet and the stanza of the file
that the rule of the sample comes from. -/
example : ∃ src opts now p o, (src, opts) ∈ stanzasOf doorEntries ∧ Act.packet now p o ∈ (turnsOf onwardText).flatMap (UdpTurn.acts 62201) ∧
    (∀ A, Networks src A → A p.src_ip) := by
  have hs := file_onward
  obtain ⟨l, hload, hd, hfw⟩ := file_loads
  generalize hr : udpLoop natConf sampleEnv (iptTool sampleHost) (turnsOf onwardText) fileDaemon = r at hs
  cases r with
  | ub => cases hs
  | err => cases hs
  | ok r =>
    obtain ⟨d', dl, v⟩ := r
    have hs := Option.some.inj hs
    obtain ⟨-, hx⟩ := C114_nat_rules_follow_the_file_partial (T := iptTool sampleHost) (hist := (turnsOf onwardText).flatMap (UdpTurn.acts 62201)) (content := doorFile)
      (env := oneFile doorFile) rfl doorFile_holds (by unfold Plain; decide) hload iptTool_atMost toyHash_lawful sample_conf
      (fun hq => absurd hq (by decide +kernel)) (fun n a ha => by cases ha) (fun a ha => by cases ha) hd (fun a ha => (turns_hist a ha).1)
      (fun now p o ha => (turns_hist _ ha).2 now p o rfl) (by rw [hfw]) (.udp (turnsOf onwardText) v rfl hr)
    have := hx ⟨b!"nat", b!"PREROUTING", b!"FWKNOP_PREROUTING"⟩ (by decide) _ (hs ▸ List.mem_singleton.2 rfl)
    rw [hfw] at this
    rcases this with h | ⟨src, opts, acc, now, p, o, proto, port, secs, text, proxy, c, ip, rest, h1, -, h2, -, -, h3, -⟩
    · exact absurd h (by decide +kernel)
    · exact ⟨src, opts, now, p, o, h1, h2, h3.source⟩

/-- A stanza with FORWARD_ALL, whose clients have all their packets sent on. -/
def allDaemon : Daemon (Tables × List Fate) :=
  { srv := sampleServer [{ sampleStanza with forward_all := true, force_snat := true }], fw := ⟨defaultChains, (adminTables, [])⟩ }

/-- Its rules. -/
theorem all_rules :
    natChainAfter b!"filter" b!"FWKNOP_FORWARD" (udpLoop natConf sampleEnv (iptTool sampleHost) (turnsOf onwardText) allDaemon) =
      some [forwardAllRule b!"5.6.7.8" 1700000040 b!"ACCEPT"] ∧
    natChainAfter b!"nat" b!"FWKNOP_PREROUTING" (udpLoop natConf sampleEnv (iptTool sampleHost) (turnsOf onwardText) allDaemon) =
      some [dnatAllRule b!"5.6.7.8" b!"0.0.0.0/0" 1700000040 b!"DNAT" b!"192.168.1.9"] ∧
    natChainAfter b!"nat" b!"FWKNOP_MASQUERADE" (udpLoop natConf sampleEnv (iptTool sampleHost) (turnsOf onwardText) allDaemon) =
      some [snatAllRule b!"5.6.7.8" 1700000040 b!"MASQUERADE" []] := by
  refine ⟨by decide +kernel, by decide +kernel, by decide +kernel⟩

/-- The hypotheses of `C114_every_nat_rule_has_a_packet_partial` are met by it. -/
example : StanzasFit natConf defaultChains allDaemon.srv.stanzas where
  keys := by intro acc h; rw [List.mem_singleton.1 h]; exact fun _ => by decide
  nat := by
    intro acc h _
    rw [List.mem_singleton.1 h]
    exact ⟨fun hq => (by cases hq), by decide, fun a ha => (by cases ha), fun n a ha => (by cases ha), fun a ha => (by cases ha),
      fun _ hq => (by cases hq), fun _ _ k opts hk => (by cases hk <;> first | contradiction | decide)⟩
  time := by intro acc h; rw [List.mem_singleton.1 h]; decide

/-- A firewall whose calls fail: one for the rule that lets packets through is killed, the next is refused. -/
def shakyDaemon : Daemon (Tables × List Fate) :=
  { srv := sampleServer [sampleStanza],
    fw := ⟨defaultChains, (adminTables, [.works, .works, .works, .works, .killed, .refused])⟩ }

/-- The rule for the destination is there, the one that lets packets through is not. -/
theorem shaky_rules :
    natChainAfter b!"filter" b!"FWKNOP_FORWARD" (udpLoop natConf sampleEnv (iptTool sampleHost) (turnsOf onwardText) shakyDaemon) = some [] ∧
    natChainAfter b!"nat" b!"FWKNOP_PREROUTING" (udpLoop natConf sampleEnv (iptTool sampleHost) (turnsOf onwardText) shakyDaemon) =
      some [dnatRule 6 b!"5.6.7.8" b!"0.0.0.0/0" 22 1700000040 b!"DNAT" b!"192.168.1.9" 3306] := by
  refine ⟨by decide +kernel, by decide +kernel⟩

/-- And its packet is found just the same. -/
example : ∀ d' l v, udpLoop natConf sampleEnv (iptTool sampleHost) (turnsOf onwardText) shakyDaemon = .ok (d', l, v) →
    ∀ x ∈ rulesIn d'.fw.world.1 b!"nat" b!"FWKNOP_PREROUTING", BackedNat natConf sampleEnv [sampleStanza] defaultChains
      ((turnsOf onwardText).flatMap (UdpTurn.acts 62201)) ⟨b!"nat", b!"PREROUTING", b!"FWKNOP_PREROUTING"⟩ x := by
  intro d' l v hr x hx
  have hS : StanzasFit natConf defaultChains shakyDaemon.srv.stanzas := nat_stanzas
  have hran : Ran natConf sampleEnv (iptTool sampleHost) ((turnsOf onwardText).flatMap (UdpTurn.acts 62201)) shakyDaemon d' l := .udp (turnsOf onwardText) v rfl hr
  have h0 := (C114_every_nat_rule_has_a_packet_partial iptTool_atMost sample_conf hS (fun a ha => (turns_hist a ha).1) rfl hran).2
  rcases h0 ⟨b!"nat", b!"PREROUTING", b!"FWKNOP_PREROUTING"⟩ (by decide) x hx with h | h
  · exact absurd (List.ne_nil_of_mem h) (by decide +kernel)
  · exact h

/-- A stanza that opens SSH and nothing else, and restricts MySQL. -/
def sshOnly : Stanza := { sampleStanza with oport_list := [⟨6, 22⟩], rport_list := [⟨6, 3306⟩] }

def sshDaemon : Daemon (Tables × List Fate) := { srv := sampleServer [sshOnly], fw := ⟨defaultChains, (adminTables, [])⟩ }

/-- C114 is false of the ports of a stanza: they do not hold for the target of a request for NAT.  The stanza opens port
22 only and restricts port 3306, but a request for port 22 with local NAT to port 3306 is granted, and its rule in the
input chain lets the client reach port 3306 of the server, without any translation. -/
theorem C114_open_ports_do_not_hold : sshOnly.oport_list = [⟨6, 22⟩] ∧ sshOnly.rport_list = [⟨6, 3306⟩] ∧
    natChainAfter b!"filter" b!"FWKNOP_INPUT" (udpLoop natConf sampleEnv (iptTool sampleHost) (turnsOf localText) sshDaemon) =
      some [inputRule 6 b!"5.6.7.8" b!"0.0.0.0/0" 3306 1700000040 b!"ACCEPT"] ∧
    ruleMatches ⟨6, b!"5.6.7.8", b!"10.0.0.2", 40001, 3306⟩ (inputRule 6 b!"5.6.7.8" b!"0.0.0.0/0" 3306 1700000040 b!"ACCEPT") = true := by
  refine ⟨rfl, rfl, by decide +kernel, by decide +kernel⟩

/-- Nor for the port behind the firewall: the same client reaches port 3306 of 192.168.1.9, and of any other machine
that the server forwards to, since the rule in the forwarding chain names no destination (C68). -/
theorem C114_open_ports_do_not_hold_behind :
    natChainAfter b!"filter" b!"FWKNOP_FORWARD" (udpLoop natConf sampleEnv (iptTool sampleHost) (turnsOf onwardText) sshDaemon) =
      some [forwardRule 6 b!"5.6.7.8" 3306 1700000040 b!"ACCEPT"] ∧
    ruleMatches ⟨6, b!"5.6.7.8", b!"192.168.1.77", 40001, 3306⟩ (forwardRule 6 b!"5.6.7.8" 3306 1700000040 b!"ACCEPT") = true := by
  refine ⟨by decide +kernel, by decide +kernel⟩

end Fwknop.Props
