import Verif.Props.Nfq

/-!
# C120: the rules of a daemon that takes its packets from a netfilter queue
-/

namespace Fwknop.Spec

open Fwknop

/-- The packet of an iteration of the loop on the queue, if `recv` gives one and it is taken for one. -/
def nfqActs (t : NfqTurn) : List Act :=
  match t.recv with
  | .message _ q => ((process_packet q.cap q.old).2.map fun p => Act.packet q.now p q.open_ok).toList
  | _ => []

end Fwknop.Spec

namespace Fwknop.Props

open Fwknop Spec Res

theorem nfq_rules {σ : Type} {T : Tool σ} {print : Host} {tab : σ → Tables} (hT : AtMost T print tab) {D : DConf} {E : Env} {S : List Stanza}
    {chs : List FwChain} (hc : ConfOk D.fw chs) (hS : StanzasFit D chs S) :
    ∀ (ts : List NfqTurn) {pending : Bool} {errs : Nat} {d d' : Daemon σ} {l : List Deed} {vs : List (Nat × Bool)} {x : Option Exit},
    (∀ a ∈ ts.flatMap nfqActs, 0 ≤ a.now ∧ a.now < 2 ^ 31) →
    d.fw.chain.map FwChain.bare = chs.map FwChain.bare → Marked S d.srv.stanzas → nfqLoop D E T ts pending errs d = .ok (d', l, vs, x) →
    Moves (hooks chs) (BackedNat D E S chs (ts.flatMap nfqActs)) (tab d.fw.world) (tab d'.fw.world)
  | [], _, _, d, d', l, vs, x, _, _, _, hr => by cases hr; exact .refl _ _ _
  | t :: ts, pending, errs, d, d', l, vs, x, hn, hL, hM, hr => by
    have hn2 : ∀ a ∈ ts.flatMap nfqActs, 0 ≤ a.now ∧ a.now < 2 ^ 31 := fun a ha => hn a (by
      rw [List.flatMap_cons]
      exact List.mem_append_right _ ha)
    have up : ∀ {K K' : Tables}, Moves (hooks chs) (BackedNat D E S chs (ts.flatMap nfqActs)) K K' →
        Moves (hooks chs) (BackedNat D E S chs ((t :: ts).flatMap nfqActs)) K K' := fun h =>
      h.mono fun h _ x hx => backed_mono hx fun y hy => by
        rw [List.flatMap_cons]
        exact List.mem_append_right _ hy
    unfold nfqLoop at hr
    simp only at hr
    cases hv : t.recv with
    | message res q =>
      rw [hv] at hr
      simp only at hr
      obtain ⟨r, h1, hr⟩ := bind_eq_ok hr
      obtain ⟨s, h2, hr⟩ := bind_eq_ok hr
      obtain ⟨y, h3, hr⟩ := bind_eq_ok hr
      cases hr
      unfold nfqMessage at h1
      obtain ⟨z, h4, h1⟩ := bind_eq_ok h1
      cases h1
      have hz : z.1.fw.chain.map FwChain.bare = chs.map FwChain.bare ∧ Marked S z.1.srv.stanzas ∧
          Moves (hooks chs) (BackedNat D E S chs ((t :: ts).flatMap nfqActs)) (tab d.fw.world) (tab z.1.fw.world) := by
        unfold process_nfq_packet at h4
        split at h4
        · cases h4; exact ⟨hL, hM, .refl _ _ _⟩
        · rename_i p hp
          have hm : Act.packet q.now p q.open_ok ∈ (t :: ts).flatMap nfqActs := by
            rw [List.flatMap_cons]
            refine List.mem_append_left _ ?_
            unfold nfqActs
            rw [hv]
            simp [hp]
          obtain ⟨g1, g2, g3⟩ := receive_rules hT hc hS (hn _ hm) hL hM h4
          exact ⟨g1, g2, g3.mono fun h _ x hx => backed_mono hx fun y hy => by rw [List.mem_singleton.1 hy]; exact hm⟩
      obtain ⟨g1, g2, g3⟩ := hz
      have hk := check_moves hT (A := BackedNat D E S chs ((t :: ts).flatMap nfqActs)) hc g1 h2
      have ih := nfq_rules hT hc hS ts (d' := y.1) (l := y.2.1) (vs := y.2.2.1) (x := y.2.2.2) hn2 (by exact hk.1) (by exact g2) h3
      exact (g3.trans hk.2).trans (up ih)
    | error =>
      rw [hv] at hr
      simp only at hr
      split at hr
      · cases hr; exact .refl _ _ _
      · obtain ⟨s, h2, hr⟩ := bind_eq_ok hr
        have hk := check_moves hT (A := BackedNat D E S chs ((t :: ts).flatMap nfqActs)) hc hL h2
        exact hk.2.trans (up (nfq_rules hT hc hS ts hn2 (by exact hk.1) (by exact hM) hr))
    | nothing =>
      rw [hv] at hr
      simp only at hr
      split at hr
      · cases hr; exact .refl _ _ _
      · obtain ⟨s, h2, hr⟩ := bind_eq_ok hr
        have hk := check_moves hT (A := BackedNat D E S chs ((t :: ts).flatMap nfqActs)) hc hL h2
        exact hk.2.trans (up (nfq_rules hT hc hS ts hn2 (by exact hk.1) (by exact hM) hr))

/-- **C120**: with a netfilter queue, too, each rule in a chain of the daemon was there at the start or has a packet that a stanza's keys
decode and that meets its demands, and the firewall of the administrator stays as it was: whatever messages the
queue gives, whatever the clocks say, whether the daemon still runs or has stopped, whichever calls of iptables work or do
nothing. -/
theorem C120_every_rule_has_a_packet {σ : Type} {T : Tool σ} {print : Host} {tab : σ → Tables} (hT : AtMost T print tab)
    {D : DConf} {E : Env} {chs : List FwChain} (hc : ConfOk D.fw chs) {d d' : Daemon σ} (ts : List NfqTurn) {pending : Bool} {errs : Nat}
    {deeds : List Deed} {vs : List (Nat × Bool)} {x : Option Exit}
    (hS : StanzasFit D chs d.srv.stanzas) (hclock : ∀ a ∈ ts.flatMap nfqActs, 0 ≤ a.now ∧ a.now < 2 ^ 31)
    (hfw : d.fw.chain = chs) (hr : nfqLoop D E T ts pending errs d = .ok (d', deeds, vs, x)) :
    without (hooks chs) (tab d'.fw.world) = without (hooks chs) (tab d.fw.world) ∧
      ∀ h ∈ hooks chs, ∀ y ∈ rulesIn (tab d'.fw.world) h.table h.to,
        y ∈ rulesIn (tab d.fw.world) h.table h.to ∨ BackedNat D E d.srv.stanzas chs (ts.flatMap nfqActs) h y :=
  nfq_rules hT hc hS ts hclock (by rw [hfw]) (Marked.refl _) hr

/-- A knock from 10.0.0.1 in the queue, then nothing. -/
abbrev queueTurns : List NfqTurn := [⟨false, .message 300 (queuedFrom 0x0A000001), 1700000010⟩, ⟨true, .nothing, 1700000011⟩]

/-- The rules in the input chain after a run. -/
def inputQueued (r : Res (Daemon (Tables × List Fate) × List Deed × List (Nat × Bool) × Option Exit)) : Option (List Rule) :=
  match r with
  | .ok (d, _) => some (rulesIn d.fw.world.1 b!"filter" b!"FWKNOP_INPUT")
  | _ => none

theorem queue_rule : (inputQueued (nfqLoop sampleConf sampleEnv (iptTool sampleHost) queueTurns false 0 sampleDaemon)).isSome = true ∧
    (∀ y, y ∈ (inputQueued (nfqLoop sampleConf sampleEnv (iptTool sampleHost) queueTurns false 0 sampleDaemon)).getD [] ↔
      y = inputRule 6 b!"5.6.7.8" b!"0.0.0.0/0" 22 1700000040 b!"ACCEPT") := by
  have h : inputQueued (nfqLoop sampleConf sampleEnv (iptTool sampleHost) queueTurns false 0 sampleDaemon) =
      some [inputRule 6 b!"5.6.7.8" b!"0.0.0.0/0" 22 1700000040 b!"ACCEPT"] := by decide +kernel
  rw [h]
  simp

/-- The hypotheses of `C120_every_rule_has_a_packet` are met, and the rule of the sample has a packet. -/
example : BackedNat sampleConf sampleEnv [sampleStanza] defaultChains (queueTurns.flatMap nfqActs)
    ⟨b!"filter", b!"INPUT", b!"FWKNOP_INPUT"⟩ (inputRule 6 b!"5.6.7.8" b!"0.0.0.0/0" 22 1700000040 b!"ACCEPT") := by
  obtain ⟨hs, hy⟩ := queue_rule
  cases hr : nfqLoop sampleConf sampleEnv (iptTool sampleHost) queueTurns false 0 sampleDaemon with
  | ub => rw [hr] at hs; cases hs
  | err => rw [hr] at hs; cases hs
  | ok r =>
    obtain ⟨d', l, vs, x⟩ := r
    rw [hr] at hy
    obtain ⟨-, hx⟩ := C120_every_rule_has_a_packet iptTool_atMost (D := sampleConf) (chs := defaultChains) sample_conf queueTurns
      ⟨sample_stanzas.keys, fun acc ha hq => (by
        have h1 : sampleConf.conf.forwarding = false := rfl
        have h2 : sampleConf.conf.local_nat = false := rfl
        rw [h1, h2, sample_stanzas.nat acc ha] at hq
        rcases hq with hq | hq | hq <;> cases hq), sample_stanzas.time⟩ (by
        intro a ha
        simp only [queueTurns, List.flatMap_cons, List.flatMap_nil, List.append_nil, nfqActs,
          Option.mem_toList, Option.map_eq_some_iff] at ha
        obtain ⟨p, -, rfl⟩ := ha
        show 0 ≤ (queuedFrom 0x0A000001).now ∧ (queuedFrom 0x0A000001).now < 2 ^ 31
        decide) rfl hr
    rcases hx ⟨b!"filter", b!"INPUT", b!"FWKNOP_INPUT"⟩ (by decide) _ ((hy _).2 rfl) with h | h
    · exact absurd h (by decide +kernel)
    · exact h

end Fwknop.Props
