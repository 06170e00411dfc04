import Verif.Lemmas.DaemonNat

/-!
# The daemon's main loops

C101: what is left from earlier packets does not matter.  C102: every rule has a packet.
-/

namespace Fwknop.Props

open Spec Res

/-! ## C101 -/

theorem leftover_closed {old : Str} (h : Leftover old) {n : Nat} (hn : n ≤ 1500) : Closed (old.drop (n + 1)) := by
  obtain ⟨h1, h2⟩ := h
  by_cases he : n = 1500
  · exact .inl (by rw [he]; exact List.drop_of_length_le (by omega))
  · refine .inr (List.mem_iff_getElem?.2 ⟨1500 - (n + 1), ?_⟩)
    rw [List.getElem?_drop]
    rw [show n + 1 + (1500 - (n + 1)) = 1500 by omega]
    exact h2

/-- The text of a packet up to the first NUL, and what follows in the array. -/
theorem body_text (body old : Str) (h : Leftover old) (hb : body.length ≤ 1500) :
    ∃ g, body ++ 0 :: old.drop (body.length + 1) = cstr body ++ 0 :: g ∧ Closed g ∧ g.length = 1500 - (cstr body).length := by
  have hl : (body ++ 0 :: old.drop (body.length + 1)).length = 1501 := by
    simp only [List.length_append, List.length_cons, List.length_drop, h.1]; omega
  by_cases h0 : 0 ∈ body
  · obtain ⟨t, ht⟩ : ∃ t, body = cstr body ++ 0 :: t := by
      clear hl hb
      induction body with
      | nil => cases h0
      | cons c body ih =>
        by_cases hc : c = 0
        · subst hc; exact ⟨body, by simp [cstr]⟩
        · rcases List.mem_cons.1 h0 with h | h
          · exact absurd h.symm hc
          · obtain ⟨t, ht⟩ := ih h
            refine ⟨t, ?_⟩
            have : cstr (c :: body) = c :: cstr body := by simp [cstr, hc]
            rw [this, List.cons_append, ← ht]
    refine ⟨t ++ 0 :: old.drop (body.length + 1), ?_, .inr (by simp), ?_⟩
    · conv => lhs; rw [ht]
      rw [List.append_assoc, List.cons_append]
      rw [show (cstr body ++ 0 :: t).length = body.length by rw [← ht]]
    · have e : body ++ 0 :: old.drop (body.length + 1) = cstr body ++ 0 :: (t ++ 0 :: old.drop (body.length + 1)) := by
        conv => lhs; rw [ht]
        rw [List.append_assoc, List.cons_append]
        rw [show (cstr body ++ 0 :: t).length = body.length by rw [← ht]]
      rw [e] at hl
      simp only [List.length_append, List.length_cons] at hl ⊢
      omega
  · have e : cstr body = body := by
      clear hl hb
      induction body with
      | nil => rfl
      | cons c body ih =>
        have hc : c ≠ 0 := fun he => h0 (by simp [he])
        have : cstr (c :: body) = c :: cstr body := by simp [cstr, hc]
        rw [this, ih fun he => h0 (List.mem_cons_of_mem _ he)]
    refine ⟨old.drop (body.length + 1), by rw [e], leftover_closed h hb, ?_⟩
    rw [e, List.length_drop, h.1]
    omega

theorem cstr_nul (l : Str) : 0 ∉ cstr l := by
  induction l with
  | nil => simp [cstr]
  | cons c l ih =>
    by_cases hc : c = 0
    · simp [cstr, hc]
    · have : cstr (c :: l) = c :: cstr l := by simp [cstr, hc]
      rw [this, List.mem_cons]
      exact fun h => h.elim (fun h => hc h.symm) ih

theorem cstr_length (l : Str) : (cstr l).length ≤ l.length := (List.takeWhile_prefix _).length_le

/-- Packets that differ in what follows their text only. -/
theorem same_text {p q : Pkt} {s g1 g2 : Str} (hs : 0 ∉ s) (hp : p.data = s ++ 0 :: g1) (hq : q.data = s ++ 0 :: g2) (h1 : Closed g1) (h2 : Closed g2)
    (l1 : g1.length = 1500 - s.length) (l2 : g2.length = 1500 - s.length) (hl : s.length ≤ p.len) (h1500 : s.length ≤ 1500) (hrest : { q with data := p.data } = p)
    (conf : Conf) (E : Env) (now : Int) (o : Nat → Bool) (sv : Server) : incoming_spa conf E now p o sv = incoming_spa conf E now q o sv :=
  incoming_nul conf E now p q o sv hs hp hq (by omega) h1 h2 hl (by rw [hp]; simp only [List.length_append, List.length_cons]; omega) hrest

/-- What `process_packet` makes of a frame, for any content of the array. -/
theorem captured_shape (c : Cap) : (∀ old, (process_packet c old).2 = none) ∨
    ∃ (body : Str) (p : Pkt), 140 ≤ body.length ∧ body.length ≤ 1500 ∧ p.len = body.length ∧
      ∀ old, (process_packet c old).2 = some { p with data := body ++ 0 :: old.drop (body.length + 1) } := by
  unfold process_packet
  split
  · exact .inl fun _ => rfl
  split
  · exact .inl fun _ => rfl
  unfold Cap.ipPart
  split
  · exact .inl fun _ => rfl
  dsimp only
  split
  · exact .inl fun _ => rfl
  split
  · exact .inl fun _ => rfl
  split
  · exact .inl fun _ => rfl
  unfold Cap.deliver
  dsimp only
  split
  · exact .inl fun _ => rfl
  split
  · exact .inl fun _ => rfl
  rename_i t _ h1 h2
  simp only [MAX_SPA_PACKET_LEN, MIN_SPA_DATA_SIZE] at h1 h2
  refine .inr ⟨(List.range (Cap.dataLen (c.be16 (c.ipOffset + 2)) c.ipOffset t.data)).map (fun i => c.byte (t.data + i)),
    { data := [], len := Cap.dataLen (c.be16 (c.ipOffset + 2)) c.ipOffset t.data, proto := c.byte (c.ipOffset + 9)
      src_ip := c.be32 (c.ipOffset + 12), dst_ip := c.be32 (c.ipOffset + 16), src_port := t.src_port, dst_port := t.dst_port }, ?_, ?_, ?_, fun old => ?_⟩
  · simp only [List.length_map, List.length_range]; omega
  · simp only [List.length_map, List.length_range]; omega
  · simp only [List.length_map, List.length_range]
  · simp only [List.length_map, List.length_range]

/-- Two packets the server cannot tell apart. -/
def Alike (p q : Pkt) : Prop :=
  ∀ conf E now o sv, incoming_spa conf E now p o sv = incoming_spa conf E now q o sv

theorem captured_alike (p : Pkt) (body : Str) (hb : body.length ≤ 1500) (hl : p.len = body.length) {old old' : Str} (h : Leftover old) (h' : Leftover old') :
    Alike { p with data := body ++ 0 :: old.drop (body.length + 1) } { p with data := body ++ 0 :: old'.drop (body.length + 1) } := by
  intro conf E now o sv
  obtain ⟨g1, e1, c1, l1⟩ := body_text body old h hb
  obtain ⟨g2, e2, c2, l2⟩ := body_text body old' h' hb
  have := cstr_length body
  exact same_text (cstr_nul body) e1 e2 c1 c2 l1 l2 (by dsimp only; omega) (by omega) rfl conf E now o sv

/-- **C101.** What earlier packets left behind in the array does not matter: a captured frame is passed over,
or the packet made of it is handled in the same way, whatever is left from before. -/
theorem C101_captured (c : Cap) {old old' : Str} (h : Leftover old) (h' : Leftover old') :
    ((process_packet c old).2 = none ∧ (process_packet c old').2 = none) ∨
    ∃ p p', (process_packet c old).2 = some p ∧ (process_packet c old').2 = some p' ∧
      ∀ conf E now o sv, incoming_spa conf E now p o sv = incoming_spa conf E now p' o sv := by
  rcases captured_shape c with hn | ⟨body, p, -, h2, h3, h4⟩
  · exact .inl ⟨hn old, hn old'⟩
  · exact .inr ⟨_, _, h4 old, h4 old', captured_alike p body h2 h3 h h'⟩

/-- **C101.** The same for datagrams. -/
theorem C101_datagram (port : Nat) (g : Gram) {old old' : Str} (h : Leftover old) (h' : Leftover old')
    (conf : Conf) (E : Env) (now : Int) (o : Nat → Bool) (sv : Server) :
    incoming_spa conf E now (udpPkt port old g) o sv = incoming_spa conf E now (udpPkt port old' g) o sv := by
  have hl := cstr_length (g.data.take MAX_SPA_PACKET_LEN)
  have hm : (g.data.take MAX_SPA_PACKET_LEN).length ≤ 1500 := by rw [List.length_take]; exact Nat.min_le_left _ _
  refine same_text (cstr_nul _) rfl rfl (leftover_closed h (by omega)) (leftover_closed h' (by omega)) ?_ ?_ hl (by omega) rfl conf E now o sv
  · rw [List.length_drop, h.1]; omega
  · rw [List.length_drop, h'.1]; omega

/-- The array as it is at the start. -/
abbrev blank : Str := List.replicate 1501 0

theorem blank_leftover : Leftover blank := ⟨List.length_replicate, by decide +kernel⟩

/-- The same iteration with nothing left from earlier packets. -/
def Pass.cleared (p : Pass) : Pass := { p with frames := p.frames.map fun f => { f with old := blank } }

def UdpTurn.cleared (t : UdpTurn) : UdpTurn :=
  { t with ready := match t.ready with
    | .gram g now o _ => .gram g now o blank
    | r => r }

theorem dispatch_cleared {σ : Type} (D : DConf) (E : Env) (T : Tool σ) : ∀ (fs : List CapFrame) (d : Daemon σ), (∀ f ∈ fs, Leftover f.old) →
    dispatch D E T (fs.map fun f => { f with old := blank }) d = dispatch D E T fs d
  | [], d, _ => rfl
  | f :: fs, d, h => by
    have ih := fun d => dispatch_cleared D E T fs d (fun f hf => h f (List.mem_cons_of_mem _ hf))
    rw [List.map_cons, dispatch, dispatch]
    dsimp only
    rcases C101_captured f.cap (h f List.mem_cons_self) blank_leftover with ⟨h1, h2⟩ | ⟨p, p', h1, h2, h3⟩
    · rw [h1, h2]
      exact ih d
    · rw [h1, h2]
      dsimp only
      have : receive D E T f.now p' f.open_ok d = receive D E T f.now p f.open_ok d := by unfold receive; rw [h3]
      rw [this]
      simp only [ih]

/-- **C101.** In a whole run, capturing: nothing that happens depends on what is left in the array. -/
theorem C101_capture_loop {σ : Type} (D : DConf) (E : Env) (T : Tool σ) : ∀ (ps : List Pass) (pending : Bool) (errs : Nat) (d : Daemon σ),
    (∀ p ∈ ps, ∀ f ∈ p.frames, Leftover f.old) →
    pcapLoop D E T ps pending errs d = pcapLoop D E T (ps.map Pass.cleared) pending errs d
  | [], _, _, _, _ => rfl
  | p :: ps, pending, errs, d, h => by
    have ih := fun pe er d => C101_capture_loop D E T ps pe er d (fun p hp => h p (List.mem_cons_of_mem _ hp))
    rw [List.map_cons, pcapLoop, pcapLoop]
    unfold Pass.cleared
    dsimp only
    rw [dispatch_cleared D E T p.frames d (h p List.mem_cons_self), List.length_map]
    simp only [ih]
    rfl

/-- **C101.** The same for the UDP server. -/
theorem C101_udp_loop {σ : Type} (D : DConf) (E : Env) (T : Tool σ) : ∀ (ts : List UdpTurn) (d : Daemon σ),
    (∀ t ∈ ts, ∀ g now o old, t.ready = .gram g now o old → Leftover old) →
    udpLoop D E T ts d = udpLoop D E T (ts.map UdpTurn.cleared) d
  | [], _, _ => rfl
  | t :: ts, d, h => by
    have ih := fun d => C101_udp_loop D E T ts d (fun t ht => h t (List.mem_cons_of_mem _ ht))
    have hr : ∀ d, udpReady D E T d (UdpTurn.cleared t).ready = udpReady D E T d t.ready := by
      intro d
      have h0 := h t List.mem_cons_self
      obtain ⟨st, now, r⟩ := t
      unfold UdpTurn.cleared
      cases r with
      | nothing => rfl
      | error => rfl
      | gram g now' o old =>
        cases g with
        | none => rfl
        | some g =>
          dsimp only [udpReady]
          have : receive D E T now' (udpPkt D.port blank g) o d = receive D E T now' (udpPkt D.port old g) o d := by
            unfold receive
            rw [C101_datagram D.port g blank_leftover (h0 _ _ _ _ rfl)]
          rw [this]
    rw [List.map_cons, udpLoop, udpLoop]
    simp only [hr, ← ih]
    rfl

/-- **C101** (part): a datagram is handled as the captured packet with the same payload, sender and port would be,
if that packet had the destination 0.0.0.0.  What is missing: other destinations (`C101_datagram_destination`) and datagrams of
more than 1500 bytes (`C101_long_datagram`). -/
theorem C101_datagram_as_captured_partial (c : Cap) {old old' : Str} (h : Leftover old) (h' : Leftover old') {p : Pkt} (hp : (process_packet c old).2 = some p)
    (hudp : p.proto = 17) (g : Gram) (hg : g.data = p.data.take p.len) (hip : g.src_ip = p.src_ip) (hport : g.src_port = p.src_port)
    (conf : Conf) (E : Env) (now : Int) (o : Nat → Bool) (sv : Server) :
    incoming_spa conf E now (udpPkt p.dst_port old' g) o sv = incoming_spa conf E now { p with dst_ip := 0, dst_port := p.dst_port % 65536 } o sv := by
  rcases captured_shape c with hn | ⟨body, p0, h1, h2, h3, h4⟩
  · rw [hn old] at hp; cases hp
  · rw [h4 old] at hp
    cases hp
    dsimp only at hg hudp hip hport ⊢
    rw [h3, List.take_left] at hg
    obtain ⟨g1, e1, c1, l1⟩ := body_text body old h h2
    have hb : g.data.take MAX_SPA_PACKET_LEN = body := by rw [hg]; exact List.take_of_length_le h2
    have hl := cstr_length body
    refine same_text (s := cstr body) (cstr_nul _) (by unfold udpPkt; rw [hb]) e1 (leftover_closed h' (by omega)) c1 ?_ l1 ?_ (by omega) ?_ conf E now o sv
    · rw [List.length_drop, h'.1]; omega
    · unfold udpPkt; rw [hb]; exact hl
    · unfold udpPkt
      rw [hb, hudp, hip, hport, h3]

/-- What C101 does not say of datagrams: one of more than 1500 bytes is cut and handled, where a captured
packet would be passed over. -/
theorem C101_long_datagram (port : Nat) (old : Str) (g : Gram) (h : 1500 ≤ g.data.length) (more : Str) :
    udpPkt port old { g with data := g.data ++ more } = udpPkt port old g := by
  unfold udpPkt
  have : (g.data ++ more).take MAX_SPA_PACKET_LEN = g.data.take MAX_SPA_PACKET_LEN := List.take_append_of_le_length h
  dsimp only
  rw [this]

/-- And the UDP server does not know to which address a datagram was sent: a stanza with a DESTINATION acts on
one only if 0.0.0.0 is in its list. -/
theorem C101_datagram_destination {conf : Conf} {E : Env} {now : Int} {port : Nat} {old : Str} {g : Gram} {o : Nat → Bool} {sv sv' : Server}
    {effs : List Effect} (hk : ∀ acc ∈ sv.stanzas, KeysOk acc) (h : incoming_spa conf E now (udpPkt port old g) o sv = .ok (sv', effs)) {e : Effect} (he : e ∈ effs) :
    ∃ acc, stanzaAt sv.stanzas (stanzaNo e) = some acc ∧ (acc.destination_list = [] ∨ InList acc.destination_list 0) := by
  obtain ⟨acc, h1, h2⟩ := C27_addresses hk h he
  exact ⟨acc, h1, h2.2⟩

/-- The array after a longer packet. -/
def used : Str := List.replicate 900 88 ++ List.replicate 601 0

example : Leftover used := ⟨by decide +kernel, by decide +kernel⟩

/-- The sample packet is accepted over that. -/
example : (match incoming_spa {} sampleEnv 1700000010 (udpPkt 62201 used ⟨sampleText, 0x0A000001, 40000⟩) (fun _ => true) (sampleServer [sampleStanza]) with
    | .ok r => r.2.length
    | _ => 0) = 1 := by
  decide +kernel

/-! ## C102 -/

/-- **C114** (part).  Whatever happens to the daemon — as UDP server or capturing, any frames, any datagrams, any
clocks, whether it still runs or has stopped, whichever calls of iptables work or do nothing, whatever they print —
each rule in a chain of the daemon was there at the start or has a packet that the stanza's keys decode and that meets
its demands.  With a stanza that has FORCE_NAT, or a request for NAT, which the configuration must allow, the rule is
one of those that send the packets of the address to the port asked for (with FORWARD_ALL, all its packets) on to the
target; and the target is that of the stanza, or the one that the packet names.  Otherwise the rule lets the address
reach the port.  The firewall of the administrator stays as it was.  What is missing: any check of the target
(`C114_open_ports_do_not_hold`). -/
theorem C114_every_nat_rule_has_a_packet_partial {σ : Type} {T : Tool σ} {print : Host} {tab : σ → Tables} (hT : AtMost T print tab)
    {D : DConf} {E : Env} {chs : List FwChain} (hc : ConfOk D.fw chs)
    {d d' : Daemon σ} {hist : List Act} {deeds : List Deed}
    (hS : StanzasFit D chs d.srv.stanzas) (hclock : ∀ a ∈ hist, 0 ≤ a.now ∧ a.now < 2 ^ 31)
    (hfw : d.fw.chain = chs) (hr : Ran D E T hist d d' deeds) :
    without (hooks chs) (tab d'.fw.world) = without (hooks chs) (tab d.fw.world) ∧
      ∀ h ∈ hooks chs, ∀ x ∈ rulesIn (tab d'.fw.world) h.table h.to,
        x ∈ rulesIn (tab d.fw.world) h.table h.to ∨ BackedNat D E d.srv.stanzas chs hist h x := by
  obtain ⟨as, ⟨rest, rfl⟩, n, ha⟩ := ran_acts hr
  obtain ⟨-, -, hx⟩ := acts_rules hT hc hS as (fun a h => hclock a (List.mem_append_left _ h)) (by rw [hfw]) (Marked.refl _) ha
  exact hx.mono fun h _ x hx => backed_mono hx fun y hy => List.mem_append_left _ hy

/-- **C102.**  Whatever happens to a daemon that translates no addresses — as UDP server or capturing, any frames, any
datagrams, any clocks, whether it still runs or has stopped, whichever calls of iptables work or do nothing, whatever
they print — each rule in a chain of the daemon was there at the start or has a packet: one that the stanza's keys
decode, that was sent from the stanza's networks within the age that is allowed, that meets its demands, and that asks
for the port; the rule is for the address in that packet's message (or its sender) and the time granted.  The firewall
of the administrator stays as it was. -/
theorem C102_every_rule_has_a_packet {σ : Type} {T : Tool σ} {print : Host} {tab : σ → Tables} (hT : AtMost T print tab)
    {D : DConf} {E : Env} {chs : List FwChain} (hc : ConfOk D.fw chs)
    (hfwd : D.conf.forwarding = false) (hloc : D.conf.local_nat = false) {d d' : Daemon σ} {hist : List Act} {deeds : List Deed}
    (hS : StanzasOk d.srv.stanzas) (hclock : ∀ a ∈ hist, 0 ≤ a.now ∧ a.now < 2 ^ 31)
    (hfw : d.fw.chain = chs) (hr : Ran D E T hist d d' deeds) :
    without (hooks chs) (tab d'.fw.world) = without (hooks chs) (tab d.fw.world) ∧
      ∀ h ∈ hooks chs, ∀ x ∈ rulesIn (tab d'.fw.world) h.table h.to,
        x ∈ rulesIn (tab d.fw.world) h.table h.to ∨ Backed D E d.srv.stanzas chs hist h x := by
  have hS' : StanzasFit D chs d.srv.stanzas := by
    refine ⟨hS.keys, fun acc ha hq => ?_, hS.time⟩
    rw [hfwd, hloc, hS.nat acc ha] at hq
    rcases hq with hq | hq | hq <;> cases hq
  obtain ⟨hrest, hx⟩ := C114_every_nat_rule_has_a_packet_partial hT hc hS' hclock hfw hr
  refine ⟨hrest, fun h hh x hm => ?_⟩
  rcases hx h hh x hm with hx | ⟨acc, ha, now, p, o, src, proto, port, u, text, proxy, c, ip, rest, hp, hE, h0, hwf, hwl, hx⟩
  · exact .inl hx
  · rcases hx with ⟨-, hx⟩ | ⟨hq, -⟩
    · exact .inr ⟨acc, ha, now, p, o, src, proto, port, u, text, proxy, c, ip, rest, hp, hE, h0, hx⟩
    · rcases hq with hq | hq | hq | hq | hq
      · rw [hS.nat acc ha] at hq; cases hq
      · have := hwf (.inl hq); rw [hfwd] at this; cases this
      · have := hwf (.inr hq); rw [hfwd] at this; cases this
      · have := hwl (.inl hq); rw [hloc] at this; cases this
      · have := hwl (.inr hq); rw [hloc] at this; cases this

/-- A daemon that listens for datagrams, with the firewall of an administrator. -/
def sampleConf : DConf := { conf := {}, fw := fwSample }

def sampleDaemon : Daemon (Tables × List Fate) := { srv := sampleServer [sampleStanza], fw := ⟨defaultChains, (adminTables, [])⟩ }

/-- The sample packet arrives, and then nothing. -/
def sampleTurns : List UdpTurn :=
  [⟨false, 1700000009, .gram (some ⟨sampleText, 0x0A000001, 40000⟩) 1700000010 (fun _ => true) used⟩, ⟨false, 1700000011, .nothing⟩]

/-- The rules in the input chain after a run. -/
def inputAfter (r : Res (Daemon (Tables × List Fate) × List Deed × Option Int)) : Option (List Rule) :=
  match r with
  | .ok (d, _, _) => some (rulesIn d.fw.world.1 b!"filter" b!"FWKNOP_INPUT")
  | _ => none

/-- It gets its rule, which no rule of the administrator is. -/
theorem sample_rule : inputAfter (udpLoop sampleConf sampleEnv (iptTool sampleHost) sampleTurns sampleDaemon) =
    some [inputRule 6 b!"5.6.7.8" b!"0.0.0.0/0" 22 1700000040 b!"ACCEPT"] := by
  decide +kernel

theorem sample_stanzas : StanzasOk sampleDaemon.srv.stanzas where
  keys := by intro acc h; rw [List.mem_singleton.1 h]; exact fun _ => by decide
  nat := by intro acc h; rw [List.mem_singleton.1 h]; rfl
  time := by intro acc h; rw [List.mem_singleton.1 h]; decide

/-- The hypotheses of `C102_every_rule_has_a_packet` are met, and the rule of the sample has a packet. -/
example : Backed sampleConf sampleEnv [sampleStanza] defaultChains (sampleTurns.flatMap (UdpTurn.acts 62201))
    ⟨b!"filter", b!"INPUT", b!"FWKNOP_INPUT"⟩ (inputRule 6 b!"5.6.7.8" b!"0.0.0.0/0" 22 1700000040 b!"ACCEPT") := by
  have hs := sample_rule
  cases hr : udpLoop sampleConf sampleEnv (iptTool sampleHost) sampleTurns sampleDaemon with
  | ub => rw [hr] at hs; cases hs
  | err => rw [hr] at hs; cases hs
  | ok r =>
    obtain ⟨d', l, v⟩ := r
    rw [hr] at hs
    have hs := Option.some.inj hs
    obtain ⟨-, hx⟩ := C102_every_rule_has_a_packet iptTool_atMost (hist := sampleTurns.flatMap (UdpTurn.acts 62201)) sample_conf rfl rfl sample_stanzas (by
        intro a ha
        simp only [sampleTurns, UdpTurn.acts, List.flatMap_cons, List.flatMap_nil, List.cons_append, List.nil_append, List.append_nil, List.mem_cons,
          List.not_mem_nil, or_false] at ha
        rcases ha with rfl | rfl | rfl <;> exact ⟨by decide, by decide⟩) rfl (.udp sampleTurns v rfl hr)
    have := hx ⟨b!"filter", b!"INPUT", b!"FWKNOP_INPUT"⟩ (by decide) _ (hs ▸ List.mem_singleton.2 rfl)
    rcases this with h | h
    · exact absurd h (by decide +kernel)
    · exact h

end Fwknop.Props
