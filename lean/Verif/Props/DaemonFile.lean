import Verif.Spec.DaemonFile
import Verif.Lemmas.DaemonDeeds
import Verif.Props.Daemon
import Verif.Props.AccessFile

/-!
# From access.conf to what the daemon does
-/

namespace Fwknop.Props

open Spec Res

/-- A live stanza is as it was configured. -/
theorem MarkedAt.live {S l : List Stanza} (h : MarkedAt S l) {k : Nat} {acc : Stanza} (hk : l[k]? = some acc) {now : Int} (hl : ¬ Expired acc now) : S[k]? = some acc := by
  obtain ⟨acc0, h0, rfl | ⟨rfl, ht⟩⟩ := h k acc hk
  · exact h0
  · exact absurd ⟨ht, .inl rfl⟩ hl

/-- What a stanza demands is what the text of the file demands. -/
theorem permits_of {env : AccEnv} {src : Str} {opts : List Entry} {acc : Stanza} (hC : Spec.Configured env src opts acc)
    {E : Env} (hH : E.K.H.Lawful) {now : Int} {p : Pkt} {text : Str} {c : Ctx} {ip : Str} (hip : p.src_ip < 2 ^ 32 ∧ p.dst_ip < 2 ^ 32)
    (hadr : AddressesOk acc p.src_ip p.dst_ip) (hlive : ¬ Expired acc now) (hauth : authenticate E acc text = .ok c)
    (huser : ∀ u, acc.require_username = some u → c.username = some u) (hsrc : acc.require_source_address = true → ip ≠ anyAddr) :
    FilePermits env E src opts now p text c ip where
  source A hA := (hC.source A hA _ hip.1).1 ((addr_list_iff _ _).2 hadr.1)
  destination v A hv hA := by
    have hiff := hC.destinations v A hv hA
    rcases hadr.2 with hnil | hin
    · exfalso
      obtain ⟨items, hne, hitems, _, rfl⟩ := hA
      obtain ⟨it, hit⟩ := List.exists_mem_of_ne_nil _ hne
      obtain ⟨x, hx, hxi⟩ := network_inhabited (hitems it hit).2
      have := (hiff x hx).2 ⟨it, hit, hxi⟩
      rw [hnil] at this
      exact absurd this (by simp [compare_addr_list])
    · exact (hiff _ hip.2).1 ((addr_list_iff _ _).2 hin)
  hmac k hk hne := by
    have hkey0 : acc.hmac_key = some k := by rw [hC.hmac_key]; exact hk
    obtain ⟨t, gpg, body, g1, g2, g3, g4, _⟩ := auth_signed hH hkey0 hne hauth
    refine ⟨t, gpg, ⟨body, _, g4, rfl⟩, fun hd => ?_, fun n d hm v hv hv2 => ?_⟩
    · have := hC.hmac_default hd k hkey0 hne
      rw [g1] at this
      exact_mod_cast this
    · have := hC.hmac_type n d hm v hv hv2
      rw [g1] at this
      exact this
  user u hu := huser u (by rw [hC.username]; exact hu)
  address hy := hsrc (by rw [hC.require_source]; exact hy)
  live v n hv hd hpos hlt := by
    have := hC.expire_epoch v n hv hd hlt
    apply Classical.byContradiction
    intro hno
    exact hlive ⟨by rw [this]; omega, .inr (by rw [this]; omega)⟩
  live_date m d y mon day year hv hm hd hy l1 l2 l3 hmon hyear hpos := by
    have := hC.expire_date m d y mon day year hv hm hd hy l1 l2 l3 hmon hyear
    apply Classical.byContradiction
    intro hno
    exact hlive ⟨by rw [this]; omega, .inr (by rw [this]; omega)⟩

theorem protoPorts_ne {v : Str} {O : List (Nat × Nat)} (h : ProtoPorts v O) : O ≠ [] := by
  obtain ⟨items, hne, _, _, rfl⟩ := h
  simpa using hne

theorem opens_of {env : AccEnv} {src : Str} {opts : List Entry} {acc : Stanza} (hC : Spec.Configured env src opts acc) {proto port : Nat}
    (ho : acc.oport_list ≠ [] → acc.oport_list.Nodup → ⟨proto, port⟩ ∈ acc.oport_list) (hr : ⟨proto, port⟩ ∉ acc.rport_list) :
    FileOpens opts proto port := by
  constructor
  · intro v O hv hO hnd
    have e := hC.open_ports v O hv hO
    have hne := protoPorts_ne hO
    have hm := ho (by rw [e]; simpa using hne) (by
      rw [e]
      exact List.Pairwise.map _ (fun a b hab h => hab (by cases a; cases b; cases h; rfl)) hnd)
    rw [e] at hm
    obtain ⟨q, hq, heq⟩ := List.mem_map.1 hm
    cases q
    cases heq
    exact hq
  · intro v R hv hR hm
    apply hr
    rw [hC.restrict_ports v R hv hR]
    exact List.mem_map.2 ⟨_, hm, rfl⟩

/-- **C103.** From the text of access.conf to the rules in the firewall: when the daemon has loaded a file
without directives and then runs, as UDP server or capturing, without translation of addresses (for which see C114),
whatever arrives and whichever calls of iptables fail, then each rule that it has put into
its chains lets one address reach one port until one time, and there is a packet that arrived, and a stanza of the
file, such that the packet meets all demands of the stanza, asks for that port, the stanza opens it, the address is
the one the packet asks for (or for the wildcard the one it came from), and the time is the time at which the packet
arrived plus what the stanza grants. Nothing else in the firewall is changed. -/
theorem C103_rules_follow_the_file {env : AccEnv} {fds : Nat} {name content : Str} {es : List Entry} {l : List AccEnt}
    (hf : env.file name = some content) (hes : FileHolds content es) (hn : ∀ e ∈ es, Plain e.1)
    (hnat : ∀ s ∈ stanzasOf es, FileNoNat s.2) (hload : load_access env fds (.file name) = .ok l)
    {σ : Type} {T : Tool σ} {print : Host} {tab : σ → Tables} (hT : AtMost T print tab) {D : DConf} {E : Env} (hH : E.K.H.Lawful) {chs : List FwChain} (hc : ConfOk D.fw chs)
    (hfwd : D.conf.forwarding = false) (hloc : D.conf.local_nat = false) {d d' : Daemon σ} (hd : d.srv.stanzas = l.map (·.st))
    {hist : List Act} {deeds : List Deed} (hclock : ∀ a ∈ hist, 0 ≤ a.now ∧ a.now < 2 ^ 31)
    (hip : ∀ now p o, .packet now p o ∈ hist → p.src_ip < 2 ^ 32 ∧ p.dst_ip < 2 ^ 32)
    (hfw : d.fw.chain = chs) (hr : Ran D E T hist d d' deeds) :
    without (hooks chs) (tab d'.fw.world) = without (hooks chs) (tab d.fw.world) ∧
      ∀ h ∈ hooks chs, ∀ x ∈ rulesIn (tab d'.fw.world) h.table h.to, x ∈ rulesIn (tab d.fw.world) h.table h.to ∨
        ∃ src opts now p o proto port secs text proxy c ip rest, (src, opts) ∈ stanzasOf es ∧ Act.packet now p o ∈ hist ∧
          Received D.conf p text proxy ∧ Message c ip rest ∧ FilePermits env E src opts now p text c ip ∧
          (∀ ps, RequestPorts rest ps → (proto, port) ∈ ps) ∧ FileOpens opts proto port ∧
          FileTime opts c.client_timeout secs ∧ lastOf [b!"CMD_CYCLE_OPEN"] opts = none ∧
          Lets chs h (grantee (inet_ntop p.src_ip) proxy ip) (if D.fw.use_destination then inet_ntop p.dst_ip else b!"0.0.0.0/0")
            proto port (now + secs).toNat x := by
  obtain ⟨hlen, hconf⟩ := C79_configured_partial hf hes hn hload
  have hat : ∀ acc ∈ d.srv.stanzas, ∃ src opts, (src, opts) ∈ stanzasOf es ∧ Spec.Configured env src opts acc ∧ InRange acc := by
    intro acc ha
    rw [hd] at ha
    obtain ⟨e, he, rfl⟩ := List.mem_map.1 ha
    obtain ⟨k, hk⟩ := List.mem_iff_getElem?.1 he
    have hlt : k < (stanzasOf es).length := by
      have := (List.getElem?_eq_some_iff.1 hk).1
      omega
    exact ⟨_, _, List.getElem_mem hlt, hconf k _ _ e (List.getElem?_eq_getElem hlt) hk, (C81_in_range hload).2 e he⟩
  have hS : StanzasOk d.srv.stanzas := by
    refine ⟨by rw [hd]; exact C85_keys hload, fun acc ha => ?_, fun acc ha => ?_⟩
    · obtain ⟨src, opts, h1, h2, -⟩ := hat acc ha
      obtain ⟨n1, n2, n3⟩ := hnat _ h1
      exact h2.no_nat n1 n2 n3
    · obtain ⟨-, -, -, -, h3⟩ := hat acc ha
      have := h3.timeout
      have := h3.max_timeout
      omega
  obtain ⟨hrest, hx⟩ := C102_every_rule_has_a_packet hT hc hfwd hloc hS hclock hfw hr
  refine ⟨hrest, fun h hh x hm => ?_⟩
  rcases hx h hh x hm with hx | ⟨acc, ha, now, p, o, src, proto, port, u, text, proxy, c, ip, rest, hp, hE, h0, hL⟩
  · exact .inl hx
  · obtain ⟨nets, opts, h1, hC, hI⟩ := hat acc ha
    refine .inr ⟨nets, opts, now, p, o, proto, port, grantedTime acc c, text, proxy, c, ip, rest, h1, hp, hE.received, hE.message,
      permits_of hC hH (hip _ _ _ hp) hE.addresses hE.live hE.decoded hE.user hE.source, hE.asked, opens_of hC hE.opened hE.restricted,
      ⟨_, _, hC.timeout, hC.max_timeout, ?_⟩, ?_, ?_⟩
    · unfold grantedTime
      rw [if_pos (by have := hI.timeout; omega : 0 < acc.fw_access_timeout)]
      by_cases hz : 0 < c.client_timeout
      · rw [if_pos hz, if_pos (by omega)]
      · rw [if_neg hz, if_neg (by omega)]
    · rw [← hC.cycle_open]; exact hE.access.1
    · rw [← hE.until_, ← hE.grantee]; exact hL

/-- **C114** (part).  The same with translation of addresses: each rule has a packet that
arrived and a stanza of the file, whose demands it meets; the first port that it asks for is one that the stanza opens;
and the rule lets the address reach that port or, where the stanza has FORCE_NAT or the packet asks for NAT and the
configuration allows it, is one of those that send its packets to that port on to the target that the stanza sets or
else the packet.  What is missing: directives,
and any check of the target (`C114_open_ports_do_not_hold`). -/
theorem C114_nat_rules_follow_the_file_partial {env : AccEnv} {fds : Nat} {name content : Str} {es : List Entry} {l : List AccEnt}
    (hf : env.file name = some content) (hes : FileHolds content es) (hn : ∀ e ∈ es, Plain e.1)
    (hload : load_access env fds (.file name) = .ok l)
    {σ : Type} {T : Tool σ} {print : Host} {tab : σ → Tables} (hT : AtMost T print tab) {D : DConf} {E : Env} (hH : E.K.H.Lawful) {chs : List FwChain} (hc : ConfOk D.fw chs)
    (hsn : D.fw.snat = true ∨ (∃ s ∈ stanzasOf es, snat s.2 = true) → (chs.getD 4 {}).target ≠ [] ∧ (chs.getD 5 {}).target ≠ [])
    (hres : ∀ n a, D.fw.resolve n = some a → IsIPv4 a) (htr : ∀ a, D.fw.snat_translate_ip = some a → a.length ≤ 15)
    {d d' : Daemon σ} (hd : d.srv.stanzas = l.map (·.st))
    {hist : List Act} {deeds : List Deed} (hclock : ∀ a ∈ hist, 0 ≤ a.now ∧ a.now < 2 ^ 31)
    (hip : ∀ now p o, .packet now p o ∈ hist → p.src_ip < 2 ^ 32 ∧ p.dst_ip < 2 ^ 32)
    (hfw : d.fw.chain = chs) (hr : Ran D E T hist d d' deeds) :
    without (hooks chs) (tab d'.fw.world) = without (hooks chs) (tab d.fw.world) ∧
      ∀ h ∈ hooks chs, ∀ x ∈ rulesIn (tab d'.fw.world) h.table h.to, x ∈ rulesIn (tab d.fw.world) h.table h.to ∨
        ∃ src opts acc now p o proto port secs text proxy c ip rest, (src, opts) ∈ stanzasOf es ∧ Spec.Configured env src opts acc ∧
          Act.packet now p o ∈ hist ∧
          Received D.conf p text proxy ∧ Message c ip rest ∧ FilePermits env E src opts now p text c ip ∧
          (∀ ps, RequestPorts rest ps → (proto, port) ∈ ps) ∧ FileOpens opts proto port ∧
          FileTime opts c.client_timeout secs ∧ lastOf [b!"CMD_CYCLE_OPEN"] opts = none ∧
          (WantsForward c → D.conf.forwarding = true) ∧ (WantsLocalNat c → D.conf.local_nat = true) ∧
          ((¬ ForNat acc.force_nat c.message_type ∧
              Lets chs h (grantee (inet_ntop p.src_ip) proxy ip) (if D.fw.use_destination then inet_ntop p.dst_ip else b!"0.0.0.0/0")
                proto port (now + secs).toNat x) ∨
           (ForNat acc.force_nat c.message_type ∧ (∀ ps, RequestPorts rest ps → ps.head? = some (proto, port)) ∧
              ∃ toIp toPort, SentOn D.fw acc c toIp toPort ∧
                LetsNat D.fw chs acc c h (grantee (inet_ntop p.src_ip) proxy ip)
                  (if D.fw.use_destination then inet_ntop p.dst_ip else b!"0.0.0.0/0") proto port (now + secs).toNat toIp toPort x)) := by
  obtain ⟨hlen, hconf⟩ := C79_configured_partial hf hes hn hload
  have hat : ∀ acc ∈ d.srv.stanzas, ∃ src opts, (src, opts) ∈ stanzasOf es ∧ Spec.Configured env src opts acc ∧ InRange acc := by
    intro acc ha
    rw [hd] at ha
    obtain ⟨e, he, rfl⟩ := List.mem_map.1 ha
    obtain ⟨k, hk⟩ := List.mem_iff_getElem?.1 he
    have hlt : k < (stanzasOf es).length := by
      have := (List.getElem?_eq_some_iff.1 hk).1
      omega
    exact ⟨_, _, List.getElem_mem hlt, hconf k _ _ e (List.getElem?_eq_getElem hlt) hk, (C81_in_range hload).2 e he⟩
  have hS : StanzasFit D chs d.srv.stanzas := by
    refine ⟨by rw [hd]; exact C85_keys hload, fun acc ha _ => ?_, fun acc ha => ?_⟩
    · obtain ⟨src, opts, h1, h2, h3⟩ := hat acc ha
      refine ⟨fun _ a hq => ?_, h3.nat.1, fun a hq => (addrWord_ipv4 (h3.nat.2.2 a hq)).2, hres, htr, fun hq _ port k opt val hk => ?_, fun hq _ k opts hk => ?_⟩
      · rw [List.take_of_length_le (addrWord_ipv4 (h3.nat.2.1 a hq)).2]
        exact ipv4_dotted (h3.nat.2.1 a hq)
      · have := hsn (by
          rcases hq with hq | hq
          · exact .inr ⟨_, h1, by rw [← h2.snat]; exact hq⟩
          · exact .inl hq)
        cases hk
        all_goals first | exact this.1 | exact this.2
      · have := hsn (by
          rcases hq with hq | hq
          · exact .inr ⟨_, h1, by rw [← h2.snat]; exact hq⟩
          · exact .inl hq)
        cases hk
        all_goals first | exact this.1 | exact this.2
    · obtain ⟨-, -, -, -, h3⟩ := hat acc ha
      have := h3.timeout
      have := h3.max_timeout
      omega
  obtain ⟨hrest, hx⟩ := C114_every_nat_rule_has_a_packet_partial hT hc hS hclock hfw hr
  refine ⟨hrest, fun h hh x hm => ?_⟩
  rcases hx h hh x hm with hx | ⟨acc, ha, now, p, o, src, proto, port, u, text, proxy, c, ip, rest, hp, hE, h0, hwf, hwl, hL⟩
  · exact .inl hx
  · obtain ⟨nets, opts, h1, hC, hI⟩ := hat acc ha
    refine .inr ⟨nets, opts, acc, now, p, o, proto, port, grantedTime acc c, text, proxy, c, ip, rest, h1, hC, hp, hE.received, hE.message,
      permits_of hC hH (hip _ _ _ hp) hE.addresses hE.live hE.decoded hE.user hE.source, hE.asked, opens_of hC hE.opened hE.restricted,
      ⟨_, _, hC.timeout, hC.max_timeout, ?_⟩, ?_, hwf, hwl, ?_⟩
    · unfold grantedTime
      rw [if_pos (by have := hI.timeout; omega : 0 < acc.fw_access_timeout)]
      by_cases hz : 0 < c.client_timeout
      · rw [if_pos hz, if_pos (by omega)]
      · rw [if_neg hz, if_neg (by omega)]
    · rw [← hC.cycle_open]; exact hE.access.1
    · rw [← hE.until_, ← hE.grantee]; exact hL

/-- **C103.** And to everything else that the daemon does: each effect is that of a packet that arrived and a stanza of
the file whose demands it meets; commands are run only with ENABLE_CMD_EXEC. -/
theorem C103_effects_follow_the_file {env : AccEnv} {fds : Nat} {name content : Str} {es : List Entry} {l : List AccEnt}
    (hf : env.file name = some content) (hes : FileHolds content es) (hn : ∀ e ∈ es, Plain e.1)
    (hload : load_access env fds (.file name) = .ok l) {σ : Type} {T : Tool σ} {D : DConf} {E : Env} (hH : E.K.H.Lawful)
    {d d' : Daemon σ} (hd : d.srv.stanzas = l.map (·.st)) {hist : List Act} {deeds : List Deed}
    (hip : ∀ now p o, .packet now p o ∈ hist → p.src_ip < 2 ^ 32 ∧ p.dst_ip < 2 ^ 32)
    (hr : Ran D E T hist d d' deeds) {now : Int} {eff : Effect} (he : .effect now eff ∈ deeds) :
    ∃ src opts p o text proxy c ip rest, (stanzasOf es)[stanzaNo eff - 1]? = some (src, opts) ∧ Act.packet now p o ∈ hist ∧
      Received D.conf p text proxy ∧ Message c ip rest ∧ FilePermits env E src opts now p text c ip ∧
      (∀ n cmd ids, eff = .command n cmd ids → yes (lastOf [b!"ENABLE_CMD_EXEC"] opts) = true) ∧
      (∀ n cmd, eff = .cycle n cmd → lastOf [b!"CMD_CYCLE_OPEN"] opts ≠ none) := by
  obtain ⟨hlen, hconf⟩ := C79_configured_partial hf hes hn hload
  obtain ⟨as, ⟨rest, rfl⟩, n, ha⟩ := ran_acts hr
  obtain ⟨p, o, sv, sv', effs, hm, hi, hmem, hma, -⟩ := acts_effect as (MarkedAt.refl _) ha now eff he
  have hk := hma.keys (by rw [hd]; exact C85_keys hload)
  obtain ⟨acc, text, proxy, c, ip, rst, hcz, hadr, hlive, _, _, _, hsrcreq, huser, _, _, hperm, hcase⟩ := effect_meets hk hi hmem
  have h0 := MarkedAt.live hma hcz.stanza hlive
  rw [hd, List.getElem?_map] at h0
  obtain ⟨e0, he0, rfl⟩ := Option.map_eq_some_iff.1 h0
  have hlt : stanzaNo eff - 1 < (stanzasOf es).length := by
    have := (List.getElem?_eq_some_iff.1 he0).1
    omega
  have hC := hconf _ _ _ _ (List.getElem?_eq_getElem hlt) he0
  have hm' := List.mem_append_left rest hm
  refine ⟨_, _, p, o, text, proxy, c, ip, rst, List.getElem?_eq_getElem hlt, hm', hcz.received, hcz.message,
    permits_of hC hH (hip _ _ _ hm') hadr hlive hcz.decoded huser hsrcreq, ?_, ?_⟩
  · intro n cmd ids hcmd
    rw [← hC.cmd_exec]
    rcases hcase with ⟨_, cmd, h⟩ | ⟨h1, h2, cmd, h, _⟩ | ⟨_, _, h⟩
    · rw [hcmd] at h; cases h
    · exact (hperm.2.1 h1 h2).1
    · rw [hcmd] at h; cases h
  · intro n cmd hcmd
    rw [← hC.cycle_open]
    rcases hcase with ⟨h1, _⟩ | ⟨_, _, cmd, h, _⟩ | ⟨_, _, h⟩
    · exact h1
    · rw [hcmd] at h; cases h
    · rw [hcmd] at h; cases h

/-- A file with one stanza. -/
def doorFile : Str := b!"SOURCE 10.0.0.0/8\nOPEN_PORTS tcp/22\nKEY key\n"

def doorEntries : List Entry := [(b!"SOURCE", b!"10.0.0.0/8"), (b!"OPEN_PORTS", b!"tcp/22"), (b!"KEY", b!"key")]

theorem doorFile_holds : FileHolds doorFile doorEntries :=
  ⟨[(b!"SOURCE 10.0.0.0/8", some (b!"SOURCE", b!"10.0.0.0/8")), (b!"OPEN_PORTS tcp/22", some (b!"OPEN_PORTS", b!"tcp/22")), (b!"KEY key", some (b!"KEY", b!"key"))], by decide, by
    intro l hl
    simp only [List.mem_cons, List.not_mem_nil, or_false] at hl
    rcases hl with rfl | rfl | rfl <;>
    exact ⟨by decide, by decide, .entry _ _ _ ⟨[], [], b!" ", [], b!"\n", by decide, by simp, by decide, by decide, by decide,
        by decide, by decide, by simp [SpTab], by decide, by decide, by decide, by decide, by simp, by decide, .inr ⟨10, _, rfl, by decide⟩⟩⟩, rfl⟩

/-- The daemon that has loaded the file, and the sample packet: the rule of `sample_rule`. -/
def fileDaemon : Daemon (Tables × List Fate) :=
  match load_access (oneFile doorFile) 20 (.file b!"access.conf") with
  | .ok l => { srv := sampleServer (l.map AccEnt.st), fw := ⟨defaultChains, (adminTables, [])⟩ }
  | _ => sampleDaemon

theorem file_loads : ∃ l, load_access (oneFile doorFile) 20 (.file b!"access.conf") = .ok l ∧ fileDaemon.srv.stanzas = l.map (·.st) ∧
    fileDaemon.fw = ⟨defaultChains, (adminTables, [])⟩ := by
  have h : (match load_access (oneFile doorFile) 20 (.file b!"access.conf") with | .ok _ => true | _ => false) = true := by decide +kernel
  unfold fileDaemon
  cases hl : load_access (oneFile doorFile) 20 (.file b!"access.conf") with
  | ub => rw [hl] at h; cases h
  | err => rw [hl] at h; cases h
  | ok l => exact ⟨l, rfl, rfl, rfl⟩

theorem file_rule : inputAfter (udpLoop sampleConf sampleEnv (iptTool sampleHost) sampleTurns fileDaemon) =
    some [inputRule 6 b!"5.6.7.8" b!"0.0.0.0/0" 22 1700000040 b!"ACCEPT"] := by
  decide +kernel

theorem file_no_nat : ∀ s ∈ stanzasOf doorEntries, FileNoNat s.2 := by
  intro s hs
  have : stanzasOf doorEntries = [(b!"10.0.0.0/8", [(b!"OPEN_PORTS", b!"tcp/22"), (b!"KEY", b!"key")])] := by decide
  rw [this, List.mem_singleton] at hs
  subst hs
  exact ⟨by decide, by decide, by decide⟩

theorem sample_hist : ∀ a ∈ sampleTurns.flatMap (UdpTurn.acts 62201), (0 ≤ a.now ∧ a.now < 2 ^ 31) ∧
    ∀ now p o, a = .packet now p o → p.src_ip < 2 ^ 32 ∧ p.dst_ip < 2 ^ 32 := by
  intro a ha
  simp only [sampleTurns, UdpTurn.acts, List.flatMap_cons, List.flatMap_nil, List.cons_append, List.nil_append, List.append_nil, List.mem_cons,
    List.not_mem_nil, or_false] at ha
  rcases ha with rfl | rfl | rfl
  · exact ⟨⟨by decide, by decide⟩, fun _ _ _ h => by cases h⟩
  · exact ⟨⟨by decide, by decide⟩, fun _ _ _ h => by cases h; exact ⟨by decide, by decide⟩⟩
  · exact ⟨⟨by decide, by decide⟩, fun _ _ _ h => by cases h⟩

/-- The hypotheses of `C103_rules_follow_the_file` are met: it gives the packet and the stanza of the file that
the rule of the sample comes from. -/
example : ∃ src opts now p o, (src, opts) ∈ stanzasOf doorEntries ∧ Act.packet now p o ∈ sampleTurns.flatMap (UdpTurn.acts 62201) ∧
    (∀ A, Networks src A → A p.src_ip) ∧ FileOpens opts 6 22 := by
  have hs := file_rule
  obtain ⟨l, hload, hd, hfw⟩ := file_loads
  cases hr : udpLoop sampleConf sampleEnv (iptTool sampleHost) sampleTurns fileDaemon with
  | ub => rw [hr] at hs; cases hs
  | err => rw [hr] at hs; cases hs
  | ok r =>
    obtain ⟨d', dl, v⟩ := r
    rw [hr] at hs
    have hs := Option.some.inj hs
    obtain ⟨-, hx⟩ := C103_rules_follow_the_file (T := iptTool sampleHost) (hist := sampleTurns.flatMap (UdpTurn.acts 62201)) (content := doorFile) (env := oneFile doorFile)
      rfl doorFile_holds (by unfold Plain; decide) file_no_nat hload iptTool_atMost toyHash_lawful sample_conf rfl rfl hd (fun a ha => (sample_hist a ha).1)
      (fun now p o ha => (sample_hist _ ha).2 now p o rfl) (by rw [hfw]) (.udp sampleTurns v rfl hr)
    have := hx ⟨b!"filter", b!"INPUT", b!"FWKNOP_INPUT"⟩ (by decide) _ (hs ▸ List.mem_singleton.2 rfl)
    rw [hfw] at this
    rcases this with h | ⟨src, opts, now, p, o, proto, port, secs, text, proxy, c, ip, rest, h1, h2, -, -, h3, -, h4, -, -, h5⟩
    · exact absurd h (by decide +kernel)
    · refine ⟨src, opts, now, p, o, h1, h2, h3.source, ?_⟩
      rcases h5 with ⟨-, -, h5⟩ | ⟨-, h5, -⟩
      · have e1 : decimal 6 = decimal proto := congrArg (fun r : Rule => r.getD 1 []) h5
        have e2 : decimal 22 = decimal port := congrArg (fun r : Rule => r.getD 7 []) h5
        rw [decimal_inj e1, decimal_inj e2]
        exact h4
      · exact absurd h5 (by decide)

end Fwknop.Props
