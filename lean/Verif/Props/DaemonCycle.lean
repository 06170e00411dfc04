import Verif.Lemmas.DaemonDeeds
import Verif.Props.Daemon

/-!
# Command cycles over the life of the daemon
-/

namespace Fwknop.Props

open Spec Res

/-- **C104** (partial: the daemon does not end before; the closing command has room for its variables). Whatever arrives,
and however long the daemon runs: each opening of a cycle under a stanza that closes its cycles schedules one closing,
after the time that the client asked for, or the stanza's; and every closing that was scheduled has happened exactly
once, not before its time, or is still pending. Nothing else is closed. -/
theorem C104_every_cycle_is_closed_once_partial {σ : Type} {D : DConf} {E : Env} {T : Tool σ} (ht : D.conf.test = false) {d d' : Daemon σ}
    (hk : ∀ acc ∈ d.srv.stanzas, KeysOk acc) (hT : TimersOk d.srv.stanzas) (hc : d.srv.cycles = []) {hist : List Act} {deeds : List Deed}
    (hr : Ran D E T hist d d' deeds) :
    ∃ es, Scheduled d.srv.stanzas es deeds ∧ es.Perm (deeds.filterMap Deed.entry ++ d'.srv.cycles) ∧
      ∀ now c, .closed now c ∈ deeds → c.expire ≤ now ∧ .upkeep now ∈ hist := by
  obtain ⟨as, ⟨rest, rfl⟩, n, ha⟩ := ran_acts hr
  obtain ⟨es, h1, h2, h3⟩ := acts_cycles ht hT as (MarkedAt.refl _) hk ha
  rw [hc, List.nil_append] at h2
  exact ⟨es, h1, h2, fun now c h => ⟨(h3 now c h).1, List.mem_append_left _ (h3 now c h).2⟩⟩

theorem upkeep_on_time {σ : Type} {D : DConf} {T : Tool σ} (ht : D.conf.test = false) {now : Int} {d d' : Daemon σ} {l : List Deed}
    (h : upkeep D T now d = .ok (d', l)) : ∀ c ∈ d'.srv.cycles, now < c.expire := by
  intro c hc
  rw [((upkeep_srv h).2.2 ht).1] at hc
  have := (List.mem_filter.1 hc).2
  simp only [Bool.not_eq_true', decide_eq_false_iff_not] at this
  omega

/-- **C104.** Closings are not late: after an iteration of the UDP server nothing is pending whose time has come. -/
theorem C104_on_time_udp {σ : Type} {D : DConf} {E : Env} {T : Tool σ} (ht : D.conf.test = false) {now : Int} : ∀ (ts : List UdpTurn) {d d' : Daemon σ} {l : List Deed},
    udpLoop D E T (ts ++ [⟨false, now, .nothing⟩]) d = .ok (d', l, none) → ∀ c ∈ d'.srv.cycles, now < c.expire
  | [], d, d', l, h => by
    rw [List.nil_append, udpLoop, if_neg (by simp)] at h
    obtain ⟨⟨d1, l1⟩, h1, h⟩ := bind_eq_ok h
    cases h
    exact upkeep_on_time ht h1
  | t :: ts, d, d', l, h => by
    rw [List.cons_append, udpLoop] at h
    split at h
    · cases h
    · obtain ⟨⟨d1, l1⟩, _, h⟩ := bind_eq_ok h
      obtain ⟨⟨d2, l2, v⟩, _, h⟩ := bind_eq_ok h
      cases v with
      | some v => cases h
      | none =>
        obtain ⟨⟨d3, l3, v⟩, h3, h⟩ := bind_eq_ok h
        cases h
        exact C104_on_time_udp ht ts h3

/-- **C104.** The same for the capture loop. -/
theorem C104_on_time_capture {σ : Type} {D : DConf} {E : Env} {T : Tool σ} (ht : D.conf.test = false) {p : Pass} : ∀ (ps : List Pass) {pending : Bool} {errs : Nat}
    {d d' : Daemon σ} {l : List Deed},
    pcapLoop D E T (ps ++ [p]) pending errs d = .ok (d', l, none) → ∀ c ∈ d'.srv.cycles, p.now < c.expire
  | [], pending, errs, d, d', l, h => by
    rw [List.nil_append, pcapLoop] at h
    obtain ⟨⟨d1, l1⟩, _, h⟩ := bind_eq_ok h
    dsimp only at h
    split at h
    · cases h
    · obtain ⟨⟨d2, l2⟩, h2, h⟩ := bind_eq_ok h
      cases h
      exact upkeep_on_time ht h2
  | q :: ps, pending, errs, d, d', l, h => by
    rw [List.cons_append, pcapLoop] at h
    obtain ⟨⟨d1, l1⟩, _, h⟩ := bind_eq_ok h
    dsimp only at h
    split at h
    · cases h
    · obtain ⟨⟨d2, l2⟩, _, h⟩ := bind_eq_ok h
      obtain ⟨⟨d3, l3, v⟩, h3, h⟩ := bind_eq_ok h
      cases h
      exact C104_on_time_capture ht ps h3

/-- A stanza with a command cycle. -/
def loopStanza (close : Str) : Stanza :=
  { sampleStanza with cmd_cycle_open := some b!"open $IP", cmd_cycle_close := some close, cmd_cycle_do_close := true, cmd_cycle_timer := 30 }

def cycleDaemon (close : Str) : Daemon (Tables × List Fate) := { srv := sampleServer [loopStanza close], fw := ⟨defaultChains, (adminTables, [])⟩ }

/-- The deeds of a run of the UDP server. -/
def deedsOf (close : Str) (ts : List UdpTurn) : Option (List Deed) :=
  match udpLoop sampleConf sampleEnv (iptTool sampleHost) ts (cycleDaemon close) with
  | .ok (_, l, _) => some l
  | _ => none

/-- The sample packet opens the cycle; 30 seconds later it is closed, and not again. -/
def cycleTurns : List UdpTurn :=
  sampleTurns ++ [⟨false, 1700000039, .nothing⟩, ⟨false, 1700000040, .nothing⟩, ⟨false, 1700000041, .nothing⟩]

theorem cycle_sample : deedsOf b!"close $IP" cycleTurns = some [.effect 1700000010 (.cycle 1 b!"open 5.6.7.8"),
    .closed 1700000040 ⟨b!"5.6.7.8", b!"close 5.6.7.8", 1700000040, 1⟩] := by
  decide +kernel

example : (∀ acc ∈ (cycleDaemon b!"close $IP").srv.stanzas, KeysOk acc) ∧ TimersOk (cycleDaemon b!"close $IP").srv.stanzas ∧ Roomy b!"close $IP" :=
  ⟨by intro acc h; rw [List.mem_singleton.1 h]; exact fun _ => by decide, by intro acc h; rw [List.mem_singleton.1 h]; decide, by unfold Roomy; decide⟩

/-- **C104 is false** of a daemon that ends: closings that are pending then are forgotten (server/utils.c:240), so that
what was opened stays open. A SIGHUP ends the loop as well. -/
theorem C104_false_if_the_daemon_ends : deedsOf b!"close $IP" (sampleTurns ++ [⟨true, 1700000012, .nothing⟩, ⟨false, 1700000040, .nothing⟩]) =
    some [.effect 1700000010 (.cycle 1 b!"open 5.6.7.8")] := by
  decide +kernel

/-- **C104 is false** of a closing command of more than 254 characters: the opening command has run before the
closing one is built. -/
theorem C104_false_for_a_long_command : deedsOf (List.replicate 256 97) cycleTurns = some [.effect 1700000010 (.cycle 1 b!"open 5.6.7.8")] := by
  decide +kernel

end Fwknop.Props
