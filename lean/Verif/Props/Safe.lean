import Verif.Lemmas.Safe
import Verif.Props.Http

/-!
# C45, C65: handling a packet stays inside memory
-/

namespace Fwknop.Props

open Fwknop Spec Res

/-- **C45** (partial: a condition on the configured text alone, that it leaves room for the values,
and addresses of at most 15 characters).  Building the command stays inside the buffer, whatever
the request. -/
theorem C45_room_partial (sp : SpaData) (timer : Int) (t : Str) (h1 : sp.use_src_ip.length ≤ 15)
    (h2 : sp.pkt_source_ip.length ≤ 15) (h3 : sp.pkt_destination_ip.length ≤ 15) (ht : RoomFor t) :
    build_cmd sp t timer ≠ .ub :=
  build_safe t h1 h2 h3 ht

/-- Is handling a packet with this text undefined? -/
def isUndefined (conf : Conf) (l : List Stanza) (t : Str) : Bool :=
  match incoming_spa conf sampleEnv 1700000010 (samplePkt t) (fun _ => true) (sampleServer l) with
  | .ub => true
  | _ => false

/-- **C65 is false as stated**: whoever can send a packet to a server with a stanza that has no HMAC
key makes it read before a buffer; no key is needed. -/
theorem C65_early_padding_undefined :
    isUndefined {} [sampleStanza] (b!"abcdefghijkl=" ++ List.replicate 130 97) = true := by
  decide +kernel

/-- It is also false for a stanza with CMD_EXEC_GROUP that runs commands with sudo and has no
CMD_SUDO_EXEC_GROUP: a NULL pointer is used. -/
theorem C65_sudo_group_undefined :
    isUndefined {} [{ cmdStanza b!"nobody" with
      enable_cmd_sudo_exec := true, cmd_exec_group := some b!"wheel" }] cmdText = true := by
  decide +kernel

/-- **C65** (partial: no '=' in the packet's text, the SPA data extracted safely (C64), the configured
cycle commands leave room for the values, and a group for sudo is given if needed).  Handling any
packet, in any state of the server, accesses no memory outside the arrays and uses no NULL
pointer. -/
theorem C65_no_undefined_behaviour_partial {conf : Conf} {E : Env} (hH : E.K.H.Lawful) (hbc : E.K.bc.Lawful)
    (now : Int) (p : Pkt) (open_ok : Nat → Bool) (sv : Server)
    (hpre : preprocess_spa_data conf p.data p.len ≠ .ub)
    (h61 : ∀ text proxy, Received conf p text proxy → 61 ∉ text)
    (hsig : ∀ acc text fpr, E.gpgSig acc text = some fpr → 8 ≤ fpr.length)
    (hs : ∀ acc ∈ sv.stanzas, StanzaSafe acc) :
    incoming_spa conf E now p open_ok sv ≠ .ub := by
  unfold incoming_spa
  cases hp : preprocess_spa_data conf p.data p.len with
  | ub => exact absurd hp hpre
  | err => nofun
  | ok x =>
    obtain ⟨buf, proxy⟩ := x
    have h0 := cstr_no_nul buf
    have h61 := h61 _ _ ⟨buf, hp, rfl⟩
    simp only
    split
    · rename_i h
      exact absurd h (src_check_safe hH _ _ _ h0 h61)
    · nofun
    · rename_i digest _
      unfold process
      have := loop_safe (conf := conf) hH hbc now p (a := ⟨inet_ntop p.src_ip, inet_ntop p.dst_ip, proxy⟩)
        h0 h61 ⟨ntop_short _, ntop_short _, forwarded_short hp⟩ (fun acc fpr => hsig acc _ fpr) digest open_ok
        sv.stanzas 1 ⟨sv.cache, sv.file, false, sv.cycles, []⟩ hs
      cases h : stanzaLoop conf E now p ⟨inet_ntop p.src_ip, inet_ntop p.dst_ip, proxy⟩ (cstr buf) digest open_ok 1
        sv.stanzas ⟨sv.cache, sv.file, false, sv.cycles, []⟩ with
      | ub => exact absurd h this
      | err => nofun
      | ok r => nofun

/-- The same over every history of packets. -/
theorem C65_history_partial {conf : Conf} {E : Env} (hH : E.K.H.Lawful) (hbc : E.K.bc.Lawful)
    (hsig : ∀ acc text fpr, E.gpgSig acc text = some fpr → 8 ≤ fpr.length) (as : List Arrival)
    (has : ∀ a ∈ as, preprocess_spa_data conf a.pkt.data a.pkt.len ≠ .ub ∧
      ∀ text proxy, Received conf a.pkt text proxy → 61 ∉ text) :
    ∀ sv : Server, (∀ acc ∈ sv.stanzas, StanzaSafe acc) → serve conf E sv as ≠ .ub := by
  induction as with
  | nil => intro sv _; nofun
  | cons a as ih =>
    intro sv hs
    unfold serve
    cases h : incoming_spa conf E a.now a.pkt a.open_ok sv with
    | ub =>
      exact absurd h (C65_no_undefined_behaviour_partial hH hbc _ _ _ _ (has a (by simp)).1 (has a (by simp)).2
        hsig hs)
    | err => nofun
    | ok r =>
      simp only [Res.bind_ok]
      have hs' : ∀ acc ∈ r.1.stanzas, StanzaSafe acc := safe_kept h hs
      have := ih (fun a ha => has a (by simp [ha])) r.1 hs'
      cases h : serve conf E r.1 as with
      | ub => exact absurd h this
      | err => nofun
      | ok q => nofun

/-- A stanza with a command cycle. -/
def cycleStanza : Stanza :=
  { sampleStanza with
    cmd_cycle_open := some b!"/bin/open $IP $PORT", cmd_cycle_do_close := true
    cmd_cycle_close := some b!"/bin/close $IP $PORT", cmd_cycle_timer := 30 }

theorem cycleStanza_safe : StanzaSafe cycleStanza where
  keys := nofun
  sudo := nofun
  opening := by rintro t ⟨⟩; unfold RoomFor; decide
  closing := by rintro t _ ⟨⟩; unfold RoomFor; decide

/-- The hypotheses can be met. -/
example : incoming_spa {} sampleEnv 1700000010 (samplePkt sampleText) (fun _ => true) (sampleServer [cycleStanza])
    ≠ .ub := by
  have e : preprocess_spa_data {} (samplePkt sampleText).data (samplePkt sampleText).len =
      .ok ((samplePkt sampleText).data, []) := by decide +kernel
  refine C65_no_undefined_behaviour_partial toyHash_lawful toyCipher_lawful _ _ _ _ ?_ ?_ ?_ ?_
  · rw [e]; nofun
  · rintro text proxy ⟨buf, h, rfl⟩
    rw [e] at h
    cases h
    decide +kernel
  · intro acc text fpr h
    cases h
  · intro acc h
    rw [List.mem_singleton.1 h]
    exact cycleStanza_safe

end Fwknop.Props
