import Verif.Model.Nfq
import Verif.Props.Daemon
import Verif.Props.Packet

/-!
# C119, C120: packets from a netfilter queue
-/

namespace Fwknop.Props

open Fwknop Spec Res

/-! ## C119: knocks from every address are seen -/

/-- The first two octets of an address. -/
def upper (src : Nat) : Nat := src / 65536

theorem nfq_holds (q : Queued) : q.cap.Holds q.packet := by
  intro i h
  show q.packet.getD i 0 = _
  simp [List.getD, h]

theorem ipv4_first (h : IpHeader) (body : List Nat) : ipv4 h [] body =
    [] ++ (([4 * 16 + 5, h.tos] ++ be16 (20 + body.length) ++ be16 h.id ++ be16 h.frag ++ [h.ttl, h.proto] ++ be16 h.check ++
      be32 h.src ++ be32 h.dst) ++ (body ++ [])) := by
  simp [ipv4]

theorem ipv4_length (h : IpHeader) (body : List Nat) : (ipv4 h [] body).length = 20 + body.length := by
  simp [ipv4, be16, be32]
  omega

/-- What is taken for the type of an Ethernet frame is the first half of the source address. -/
theorem nfq_type {q : Queued} {h : IpHeader} {body : List Nat} (hq : q.packet = ipv4 h [] body) (hf : h.Fits) :
    q.cap.be16 12 = upper h.src := by
  have hh := nfq_holds q
  rw [hq, ipv4_first] at hh
  have : h.src < 2 ^ 32 := hf.2.2.2.2.2.2.1
  exact Cap.be16_right hh (i := 12) rfl rfl rfl (by unfold upper; omega)

/-- **C119** (part): the data of a UDP, TCP or ICMP packet from the queue, with an IP header without options,
is exactly what SPA processing gets, if the first half of the source address is above 5.220 and is neither
129.0 nor 170.170.  What is missing: knocks from all other addresses, which are lost
(`C119_false_low_addresses`, `C119_false_other_addresses`); IP options, as in C49. -/
theorem C119_payload_partial (q : Queued) (h : IpHeader) (body payload : List Nat) (sport dport : Nat) (hf : h.Fits)
    (hs : Segment h.proto sport dport body payload) (h1 : 140 ≤ payload.length) (h2 : payload.length ≤ 1500)
    (hb : ∀ x ∈ payload, x < 256) (hq : q.packet = ipv4 h [] body) (hlen : q.packet.length ≤ 1514)
    (ha : 1500 < upper h.src) (ha1 : upper h.src ≠ 0x8100) (ha2 : upper h.src ≠ 0xAAAA) :
    Delivers (process_packet q.cap q.old).2 payload h.proto h.src h.dst sport dport := by
  have ht := nfq_type hq hf
  have htag : q.cap.tagged = false := by unfold Cap.tagged; rw [ht]; simpa using ha1
  have hty : q.cap.ethType = upper h.src := by unfold Cap.ethType; rw [htag, ht]; rfl
  have h2' : q.cap.etherII = true := by unfold Cap.etherII; rw [hty]; simp [ha]
  have hlen' := hlen
  rw [hq, ipv4_length] at hlen'
  have hbody : 148 ≤ body.length := by
    obtain ⟨hdr, rfl, hh⟩ := segment_length hs
    simp only [List.length_append]
    omega
  have hcl : q.cap.caplen = 20 + body.length := by
    show q.packet.length % 65536 = _
    rw [hq, ipv4_length]
    omega
  have hln : q.cap.len = 20 + body.length := hcl
  have hpl : q.cap.pktLen = 20 + body.length + 4 := by
    unfold Cap.pktLen
    rw [h2', if_pos rfl, hln]
    show (_ % 65536 + 4) % 65536 = _
    omega
  have hip : q.cap.ipOffset = 0 := by
    unfold Cap.ipOffset
    rw [htag, h2', hty, if_pos rfl, if_neg ha2]
    rfl
  have hpart : (process_packet q.cap q.old).2 = (q.cap.ipPart q.old 0).2 := by
    unfold process_packet
    rw [if_neg (by rw [hcl]; show ¬ _ < 14; omega), hpl, if_neg (by
      show ¬¬ (64 ≤ _ ∧ _ ≤ 1518)
      omega), hip]
  rw [hpart]
  have hh := nfq_holds q
  rw [hq, ipv4_first] at hh
  rw [show (0 : Nat) = ([] : List Nat).length from rfl, ipPart_packet (ihl := 4 * 16 + 5) (tot := 20 + body.length)
    (h := h) (sport := sport) (dport := dport) (payload := payload) (pre := []) (trailer := [])
    (by decide) (by decide) rfl hf rfl hs hh (by rw [hcl]; simp [be16, be32]; omega) h1 h2 hb (by omega)]
  exact ⟨_, _, rfl, rfl, rfl, rfl, rfl, rfl, rfl, rfl⟩

/-- **C119 is false** of knocks from 0.0.0.0 to 5.220.255.255, but for those from 1.0.0.0/8: whatever is in
them, they are dropped.  The daemon takes the source address for the length of an 802.3 frame, looks for the
IP header three octets further on, and finds the first octet of the address as the protocol. -/
theorem C119_false_low_addresses (q : Queued) (h : IpHeader) (body : List Nat) (hf : h.Fits) (hq : q.packet = ipv4 h [] body)
    (ha : upper h.src ≤ 1500) (ha1 : h.src / 2 ^ 24 ≠ 1) : (process_packet q.cap q.old).2 = none := by
  have ht := nfq_type hq hf
  have hsrc : h.src < 2 ^ 32 := hf.2.2.2.2.2.2.1
  have htag : q.cap.tagged = false := by
    unfold Cap.tagged
    rw [ht]
    simp only [decide_eq_false_iff_not]
    omega
  have hty : q.cap.ethType = upper h.src := by unfold Cap.ethType; rw [htag, ht]; rfl
  have h2' : q.cap.etherII = false := by
    unfold Cap.etherII
    rw [hty]
    simp only [gt_iff_lt, Bool.or_eq_false_iff, decide_eq_false_iff_not]
    exact ⟨by omega, by show ¬ (0 = 16); decide⟩
  have hip : q.cap.ipOffset = 3 := by
    unfold Cap.ipOffset
    rw [htag, h2']
    rfl
  have hpr : q.cap.byte (3 + 9) = upper h.src / 256 := by
    have hh := nfq_holds q
    rw [hq, ipv4_first] at hh
    exact Cap.byte_right hh (i := 12) rfl rfl (by unfold upper; omega)
  have hno : ∀ th, q.cap.transport (q.cap.byte (3 + 9)) th = none := by
    intro th
    rw [hpr]
    unfold Cap.transport
    have : upper h.src / 256 ≤ 5 ∧ upper h.src / 256 ≠ 1 := by unfold upper at *; omega
    rw [if_neg (by omega), if_neg (by omega), if_neg (by omega)]
  unfold process_packet
  split
  · rfl
  · split
    · rfl
    · rw [hip]
      unfold Cap.ipPart
      split
      · rfl
      · simp only
        split
        · rfl
        · split
          · rfl
          · rw [hno]

/-- A knock from this address in the queue. -/
def queuedFrom (src : Nat) : Queued :=
  ⟨1, true, ipv4 ⟨0, 1, 0x4000, 64, 17, 0, src, 0xC0A80002⟩ [] (udpOf 40000 62201 sampleText), blank, 1700000010, fun _ => true⟩

/-- **C119 is false**, seen from the client: a packet from such an address changes nothing in the daemon and has no effect. -/
theorem C119_false_low_addresses_do_nothing {σ : Type} (D : DConf) (E : Env) (T : Tool σ) (q : Queued) (h : IpHeader) (body : List Nat)
    (hf : h.Fits) (hq : q.packet = ipv4 h [] body) (ha : upper h.src ≤ 1500) (ha1 : h.src / 2 ^ 24 ≠ 1) (d : Daemon σ) :
    process_nfq_packet D E T q d = .ok (d, []) := by
  unfold process_nfq_packet
  rw [C119_false_low_addresses q h body hf hq ha ha1]

/-- **C119 is false** of other addresses: the same knock is lost from 1.2.3.4, 129.0.3.4 and 170.170.3.4, and
is seen from 10.0.0.1. -/
theorem C119_false_other_addresses :
    ([0x01020304, 0x81000304, 0xAAAA0304, 0x0A000001].map fun src => (process_packet (queuedFrom src).cap blank).2.isSome)
      = [false, false, false, true] := by decide +kernel

/-- The hypotheses of `C119_payload_partial` are met. -/
example : Delivers (process_packet (queuedFrom 0x0A000001).cap blank).2 sampleText 17 0x0A000001 0xC0A80002 40000 62201 :=
  C119_payload_partial (queuedFrom 0x0A000001) ⟨0, 1, 0x4000, 64, 17, 0, 0x0A000001, 0xC0A80002⟩ _ sampleText 40000 62201
    (by unfold IpHeader.Fits; decide) (udpOf_segment (by decide) (by decide) _) (by decide +kernel) (by decide +kernel)
    (by decide +kernel) rfl (by decide +kernel) (by decide) (by decide) (by decide)

/-- Those of `C119_false_low_addresses` are met by a knock from 5.6.7.8. -/
example : (process_packet (queuedFrom 0x05060708).cap blank).2 = none :=
  C119_false_low_addresses (queuedFrom 0x05060708) ⟨0, 1, 0x4000, 64, 17, 0, 0x05060708, 0xC0A80002⟩ _
    (by unfold IpHeader.Fits; decide) rfl (by decide) (by decide)

/-! ## C120: the loop -/

theorem receive_deeds {σ : Type} {D : DConf} {E : Env} {T : Tool σ} {now : Int} {p : Pkt} {ok : Nat → Bool} {d : Daemon σ}
    {r : Daemon σ × List Deed} (h : receive D E T now p ok d = .ok r) (t : Int) (c : CycleEnt) : .closed t c ∉ r.2 := by
  unfold receive at h
  obtain ⟨a, _, h⟩ := bind_eq_ok h
  obtain ⟨b, _, h⟩ := bind_eq_ok h
  cases h
  intro hm
  obtain ⟨e, _, he⟩ := List.mem_map.1 hm
  cases he

/-- **C120 is false**: whatever happens, no closing command of a command cycle is ever run. -/
theorem C120_cycles_are_never_closed {σ : Type} (D : DConf) (E : Env) (T : Tool σ) :
    ∀ (ts : List NfqTurn) (pending : Bool) (errs : Nat) (d d' : Daemon σ) (l : List Deed) (vs : List (Nat × Bool)) (x : Option Exit),
    nfqLoop D E T ts pending errs d = .ok (d', l, vs, x) → ∀ t c, .closed t c ∉ l
  | [], _, _, _, _, _, _, _, h, t, c => by cases h; simp
  | u :: ts, pending, errs, d, d', l, vs, x, h, t, c => by
    unfold nfqLoop at h
    simp only at h
    cases hr : u.recv with
    | message res q =>
      rw [hr] at h
      simp only at h
      obtain ⟨r, h1, h⟩ := bind_eq_ok h
      obtain ⟨s, _, h⟩ := bind_eq_ok h
      obtain ⟨y, h3, h⟩ := bind_eq_ok h
      cases h
      have ih := C120_cycles_are_never_closed D E T ts _ _ _ y.1 y.2.1 y.2.2.1 y.2.2.2 h3 t c
      intro hm
      rcases List.mem_append.1 hm with hm | hm
      · unfold nfqMessage at h1
        obtain ⟨z, h4, h1⟩ := bind_eq_ok h1
        cases h1
        unfold process_nfq_packet at h4
        split at h4
        · cases h4; cases hm
        · exact receive_deeds h4 t c hm
      · exact ih hm
    | error =>
      rw [hr] at h
      simp only at h
      split at h
      · cases h; simp
      · obtain ⟨s, _, h⟩ := bind_eq_ok h
        exact C120_cycles_are_never_closed D E T ts _ _ _ _ _ _ _ h t c
    | nothing =>
      rw [hr] at h
      simp only at h
      split at h
      · cases h; simp
      · obtain ⟨s, _, h⟩ := bind_eq_ok h
        exact C120_cycles_are_never_closed D E T ts _ _ _ _ _ _ _ h t c

/-- **C120 is false** of signals: as long as each iteration finds a packet, the daemon does not end, however
often it is told to. -/
theorem C120_not_stopped_under_traffic {σ : Type} (D : DConf) (E : Env) (T : Tool σ) :
    ∀ (ts : List NfqTurn) (pending : Bool) (errs : Nat) (d d' : Daemon σ) (l : List Deed) (vs : List (Nat × Bool)) (x : Option Exit),
    (∀ t ∈ ts, ∃ res q, t.recv = .message res q) → nfqLoop D E T ts pending errs d = .ok (d', l, vs, x) → x = none
  | [], _, _, _, _, _, _, _, _, h => by cases h; rfl
  | u :: ts, pending, errs, d, d', l, vs, x, ht, h => by
    obtain ⟨res, q, hr⟩ := ht u List.mem_cons_self
    unfold nfqLoop at h
    simp only at h
    rw [hr] at h
    simp only at h
    obtain ⟨r, _, h⟩ := bind_eq_ok h
    obtain ⟨s, _, h⟩ := bind_eq_ok h
    obtain ⟨y, h3, h⟩ := bind_eq_ok h
    cases h
    exact C120_not_stopped_under_traffic D E T ts _ _ _ y.1 y.2.1 y.2.2.1 y.2.2.2 (fun t h => ht t (List.mem_cons_of_mem _ h)) h3

theorem pending_stops {σ : Type} (D : DConf) (E : Env) (T : Tool σ) :
    ∀ (ts : List NfqTurn) (errs : Nat) (d d' : Daemon σ) (l : List Deed) (vs : List (Nat × Bool)) (x : Option Exit),
    (∃ t ∈ ts, t.recv = .nothing) → nfqLoop D E T ts true errs d = .ok (d', l, vs, x) → x ≠ none
  | [], _, _, _, _, _, _, h0, _ => by obtain ⟨t, h, _⟩ := h0; cases h
  | u :: ts, errs, d, d', l, vs, x, h0, h => by
    have h0' : u.recv = .nothing ∨ ∃ t ∈ ts, t.recv = .nothing := by
      obtain ⟨t, hm, hr⟩ := h0
      rcases List.mem_cons.1 hm with rfl | hm
      · exact .inl hr
      · exact .inr ⟨t, hm, hr⟩
    unfold nfqLoop at h
    simp only [Bool.true_or] at h
    cases hr : u.recv with
    | message res q =>
      rw [hr] at h h0'
      simp only at h
      obtain ⟨r, _, h⟩ := bind_eq_ok h
      obtain ⟨s, _, h⟩ := bind_eq_ok h
      obtain ⟨y, h3, h⟩ := bind_eq_ok h
      cases h
      exact pending_stops D E T ts _ _ y.1 y.2.1 y.2.2.1 y.2.2.2 (h0'.resolve_left (by simp)) h3
    | error =>
      rw [hr] at h h0'
      simp only at h
      split at h
      · cases h; simp
      · obtain ⟨s, _, h⟩ := bind_eq_ok h
        exact pending_stops D E T ts _ _ _ _ _ _ (h0'.resolve_left (by simp)) h
    | nothing =>
      rw [hr] at h
      simp only [if_true] at h
      cases h
      simp

/-- **C120** (part): when SIGINT, SIGTERM or SIGHUP has arrived, the loop ends no later than in the next
iteration that finds no packet.  What is missing: see `C120_not_stopped_under_traffic`. -/
theorem C120_stops_partial {σ : Type} (D : DConf) (E : Env) (T : Tool σ) (t : NfqTurn) (ts : List NfqTurn) (hs : t.stop = true)
    (h0 : ∃ u ∈ t :: ts, u.recv = .nothing) (pending : Bool) (errs : Nat) (d d' : Daemon σ) (l : List Deed) (vs : List (Nat × Bool))
    (x : Option Exit) (h : nfqLoop D E T (t :: ts) pending errs d = .ok (d', l, vs, x)) : x ≠ none := by
  refine pending_stops D E T (t :: ts) errs d d' l vs x h0 ?_
  rw [← h]
  unfold nfqLoop
  rw [hs, Bool.or_true, Bool.or_true]

/-- **C120** (part): without a signal and without --packet-limit, up to 101 errors in all do not end the
loop. -/
theorem C120_goes_on {σ : Type} (D : DConf) (E : Env) (T : Tool σ) (hl : D.limit = 0) :
    ∀ (ts : List NfqTurn) (errs : Nat) (d d' : Daemon σ) (l : List Deed) (vs : List (Nat × Bool)) (x : Option Exit),
    (∀ t ∈ ts, t.stop = false) → errs + (ts.filter fun t => match t.recv with | .error => true | _ => false).length ≤ 101 →
    nfqLoop D E T ts false errs d = .ok (d', l, vs, x) → x = none
  | [], _, _, _, _, _, _, _, _, h => by cases h; rfl
  | u :: ts, errs, d, d', l, vs, x, ht, hn, h => by
    have hst := ht u List.mem_cons_self
    have ht' : ∀ t ∈ ts, t.stop = false := fun t h => ht t (List.mem_cons_of_mem _ h)
    rw [List.filter_cons] at hn
    unfold nfqLoop at h
    simp only [hst, Bool.or_false] at h
    cases hr : u.recv with
    | message res q =>
      rw [hr] at h hn
      simp only [Bool.false_eq_true, if_false] at h hn
      obtain ⟨r, h1, h⟩ := bind_eq_ok h
      obtain ⟨s, _, h⟩ := bind_eq_ok h
      obtain ⟨y, h3, h⟩ := bind_eq_ok h
      cases h
      have : r.2.2 = false := by
        unfold nfqMessage at h1
        obtain ⟨z, _, h1⟩ := bind_eq_ok h1
        cases h1
        show atLimit D.limit _ = false
        unfold atLimit
        rw [hl]
        rfl
      rw [this, Bool.or_false] at h3
      exact C120_goes_on D E T hl ts _ _ y.1 y.2.1 y.2.2.1 y.2.2.2 ht' hn h3
    | error =>
      rw [hr] at h hn
      simp only [if_true, List.length_cons] at h hn
      rw [if_neg (by show ¬ _ > 100; omega)] at h
      obtain ⟨s, _, h⟩ := bind_eq_ok h
      exact C120_goes_on D E T hl ts _ _ _ _ _ _ ht' (by omega) h
    | nothing =>
      rw [hr] at h hn
      simp only [Bool.false_eq_true, if_false] at h hn
      obtain ⟨s, _, h⟩ := bind_eq_ok h
      exact C120_goes_on D E T hl ts _ _ _ _ _ _ ht' (by omega) h

/-- **C120**: 102 errors in a row end the daemon, and it says so. -/
theorem C120_errors_end {σ : Type} (D : DConf) (E : Env) (T : Tool σ) :
    ∀ (ts : List NfqTurn) (pending : Bool) (errs : Nat) (d d' : Daemon σ) (l : List Deed) (vs : List (Nat × Bool)) (x : Option Exit),
    (∀ t ∈ ts, t.recv = .error) → errs ≤ 101 → 102 ≤ errs + ts.length →
    nfqLoop D E T ts pending errs d = .ok (d', l, vs, x) → x = some .failed
  | [], _, errs, _, _, _, _, _, _, h1, h2, _ => by simp at h2; omega
  | u :: ts, pending, errs, d, d', l, vs, x, ht, h1, h2, h => by
    unfold nfqLoop at h
    simp only [ht u List.mem_cons_self] at h
    split at h
    · cases h; rfl
    · rename_i hn
      obtain ⟨s, _, h⟩ := bind_eq_ok h
      exact C120_errors_end D E T ts _ _ _ _ _ _ _ (fun t h => ht t (List.mem_cons_of_mem _ h))
        (by have : ¬ errs > 100 := hn; omega) (by simp at h2; omega) h

/-- **C120 is false** of --packet-limit: it counts the octets of messages.  With any limit up to the length of
the first message, the daemon ends after that one packet. -/
theorem C120_limit_counts_octets {σ : Type} (D : DConf) (E : Env) (T : Tool σ) (res : Nat) (q : Queued) (h0 : D.limit ≠ 0)
    (hl : D.limit ≤ res) (now now' : Int) (d d' : Daemon σ) (l : List Deed) (vs : List (Nat × Bool)) (x : Option Exit)
    (h : nfqLoop D E T [⟨false, .message res q, now⟩, ⟨false, .nothing, now'⟩] false 0 d = .ok (d', l, vs, x)) : x = some .left := by
  simp only [nfqLoop, Bool.or_false, Bool.false_or] at h
  obtain ⟨r, h1, h⟩ := bind_eq_ok h
  obtain ⟨s, _, h⟩ := bind_eq_ok h
  have : r.2.2 = true := by
    unfold nfqMessage at h1
    obtain ⟨z, _, h1⟩ := bind_eq_ok h1
    cases h1
    show atLimit D.limit (z.1.packets + res) = true
    unfold atLimit
    simp only [ne_eq, ge_iff_le, Bool.and_eq_true, decide_eq_true_eq]
    omega
  rw [this, if_pos rfl] at h
  obtain ⟨y, h3, h⟩ := bind_eq_ok h
  cases h3
  cases h
  rfl

/-- The verdicts of a run are for these packets. -/
theorem nfq_verdicts {σ : Type} (D : DConf) (E : Env) (T : Tool σ) :
    ∀ (ts : List NfqTurn) (pending : Bool) (errs : Nat) (d d' : Daemon σ) (l : List Deed) (vs : List (Nat × Bool)) (x : Option Exit),
    nfqLoop D E T ts pending errs d = .ok (d', l, vs, x) →
    ∀ v ∈ vs, ∃ t ∈ ts, ∃ res q, t.recv = .message res q ∧ v = (swap32 q.id, q.local_in)
  | [], _, _, _, _, _, _, _, h, v, hv => by cases h; cases hv
  | u :: ts, pending, errs, d, d', l, vs, x, h, v, hv => by
    unfold nfqLoop at h
    simp only at h
    have lift : (∃ t ∈ ts, ∃ res q, t.recv = .message res q ∧ v = (swap32 q.id, q.local_in)) →
        ∃ t ∈ u :: ts, ∃ res q, t.recv = .message res q ∧ v = (swap32 q.id, q.local_in) :=
      fun ⟨t, h, r⟩ => ⟨t, List.mem_cons_of_mem _ h, r⟩
    cases hr : u.recv with
    | message res q =>
      rw [hr] at h
      simp only at h
      obtain ⟨r, _, h⟩ := bind_eq_ok h
      obtain ⟨s, _, h⟩ := bind_eq_ok h
      obtain ⟨y, h3, h⟩ := bind_eq_ok h
      cases h
      rcases List.mem_cons.1 hv with rfl | hv
      · exact ⟨u, List.mem_cons_self, res, q, hr, rfl⟩
      · exact lift (nfq_verdicts D E T ts _ _ _ y.1 y.2.1 y.2.2.1 y.2.2.2 h3 v hv)
    | error =>
      rw [hr] at h
      simp only at h
      split at h
      · cases h; cases hv
      · obtain ⟨s, _, h⟩ := bind_eq_ok h
        exact lift (nfq_verdicts D E T ts _ _ _ _ _ _ _ h v hv)
    | nothing =>
      rw [hr] at h
      simp only at h
      split at h
      · cases h; cases hv
      · obtain ⟨s, _, h⟩ := bind_eq_ok h
        exact lift (nfq_verdicts D E T ts _ _ _ _ _ _ _ h v hv)

/-- **C120 is false** of verdicts: of the first 65535 packets of a queue none gets one, whatever happens.  The
daemon passes the number of the packet in the order of the network where the library wants that of the host,
and the kernel takes the verdict for another packet.  (Packets of a queue are numbered from 1.) -/
theorem C120_no_verdicts {σ : Type} (D : DConf) (E : Env) (T : Tool σ) (ts : List NfqTurn) (pending : Bool) (errs : Nat)
    (d d' : Daemon σ) (l : List Deed) (vs : List (Nat × Bool)) (x : Option Exit)
    (hn : ∀ t ∈ ts, ∀ res q, t.recv = .message res q → 0 < q.id ∧ q.id < 65536)
    (h : nfqLoop D E T ts pending errs d = .ok (d', l, vs, x)) :
    ∀ t ∈ ts, ∀ res q, t.recv = .message res q → ∀ drop, (q.id, drop) ∉ vs := by
  intro t ht res q hr drop hv
  obtain ⟨u, hu, res', q', hr', he⟩ := nfq_verdicts D E T ts pending errs d d' l vs x h _ hv
  have h1 := hn t ht res q hr
  have h2 := hn u hu res' q' hr'
  have he1 : q.id = swap32 q'.id := congrArg Prod.fst he
  unfold swap32 at he1
  have e1 : q'.id / 65536 = 0 := Nat.div_eq_of_lt h2.2
  have e2 : q'.id / 16777216 = 0 := Nat.div_eq_of_lt (by omega)
  have e3 : q'.id / 256 < 256 := by omega
  rw [e1, e2, Nat.mod_eq_of_lt e3] at he1
  omega

/-! ## Examples -/

/-- A knock, then a pause in which SIGTERM arrives. -/
def nfqTurns : List NfqTurn :=
  [⟨false, .message 300 (queuedFrom 0x0A000001), 1700000010⟩, ⟨true, .nothing, 1700000011⟩]

/-- What comes of a run: how many things were done, the verdicts, how it ended. -/
def nfqResult (r : Res (Daemon (Tables × List Fate) × List Deed × List (Nat × Bool) × Option Exit)) :
    Option (Nat × List (Nat × Bool) × Option Exit) :=
  match r with
  | .ok (_, l, vs, x) => some (l.length, vs, x)
  | _ => none

/-- The knock is honoured, its packet gets no verdict (one is given for packet 16777216), and the daemon ends;
with traffic it does not. -/
example : nfqResult (nfqLoop sampleConf sampleEnv ipt nfqTurns false 0 sampleDaemon) = some (1, [(16777216, true)], some .left) ∧
    nfqResult (nfqLoop sampleConf sampleEnv ipt [⟨true, .message 300 (queuedFrom 0x0A000001), 1700000010⟩] false 0 sampleDaemon) =
      some (1, [(16777216, true)], none) ∧
    nfqResult (nfqLoop { sampleConf with limit := 100 } sampleEnv ipt
      [⟨false, .message 300 (queuedFrom 0x0A000001), 1700000010⟩, ⟨false, .nothing, 1700000011⟩] false 0 sampleDaemon) =
      some (1, [(16777216, true)], some .left) := ⟨by decide +kernel, by decide +kernel, by decide +kernel⟩

/-- A stanza with a command cycle, to be closed after 30 seconds. -/
def nfqCycle : Stanza :=
  { sampleStanza with
    cmd_cycle_open := some b!"/bin/open $SRC", cmd_cycle_close := some b!"/bin/close $SRC"
    cmd_cycle_do_close := true, cmd_cycle_timer := 30 }

/-- The opening command is run and, an hour after its time, the closing command has not been
(`C120_cycles_are_never_closed`). -/
example : nfqResult (nfqLoop sampleConf sampleEnv ipt
    [⟨false, .message 300 (queuedFrom 0x0A000001), 1700000010⟩, ⟨false, .nothing, 1700003700⟩, ⟨true, .nothing, 1700003701⟩]
    false 0 { sampleDaemon with srv := sampleServer [nfqCycle] }) = some (1, [(16777216, true)], some .left) := by decide +kernel

end Fwknop.Props
