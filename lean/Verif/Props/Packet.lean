import Verif.Lemmas.Chksum
import Verif.Lemmas.Post

/-!
# Captured frames, and the raw packets of the client

C47: what is handed on is part of the frame.  C48: what is read is in the frame.  C49: the length of the
IP header.  C70: raw packets of the client arrive.  C71: the checksum of ICMP.
-/

namespace Fwknop.Props

open Spec Res

/-! ## C47 -/

theorem transport_bounds {c : Cap} {proto th : Nat} {t : Transport} (h : c.transport proto th = some t) :
    th ≤ t.data ∧ t.data ≤ th + 60 ∧ ∀ i ∈ t.reads, i < th + 13 := by
  have hb : c.byte (th + 12) < 256 := Nat.mod_lt _ (by decide)
  unfold Cap.transport at h
  split at h
  · cases h
    refine ⟨Nat.le_add_right _ _, by simp only; omega, ?_⟩
    intro i hi
    simp only [List.mem_cons, List.not_mem_nil, or_false] at hi
    omega
  · split at h
    · cases h
      refine ⟨Nat.le_add_right _ _, by simp only; omega, ?_⟩
      intro i hi
      simp only [List.mem_cons, List.not_mem_nil, or_false] at hi
      omega
    · split at h
      · cases h
        exact ⟨Nat.le_add_right _ _, by simp only; omega, fun i hi => absurd hi (by simp)⟩
      · exact absurd h (by simp)

/-- What `ipPart` reads and hands on. -/
theorem ipPart_bounds {c : Cap} {old : Str} {ip : Nat} (hth : ip + 33 ≤ c.caplen ∨ ip + 20 > c.caplen) :
    (∀ i ∈ (c.ipPart old ip).1, i < c.caplen) := by
  intro i hi
  unfold Cap.ipPart at hi
  by_cases h1 : ip + 20 > c.caplen
  · rw [if_pos h1] at hi; exact absurd hi (by simp)
  rw [if_neg h1] at hi
  simp only at hi
  have h33 : ip + 33 ≤ c.caplen := hth.resolve_right h1
  have hmw := (mask_words (c.byte ip % 16) (Nat.mod_lt _ (by decide))).2
  by_cases h2 : (c.byte ip % 16) &&& IPV4_VER_MASK < MIN_IPV4_WORDS
  · rw [if_pos h2] at hi
    simp only [List.mem_singleton] at hi
    omega
  rw [if_neg h2] at hi
  have hw := hmw.resolve_left h2
  by_cases h3 : ip + c.be16 (ip + 2) > c.caplen
  · rw [if_pos h3] at hi
    simp only [List.mem_cons, List.not_mem_nil, or_false] at hi
    omega
  rw [if_neg h3, hw] at hi
  have hip : ∀ i ∈ ipReads ip, i < c.caplen := by
    intro i hi
    simp only [ipReads, List.cons_append, List.nil_append, List.mem_cons, List.not_mem_nil, or_false] at hi
    omega
  cases ht : c.transport (c.byte (ip + 9)) (ip + 5 * 4) with
  | none => rw [ht] at hi; exact hip i hi
  | some t =>
    rw [ht] at hi
    obtain ⟨b1, b2, b3⟩ := transport_bounds ht
    simp only [List.mem_append] at hi
    rcases hi with (hi | hi) | hi
    · exact hip i hi
    · have := b3 i hi; omega
    · unfold Cap.deliver at hi
      simp only at hi
      split at hi
      · exact absurd hi (by simp)
      · split at hi
        · exact absurd hi (by simp)
        · rename_i hn1 hn2
          simp only [List.mem_map, List.mem_range] at hi
          obtain ⟨k, hk, rfl⟩ := hi
          unfold Cap.dataLen at hk hn1 hn2
          have : c.be16 (ip + 2) < 65536 := by
            unfold Cap.be16 Cap.byte; omega
          simp only [MAX_SPA_PACKET_LEN, MIN_SPA_DATA_SIZE] at hn1 hn2
          omega

/-- **C47** *Whatever is captured — any bytes in the frame and behind it, any lengths, any link header —
if something is handed to SPA processing, then it is a contiguous part of the captured frame, of at
least 140 and at most 1500 bytes, followed in the array by a zero byte.* -/
theorem C47_payload_in_frame (c : Cap) (old : Str) (p : Pkt) (h : (process_packet c old).2 = some p) :
    ∃ start, start + p.len ≤ c.caplen ∧ 140 ≤ p.len ∧ p.len ≤ 1500 ∧
      (∀ i < p.len, p.data[i]? = some (c.mem (start + i) % 256)) ∧ p.data[p.len]? = some 0 := by
  have key : ∀ ip, (c.ipPart old ip).2 = some p → ∃ start, start + p.len ≤ c.caplen ∧ 140 ≤ p.len ∧ p.len ≤ 1500 ∧
      (∀ i < p.len, p.data[i]? = some (c.mem (start + i) % 256)) ∧ p.data[p.len]? = some 0 := by
    intro ip hp
    unfold Cap.ipPart at hp
    split at hp
    · exact absurd hp (by simp)
    simp only at hp
    split at hp
    · exact absurd hp (by simp)
    rename_i hw
    have hw' := ((mask_words (c.byte ip % 16) (Nat.mod_lt _ (by decide))).2).resolve_left hw
    split at hp
    · exact absurd hp (by simp)
    rename_i hend
    rw [hw'] at hp
    cases ht : c.transport (c.byte (ip + 9)) (ip + 5 * 4) with
    | none => rw [ht] at hp; exact absurd hp (by simp)
    | some t =>
      rw [ht] at hp
      obtain ⟨b1, b2, -⟩ := transport_bounds ht
      unfold Cap.deliver at hp
      simp only at hp
      split at hp
      · exact absurd hp (by simp)
      split at hp
      · exact absurd hp (by simp)
      rename_i hn1 hn2
      simp only [MAX_SPA_PACKET_LEN, MIN_SPA_DATA_SIZE] at hn1 hn2
      have hpe := Option.some.inj hp
      refine ⟨t.data, ?_, ?_, ?_, ?_, ?_⟩
      · rw [← hpe]
        unfold Cap.dataLen at hn1 hn2 ⊢
        simp only
        omega
      · rw [← hpe]; simp only; omega
      · rw [← hpe]; simp only; omega
      · intro i hi
        rw [← hpe] at hi ⊢
        simp only at hi ⊢
        rw [List.getElem?_append_left (by simpa using hi), List.getElem?_map, List.getElem?_range hi]
        rfl
      · rw [← hpe]
        simp only
        rw [List.getElem?_append_right (by simp)]
        simp
  unfold process_packet at h
  split at h
  · exact absurd h (by simp)
  · split at h
    · exact absurd h (by simp)
    · exact key _ h

/-! ## C48 -/

/-- **C48 (partial)** *All bytes that are read are in the captured frame*, if frames are captured up to at
least 60 bytes, the link header has at most 16, and a frame with an 802.1Q tag is captured up to at
least 18.  Missing: frames captured shorter, for which it is false (`C48_tag`, `C48_short`). -/
theorem C48_reads_in_frame_partial (c : Cap) (old : Str) (snaplen : Nat) (hcap : c.caplen = min c.len snaplen)
    (hsnap : 60 ≤ snaplen) (hoff : c.offset ≤ 16) (htag : c.tagged = true → 18 ≤ c.caplen) :
    ∀ i ∈ (process_packet c old).1, i < c.caplen := by
  intro i hi
  unfold process_packet at hi
  by_cases h14 : c.caplen < ETHER_HDR_LEN
  · rw [if_pos h14] at hi; exact absurd hi (by simp)
  rw [if_neg h14] at hi
  have h14' : 14 ≤ c.caplen := by simpa using h14
  have heth : ∀ i ∈ c.ethReads, i < c.caplen := by
    intro i hi
    unfold Cap.ethReads at hi
    split at hi
    · rename_i ht
      have := htag ht
      simp only [List.mem_cons, List.not_mem_nil, or_false] at hi
      omega
    · simp only [List.mem_cons, List.not_mem_nil, or_false] at hi
      omega
  by_cases hl : ETHER_MIN_LEN ≤ c.pktLen ∧ c.pktLen ≤ ETHER_MAX_LEN
  · rw [if_neg (not_not_intro hl)] at hi
    simp only [List.mem_append] at hi
    rcases hi with hi | hi
    · exact heth i hi
    · refine ipPart_bounds (old := old) ?_ i hi
      left
      have hlen : 60 ≤ c.len := by
        obtain ⟨h1, h2⟩ := hl
        unfold Cap.pktLen at h1 h2
        simp only [ETHER_MIN_LEN, ETHER_MAX_LEN, ETHER_CRC_LEN] at h1 h2
        split at h1 <;> omega
      have hip : c.ipOffset ≤ 25 := by
        unfold Cap.ipOffset
        simp only
        split <;> split <;> (try split) <;> omega
      omega
  · rw [if_pos hl] at hi
    exact heth i hi

/-- **C48, negative** *A frame of 14 bytes of the type 802.1Q is read four bytes behind its end.* -/
theorem C48_tag : ∃ c : Cap, c.offset = 14 ∧ c.len = 14 ∧ c.caplen = 14 ∧
    ∀ old, 16 ∈ (process_packet c old).1 ∧ 17 ∈ (process_packet c old).1 := by
  refine ⟨⟨14, 14, 14, fun i => if i = 12 then 0x81 else 0⟩, rfl, rfl, rfl, fun old => ?_⟩
  have : (process_packet ⟨14, 14, 14, fun i => if i = 12 then 0x81 else 0⟩ old).1 = [12, 13, 16, 17] := rfl
  rw [this]
  decide

/-- **C48, negative** *With frames captured up to 34 bytes, the TCP header behind the end is read.* -/
theorem C48_short : ∃ c : Cap, c.offset = 14 ∧ c.len = 60 ∧ c.caplen = 34 ∧
    ∀ old, 46 ∈ (process_packet c old).1 := by
  refine ⟨⟨14, 60, 34, fun i => if i = 12 then 8 else if i = 14 then 0x45 else if i = 17 then 20 else
    if i = 23 then 6 else 0⟩, rfl, rfl, rfl, fun old => ?_⟩
  exact (List.mem_append.2 (Or.inr (List.mem_append.2 (Or.inl (List.mem_append.2 (Or.inr (by
    show 46 ∈ [34, 35, 36, 37, 46]
    decide)))))))

/-! ## C49 -/

/-- The frame is captured as a whole, on Ethernet. -/
structure Captured (c : Cap) (frame : List Nat) : Prop where
  offset : c.offset = 14
  len : c.len = frame.length
  caplen : c.caplen = c.len
  mem : ∀ i (h : i < frame.length), c.mem i = frame[i]
  atLeast : 60 ≤ frame.length
  atMost : frame.length ≤ 1514

/-- The packet that SPA processing gets: this payload, followed by a zero byte. -/
def Delivers (r : Option Pkt) (payload : List Nat) (proto src dst sport dport : Nat) : Prop :=
  ∃ p rest, r = some p ∧ p.data = payload ++ 0 :: rest ∧ p.len = payload.length ∧ p.proto = proto ∧ p.src_ip = src ∧
    p.dst_ip = dst ∧ p.src_port = sport ∧ p.dst_port = dport

theorem process_ipv4 {c : Cap} {macs trailer options body : List Nat} {tag : Option Nat} {h : IpHeader} (old : Str)
    {sport dport : Nat} {payload : List Nat} (hopt : options.length = 0 ∨ options.length = 8 ∨ options.length = 32 ∨
      options.length = 40) (hf : h.Fits) (hm : macs.length = 12)
    (ht : ∀ t, tag = some t → t < 65536) (hs : Segment h.proto sport dport (options ++ body) payload)
    (h1 : 140 ≤ payload.length) (h2 : payload.length ≤ 1500) (hb : ∀ x ∈ payload, x < 256)
    (hc : Captured c (ethernet macs tag 0x0800 (ipv4 h options body) trailer)) :
    Delivers (process_packet c old).2 payload h.proto h.src h.dst sport dport := by
  obtain ⟨c1, c2, c3, c4, c5, c6⟩ := hc
  rw [ethernet_link c4 hm ht c1 c2 c3 (by omega) (by omega) old]
  obtain ⟨pre, hp1, hp2⟩ := ethernet_split macs tag (ipv4 h options body) trailer hm
  rw [hp2] at c2 c4 c6
  have hb2 : (options ++ body).length = options.length + body.length := List.length_append
  rw [← hp1, ipPart_packet (ihl := 4 * 16 + (5 + options.length / 4)) (tot := 20 + options.length + body.length)
    (first := [4 * 16 + (5 + options.length / 4), h.tos] ++ be16 (20 + options.length + body.length) ++ be16 h.id ++
      be16 h.frag ++ [h.ttl, h.proto] ++ be16 h.check ++ be32 h.src ++ be32 h.dst)
    (body := options ++ body) (trailer := trailer) (pre := pre) (h := h) (sport := sport) (dport := dport)
    (payload := payload) (by omega) (by omega) rfl hf (by omega) hs
    (by
      have : pre ++ (ipv4 h options body ++ trailer) = pre ++ ([4 * 16 + (5 + options.length / 4), h.tos] ++
          be16 (20 + options.length + body.length) ++ be16 h.id ++ be16 h.frag ++ [h.ttl, h.proto] ++ be16 h.check ++
          be32 h.src ++ be32 h.dst ++ (options ++ body ++ trailer)) := by
        simp [ipv4]
      rw [← this]
      exact c4)
    (by
      rw [c3, c2]
      simp [ipv4]) h1 h2 hb (by
      have : (ipv4 h options body).length = 20 + options.length + body.length := by
        simp [ipv4, be16, be32]; omega
      simp only [List.length_append, this] at c6
      omega)]
  exact ⟨_, _, rfl, rfl, rfl, rfl, rfl, rfl, rfl, rfl⟩

/-- **C49 (partial)** *The data of every UDP, TCP or ICMP packet with an IP header without options (5
words) that arrives in an Ethernet frame, with or without a tag and a trailer, is exactly what SPA
processing gets, with the protocol, the addresses and the ports.*  TCP may have options.  Missing: IP
headers with options, for which it is false (`C49_options_dropped`, `C49_options_misread`). -/
theorem C49_payload_partial {c : Cap} {macs trailer body : List Nat} {tag : Option Nat} {h : IpHeader} (old : Str)
    {sport dport : Nat} {payload : List Nat} (hf : h.Fits) (hm : macs.length = 12)
    (ht : ∀ t, tag = some t → t < 65536) (hs : Segment h.proto sport dport body payload)
    (h1 : 140 ≤ payload.length) (h2 : payload.length ≤ 1500) (hb : ∀ x ∈ payload, x < 256)
    (hc : Captured c (ethernet macs tag 0x0800 (ipv4 h [] body) trailer)) :
    Delivers (process_packet c old).2 payload h.proto h.src h.dst sport dport :=
  process_ipv4 (options := []) old (Or.inl rfl) hf hm ht hs h1 h2 hb hc

/-- **C49, negative** *A packet with IP options of other lengths than 8, 32 and 40 bytes is dropped,
whatever is in it.* -/
theorem C49_options_dropped {c : Cap} {macs trailer options body : List Nat} {tag : Option Nat} {h : IpHeader}
    (old : Str) (hm : macs.length = 12) (ht : ∀ t, tag = some t → t < 65536)
    (hol : options.length ≤ 40) (ho4 : options.length % 4 = 0)
    (ho : options.length ≠ 0 ∧ options.length ≠ 8 ∧ options.length ≠ 32 ∧ options.length ≠ 40)
    (hc : Captured c (ethernet macs tag 0x0800 (ipv4 h options body) trailer)) : (process_packet c old).2 = none := by
  obtain ⟨c1, c2, c3, c4, c5, c6⟩ := hc
  rw [ethernet_link c4 hm ht c1 c2 c3 (by omega) (by omega) old]
  obtain ⟨pre, hp1, hp2⟩ := ethernet_split macs tag (ipv4 h options body) trailer hm
  rw [hp2] at c4
  rw [← hp1]
  have hip : c.byte pre.length = 4 * 16 + (5 + options.length / 4) := by
    refine Cap.byte_right c4 (i := 0) rfl ?_ (by omega)
    simp [ipv4]
  have hm2 := mask_words (c.byte pre.length % 16) (Nat.mod_lt _ (by decide))
  unfold Cap.ipPart
  split
  · rfl
  · simp only
    rw [if_pos]
    rcases hm2.2 with h | h
    · exact h
    · have := hm2.1.1 h
      omega

/-- **C49, negative** *With 8, 32 or 40 bytes of IP options, what comes right after the 20 bytes is taken
for the transport header: it is the options that say where the data starts and, for UDP and TCP, what
the ports are.* -/
theorem C49_options_misread {c : Cap} {macs trailer options body : List Nat} {tag : Option Nat} {h : IpHeader} (old : Str)
    {sport dport : Nat} {payload : List Nat} (ho : options.length = 8 ∨ options.length = 32 ∨ options.length = 40)
    (hf : h.Fits) (hm : macs.length = 12)
    (ht : ∀ t, tag = some t → t < 65536) (hs : Segment h.proto sport dport (options ++ body) payload)
    (h1 : 140 ≤ payload.length) (h2 : payload.length ≤ 1500) (hb : ∀ x ∈ payload, x < 256)
    (hc : Captured c (ethernet macs tag 0x0800 (ipv4 h options body) trailer)) :
    Delivers (process_packet c old).2 payload h.proto h.src h.dst sport dport :=
  process_ipv4 old (Or.inr ho) hf hm ht hs h1 h2 hb hc

/-! ### The hypotheses can be met -/

/-- A UDP datagram. -/
def udpOf (sport dport : Nat) (payload : List Nat) : List Nat :=
  be16 sport ++ be16 dport ++ be16 (8 + payload.length) ++ be16 0 ++ payload

theorem udpOf_segment {sport dport : Nat} (h1 : sport < 65536) (h2 : dport < 65536) (payload : List Nat) :
    Segment 17 sport dport (udpOf sport dport payload) payload := Segment.udp h1 h2 (by decide)

/-- An Ethernet frame with a UDP packet of 140 bytes, with a trailer of 4 bytes. -/
def udpFrame : List Nat :=
  ethernet (List.replicate 12 2) (some 7) 0x0800 (ipv4 ⟨0, 1, 0, 64, 17, 0, 0xC0A80001, 0xC0A80002⟩ []
    (udpOf 5000 62201 (List.replicate 140 65))) [1, 2, 3, 4]

def udpCap : Cap := ⟨14, 190, 190, fun i => udpFrame.getD i 9⟩

theorem payload140 : ∀ x ∈ List.replicate 140 65, x < 256 := fun x hx => by
  rw [(List.mem_replicate.1 hx).2]
  decide

theorem udpCap_captured : Captured udpCap udpFrame := by
  refine ⟨rfl, by decide +kernel, rfl, fun i h => ?_, by decide +kernel, by decide +kernel⟩
  show udpFrame.getD i 9 = _
  simp [List.getD, h]

example : Delivers (process_packet udpCap []).2 (List.replicate 140 65) 17 0xC0A80001 0xC0A80002 5000 62201 :=
  C49_payload_partial (h := ⟨0, 1, 0, 64, 17, 0, 0xC0A80001, 0xC0A80002⟩) [] (by unfold IpHeader.Fits; decide) rfl
    (fun t h => by cases h; decide) (udpOf_segment (by decide) (by decide) _)
    (by decide +kernel) (by decide +kernel) payload140 udpCap_captured

example : ∃ p, (process_packet udpCap []).2 = some p ∧ p.len = 140 := by
  obtain ⟨p, _, h, _, h2, _⟩ := C49_payload_partial (c := udpCap) (h := ⟨0, 1, 0, 64, 17, 0, 0xC0A80001, 0xC0A80002⟩) [] (by unfold IpHeader.Fits; decide) rfl
    (fun t h => by cases h; decide) (udpOf_segment (by decide) (by decide) _)
    (by decide +kernel) (by decide +kernel) payload140 udpCap_captured
  exact ⟨p, h, h2⟩

example : ∀ i ∈ (process_packet udpCap []).1, i < 190 :=
  C48_reads_in_frame_partial udpCap [] 1500 rfl (by decide) (by decide) (fun _ => by decide)

example : (process_packet udpCap []).1.length = 160 := by decide +kernel

/-- Router alert (4 bytes of options). -/
def optFrame : List Nat :=
  ethernet (List.replicate 12 2) none 0x0800 (ipv4 ⟨0, 1, 0, 64, 17, 0, 0xC0A80001, 0xC0A80002⟩ [148, 4, 0, 0]
    (udpOf 5000 62201 (List.replicate 140 65))) []

example : (process_packet ⟨14, optFrame.length, optFrame.length, fun i => optFrame.getD i 9⟩ []).2 = none :=
  C49_options_dropped (h := ⟨0, 1, 0, 64, 17, 0, 0xC0A80001, 0xC0A80002⟩) (options := [148, 4, 0, 0]) [] rfl
    (fun t h => by cases h) (by decide) (by decide) (by decide)
    ⟨rfl, rfl, rfl, fun i h => by show optFrame.getD i 9 = _; simp only [List.getD, optFrame, List.getElem?_eq_getElem h]; rfl,
      by decide +kernel, by decide +kernel⟩

/-- 8 bytes of options: the real ports are 5000 and 62201. -/
def misFrame : List Nat :=
  ethernet (List.replicate 12 2) none 0x0800 (ipv4 ⟨0, 1, 0, 64, 17, 0, 0xC0A80001, 0xC0A80002⟩
    (be16 77 ++ be16 88 ++ be16 156 ++ be16 0)
    (udpOf 5000 62201 (List.replicate 140 65))) []

example : Delivers (process_packet ⟨14, misFrame.length, misFrame.length, fun i => misFrame.getD i 9⟩ []).2
    (udpOf 5000 62201 (List.replicate 140 65)) 17 0xC0A80001 0xC0A80002 77 88 :=
  C49_options_misread (h := ⟨0, 1, 0, 64, 17, 0, 0xC0A80001, 0xC0A80002⟩) (options := be16 77 ++ be16 88 ++ be16 156 ++ be16 0) []
    (by decide) (by unfold IpHeader.Fits; decide) rfl (fun t h => by cases h)
    (by
      have h : be16 77 ++ be16 88 ++ be16 156 ++ be16 0 ++ udpOf 5000 62201 (List.replicate 140 65) =
        udpOf 77 88 (udpOf 5000 62201 (List.replicate 140 65)) := by decide +kernel
      rw [h]
      exact udpOf_segment (by decide) (by decide) _)
    (by decide +kernel) (by decide +kernel) (by decide +kernel)
    ⟨rfl, rfl, rfl, fun i h => by show misFrame.getD i 9 = _; simp only [List.getD, misFrame, List.getElem?_eq_getElem h]; rfl,
      by decide +kernel, by decide +kernel⟩

/-! ## C70 -/

/-- Addresses, ports, the type and the code fit. -/
structure RawFits (o : RawOpts) : Prop where
  saddr : o.saddr < 2 ^ 32
  daddr : o.daddr < 2 ^ 32
  sport : o.sport < 65536
  dport : o.dport < 65536
  type : o.icmpType < 256
  code : o.icmpCode < 256

theorem net16_be16 {n : Nat} (h : n < 65536) : net16 n = be16 n := by
  unfold net16 be16
  rw [Nat.mod_eq_of_lt (show n / 256 < 256 by omega)]

theorem net32_be32 {n : Nat} (h : n < 2 ^ 32) : net32 n = be32 n := by
  unfold net32 be32
  rw [net16_be16 (by omega), net16_be16 (by omega)]

theorem be32_inj {m n : Nat} (h : be32 m = be32 n) : m = n := by
  simp only [be32, be16, List.cons_append, List.nil_append, List.cons.injEq, and_true] at h
  omega

theorem net32_zero {n : Nat} (h : n < 2 ^ 32) : net32 n = [0, 0, 0, 0] → n = 0 := by
  intro he
  rw [net32_be32 h] at he
  exact be32_inj (he.trans (show [0, 0, 0, 0] = be32 0 from rfl))

/-- What the kernel makes of a raw packet of the client is an IP packet without options. -/
theorem kernel_raw {o : RawOpts} (ho : RawFits o) {proto tot check : Nat} {body wire : List Nat}
    (hk : KernelSends (rawIpHdr o proto tot check ++ body) wire) (hp : proto < 256) :
    ∃ h : IpHeader, h.Fits ∧ h.proto = proto ∧ h.dst = o.daddr ∧ (o.saddr ≠ 0 → h.src = o.saddr) ∧
      wire = ipv4 h [] body := by
  obtain ⟨id, ck, src, h1, h2, h3, h4, h5, h6⟩ := hk
  refine ⟨⟨0, id, 0, 255, proto, ck, src, o.daddr⟩,
    ⟨show 0 < 256 by decide, h1, show 0 < 65536 by decide, show 255 < 256 by decide, hp, h2, h3, ho.daddr⟩, rfl, rfl, ?_, ?_⟩
  · intro hs
    have he : (List.drop 12 (rawIpHdr o proto tot check ++ body)).take 4 = net32 o.saddr := rfl
    rw [he] at h5
    exact be32_inj ((h5 (fun h => hs (net32_zero ho.saddr h))).trans (net32_be32 ho.saddr))
  · have hl : (rawIpHdr o proto tot check ++ body).length = 20 + body.length := by
      simp [rawIpHdr, le16, net32, net16]
      omega
    rw [h6, hl]
    have hd : List.drop 16 (rawIpHdr o proto tot check ++ body) = net32 o.daddr ++ body := rfl
    have ht : List.take 2 (rawIpHdr o proto tot check ++ body) = [4 * 16 + 5, 0] := rfl
    have hm : (List.drop 6 (rawIpHdr o proto tot check ++ body)).take 4 = be16 0 ++ [255, proto] := rfl
    rw [hd, ht, hm, net32_be32 ho.daddr]
    simp [ipv4, be16, be32]

theorem rawPacket_ok {o : RawOpts} {proto : Nat} {hdr data given : Str} (h : rawPacket o proto hdr data = .ok given) :
    ∃ tot check, given = rawIpHdr o proto tot check ++ (hdr ++ data) := by
  unfold rawPacket at h
  simp only at h
  obtain ⟨_, _, h⟩ := bind_eq_ok h
  cases h
  exact ⟨_, _, List.append_assoc _ _ _⟩

/-- **C70** *The packet the client sends for `-P udpraw` arrives: if the kernel sends what it was given and
the frame is captured as a whole, with or without a tag and a trailer, then SPA processing gets exactly
the SPA data, from the ports and the address the client set.* -/
theorem C70_udp {o : RawOpts} (ho : RawFits o) {data given wire macs trailer : List Nat} {tag : Option Nat} {c : Cap}
    (hg : udp_raw o data = .ok given) (hk : KernelSends given wire) (hm : macs.length = 12)
    (ht : ∀ t, tag = some t → t < 65536) (hc : Captured c (ethernet macs tag 0x0800 wire trailer))
    (h1 : 140 ≤ data.length) (h2 : data.length ≤ 1500) (hb : ∀ x ∈ data, x < 256) (old : Str) :
    ∃ src, (o.saddr ≠ 0 → src = o.saddr) ∧
      Delivers (process_packet c old).2 data 17 src o.daddr o.sport o.dport := by
  obtain ⟨tot, ck, rfl⟩ := rawPacket_ok hg
  obtain ⟨h, f, p, d, s, rfl⟩ := kernel_raw ho hk (by decide)
  refine ⟨h.src, s, ?_⟩
  rw [← p, ← d]
  refine C49_payload_partial old f hm ht ?_ h1 h2 hb hc
  rw [p]
  unfold rawUdpHdr
  rw [net16_be16 ho.sport, net16_be16 ho.dport, net16_be16 (by omega), Nat.add_comm]
  exact Segment.udp (check := 0) ho.sport ho.dport (by decide)

/-- **C70** *The same for `-P tcpraw`.* -/
theorem C70_tcp {o : RawOpts} (ho : RawFits o) {data given wire macs trailer : List Nat} {tag : Option Nat} {c : Cap}
    (hg : tcp_raw o data = .ok given) (hk : KernelSends given wire) (hm : macs.length = 12)
    (ht : ∀ t, tag = some t → t < 65536) (hc : Captured c (ethernet macs tag 0x0800 wire trailer))
    (h1 : 140 ≤ data.length) (h2 : data.length ≤ 1500) (hb : ∀ x ∈ data, x < 256) (old : Str) :
    ∃ src, (o.saddr ≠ 0 → src = o.saddr) ∧
      Delivers (process_packet c old).2 data 6 src o.daddr o.sport o.dport := by
  obtain ⟨tot, ck, rfl⟩ := rawPacket_ok hg
  obtain ⟨h, f, p, d, s, rfl⟩ := kernel_raw ho hk (by decide)
  refine ⟨h.src, s, ?_⟩
  rw [← p, ← d]
  refine C49_payload_partial old f hm ht ?_ h1 h2 hb hc
  rw [p]
  unfold rawTcpHdr
  rw [net16_be16 ho.sport, net16_be16 ho.dport, net32_be32 (show 1 < 2 ^ 32 by decide), net32_be32 (show 0 < 2 ^ 32 by decide),
    net16_be16 (show 32767 < 65536 by decide)]
  have := Segment.tcp (seq := 1) (ack := 0) (flags := 2) (window := 32767) (check := 0) (urgent := 0) (options := [])
    (payload := data) ho.sport ho.dport (by decide) (by decide)
  rw [List.append_nil] at this
  exact this

theorem icmp_rest (o : RawOpts) (check : Nat) : ∃ rest, rest.length = 4 ∧ (∀ x ∈ rest, x < 256) ∧
    rawIcmpHdr o check = [o.icmpType, o.icmpCode] ++ le16 check ++ rest := by
  unfold rawIcmpHdr
  by_cases h : o.icmpType = 8 ∧ o.icmpCode = 0
  · rw [if_pos h]
    refine ⟨_, rfl, ?_, rfl⟩
    intro x hx
    simp only [net16, List.cons_append, List.nil_append, List.mem_cons, List.not_mem_nil, or_false] at hx
    omega
  · rw [if_neg h]
    exact ⟨_, rfl, by decide, rfl⟩

theorem le16_be16 {n : Nat} (h : n < 65536) : le16 n = be16 (n % 256 * 256 + n / 256) := by
  unfold le16 be16
  rw [Nat.mod_eq_of_lt (show n / 256 < 256 by omega)]
  congr 1
  · omega
  · congr 1
    omega

/-- **C70** *The same for `-P icmp`; there are no ports.* -/
theorem C70_icmp {o : RawOpts} (ho : RawFits o) {data given wire macs trailer : List Nat} {tag : Option Nat} {c : Cap}
    (hg : icmp_raw o data = .ok given) (hk : KernelSends given wire) (hm : macs.length = 12)
    (ht : ∀ t, tag = some t → t < 65536) (hc : Captured c (ethernet macs tag 0x0800 wire trailer))
    (h1 : 140 ≤ data.length) (h2 : data.length ≤ 1500) (hb : ∀ x ∈ data, x < 256) (old : Str) :
    ∃ src, (o.saddr ≠ 0 → src = o.saddr) ∧ Delivers (process_packet c old).2 data 1 src o.daddr 0 0 := by
  unfold icmp_raw at hg
  simp only at hg
  obtain ⟨_, _, hg⟩ := bind_eq_ok hg
  cases hg
  rw [List.append_assoc] at hk
  obtain ⟨h, f, p, d, s, rfl⟩ := kernel_raw ho hk (by decide)
  refine ⟨h.src, s, ?_⟩
  rw [← p, ← d]
  refine C49_payload_partial old f hm ht ?_ h1 h2 hb hc
  rw [p]
  obtain ⟨rest, hr, _, he⟩ := icmp_rest o (chksum (rawIcmpHdr o 0 ++ data))
  rw [he, le16_be16 (by unfold chksum; simp only; omega)]
  exact Segment.icmp hr

/-- **C70** *SPA data of up to 1500 bytes fits into the array in which the packet is put together.* -/
theorem C70_fits (o : RawOpts) (data : Str) (h : data.length ≤ 1500) :
    (∃ g, udp_raw o data = .ok g) ∧ (∃ g, tcp_raw o data = .ok g) ∧ ∃ g, icmp_raw o data = .ok g := by
  refine ⟨?_, ?_, ?_⟩
  · unfold udp_raw rawPacket
    simp only
    rw [Res.mem_of_not (by simp [rawUdpHdr, net16]; omega)]
    exact ⟨_, rfl⟩
  · unfold tcp_raw rawPacket
    simp only
    rw [Res.mem_of_not (by simp [rawTcpHdr, net16, net32]; omega)]
    exact ⟨_, rfl⟩
  · unfold icmp_raw
    simp only
    rw [Res.mem_of_not (by omega)]
    exact ⟨_, rfl⟩

/-! ## C71 -/

/-- **C71** *The ICMP message the client sends has a correct checksum: the ones' complement sum of its 16-bit
words is 0xffff (RFC 792, RFC 1071), whatever the data, the type and the code.* -/
theorem C71_icmp_checksum {o : RawOpts} (ho : RawFits o) {data given : List Nat} (hg : icmp_raw o data = .ok given)
    (hl : data.length ≤ 1500) (hb : ∀ x ∈ data, x < 256) : onesSum (given.drop 20) = 0xffff := by
  unfold icmp_raw at hg
  simp only at hg
  obtain ⟨_, _, hg⟩ := bind_eq_ok hg
  cases hg
  rw [List.append_assoc]
  show onesSum (rawIcmpHdr o (chksum (rawIcmpHdr o 0 ++ data)) ++ data) = 65535
  obtain ⟨rest, hr, hrb, he⟩ := icmp_rest o 0
  generalize hck : chksum (rawIcmpHdr o 0 ++ data) = ck
  have he' : rawIcmpHdr o ck = [o.icmpType, o.icmpCode] ++ le16 ck ++ rest := by
    have : rest = (rawIcmpHdr o 0).drop 4 := by rw [he]; rfl
    rw [this]
    rfl
  have hw : ∀ n, n < 65536 → wordSum ([o.icmpType, o.icmpCode] ++ le16 n ++ rest ++ data) =
      o.icmpType + 256 * o.icmpCode + (n + wordSum (rest ++ data)) := by
    intro n hn
    show o.icmpType + 256 * o.icmpCode + (n % 256 + 256 * (n / 256 % 256) + wordSum (rest ++ data)) = _
    omega
  have hbytes : ∀ x ∈ rest ++ data, x < 256 := by
    intro x hx
    rcases List.mem_append.1 hx with h | h
    · exact hrb x h
    · exact hb x h
  have hsum := wordSum_le _ hbytes
  rw [List.length_append, hr] at hsum
  have ht := ho.type
  have hcd := ho.code
  have h0 := hw 0 (by decide)
  rw [← he] at h0
  obtain ⟨m1, m2, m3⟩ := chksum_mod (rawIcmpHdr o 0 ++ data) (by rw [h0]; omega)
  rw [hck] at m1 m2 m3
  have hwk := hw ck (by omega)
  rw [he']
  apply onesSum_full
  · intro x hx
    simp only [le16, List.cons_append, List.nil_append, List.mem_cons] at hx
    rcases hx with h | h | h | h | h
    · omega
    · omega
    · omega
    · omega
    · exact hbytes x h
  · rw [hwk]
    omega
  · rw [hwk]
    rw [h0] at m1
    rw [← m1]
    congr 1
    omega

/-! ### The hypotheses can be met -/

/-- An echo request to 192.168.0.2. -/
def echoOpts : RawOpts := ⟨0, 0xC0A80002, 5000, 62201, 77, 99, 8, 0⟩

theorem echoOpts_fits : RawFits echoOpts := ⟨by decide, by decide, by decide, by decide, by decide, by decide⟩

/-- What the kernel sends for a packet given to it. -/
def wireOf (given : List Nat) : List Nat :=
  given.take 2 ++ be16 given.length ++ (given.drop 4).take 2 ++ (given.drop 6).take 4 ++ be16 0x1234 ++ be32 0xC0A80001 ++
    given.drop 16

example : ∃ given, icmp_raw echoOpts (List.replicate 141 65) = .ok given ∧ onesSum (given.drop 20) = 0xffff := by
  obtain ⟨g, h⟩ := (C70_fits echoOpts (List.replicate 141 65) (by decide +kernel)).2.2
  exact ⟨g, h, C71_icmp_checksum echoOpts_fits h (by decide +kernel) (by decide +kernel)⟩

/-- The packet given to the kernel for UDP. -/
def udpGiven : List Nat := match udp_raw echoOpts (List.replicate 140 65) with | .ok g => g | _ => []

def udpGivenFrame : List Nat := ethernet (List.replicate 12 2) none 0x0800 (wireOf udpGiven) [0, 0, 0, 0]

example : ∃ src, Delivers (process_packet ⟨14, udpGivenFrame.length, udpGivenFrame.length, fun i => udpGivenFrame.getD i 9⟩ []).2
    (List.replicate 140 65) 17 src 0xC0A80002 5000 62201 := by
  have hg : udp_raw echoOpts (List.replicate 140 65) = .ok udpGiven := by
    obtain ⟨g, h⟩ := (C70_fits echoOpts (List.replicate 140 65) (by decide +kernel)).1
    unfold udpGiven
    rw [h]
  have hk : KernelSends udpGiven (wireOf udpGiven) :=
    ⟨0x4d00, 0x1234, 0xC0A80001, by decide, by decide, by decide, fun _ => by decide +kernel,
      fun h => absurd (show (udpGiven.drop 12).take 4 = [0, 0, 0, 0] by decide +kernel) h, by decide +kernel⟩
  obtain ⟨src, _, h⟩ := C70_udp echoOpts_fits (tag := none) (macs := List.replicate 12 2) (trailer := [0, 0, 0, 0]) hg hk rfl (fun t h => by cases h)
    (c := ⟨14, udpGivenFrame.length, udpGivenFrame.length, fun i => udpGivenFrame.getD i 9⟩)
    ⟨rfl, rfl, rfl, fun i h => by
      show udpGivenFrame.getD i 9 = _
      simp only [List.getD, udpGivenFrame, List.getElem?_eq_getElem h]
      rfl, by decide +kernel, by decide +kernel⟩
    (by decide +kernel) (by decide +kernel) payload140 []
  exact ⟨src, h⟩

end Fwknop.Props
