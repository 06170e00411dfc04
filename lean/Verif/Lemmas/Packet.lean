import Verif.Model.RawClient
import Verif.Spec.Packet

/-!
# Lemmas: frames
-/

namespace Fwknop

open Spec

/-- The memory of a capture starts with these bytes. -/
def Cap.Holds (c : Cap) (frame : List Nat) : Prop := ∀ i (h : i < frame.length), c.mem i = frame[i]

theorem Cap.Holds.right {c : Cap} {a b : List Nat} (h : c.Holds (a ++ b)) (i : Nat) (hi : i < b.length) :
    c.mem (a.length + i) = b[i] := by
  rw [h (a.length + i) (by simp; omega), List.getElem_append_right (by omega)]
  simp

theorem Cap.byte_right {c : Cap} {a b : List Nat} (h : c.Holds (a ++ b)) {n i x : Nat} (hn : n = a.length + i)
    (hx : b[i]? = some x) (h256 : x < 256) : c.byte n = x := by
  obtain ⟨hi, he⟩ := List.getElem?_eq_some_iff.1 hx
  unfold Cap.byte
  rw [hn, h.right i hi, he, Nat.mod_eq_of_lt h256]

theorem Cap.be16_right {c : Cap} {a b : List Nat} (h : c.Holds (a ++ b)) {n i x : Nat} (hn : n = a.length + i)
    (hx : b[i]? = some (x / 256)) (hy : b[i + 1]? = some (x % 256)) (hlt : x < 65536) : c.be16 n = x := by
  unfold Cap.be16
  rw [Cap.byte_right h hn hx (by omega), Cap.byte_right h (i := i + 1) (by omega) hy (by omega)]
  omega

theorem Cap.be32_right {c : Cap} {a b : List Nat} (h : c.Holds (a ++ b)) {n i x : Nat} (hn : n = a.length + i)
    (h1 : b[i]? = some (x / 65536 / 256)) (h2 : b[i + 1]? = some (x / 65536 % 256))
    (h3 : b[i + 2]? = some (x % 65536 / 256)) (h4 : b[i + 3]? = some (x % 65536 % 256)) (hlt : x < 2 ^ 32) :
    c.be32 n = x := by
  unfold Cap.be32
  rw [Cap.be16_right h hn h1 h2 (by omega), Cap.be16_right h (i := i + 2) (by omega) h3 h4 (by omega)]
  omega

theorem Cap.text_right {c : Cap} {a b : List Nat} (h : c.Holds (a ++ b)) {n m : Nat} (hn : n = a.length)
    (hm : m ≤ b.length) (hb : ∀ x ∈ b, x < 256) : (List.range m).map (fun i => c.byte (n + i)) = b.take m := by
  apply List.ext_getElem (by simp; omega)
  intro i h1 h2
  simp only [List.length_map, List.length_range] at h1
  simp only [List.getElem_map, List.getElem_range, List.getElem_take]
  exact Cap.byte_right h (by omega) (List.getElem?_eq_getElem (by omega)) (hb _ (List.getElem_mem _))

/-- The result of the IP part for the words of its header. -/
theorem ipPart_eq {c : Cap} {old : Str} {ip : Nat} (hcap : ip + 20 ≤ c.caplen)
    (hw : (c.byte ip % 16) &&& IPV4_VER_MASK = 5) (hend : ip + c.be16 (ip + 2) ≤ c.caplen) {t : Transport}
    (ht : c.transport (c.byte (ip + 9)) (ip + 20) = some t) : (c.ipPart old ip).2 = (c.deliver old ip t).2 := by
  unfold Cap.ipPart
  rw [if_neg (by omega)]
  simp only
  rw [hw, if_neg (by decide), if_neg (by omega), show ip + 5 * 4 = ip + 20 from rfl, ht]

theorem mask_words : ∀ n < 16, (n &&& IPV4_VER_MASK = 5 ↔ n = 5 ∨ n = 7 ∨ n = 13 ∨ n = 15) ∧
    (n &&& IPV4_VER_MASK < MIN_IPV4_WORDS ∨ n &&& IPV4_VER_MASK = 5) := by decide

theorem deliver_eq {c : Cap} {old : Str} {ip : Nat} {t : Transport} {tot n : Nat} (ht : c.be16 (ip + 2) = tot)
    (hd : ip ≤ t.data) (hn : t.data - ip + n = tot) (h1 : 140 ≤ n) (h2 : n ≤ 1500) :
    (c.deliver old ip t).2 = some {
      data := (List.range n).map (fun i => c.byte (t.data + i)) ++ 0 :: old.drop (n + 1)
      len := n
      proto := c.byte (ip + 9)
      src_ip := c.be32 (ip + 12)
      dst_ip := c.be32 (ip + 16)
      src_port := t.src_port
      dst_port := t.dst_port } := by
  have hlen : Cap.dataLen (c.be16 (ip + 2)) ip t.data = n := by
    unfold Cap.dataLen
    rw [ht]
    omega
  unfold Cap.deliver
  simp only
  rw [hlen, if_neg (show ¬ n < 140 by omega), if_neg (show ¬ n > 1500 by omega)]

/-! ## Ethernet -/

/-- The length of the headers before the IP packet. -/
def linkLen : Option Nat → Nat
  | none => 14
  | some _ => 18

theorem ethernet_link {c : Cap} {macs : List Nat} {tag : Option Nat} {body trailer : List Nat}
    (h : c.Holds (ethernet macs tag 0x0800 body trailer)) (hm : macs.length = 12) (ht : ∀ t, tag = some t → t < 65536)
    (ho : c.offset = 14) (hl : c.len = (ethernet macs tag 0x0800 body trailer).length)
    (hc : c.caplen = c.len) (h60 : 60 ≤ c.len) (h1514 : c.len ≤ 1514) (old : Str) :
    (process_packet c old).2 = (c.ipPart old (linkLen tag)).2 := by
  have hcl : (c.tagged = match tag with | none => false | some _ => true) ∧ c.ethType = 0x0800 := by
    cases tag with
    | none =>
      have h12 : c.be16 12 = 0x0800 := by
        refine Cap.be16_right (a := macs) (b := be16 0x0800 ++ body ++ trailer) ?_ (i := 0) (by omega) rfl rfl (by decide)
        simpa [ethernet] using h
      have ht' : c.tagged = false := by unfold Cap.tagged; rw [h12]; rfl
      exact ⟨ht', by unfold Cap.ethType; rw [ht', if_neg (by decide), h12]⟩
    | some t =>
      have hh : c.Holds (macs ++ (be16 0x8100 ++ be16 t ++ be16 0x0800 ++ body ++ trailer)) := by
        simpa [ethernet] using h
      have h12 : c.be16 12 = 0x8100 := Cap.be16_right hh (i := 0) (by omega) rfl rfl (by decide)
      have h16 : c.be16 16 = 0x0800 := Cap.be16_right hh (i := 4) (by omega) rfl rfl (by decide)
      have ht' : c.tagged = true := by unfold Cap.tagged; rw [h12]; rfl
      exact ⟨ht', by unfold Cap.ethType; rw [ht', if_pos rfl, h16]⟩
  obtain ⟨htag, hty⟩ := hcl
  have hII : c.etherII = true := by unfold Cap.etherII; rw [hty]; rfl
  have hlen : c.pktLen = c.len + 4 := by
    unfold Cap.pktLen
    rw [hII, if_pos rfl, Nat.mod_eq_of_lt (show c.len < 65536 by omega)]
    exact Nat.mod_eq_of_lt (show c.len + 4 < 65536 by omega)
  have hip : c.ipOffset = linkLen tag := by
    unfold Cap.ipOffset
    simp only
    rw [hII, if_pos rfl, hty, if_neg (by decide), htag, ho]
    cases tag <;> rfl
  unfold process_packet
  rw [if_neg (show ¬ c.caplen < 14 by omega), if_neg (by
    rw [hlen]; exact not_not_intro ⟨show 64 ≤ c.len + 4 by omega, show c.len + 4 ≤ 1518 by omega⟩), hip]

/-- The frame up to the IP packet. -/
theorem ethernet_split (macs : List Nat) (tag : Option Nat) (body trailer : List Nat) (hm : macs.length = 12) :
    ∃ pre, pre.length = linkLen tag ∧ ethernet macs tag 0x0800 body trailer = pre ++ (body ++ trailer) := by
  cases tag with
  | none => exact ⟨macs ++ be16 0x0800, by simp [be16, linkLen, hm], by simp [ethernet]⟩
  | some t => exact ⟨macs ++ be16 0x8100 ++ be16 t ++ be16 0x0800, by simp [be16, linkLen, hm], by simp [ethernet]⟩

/-! ## The transport header -/

theorem segment_length {proto sport dport : Nat} {body payload : List Nat} (h : Segment proto sport dport body payload) :
    ∃ hdr, body = hdr ++ payload ∧ 8 ≤ hdr.length := by
  cases h with
  | udp _ _ _ => exact ⟨_, rfl, by simp [be16]⟩
  | tcp _ _ _ _ => exact ⟨_, rfl, by simp [be16, be32]⟩
  | icmp h => exact ⟨_, rfl, by simp [be16, h]⟩

theorem transport_segment {c : Cap} {pre trailer : List Nat} {proto sport dport : Nat} {body payload : List Nat}
    (hs : Segment proto sport dport body payload) (h : c.Holds (pre ++ (body ++ trailer))) :
    ∃ t hdr, c.transport proto pre.length = some t ∧ body = hdr ++ payload ∧ t.data = pre.length + hdr.length ∧
      t.src_port = sport ∧ t.dst_port = dport := by
  cases hs with
  | @udp _ _ check _ h1 h2 _ =>
    refine ⟨_, be16 sport ++ be16 dport ++ be16 (8 + payload.length) ++ be16 check, rfl, rfl, rfl, ?_, ?_⟩
    · exact Cap.be16_right h (i := 0) rfl rfl rfl h1
    · exact Cap.be16_right h (i := 2) rfl rfl rfl h2
  | @tcp _ _ seq ack flags window check urgent options _ h1 h2 h3 h4 =>
    refine ⟨_, be16 sport ++ be16 dport ++ be32 seq ++ be32 ack ++
        [(5 + options.length / 4) * 16, flags] ++ be16 window ++ be16 check ++ be16 urgent ++ options, rfl, rfl, ?_, ?_, ?_⟩
    · have : c.byte (pre.length + 12) = (5 + options.length / 4) * 16 :=
        Cap.byte_right h (i := 12) rfl rfl (by omega)
      simp only
      rw [this]
      simp only [be16, be32, List.length_append, List.length_cons, List.length_nil]
      omega
    · exact Cap.be16_right h (i := 0) rfl rfl rfl h1
    · exact Cap.be16_right h (i := 2) rfl rfl rfl h2
  | @icmp type code check rest _ h4 =>
    refine ⟨_, [type, code] ++ be16 check ++ rest, rfl, rfl, ?_, rfl, rfl⟩
    simp [be16, h4]

/-! ## Whole packets -/

/-- What the IP part makes of a packet whose header length is taken for 5 words: `body` is what it takes
for the transport segment. -/
theorem ipPart_packet {c : Cap} {old pre first trailer : List Nat} {h : IpHeader} {tot sport dport : Nat} {body payload : List Nat}
    {ihl : Nat} (hw : ihl % 16 = 5 ∨ ihl % 16 = 7 ∨ ihl % 16 = 13 ∨ ihl % 16 = 15) (hihl : ihl < 256)
    (hfirst : first = [ihl, h.tos] ++ be16 tot ++ be16 h.id ++ be16 h.frag ++ [h.ttl, h.proto] ++ be16 h.check ++
      be32 h.src ++ be32 h.dst)
    (hf : h.Fits) (htot : tot = 20 + body.length) (hs : Segment h.proto sport dport body payload)
    (hold : c.Holds (pre ++ (first ++ (body ++ trailer)))) (hcap : c.caplen = (pre ++ (first ++ (body ++ trailer))).length)
    (h1 : 140 ≤ payload.length) (h2 : payload.length ≤ 1500) (hb : ∀ x ∈ payload, x < 256) (htl : tot < 65536) :
    (c.ipPart old pre.length).2 = some {
      data := payload ++ 0 :: old.drop (payload.length + 1)
      len := payload.length
      proto := h.proto
      src_ip := h.src
      dst_ip := h.dst
      src_port := sport
      dst_port := dport } := by
  obtain ⟨f1, f2, f3, f4, f5, f6, f7, f8⟩ := hf
  have hlen : first.length = 20 := by rw [hfirst]; simp [be16, be32]
  rw [hfirst] at hold
  have hip : c.byte pre.length = ihl := Cap.byte_right hold (i := 0) rfl rfl hihl
  have htl' : c.be16 (pre.length + 2) = tot := Cap.be16_right hold (i := 2) rfl rfl rfl htl
  have hpr : c.byte (pre.length + 9) = h.proto := Cap.byte_right hold (i := 9) rfl rfl f5
  have hsrc : c.be32 (pre.length + 12) = h.src := Cap.be32_right hold (i := 12) rfl rfl rfl rfl rfl f7
  have hdst : c.be32 (pre.length + 16) = h.dst := Cap.be32_right hold (i := 16) rfl rfl rfl rfl rfl f8
  rw [← hfirst] at hold
  have hold' : c.Holds ((pre ++ first) ++ (body ++ trailer)) := by simpa using hold
  obtain ⟨t, hdr, t1, t2, t3, t4, t5⟩ := transport_segment hs hold'
  have hpl : (pre ++ first).length = pre.length + 20 := by simp [hlen]
  rw [hpl] at t1 t3
  simp only [List.length_append, hlen] at hcap
  rw [ipPart_eq (by omega) (by rw [hip]; exact ((mask_words (ihl % 16) (by omega)).1).2 hw) (by rw [htl']; omega)
    (by rw [hpr]; exact t1)]
  have hbl : body.length = hdr.length + payload.length := by rw [t2]; simp
  rw [deliver_eq htl' (by omega) (n := payload.length) (by omega) h1 h2, hpr, hsrc, hdst, t4, t5]
  congr 2
  congr 1
  have hold2 : c.Holds ((pre ++ first ++ hdr) ++ (payload ++ trailer)) := by
    rw [t2] at hold'
    simpa using hold'
  have ht3 : t.data = (pre ++ first ++ hdr).length := by rw [t3, List.length_append, hpl]
  have := Cap.text_right (c := c) (a := pre ++ first ++ hdr) (b := payload) (fun i hi => by
    rw [hold2 i (by simp only [List.length_append] at hi ⊢; omega)]
    simp only [← List.append_assoc]
    rw [List.getElem_append_left]) ht3 (Nat.le_refl _) hb
  rw [this, List.take_length]

end Fwknop
