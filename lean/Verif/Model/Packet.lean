import Verif.Model.Incoming

/-!
# Captured frames (server/process_packet.c)

The memory from the start of the frame on is a function from offsets to bytes, also behind the end of
the frame, where the bytes can be anything.  The functions say which offsets they read.  The machine is
little-endian (for the bit-fields of the headers).
-/

namespace Fwknop

/-- A captured frame: `offset` is the length of the link header (`opts->data_link_offset`,
server/pcap_capture.c:139-163), `len` and `caplen` are those of the capture library, `mem` is the memory
from `packet` on. -/
structure Cap where
  offset : Nat
  len : Nat
  caplen : Nat
  mem : Nat → Nat

def Cap.byte (c : Cap) (i : Nat) : Nat := c.mem i % 256

/-- `ntohs` of the two bytes at an offset. -/
def Cap.be16 (c : Cap) (i : Nat) : Nat := c.byte i * 256 + c.byte (i + 1)

/-- The four bytes at an offset, first the most significant. -/
def Cap.be32 (c : Cap) (i : Nat) : Nat := c.be16 i * 65536 + c.be16 (i + 2)

abbrev ETHER_HDR_LEN : Nat := 14
abbrev ETHER_CRC_LEN : Nat := 4
abbrev ETHER_MIN_LEN : Nat := 64
abbrev ETHER_MAX_LEN : Nat := 1518

/-- server/process_packet.h:42-43. -/
abbrev IPV4_VER_MASK : Nat := 0x15
abbrev MIN_IPV4_WORDS : Nat := 5

/-- 802.1q, server/process_packet.c:106. -/
def Cap.tagged (c : Cap) : Bool := c.be16 12 = 0x8100

/-- `eth_type`, server/process_packet.c:104-110. -/
def Cap.ethType (c : Cap) : Nat := if c.tagged then c.be16 16 else c.be16 12

/-- What is read for it. -/
def Cap.ethReads (c : Cap) : List Nat := if c.tagged then [12, 13, 16, 17] else [12, 13]

/-- Ethernet II or the cooked interface, server/process_packet.c:98, 115. -/
def Cap.etherII (c : Cap) : Bool := c.ethType > 1500 || c.offset = 16

/-- `pkt_len`, server/process_packet.c:75, 117 (an unsigned short). -/
def Cap.pktLen (c : Cap) : Nat :=
  if c.etherII then (c.len % 65536 + ETHER_CRC_LEN) % 65536 else c.len % 65536

/-- `offset`, server/process_packet.c:108, 115-123. -/
def Cap.ipOffset (c : Cap) : Nat :=
  let o := if c.tagged then c.offset + 4 else c.offset
  if c.etherII then (if c.ethType = 0xAAAA then o + 5 else o) else o + 3

/-- What the transport header says: what is read of it, the ports, and where the data starts. -/
structure Transport where
  reads : List Nat
  src_port : Nat
  dst_port : Nat
  data : Nat

/-- server/process_packet.c:164-197; `th` is where the header is. -/
def Cap.transport (c : Cap) (proto th : Nat) : Option Transport :=
  if proto = 6 then
    some ⟨[th, th + 1, th + 2, th + 3, th + 12], c.be16 th, c.be16 (th + 2), th + c.byte (th + 12) / 16 * 4⟩
  else if proto = 17 then some ⟨[th, th + 1, th + 2, th + 3], c.be16 th, c.be16 (th + 2), th + 8⟩
  else if proto = 1 then some ⟨[], 0, 0, th + 8⟩
  else none

/-- `pkt_data_len`, an unsigned short, server/process_packet.c:175, 187, 196. -/
def Cap.dataLen (tot_len ip data : Nat) : Nat := (((tot_len : Int) - ((data : Int) - ip)) % 65536).toNat

/-- The packet that is handed on, server/process_packet.c:213-233; `old` is the array `packet_data`
before. -/
def Cap.deliver (c : Cap) (old : Str) (ip : Nat) (t : Transport) : List Nat × Option Pkt :=
  let n := Cap.dataLen (c.be16 (ip + 2)) ip t.data
  if n < MIN_SPA_DATA_SIZE then ([], none)
  else if n > MAX_SPA_PACKET_LEN then ([], none)
  else ((List.range n).map (t.data + ·),
    some { data := (List.range n).map (fun i => c.byte (t.data + i)) ++ 0 :: old.drop (n + 1)
           len := n
           proto := c.byte (ip + 9)
           src_ip := c.be32 (ip + 12)
           dst_ip := c.be32 (ip + 16)
           src_port := t.src_port
           dst_port := t.dst_port })

/-- What is read of the IP header: its length, the length of the packet, the protocol, the addresses. -/
def ipReads (ip : Nat) : List Nat :=
  [ip, ip + 2, ip + 3, ip + 9] ++ [ip + 12, ip + 13, ip + 14, ip + 15] ++ [ip + 16, ip + 17, ip + 18, ip + 19]

/-- The part of `process_packet` from the IP header on, server/process_packet.c:130-233. -/
def Cap.ipPart (c : Cap) (old : Str) (ip : Nat) : List Nat × Option Pkt :=
  if ip + 20 > c.caplen then ([], none)
  else
    let words := (c.byte ip % 16) &&& IPV4_VER_MASK
    if words < MIN_IPV4_WORDS then ([ip], none)
    else if ip + c.be16 (ip + 2) > c.caplen then ([ip, ip + 2, ip + 3], none)
    else
      match c.transport (c.byte (ip + 9)) (ip + words * 4) with
      | none => (ipReads ip, none)
      | some t => (ipReads ip ++ t.reads ++ (c.deliver old ip t).1, (c.deliver old ip t).2)

/-- `process_packet`, server/process_packet.c:44-236: the offsets that are read, in order, and the packet
handed on to `incoming_spa`, if any.  The capture library is libpcap or NFQ (then `len` = `caplen`). -/
def process_packet (c : Cap) (old : Str) : List Nat × Option Pkt :=
  if c.caplen < ETHER_HDR_LEN then ([], none)
  else if ¬ (ETHER_MIN_LEN ≤ c.pktLen ∧ c.pktLen ≤ ETHER_MAX_LEN) then (c.ethReads, none)
  else (c.ethReads ++ (c.ipPart old c.ipOffset).1, (c.ipPart old c.ipOffset).2)

end Fwknop
