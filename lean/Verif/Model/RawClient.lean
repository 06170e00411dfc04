import Verif.Model.Packet

/-!
# Raw packets of the client (client/spa_comm.c)

What is modelled is the text that is given to `sendto`: the 2048 bytes of `pkt_data` up to the total length.
The machine is little-endian.  Addresses and ports of `saddr` and `daddr` are in network order in
memory, first the most significant byte; they are given here as numbers.
-/

namespace Fwknop

/-- A number of two bytes in memory, in host order. -/
def le16 (n : Nat) : Str := [n % 256, n / 256 % 256]

/-- A number of two bytes in memory, in network order. -/
def net16 (n : Nat) : Str := [n / 256 % 256, n % 256]

/-- A number of four bytes in memory, in network order. -/
def net32 (n : Nat) : Str := net16 (n / 65536) ++ net16 (n % 65536)

/-- The sum of the words in `chksum`, client/spa_comm.c:62-74.  For a single byte at the end a word is
read; the byte behind it is in the rest of the array, which is 0. -/
def wordSum : Str → Nat
  | a :: b :: s => a + 256 * b + wordSum s
  | [a] => a
  | [] => 0

/-- `chksum`, client/spa_comm.c:56-80.  The sum does not wrap: there are at most 2048 bytes. -/
def chksum (s : Str) : Nat :=
  let sum := wordSum s
  let sum := sum / 65536 + sum % 65536
  let sum := sum + sum / 65536
  (65535 - sum % 65536)

/-- The addresses, ports and random numbers of a raw packet. -/
structure RawOpts where
  saddr : Nat
  daddr : Nat
  sport : Nat
  dport : Nat
  /-- `random() & 0xffff` for the IP header and for an echo request -/
  id : Nat
  echoId : Nat
  icmpType : Nat
  icmpCode : Nat

/-- The IP header with a checksum, client/spa_comm.c:247-260 (and 361-374, 461-474).  The total length and
the checksum are in host order. -/
def rawIpHdr (o : RawOpts) (proto tot_len check : Nat) : Str :=
  [4 * 16 + 5, 0] ++ le16 tot_len ++ le16 o.id ++ le16 0 ++ [255, proto] ++ le16 check ++ net32 o.saddr ++ net32 o.daddr

/-- The TCP header, client/spa_comm.c:264-281. -/
def rawTcpHdr (o : RawOpts) : Str :=
  net16 o.sport ++ net16 o.dport ++ net32 1 ++ net32 0 ++ [5 * 16, 2] ++ net16 32767 ++ [0, 0] ++ [0, 0]

/-- The UDP header, client/spa_comm.c:378-381. -/
def rawUdpHdr (o : RawOpts) (sd_len : Nat) : Str :=
  net16 o.sport ++ net16 o.dport ++ net16 (sd_len + 8) ++ [0, 0]

/-- The ICMP header with a checksum, client/spa_comm.c:478-486, 491. -/
def rawIcmpHdr (o : RawOpts) (check : Nat) : Str :=
  [o.icmpType, o.icmpCode] ++ le16 check ++
    (if o.icmpType = 8 ∧ o.icmpCode = 0 then net16 o.echoId ++ net16 1 else [0, 0, 0, 0])

/-- A packet of IP with a transport header of the given text, client/spa_comm.c:240-285: the data is
copied into `pkt_data[2048]`, the header is filled in and the checksum is that of the whole packet. -/
def rawPacket (o : RawOpts) (proto : Nat) (hdr data : Str) : Res Str := do
  let tot_len := 20 + hdr.length + data.length
  Res.mem (tot_len > 2048)
  let check := chksum (rawIpHdr o proto tot_len 0 ++ hdr ++ data)
  return rawIpHdr o proto tot_len check ++ hdr ++ data

/-- `send_spa_packet_tcp_raw`, client/spa_comm.c:203-313. -/
def tcp_raw (o : RawOpts) (data : Str) : Res Str := rawPacket o 6 (rawTcpHdr o) data

/-- `send_spa_packet_udp_raw`, client/spa_comm.c:317-413. -/
def udp_raw (o : RawOpts) (data : Str) : Res Str := rawPacket o 17 (rawUdpHdr o data.length) data

/-- `send_spa_packet_icmp`, client/spa_comm.c:417-517: the checksum of the IP header is computed before
that of ICMP. -/
def icmp_raw (o : RawOpts) (data : Str) : Res Str := do
  let tot_len := 28 + data.length
  Res.mem (tot_len > 2048)
  let check := chksum (rawIpHdr o 1 tot_len 0 ++ rawIcmpHdr o 0 ++ data)
  return rawIpHdr o 1 tot_len check ++ rawIcmpHdr o (chksum (rawIcmpHdr o 0 ++ data)) ++ data

end Fwknop
