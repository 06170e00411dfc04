import Verif.Model.Incoming

/-!
# Frames, IPv4 packets and their transport headers (RFC 791, 792, 768, 9293, IEEE 802.3 and 802.1Q)
-/

namespace Fwknop.Spec

/-- A number of two bytes, first the most significant. -/
def be16 (n : Nat) : List Nat := [n / 256, n % 256]

/-- A number of four bytes, first the most significant. -/
def be32 (n : Nat) : List Nat := be16 (n / 65536) ++ be16 (n % 65536)

/-- The fields of an IPv4 header other than the lengths. -/
structure IpHeader where
  tos : Nat
  id : Nat
  frag : Nat
  ttl : Nat
  proto : Nat
  check : Nat
  src : Nat
  dst : Nat

/-- The fields fit. -/
def IpHeader.Fits (h : IpHeader) : Prop :=
  h.tos < 256 ∧ h.id < 65536 ∧ h.frag < 65536 ∧ h.ttl < 256 ∧ h.proto < 256 ∧ h.check < 65536 ∧
    h.src < 2 ^ 32 ∧ h.dst < 2 ^ 32

/-- An IPv4 packet: version 4, the header length in words, the total length, … -/
def ipv4 (h : IpHeader) (options body : List Nat) : List Nat :=
  [4 * 16 + (5 + options.length / 4), h.tos] ++ be16 (20 + options.length + body.length) ++ be16 h.id ++ be16 h.frag ++
    [h.ttl, h.proto] ++ be16 h.check ++ be32 h.src ++ be32 h.dst ++ options ++ body

/-- `Segment proto sport dport body payload`: the body of an IP packet of protocol `proto` is a UDP
datagram or TCP segment with these ports, or an ICMP message, with this payload. -/
inductive Segment : Nat → Nat → Nat → List Nat → List Nat → Prop where
  | udp {sport dport check : Nat} {payload : List Nat} : sport < 65536 → dport < 65536 → check < 65536 →
      Segment 17 sport dport (be16 sport ++ be16 dport ++ be16 (8 + payload.length) ++ be16 check ++ payload) payload
  | tcp {sport dport seq ack flags window check urgent : Nat} {options payload : List Nat} : sport < 65536 →
      dport < 65536 → options.length ≤ 40 → options.length % 4 = 0 →
      Segment 6 sport dport (be16 sport ++ be16 dport ++ be32 seq ++ be32 ack ++
        [(5 + options.length / 4) * 16, flags] ++ be16 window ++ be16 check ++ be16 urgent ++ options ++ payload) payload
  | icmp {type code check : Nat} {rest payload : List Nat} : rest.length = 4 →
      Segment 1 0 0 ([type, code] ++ be16 check ++ rest ++ payload) payload

/-- An Ethernet frame: two addresses, perhaps an 802.1Q tag, the type, the body, and perhaps padding or
a check sequence. -/
def ethernet (macs : List Nat) (tag : Option Nat) (type : Nat) (body trailer : List Nat) : List Nat :=
  macs ++ (match tag with | none => [] | some t => be16 0x8100 ++ be16 t) ++ be16 type ++ body ++ trailer

/-- The ones' complement sum of two numbers of 16 bits. -/
def onesAdd (a b : Nat) : Nat := if a + b < 65536 then a + b else a + b - 65535

/-- The ones' complement sum of the 16-bit words of a text (RFC 1071), a zero byte added to an odd
length. -/
def onesSum : List Nat → Nat
  | a :: b :: s => onesAdd (a * 256 + b) (onesSum s)
  | [a] => a * 256
  | [] => 0

/-- What the kernel makes of a packet given to a raw socket with IP_HDRINCL (raw(7)): it fills in the
total length, the checksum, the source address if it is zero and the identification if it is zero.  All
else it leaves. -/
def KernelSends (given wire : List Nat) : Prop :=
  ∃ id check src, id < 65536 ∧ check < 65536 ∧ src < 2 ^ 32 ∧
    ((given.drop 4).take 2 ≠ [0, 0] → be16 id = (given.drop 4).take 2) ∧
    ((given.drop 12).take 4 ≠ [0, 0, 0, 0] → be32 src = (given.drop 12).take 4) ∧
    wire = given.take 2 ++ be16 given.length ++ be16 id ++ (given.drop 6).take 4 ++ be16 check ++ be32 src ++
      given.drop 16

end Fwknop.Spec
