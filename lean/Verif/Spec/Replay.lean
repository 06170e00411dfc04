import Verif.Spec.Base64

/-! # Specification: histories of the replay cache -/

namespace Fwknop.Spec

/-- What the daemon keeps beside each packet digest: protocol, addresses, ports and time. -/
structure PacketInfo where
  proto : Nat
  src : Nat
  dst : Nat
  srcPort : Nat
  dstPort : Nat
  time : Int

/-- The digest of a packet: the 43 characters of an unpadded base64 SHA-256. -/
def IsPacketDigest (d : List Nat) : Prop := d.length = 43 ∧ ∀ c ∈ d, IsB64Char c

/-- One event in the life of the daemon: it records a packet's digest, it fails to open the file
while recording, it is stopped and started again, or it dies after `k` bytes of the record have
reached the file and is started again. -/
inductive ReplayEvent where
  | record (i : PacketInfo) (d : List Nat)
  | recordFailed (i : PacketInfo) (d : List Nat)
  | restart
  | crash (i : PacketInfo) (d : List Nat) (k : Nat)

/-- Events that are within the ranges of the C types and carry packet digests. -/
def ReplayEvent.Ok : ReplayEvent → Prop
  | .record i d => i.proto < 256 ∧ i.srcPort < 65536 ∧ i.dstPort < 65536 ∧ IsPacketDigest d
  | .recordFailed _ d => IsPacketDigest d
  | .restart => True
  | .crash i d _ => i.proto < 256 ∧ i.srcPort < 65536 ∧ i.dstPort < 65536 ∧ IsPacketDigest d

def ReplayEvent.isCrash : ReplayEvent → Bool
  | .crash .. => true
  | _ => false

end Fwknop.Spec
