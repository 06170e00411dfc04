import Verif.Model.Basic

/-!
# Sending the packet over UDP or TCP (client/spa_comm.c: send_spa_packet_tcp_or_udp)
-/

namespace Fwknop

/-- One answer of `getaddrinfo`: whether it is of IPv4, and whether `socket` and `connect` succeed for it. -/
structure NetAddr where
  ipv4 : Bool
  socket : Bool
  connect : Bool
deriving DecidableEq

/-- What is done with the socket for the address of this number. -/
inductive NetAct where
  | opened (i : Nat)
  | sent (i : Nat) (text : Str)
  | closed (i : Nat)
deriving DecidableEq

/-- The loop over the addresses, client/spa_comm.c:137-167: the acts and the address that is connected. -/
def connectLoop (only4 : Bool) : Nat → List NetAddr → List NetAct × Option Nat
  | _, [] => ([], none)
  | i, a :: as =>
    if only4 && !a.ipv4 then connectLoop only4 (i + 1) as
    else if !a.socket then connectLoop only4 (i + 1) as
    else if a.connect then ([.opened i], some i)
    else (.opened i :: .closed i :: (connectLoop only4 (i + 1) as).1, (connectLoop only4 (i + 1) as).2)

/-- `send_spa_packet_tcp_or_udp`, client/spa_comm.c:85-199: the acts and the result.  `addrs` is what `getaddrinfo` gives (`none`: an error), `res`
what `send` returns: -1, or how many bytes it took.  Simplified: a `send` that fails is the sending of no byte; the hints given to `getaddrinfo` (IPv4,
the protocol, the port) are part of what `addrs` is; `freeaddrinfo`, the log messages and the branches for Windows and fuzzing are left out. -/
def send_spa_packet_tcp_or_udp (test only4 : Bool) (addrs : Option (List NetAddr)) (res : Int) (data : Str) : List NetAct × Int :=
  if test then ([], 0)
  else match addrs with
    | none => ([], -1)
    | some as =>
      match connectLoop only4 0 as with
      | (l, none) => (l, -1)
      | (l, some i) => (l ++ [.sent i (data.take res.toNat), .closed i], res)

/-- The exit of `main` that follows, client/fwknop.c:450-461: whether the client reports success. -/
def sendStatus (r : Int) : Bool := !(r < 0)

end Fwknop
