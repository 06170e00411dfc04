import Verif.Model.Daemon

/-!
# Packets from a netfilter queue (server/nfq_capture.c)

The other way of capturing on Linux: an iptables rule with the target NFQUEUE hands packets to the daemon,
which also says what becomes of them.  Not modelled: setting up the queue, the restart of the TCP server
(see TcpServer), messages that do not fit in `nfq_buf`, the sleep at the end of an iteration, logging (the
message about an error of `recv` is given `strerror` itself, not its result, as a string).
-/

namespace Fwknop

/-- A number of 32 bits with its octets in reverse order: `ntohl` and `htonl` on a little-endian host. -/
def swap32 (n : Nat) : Nat :=
  n % 256 * 16777216 + n / 256 % 256 * 65536 + n / 65536 % 256 * 256 + n / 16777216 % 256

/-- A queued packet: its number in the queue, whether it comes from the input hook, its octets, the array
`packet_data` before, the clock and the replay cache file while it is handled
(server/nfq_capture.c:54-58). -/
structure Queued where
  id : Nat
  local_in : Bool
  packet : List Nat
  old : Str
  now : Int
  open_ok : Nat → Bool

/-- The capture handed to `process_packet`: it begins with the IP header, and `data_link_offset` is 0, as
nothing has set it (server/nfq_capture.c:72-74, the NFQ variant of `process_packet`). -/
def Queued.cap (q : Queued) : Cap := ⟨0, q.packet.length % 65536, q.packet.length % 65536, fun i => q.packet.getD i 0⟩

/-- The verdict, server/nfq_capture.c:79-80: the number of the packet for which the kernel takes it, and
whether the packet is dropped.  `nfq_set_verdict` wants the number in the order of the host, and turns it
around; `ph->packet_id` is in the order of the network. -/
def verdictOf (q : Queued) : Nat × Bool := (swap32 q.id, q.local_in)

/-- `process_nfq_packet`, server/nfq_capture.c:49-83. -/
def process_nfq_packet {σ : Type} (D : DConf) (E : Env) (T : Tool σ) (q : Queued) (d : Daemon σ) : Res (Daemon σ × List Deed) :=
  match (process_packet q.cap q.old).2 with
  | none => .ok (d, [])
  | some p => receive D E T q.now p q.open_ok d

/-- What `recv` gives, server/nfq_capture.c:223-262: a message of `res` octets with a packet, or nothing (EAGAIN), or an error. -/
inductive NfqRecv where
  | message (res : Nat) (q : Queued)
  | nothing
  | error

/-- An iteration: whether SIGINT, SIGTERM or SIGHUP has arrived, what `recv` gives, the clock
(server/nfq_capture.c:204-275). -/
structure NfqTurn where
  stop : Bool
  recv : NfqRecv
  now : Int

/-- server/nfq_capture.h:37. -/
abbrev MAX_NFQ_ERRORS_BEFORE_BAIL : Nat := 100

/-- What is done with a message: the packets counted are its octets, server/nfq_capture.c:229-246. -/
def nfqMessage {σ : Type} (D : DConf) (E : Env) (T : Tool σ) (res : Nat) (q : Queued) (d : Daemon σ) :
    Res (Daemon σ × List Deed × Bool) := do
  let r ← process_nfq_packet D E T q d
  let d' := { r.1 with packets := r.1.packets + res }
  return (d', r.2, atLimit D.limit d'.packets)

/-- The loop of `nfq_capture`, server/nfq_capture.c:172-277: the state, what was done, the verdicts, and
how it ended, `none` if it still runs at the end of the list.  Expired rules are looked for in every
iteration, also in test mode; closing commands are not. -/
def nfqLoop {σ : Type} (D : DConf) (E : Env) (T : Tool σ) :
    List NfqTurn → (pending : Bool) → (errs : Nat) → Daemon σ → Res (Daemon σ × List Deed × List (Nat × Bool) × Option Exit)
  | [], _, _, d => .ok (d, [], [], none)
  | t :: ts, pending, errs, d =>
    let pending := pending || t.stop
    match t.recv with
    | .message res q => do
      let r ← nfqMessage D E T res q d
      let s ← check_firewall_rules D.fw T false t.now r.1.fw
      let x ← nfqLoop D E T ts (pending || r.2.2) errs { r.1 with fw := s }
      return (x.1, r.2.1 ++ x.2.1, verdictOf q :: x.2.2.1, x.2.2.2)
    | .error =>
      if errs > MAX_NFQ_ERRORS_BEFORE_BAIL then .ok (d, [], [], some .failed)
      else do
        let s ← check_firewall_rules D.fw T false t.now d.fw
        nfqLoop D E T ts pending (errs + 1) { d with fw := s }
    | .nothing =>
      if pending then .ok (d, [], [], some .left)
      else do
        let s ← check_firewall_rules D.fw T false t.now d.fw
        nfqLoop D E T ts pending 0 { d with fw := s }

end Fwknop
