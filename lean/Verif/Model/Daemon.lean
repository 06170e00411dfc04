import Verif.Model.Packet
import Verif.Model.Iptables

/-!
# The daemon's main loops (server/pcap_capture.c, server/udp_server.c)

A loop is given the list of what its environment does in each iteration: whether a signal asks to stop,
what arrives, the clock.  A list that ends without a reason to stop means that the daemon still runs then.

Not modelled: opening and closing of the capture handle and the socket, the restart of the TCP server
(server/pcap_capture.c:202-226), logging, the sleep at the end of an iteration, the check of the replay
cache's size, ipfw's purging of rules.  The counter of packets does not wrap.
-/

namespace Fwknop

/-- What the loops look at beside what is in `Conf` and `FwConf`: RULES_CHECK_THRESHOLD, --packet-limit,
UDPSERV_PORT, EXIT_AT_INTF_DOWN starts with y. -/
structure DConf where
  conf : Conf
  fw : FwConf
  thr : Nat := 20
  limit : Nat := 0
  port : Nat := 62201
  intf_down : Bool := true

/-- What changes: what packets change, the firewall, `check_rules_ctr`, `packet_ctr`. -/
structure Daemon (σ : Type) where
  srv : Server
  fw : FwSt σ
  ctr : Nat := 0
  packets : Nat := 0

/-- What the daemon does outside: an effect of a packet, or the closing command of a cycle, and when. -/
inductive Deed where
  | effect (now : Int) (e : Effect)
  | closed (now : Int) (c : CycleEnt)
  deriving DecidableEq

/-- `opts->enable_fw`, server/access.c:1429-1432: some stanza has no CMD_CYCLE_OPEN. -/
def Server.enable_fw (sv : Server) : Bool := sv.stanzas.any fun acc => acc.cmd_cycle_open.isNone

/-- The calls of `process_spa_request` among the effects of a packet, server/incoming_spa.c:1219. -/
def grantAll {σ : Type} (cf : FwConf) (T : Tool σ) (now : Int) : List Effect → FwSt σ → Res (FwSt σ)
  | [], s => .ok s
  | .access _ acc sp :: es, s => do
    let s ← process_spa_request cf T acc sp now s
    grantAll cf T now es s
  | .cycle _ _ :: es, s => grantAll cf T now es s
  | .command _ _ _ :: es, s => grantAll cf T now es s

/-- A packet is handled: `incoming_spa` with what it does to the firewall. -/
def receive {σ : Type} (D : DConf) (E : Env) (T : Tool σ) (now : Int) (p : Pkt) (open_ok : Nat → Bool)
    (d : Daemon σ) : Res (Daemon σ × List Deed) := do
  let r ← incoming_spa D.conf E now p open_ok d.srv
  let s ← grantAll D.fw T now r.2 d.fw
  return ({ d with srv := r.1, fw := s }, r.2.map (.effect now))

/-- The part of an iteration that looks at what has expired, server/pcap_capture.c:292-315,
server/udp_server.c:126-147.  Both calls of `time` give `now`. -/
def upkeep {σ : Type} (D : DConf) (T : Tool σ) (now : Int) (d : Daemon σ) : Res (Daemon σ × List Deed) :=
  if D.conf.test then .ok (d, [])
  else do
    let f ← (if d.srv.enable_fw then do
        let s ← check_firewall_rules D.fw T (checkCtr D.thr d.ctr).1 now d.fw
        return (s, (checkCtr D.thr d.ctr).2)
      else return (d.fw, d.ctr))
    let c ← cmd_cycle_close now d.srv.cycles
    return ({ d with fw := f.1, ctr := f.2, srv := { d.srv with cycles := c.1 } }, c.2.map (.closed now))

/-- The limit of packets has been reached, server/pcap_capture.c:248, server/udp_server.c:224. -/
def atLimit (limit packets : Nat) : Bool := limit ≠ 0 && packets ≥ limit

/-! ## The UDP server -/

/-- A datagram, with the address and port of its sender. -/
structure Gram where
  data : Str
  src_ip : Nat
  src_port : Nat

/-- The packet handed to `incoming_spa`, server/udp_server.c:184-212: of the datagram at most 1500 bytes,
up to the first NUL, over what was in the array before (`old`).  The length is that of the datagram.  The
destination address is the one the socket was bound to, which is 0. -/
def udpPkt (port : Nat) (old : Str) (g : Gram) : Pkt :=
  let msg := g.data.take MAX_SPA_PACKET_LEN
  { data := cstr msg ++ 0 :: old.drop ((cstr msg).length + 1)
    len := msg.length
    proto := 17
    src_ip := g.src_ip
    dst_ip := 0
    src_port := g.src_port
    dst_port := port % 65536 }

/-- What `select` and `recvfrom` give: nothing (the timeout, EINTR, no data), an error of `select`, or a
datagram, with the clock and the state of the replay cache file while it is handled and what the array held
before; `none` if `recvfrom` fails. -/
inductive Ready where
  | nothing
  | error
  | gram (g : Option Gram) (now : Int) (open_ok : Nat → Bool) (old : Str)

/-- An iteration of the UDP server: whether `sig_do_stop` says so, the clock, what `select` gives. -/
structure UdpTurn where
  stop : Bool
  now : Int
  ready : Ready

/-- server/udp_server.c:149-231, after the upkeep: the state, what was done, and the return value if the
loop ends.  A failure of `recvfrom` writes before the array. -/
def udpReady {σ : Type} (D : DConf) (E : Env) (T : Tool σ) (d : Daemon σ) : Ready → Res (Daemon σ × List Deed × Option Int)
  | .nothing => .ok (d, [], none)
  | .error => .ok (d, [], some (-1))
  | .gram none _ _ _ => .ub
  | .gram (some g) now open_ok old => do
    let r ← receive D E T now (udpPkt D.port old g) open_ok d
    let d' := { r.1 with packets := r.1.packets + 1 }
    return (d', r.2, if atLimit D.limit d'.packets then some 1 else none)

/-- The loop of `run_udp_server`, server/udp_server.c:117-235: the state, what was done, and the return
value, `none` if it still runs at the end of the list. -/
def udpLoop {σ : Type} (D : DConf) (E : Env) (T : Tool σ) : List UdpTurn → Daemon σ → Res (Daemon σ × List Deed × Option Int)
  | [], d => .ok (d, [], none)
  | t :: ts, d =>
    if t.stop then .ok (d, [], some 1)
    else do
      let u ← upkeep D T t.now d
      let r ← udpReady D E T u.1 t.ready
      match r.2.2 with
      | some v => return (r.1, u.2 ++ r.2.1, some v)
      | none => do
        let q ← udpLoop D E T ts r.1
        return (q.1, u.2 ++ r.2.1 ++ q.2.1, q.2.2)

/-! ## The capture loop -/

/-- A captured frame, with the clock and the replay cache file while it is handled and what the array held
before. -/
structure CapFrame where
  cap : Cap
  now : Int
  open_ok : Nat → Bool
  old : Str

/-- What `pcap_dispatch` returns: the number of packets (those it handed on), -1, with whether `errno` is
ENETDOWN, or -2. -/
inductive Dispatched where
  | counted
  | failed (netdown : Bool)
  | broken

/-- An iteration: what `sig_do_stop` says, the frames handed to `process_packet`, what `pcap_dispatch`
returns, the clock afterwards. -/
structure Pass where
  stop : Bool
  frames : List CapFrame
  res : Dispatched
  now : Int

abbrev MAX_PCAP_ERRORS_BEFORE_BAIL : Nat := 100

/-- How the loop ends: it returns, or the daemon exits with a failure. -/
inductive Exit where
  | left
  | failed
  deriving DecidableEq, Repr

/-- `pcap_dispatch` hands on the frames, server/pcap_capture.c:234-235. -/
def dispatch {σ : Type} (D : DConf) (E : Env) (T : Tool σ) : List CapFrame → Daemon σ → Res (Daemon σ × List Deed)
  | [], d => .ok (d, [])
  | f :: fs, d =>
    match (process_packet f.cap f.old).2 with
    | none => dispatch D E T fs d
    | some p => do
      let r ← receive D E T f.now p f.open_ok d
      let q ← dispatch D E T fs r.1
      return (q.1, r.2 ++ q.2)

/-- server/pcap_capture.c:239-290: does the loop end, the new `pending_break`, `pcap_errcnt` and
`packet_ctr`. -/
def afterDispatch (D : DConf) (res : Dispatched) (n : Nat) (pending : Bool) (errs packets : Nat) :
    Option Exit × Bool × Nat × Nat :=
  match res with
  | .failed netdown =>
    if D.intf_down ∧ netdown then (some .failed, pending, errs, packets)
    else if errs > MAX_PCAP_ERRORS_BEFORE_BAIL then (some .failed, pending, errs + 1, packets)
    else (none, pending, errs + 1, packets)
  | .broken => (some .left, pending, errs, packets)
  | .counted =>
    if n > 0 then (none, pending || atLimit D.limit (packets + n), errs, packets + n)
    else if pending then (some .left, pending, errs, packets)
    else (none, pending, 0, packets)

/-- The loop of `pcap_capture`, server/pcap_capture.c:197-333: the state, what was done, and how it ended,
`none` if it still runs at the end of the list. -/
def pcapLoop {σ : Type} (D : DConf) (E : Env) (T : Tool σ) :
    List Pass → (pending : Bool) → (errs : Nat) → Daemon σ → Res (Daemon σ × List Deed × Option Exit)
  | [], _, _, d => .ok (d, [], none)
  | p :: ps, pending, errs, d => do
    let r ← dispatch D E T p.frames d
    let x := afterDispatch D p.res p.frames.length (pending || p.stop) errs r.1.packets
    let d' := { r.1 with packets := x.2.2.2 }
    match x.1 with
    | some e => return (d', r.2, some e)
    | none => do
      let u ← upkeep D T p.now d'
      let q ← pcapLoop D E T ps x.2.1 x.2.2.1 u.1
      return (q.1, r.2 ++ u.2 ++ q.2.1, q.2.2)

end Fwknop
