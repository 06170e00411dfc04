import Verif.Model.Daemon
import Verif.Spec.Incoming
import Verif.Spec.IptInit
import Verif.Spec.Iptables
import Verif.Spec.CmdCycle

/-!
# What the daemon's main loops amount to

A history is what happens to the daemon: packets arrive, and from time to time it looks at what has expired.
-/

namespace Fwknop.Spec

/-- Something that happens to the daemon. -/
inductive Act where
  | upkeep (now : Int)
  | packet (now : Int) (p : Pkt) (open_ok : Nat → Bool)

def Act.now : Act → Int
  | .upkeep now => now
  | .packet now _ _ => now

/-- One after the other. -/
def acts {σ : Type} (D : DConf) (E : Env) (T : Tool σ) : List Act → Daemon σ → Res (Daemon σ × List Deed)
  | [], d => .ok (d, [])
  | .upkeep now :: as, d => do
    let r ← upkeep D T now d
    let q ← acts D E T as r.1
    return (q.1, r.2 ++ q.2)
  | .packet now p open_ok :: as, d => do
    let r ← receive D E T now p open_ok d
    let q ← acts D E T as r.1
    return (q.1, r.2 ++ q.2)

/-- What an iteration of the UDP server is: first the upkeep, then the datagram. -/
def UdpTurn.acts (port : Nat) (t : UdpTurn) : List Act :=
  .upkeep t.now :: match t.ready with
    | .gram (some g) now open_ok old => [.packet now (udpPkt port old g) open_ok]
    | _ => []

/-- The packets of an iteration of the capture loop. -/
def CapFrame.act (f : CapFrame) : Option Act := (process_packet f.cap f.old).2.map fun p => .packet f.now p f.open_ok

/-- What an iteration of the capture loop is: first the packets, then the upkeep. -/
def Pass.acts (p : Pass) : List Act := p.frames.filterMap CapFrame.act ++ [.upkeep p.now]

/-- The daemon, as UDP server or capturing, was given the history `h`, of which it may have left off the
end because it stopped. -/
inductive Ran {σ : Type} (D : DConf) (E : Env) (T : Tool σ) (h : List Act) (d d' : Daemon σ) (deeds : List Deed) : Prop where
  | udp (ts : List UdpTurn) (v : Option Int) (hh : h = ts.flatMap (UdpTurn.acts D.port))
      (hr : udpLoop D E T ts d = .ok (d', deeds, v)) : Ran D E T h d d' deeds
  | pcap (ps : List Pass) (pending : Bool) (errs : Nat) (v : Option Exit) (hh : h = ps.flatMap Pass.acts)
      (hr : pcapLoop D E T ps pending errs d = .ok (d', deeds, v)) : Ran D E T h d d' deeds

/-- What the packet array can hold from earlier packets: anything, with a NUL at the end. -/
def Leftover (old : List Nat) : Prop := old.length = 1501 ∧ old[1500]? = some 0

/-- At the time `now` the packet `p` entitles the address `src` to reach a port until a time: the stanza `acc`
decodes what is in it (`c`, with the message `ip`,`rest`), does not grant a command cycle instead, and its
demands on the sender, the clock, the name and the address are met; the port is asked for, and the stanza
allows it (its OPEN_PORTS listing no port twice, see C29). -/
structure Entitles (conf : Conf) (E : Env) (acc : Stanza) (now : Int) (p : Pkt) (src : List Nat) (proto port : Nat) (until_ : Int)
    (text proxy : List Nat) (c : Ctx) (ip rest : List Nat) : Prop where
  received : Received conf p text proxy
  decoded : authenticate E acc text = .ok c
  message : Message c ip rest
  addresses : AddressesOk acc p.src_ip p.dst_ip
  live : ¬ Expired acc now
  fresh : conf.aging = true → now - c.timestamp ≤ conf.max_age ∧ c.timestamp - now ≤ conf.max_age
  user : ∀ u, acc.require_username = some u → c.username = some u
  source : acc.require_source_address = true → ip ≠ anyAddr
  access : acc.cmd_cycle_open = none ∧ ¬ IsCommand c ∧ conf.test = false
  asked : ∀ ps, RequestPorts rest ps → (proto, port) ∈ ps
  opened : acc.oport_list ≠ [] → acc.oport_list.Nodup → ⟨proto, port⟩ ∈ acc.oport_list
  restricted : ⟨proto, port⟩ ∉ acc.rport_list
  grantee : src = grantee (inet_ntop p.src_ip) proxy ip
  until_ : until_ = now + grantedTime acc c

/-- The rules in a chain. -/
def rulesIn (K : Tables) (t c : Word) : List Rule := (K t c).getD []

/-- The rule `x` in the chain `h` lets the address `src` reach a port of `dst` and, in the output chain, lets
the answers out, until a time.  The input and the output chain are the first two chains. -/
def Lets (chs : List FwChain) (h : Hook) (src dst : Word) (proto port e : Nat) (x : Rule) : Prop :=
  (h.table = (chs.getD 0 {}).table ∧ h.to = (chs.getD 0 {}).to_chain ∧ x = inputRule proto src dst port e (chs.getD 0 {}).target) ∨
  (h.table = (chs.getD 1 {}).table ∧ h.to = (chs.getD 1 {}).to_chain ∧ x = outputRule proto src dst port e (chs.getD 1 {}).target)

/-- Some packet of the history entitles to what the rule lets.  The rule names the destination of the packet
only if the firewall is configured to do so. -/
def Backed (D : DConf) (E : Env) (stanzas : List Stanza) (chs : List FwChain) (hist : List Act) (h : Hook) (x : Rule) : Prop :=
  ∃ acc ∈ stanzas, ∃ now p o src proto port until_ text proxy c ip rest, Act.packet now p o ∈ hist ∧
    Entitles D.conf E acc now p src proto port until_ text proxy c ip rest ∧ 0 ≤ until_ ∧
    Lets chs h src (if D.fw.use_destination then inet_ntop p.dst_ip else b!"0.0.0.0/0") proto port until_.toNat x

/-- A command in which the variables can be replaced without going over 255 characters: each of at most 20. -/
def Roomy (t : List Nat) : Prop := t.length + 20 * t.count 36 ≤ 255

/-- `es` are the closings that the deeds schedule, in their order: one for each opening of a cycle under a stanza that
closes its cycles, after the time the client asked for, or the stanza's.  Only a closing command without room for its
variables may be missing. -/
inductive Scheduled (S : List Stanza) : List CycleEnt → List Deed → Prop where
  | nil : Scheduled S [] []
  | cycle {now : Int} {n : Nat} {cmd : List Nat} {es : List CycleEnt} {ds : List Deed} (acc : Stanza) (e : CycleEnt) (asked : Nat) :
      stanzaAt S n = some acc → acc.cmd_cycle_do_close = true → e.stanza_num = n →
      e.expire = now + (if asked = 0 then acc.cmd_cycle_timer else asked) → Scheduled S es ds →
      Scheduled S (e :: es) (.effect now (.cycle n cmd) :: ds)
  | open {now : Int} {n : Nat} {cmd : List Nat} {es : List CycleEnt} {ds : List Deed} (acc : Stanza) :
      stanzaAt S n = some acc → acc.cmd_cycle_do_close = false → Scheduled S es ds →
      Scheduled S es (.effect now (.cycle n cmd) :: ds)
  | long {now : Int} {n : Nat} {cmd : List Nat} {es : List CycleEnt} {ds : List Deed} (acc : Stanza) :
      stanzaAt S n = some acc → acc.cmd_cycle_do_close = true → ¬ Roomy (acc.cmd_cycle_close.getD []) → Scheduled S es ds →
      Scheduled S es (.effect now (.cycle n cmd) :: ds)
  | other {es : List CycleEnt} {ds : List Deed} (d : Deed) : (∀ now n cmd, d ≠ .effect now (.cycle n cmd)) → Scheduled S es ds → Scheduled S es (d :: ds)

/-- The cycle that is closed. -/
def Deed.entry : Deed → Option CycleEnt
  | .effect _ _ => none
  | .closed _ c => some c

end Fwknop.Spec
