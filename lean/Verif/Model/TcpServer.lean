import Verif.Model.Daemon
import Verif.Model.IptInit

/-!
# The TCP server (server/tcp_server.c) and its parent

ENABLE_TCP_SERVER: a child process accepts connections and drops them, so that knocks over TCP can be
captured.  The operating system is the list of what its calls give.  Log messages are left out.
-/

namespace Fwknop

/-- Which of the calls before the loop succeed, server/tcp_server.c:89-153. -/
structure TcpSetup where
  socket : Bool := true
  setsockopt : Bool := true
  getfl : Bool := true
  setfl : Bool := true
  bind : Bool := true
  listen : Bool := true

/-- An iteration of the loop: `select` fails (also if a signal arrives: it is not restarted); it times out,
and the parent process is there or `gone`; or there is a connection, and `accept` gives a descriptor or
fails. -/
inductive TcpTurn where
  | error
  | timeout (gone : Bool)
  | client (fd : Option Nat)

/-- What the child does with files and sockets.  The socket on which it listens is `main`. -/
inductive TcpDeed where
  | unlock
  | socket
  | listen (port : Nat)
  | accept (fd : Nat)
  | sleep (us : Nat)
  | shutdown (fd : Nat)
  | close (fd : Nat)
  | closeMain
  deriving DecidableEq

/-- The loop, server/tcp_server.c:160-245, and the return value, `none` if it still runs at the end of the
list. -/
def tcpLoop : List TcpTurn → List TcpDeed × Option Int
  | [] => ([], none)
  | .error :: _ => ([.closeMain], some (-1))
  | .timeout gone :: ts => if gone then ([.closeMain], some (-1)) else tcpLoop ts
  | .client none :: _ => ([.closeMain], some (-1))
  | .client (some c) :: ts =>
    let r := tcpLoop ts
    (.accept c :: .sleep 1000000 :: .shutdown c :: .close c :: r.1, r.2)

/-- `run_tcp_server` in the child, server/tcp_server.c:75-248. -/
def run_tcp_server (port : Nat) (s : TcpSetup) (ts : List TcpTurn) : List TcpDeed × Option Int :=
  if !s.socket then ([.unlock], some (-1))
  else if !s.setsockopt || !s.getfl || !s.setfl || !s.bind then ([.unlock, .socket, .closeMain], some (-1))
  else if !s.listen then ([.unlock, .socket, .closeMain], some (-1))
  else
    let r := tcpLoop ts
    (.unlock :: .socket :: .listen (port % 65536) :: r.1, r.2)

/-- `clean_exit` with FW_CLEANUP, server/utils.c:221-243: what becomes of the firewall.  The memory that is
freed is left out. -/
def clean_exit {σ : Type} (test enable_fw : Bool) (cf : FwConf) (o : FwInit) (T : Tool σ) (chk : Bool) (chs : List FwChain) (w : σ) :
    Res σ :=
  if !test && enable_fw then fw_cleanup cf o T chk chs w else .ok w

/-- The child that `main` makes, server/fwknopd.c:281-288: what it does, the firewall afterwards, and its
exit status, `none` if it still runs.  (With a return value that is not negative it would go on in `main`;
`tcpLoop` has none.) -/
def childOfMain {σ : Type} (test enable_fw : Bool) (cf : FwConf) (o : FwInit) (T : Tool σ) (chk : Bool) (chs : List FwChain)
    (port : Nat) (s : TcpSetup) (ts : List TcpTurn) (w : σ) : Res (List TcpDeed × σ × Option Nat) :=
  let r := run_tcp_server port s ts
  match r.2 with
  | none => .ok (r.1, w, none)
  | some v =>
    if v < 0 then do
      let w ← clean_exit test enable_fw cf o T chk chs w
      return (r.1, w, some 1)
    else .ok (r.1, w, none)

/-- The child that the capture loop makes when the server has ended, server/pcap_capture.c:213-222: what it
does as a server, and what it does with the passes of the capture loop that follow; the return value of
`run_tcp_server` is not looked at. -/
def childOfCapture {σ : Type} (D : DConf) (E : Env) (T : Tool σ) (port : Nat) (s : TcpSetup) (ts : List TcpTurn)
    (ps : List Pass) (pending : Bool) (errs : Nat) (d : Daemon σ) :
    Res (List TcpDeed × Option (Daemon σ × List Deed × Option Exit)) :=
  let r := run_tcp_server port s ts
  match r.2 with
  | none => .ok (r.1, none)
  | some _ => do
    let q ← pcapLoop D E T ps pending errs d
    return (r.1, some q)

/-! ## The parent -/

/-- What the parent knows of its children: `opts->tcp_server_pid`, `got_sigchld`; and the children that have
ended and have not been waited for. -/
structure Kin where
  tcp : Nat
  got : Bool := false
  dead : List Nat := []

/-- Children end, all before the handler of SIGCHLD runs; or the capture loop begins an iteration, with the
result of `fork` if the server is started again. -/
inductive KinEvent where
  | ends (pids : List Nat)
  | pass (fork : Nat)

/-- The handler of SIGCHLD, server/sig_handler.c:74-79: it waits for one child. -/
def sigchld (k : Kin) : Kin := { k with got := true, dead := k.dead.tail }

/-- The beginning of an iteration, server/pcap_capture.c:197-222. -/
def reap (fork : Nat) (k : Kin) : Kin :=
  if k.got then
    if k.tcp > 0 then
      match k.dead with
      | [] => { k with got := false }
      | p :: ps => { tcp := if p = k.tcp then fork else k.tcp, got := false, dead := ps }
    else { k with got := false }
  else k

def kinStep (k : Kin) : KinEvent → Kin
  | .ends pids => sigchld { k with dead := k.dead ++ pids }
  | .pass fork => reap fork k

/-- A history. -/
def kinRun (k : Kin) (es : List KinEvent) : Kin := es.foldl kinStep k

/-- The process that gets SIGTERM and SIGKILL at the end, server/fwknopd.c:316-329. -/
def killedAtEnd (k : Kin) : Option Nat := if k.tcp > 0 then some k.tcp else none

end Fwknop
