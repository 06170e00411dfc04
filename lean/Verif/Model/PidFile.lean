import Verif.Model.CLib

/-!
# The pid file and its lock (server/fwknopd.c)

Any number of fwknopd processes with the same pid file, each of which makes one system call on the file in each step.
The order of the steps is given, so that a theorem for all orders is one for all interleavings.  `lockf` takes a POSIX
record lock: it belongs to a process, is not inherited over `fork`, ends with the process, and ends when the process
closes any descriptor of the file.

Simplified: a call on a descriptor that is followed by its `close` is one step together with the computations in
between; `verify_file_perms_ownership` succeeds or counts as a failing `open`; what else the processes do
(configuration, firewall, packets) is left out, so that a process that gets past `setup_pid` is `running`.
-/

namespace Fwknop

/-- PID_BUFLEN, server/fwknopd.h:83. -/
abbrev PID_BUFLEN : Nat := 8

/-- `snprintf(buf, PID_BUFLEN, "%i\n", my_pid)`, server/fwknopd.c:989. -/
def pidText (p : Nat) : Str := (decStr p ++ [10]).take (PID_BUFLEN - 1)

/-- `write` at the beginning of a file that was not truncated, server/fwknopd.c:942-944, 994. -/
def overwrite (new old : Str) : Str := new ++ old.drop new.length

/-- The end of `get_running_pid`, server/fwknopd.c:1035-1045: the number in a file with this text. -/
def pidNumber (f : Str) : Nat :=
  let r := strtol_wrapper ((f.take (PID_BUFLEN - 1)).takeWhile (· ≠ 0)) 0 (2 * 2 ^ 22)
  if r.2 then r.1.toNat else 0

/-- `fwknopd -f`, `fwknopd`, `fwknopd --status`. -/
inductive PidMode where
  | foreground | background | status
  deriving DecidableEq, Repr

inductive PidPC where
  /-- `get_running_pid` in `setup_pid`: about to open and read; has the number, about to close -/
  | look | looked (r : Nat)
  /-- `daemonize_process`: about to fork -/
  | fork
  /-- `write_pid_file`: about to open, to lock, to write -/
  | open | lock | write
  /-- `write_pid_file` could not lock, `get_running_pid`: about to open and read; has the number, about to close -/
  | refused | refusedRead (r : Nat)
  | running
  deriving DecidableEq, Repr

structure PidProc where
  mode : PidMode
  pc : PidPC
  deriving DecidableEq, Repr

structure PidWorld where
  /-- the text of the pid file, if there is one -/
  file : Option Str
  /-- which process has the lock -/
  holder : Option Nat := none
  /-- the fwknopd processes -/
  procs : Nat → Option PidProc := fun _ => none
  /-- numbers that processes have had -/
  used : List Nat := []
  /-- what the `--status` processes have said: the number they gave, 0 for "No running fwknopd detected." -/
  answers : List (Nat × Nat) := []

namespace PidWorld

/-- Process `p` is now `x` (model only). -/
def at_ (w : PidWorld) (p : Nat) (x : Option PidProc) : PidWorld :=
  { w with procs := fun q => if q = p then x else w.procs q }

/-- A process closes a descriptor of the pid file, server/fwknopd.c:965, 1049: fcntl(2), "the lock is released when any
descriptor is closed". -/
def unlock (w : PidWorld) (p : Nat) : PidWorld :=
  { w with holder := if w.holder = some p then none else w.holder }

/-- A process ends: server/utils.c:223-243 `clean_exit`, or a signal. -/
def gone (w : PidWorld) (p : Nat) : PidWorld := (w.unlock p).at_ p none

/-- `status_fwknopd`, server/fwknopd.c:585-599 with `clean_exit`. -/
def answered (w : PidWorld) (p r : Nat) : PidWorld := { w.gone p with answers := (p, r) :: w.answers }

/-- `write_pid_file` has returned (0 or -1): server/fwknopd.c:533-546, 900-913 and 585-599. -/
def goesOn (w : PidWorld) (p : Nat) (x : PidProc) : PidWorld :=
  match x.mode with
  | .status => w.answered p 0
  | _ => w.at_ p (some { x with pc := .running })

/-- `setup_pid` after its `get_running_pid`, server/fwknopd.c:523-556. -/
def afterLook (w : PidWorld) (p : Nat) (x : PidProc) (r : Nat) : PidWorld :=
  if r = p then w.at_ p (some { x with pc := .running })
  else w.at_ p (some { x with pc := if x.mode = .background then .fork else .open })

/-- The next step of process `p`; `c` is the number of the child if it forks.  `setup_pid`
(server/fwknopd.c:510-557), `daemonize_process` (:872-927), `write_pid_file` (:929-1009), `get_running_pid`
(:1011-1052). -/
def step (w : PidWorld) (p c : Nat) : PidWorld :=
  match w.procs p with
  | none => w
  | some x =>
    match x.pc with
    | .look => match w.file with
      | none => w.afterLook p x 0
      | some f => w.at_ p (some { x with pc := .looked (pidNumber f) })
    | .looked r => (w.unlock p).afterLook p x r
    | .fork => { (w.gone p).at_ c (some { x with pc := .open }) with used := c :: w.used }
    | .open => { w.at_ p (some { x with pc := .lock }) with file := some (w.file.getD []) }
    | .lock => if w.holder = none ∨ w.holder = some p then
        { w.at_ p (some { x with pc := .write }) with holder := some p }
      else w.at_ p (some { x with pc := .refused })
    | .write => { w with file := some (overwrite (pidText p) (w.file.getD [])) }.goesOn p x
    | .refused => match w.file with
      | none => w.goesOn p x
      | some f => w.at_ p (some { x with pc := .refusedRead (pidNumber f) })
    | .refusedRead r => if r = 0 then (w.unlock p).goesOn p x
      else match x.mode with
        | .status => w.answered p r
        | _ => w.gone p
    | .running => w

/-- The call that process `p` is about to make fails (`lockf` with another error than EAGAIN); the same lines. -/
def fails (w : PidWorld) (p : Nat) : PidWorld :=
  match w.procs p with
  | none => w
  | some x =>
    match x.pc with
    | .look => w.afterLook p x 0
    | .fork => w.gone p
    | .open => w.goesOn p x
    | .lock => (w.unlock p).goesOn p x
    | .write => w.goesOn p x
    | .refused => w.goesOn p x
    | _ => w

end PidWorld

inductive PidEvent where
  /-- fwknopd is started in a process with this number -/
  | start (p : Nat) (m : PidMode)
  | step (p c : Nat)
  | fails (p : Nat)
  /-- SIGHUP to a running daemon: server/fwknopd.c:81, 601-618 -/
  | hup (p : Nat)
  /-- the process ends: a signal, a crash -/
  | ends (p : Nat)
  deriving DecidableEq, Repr

/-- server/fwknopd.c:75-330 as far as the pid file is concerned.  A start with the number of an existing fwknopd
process, and a SIGHUP to one that is not running yet, are ignored. -/
def PidWorld.event (w : PidWorld) : PidEvent → PidWorld
  | .start p m => match w.procs p with
    | some _ => w
    | none => { w.at_ p (some ⟨m, if m = .status then .open else .look⟩) with used := p :: w.used }
  | .step p c => w.step p c
  | .fails p => w.fails p
  | .hup p => match w.procs p with
    | some x => if x.pc = .running then w.at_ p (some { x with pc := .look }) else w
    | none => w
  | .ends p => w.gone p

def PidWorld.run (w : PidWorld) (es : List PidEvent) : PidWorld := es.foldl PidWorld.event w

/-- The process that `--kill` and `--restart` signal (0: none), server/fwknopd.c:559-583, 650-716. -/
def PidWorld.target (w : PidWorld) : Nat := match w.file with | none => 0 | some f => pidNumber f

end Fwknop
