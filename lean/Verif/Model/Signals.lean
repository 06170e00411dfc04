import Verif.Model.Basic

/-!
# Signals (server/sig_handler.c, server/fwknopd.c)

A signal handler can run between any two accesses to the flags.  The program is a machine that makes one access in
each step, and is given the signals that arrive before each step, so that a theorem for all arrivals is one for all
interleavings.  Not modelled: the time before the first call of `set_sig_handlers`, when the default actions of
the signals are in place; `got_sigchld`, which only the capture loop looks at; the value of `got_signal`
beyond whether it is zero (it is only logged).
-/

namespace Fwknop

inductive Sig where
  | hup | int | term | usr1 | usr2 | chld
  deriving DecidableEq, Repr

/-- `got_signal != 0`, `got_sighup`, `got_sigint`, `got_sigterm`, `got_sigusr1`, `got_sigusr2`,
server/sig_handler.c:38-44. -/
structure Flags where
  any : Bool := false
  hup : Bool := false
  int : Bool := false
  term : Bool := false
  usr1 : Bool := false
  usr2 : Bool := false
  deriving DecidableEq, Repr

/-- `sig_handler`, server/sig_handler.c:51-81. -/
def sig_handler (f : Flags) : Sig → Flags
  | .hup => { f with any := true, hup := true }
  | .int => { f with any := true, int := true }
  | .term => { f with any := true, term := true }
  | .usr1 => { f with any := true, usr1 := true }
  | .usr2 => { f with any := true, usr2 := true }
  | .chld => { f with any := true }

/-- Signals arrive one after the other. -/
def deliver (f : Flags) (l : List Sig) : Flags := l.foldl sig_handler f

/-- Where the program is, in terms of the next access to a flag. -/
inductive PC where
  /-- in the rest of an iteration of the capture loop -/
  | loop
  /-- `sig_do_stop`: about to read `got_signal`, `got_sigint`, `got_sigterm`, `got_sighup`, `got_sigusr1`,
  `got_sigusr2`; to write `got_sigusr2`, `got_sigusr1`, `got_signal` -/
  | any | int | term | hup | usr1 | usr2 | no2 | no1 | none
  /-- `handle_signals`: about to read `got_signal`, to write it, to read `got_sighup`; to write that, to read
  `got_sigint`, to read `got_sigterm` -/
  | hAny | hNone | hHup | hNoHup | hInt | hTerm
  /-- the configuration is read again -/
  | reading
  /-- `set_sig_handlers`: about to write the flags -/
  | cAny | cHup | cInt | cTerm | cUsr1 | cUsr2
  /-- the daemon ends -/
  | exited
  deriving DecidableEq, Repr

/-- One step of the daemon in capture mode: `sig_do_stop` (server/sig_handler.c:150-174), `handle_signals`
(server/fwknopd.c:601-648), `set_sig_handlers` when the handlers are there already (server/sig_handler.c:85-146),
in the loops of server/pcap_capture.c:197-333 and server/fwknopd.c:88-310.  The capture loop ends when
`sig_do_stop` says so; a limit of packets and errors of the capture do not occur. -/
def sigStep (f : Flags) : PC → PC × Flags
  | .loop => (.any, f)
  | .any => (if f.any then .int else .loop, f)
  | .int => (if f.int then .hAny else .term, f)
  | .term => (if f.term then .hAny else .hup, f)
  | .hup => (if f.hup then .hAny else .usr1, f)
  | .usr1 => (if f.usr1 then .no2 else .usr2, f)
  | .usr2 => (if f.usr2 then .no2 else .none, f)
  | .no2 => (.no1, { f with usr2 := false })
  | .no1 => (.none, { f with usr1 := false })
  | .none => (.loop, { f with any := false })
  | .hAny => (if f.any then .hNone else .exited, f)
  | .hNone => (.hHup, { f with any := false })
  | .hHup => (if f.hup then .hNoHup else .hInt, f)
  | .hNoHup => (.reading, { f with hup := false })
  | .hInt => (if f.int then .exited else .hTerm, f)
  | .hTerm => (.exited, f)
  | .reading => (.cAny, f)
  | .cAny => (.cHup, { f with any := false })
  | .cHup => (.cInt, { f with hup := false })
  | .cInt => (.cTerm, { f with int := false })
  | .cTerm => (.cUsr1, { f with term := false })
  | .cUsr1 => (.cUsr2, { f with usr1 := false })
  | .cUsr2 => (.loop, { f with usr2 := false })
  | .exited => (.exited, f)

/-- After `n` steps, when `arr k` are the signals that arrive before step `k`. -/
def sigRun (arr : Nat → List Sig) : Nat → PC × Flags
  | 0 => (.loop, {})
  | n + 1 => sigStep (deliver (sigRun arr n).2 (arr n)) (sigRun arr n).1

end Fwknop
