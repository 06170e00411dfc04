import Verif.Model.PidFile

/-!
# What the pid file is for

At most one daemon runs, `--status` tells its number, `--kill` and `--restart` signal it.
-/

namespace Fwknop.Spec

/-- Process `p` is a daemon that has started. -/
def Runs (w : PidWorld) (p : Nat) : Prop := ∃ x, w.procs p = some x ∧ x.pc = .running

/-- The numbers of processes: `kernel.pid_max` is at most 2^22. -/
def PidOk (p : Nat) : Prop := 0 < p ∧ p ≤ 2 ^ 22

/-- The system gives a new process a number that no process had and that is not in the pid file. -/
def NewPid (w : PidWorld) (p : Nat) : Prop := PidOk p ∧ p ∉ w.used ∧ p ≠ w.target

/-- What is assumed about an event: new processes have new numbers, no call fails, no SIGHUP, and the file has a number
when it is read because the lock could not be had. -/
def OrderlyEvent (w : PidWorld) : PidEvent → Prop
  | .start p _ => NewPid w p
  | .step p c => (∀ x, w.procs p = some x → x.pc = .fork → NewPid w c) ∧
      (∀ x, w.procs p = some x → x.pc = .refused → w.target ≠ 0)
  | .fails _ => False
  | .hup _ => False
  | .ends _ => True

def Orderly (w : PidWorld) : List PidEvent → Prop
  | [] => True
  | e :: es => OrderlyEvent w e ∧ Orderly (w.event e) es

/-- Nobody is told to end and nobody asks for the status. -/
def Undisturbed : PidEvent → Prop
  | .ends _ => False
  | .start _ .status => False
  | _ => True

/-- The world when no fwknopd process is there. -/
def Empty (w : PidWorld) : Prop := (∀ p, w.procs p = none) ∧ w.holder = none ∧ w.used = []

end Fwknop.Spec
