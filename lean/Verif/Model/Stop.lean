import Verif.Model.PidFile

/-!
# `fwknopd --kill` (server/fwknopd.c: stop_fwknopd)

The process whose number is in the pid file, as `kill` and `sleep` see it.  Time passes in the sleeps only.
-/

namespace Fwknop

/-- The signals that `stop_fwknopd` sends. -/
inductive StopSig where
  | term
  | kill
deriving DecidableEq

/-- A process: whether it exists, whether it may be signalled, the seconds until it ends (`none`: it does not end by
itself), how many seconds it takes after each signal (`none`: it does not react), and the signals it got. -/
structure StopProc where
  alive : Bool
  permitted : Bool
  ends : Option Nat
  onTerm : Option Nat
  onKill : Option Nat
  got : List StopSig

/-- The earlier of two ends. -/
def sooner : Option Nat → Option Nat → Option Nat
  | none, b => b
  | a, none => a
  | some a, some b => some (min a b)

/-- An end in 0 seconds is now. -/
def StopProc.settle (p : StopProc) : StopProc := if p.ends = some 0 then { p with alive := false } else p

/-- `kill(pid, sig)`: whether it returns 0. -/
def StopProc.signal (p : StopProc) (s : StopSig) : StopProc × Bool :=
  if p.alive && p.permitted then
    (StopProc.settle { p with ends := sooner p.ends (if s = .term then p.onTerm else p.onKill), got := p.got ++ [s] }, true)
  else (p, false)

/-- `kill(pid, 0) == 0`. -/
def StopProc.probe (p : StopProc) : Bool := p.alive && p.permitted

/-- `sleep(1)`. -/
def StopProc.second (p : StopProc) : StopProc := StopProc.settle { p with ends := p.ends.map (· - 1) }

/-- The loop of `stop_fwknopd`, server/fwknopd.c:671-680: whether it ends with success. -/
def stopLoop : Nat → StopProc → StopProc × Bool
  | 0, p => (p, false)
  | n + 1, p => if !p.probe then (p, true) else stopLoop n p.second

/-- `stop_fwknopd`, server/fwknopd.c:650-716: the process afterwards and whether the exit status is EXIT_SUCCESS.  `none` is a
pid file without a number. -/
def stop_fwknopd : Option StopProc → Option StopProc × Bool
  | none => (none, false)
  | some p =>
    let r := p.signal .term
    if r.2 && !r.1.probe then (some r.1, true)
    else
      let l := stopLoop 4 r.1
      if l.2 then (some l.1, true)
      else
        let k := l.1.signal .kill
        if k.2 && !k.1.probe then (some k.1, true)
        else
          let q := k.1.second
          (some q, !q.probe)

end Fwknop
