import Verif.Model.IptInit

/-!
# Starting a program and reading what it prints (server/extcmd.c)

`_run_extcmd` with everything around `fork` and `execvp`, for a build with `execvp` (and not for fuzzing).
The operating system and the programs are parameters.  Log messages are left out; in particular what the
child logs after a failed `execvp` is not taken for output.
-/

namespace Fwknop

abbrev EXTCMD_CHDIR_ERROR : Int := -8
abbrev EXTCMD_OPEN_ERROR : Int := -7
abbrev EXTCMD_ARGV_ERROR : Int := -6
abbrev EXTCMD_SETGID_ERROR : Int := -5
abbrev EXTCMD_SETUID_ERROR : Int := -4
abbrev EXTCMD_PIPE_ERROR : Int := -2
abbrev EXTCMD_FORK_ERROR : Int := -1
abbrev EXTCMD_SUCCESS_ALL_OUTPUT : Int := 0
abbrev EXTCMD_EXECUTION_ERROR : Int := 16

/-- On whose behalf a process runs. -/
structure Cred where
  uid : Nat
  gid : Nat
  groups : List Nat
deriving DecidableEq

/-- A program that has been started: what it writes, in order (`true` for standard error), and how it ends,
which may depend on whether its output is read to the end: the exit status, or none for a signal. -/
structure Running where
  writes : List (Bool × Str)
  ends : (readToEnd : Bool) → Option Nat

/-- The operating system: which calls succeed, the credentials of the daemon, and what `execvp` starts
(`none` if it fails). -/
structure Os (σ : Type) where
  pipe : Bool := true
  fork : Bool := true
  fdopen : Bool := true
  chdir : Bool := true
  setgid : Nat → Bool := fun _ => true
  setuid : Nat → Bool := fun _ => true
  self : Cred := ⟨0, 0, [0]⟩
  exec : List Str → Cred → σ → Option (Running × σ)

/-- The exit status of `exit(n)`. -/
def exitStatus (n : Int) : Nat := (n % 256).toNat

/-- A child that ends without starting a program. -/
def Running.exit (n : Int) : Running := ⟨[], fun _ => some (exitStatus n)⟩

/-- The child, server/extcmd.c:181-221.  The daemon is root: `setgid` and `setuid` change all the ids, and not
the supplementary groups. -/
def extChild {σ : Type} (O : Os σ) (uid gid : Nat) (argv : List Str) (w : σ) : Running × σ :=
  if !O.chdir then (.exit EXTCMD_CHDIR_ERROR, w)
  else if gid > 0 ∧ !O.setgid gid then (.exit EXTCMD_SETGID_ERROR, w)
  else
    let cred := if gid > 0 then { O.self with gid := gid } else O.self
    if uid > 0 ∧ !O.setuid uid then (.exit EXTCMD_SETUID_ERROR, w)
    else
      let cred := if uid > 0 then { cred with uid := uid } else cred
      match O.exec argv cred w with
      | none => (.exit (-1), w)
      | some r => r

/-- What arrives at the pipe, server/extcmd.c:186-194. -/
def pipeOut (want_stderr : Bool) (ws : List (Bool × Str)) : Str :=
  ((ws.filter fun x => want_stderr || !x.1).map (·.2)).flatten

/-- What `_run_extcmd` is told: the size of the buffer for the output (`none` for NULL), the bits of `cflag`
and the text to look for. -/
structure ExtArgs where
  so_buf : Option Nat
  want_stderr : Bool
  getline : Bool := false
  allow_partial : Bool := false
  search : Option Str := none

/-- `copy_or_search`, server/extcmd.c:76-110: the text in the buffer, `found_str` and `do_break`. -/
def copy_or_search (a : ExtArgs) (read_buf : Str) (buf : Str) : Str × Bool × Bool :=
  let l := read_buf.takeWhile (· ≠ 0)
  let r : Str × Bool := match a.so_buf with
    | none => (buf, false)
    | some size =>
      if a.getline then (strlcpy l size, false)
      else (strlcat buf l size, decide ((strlcat buf l size).length ≥ size - 1))
  match a.search with
  | none => (r.1, false, r.2)
  | some t =>
    if !isEmptyLine (l.headD 0) && strIn l t then (r.1, true, true) else (r.1, false, r.2)

/-- The loop, server/extcmd.c:239-249: the text in the buffer, the number of lines, `found_str`, and whether
the output was read to its end. -/
def extLoop (a : ExtArgs) : (lines : List Str) → (buf : Str) → (line_ctr : Nat) → Str × Nat × Bool × Bool
  | [], buf, n => (buf, n, false, true)
  | l :: ls, buf, n =>
    let r := copy_or_search a l buf
    if r.2.2 then (r.1, n + 1, r.2.1, false) else extLoop a ls r.1 (n + 1)

/-- What the caller sees: the return value, the text in the buffer and the status (`none` if the program was
ended by a signal; 0 if none was started). -/
structure ExtRet where
  ret : Int
  buf : Str
  status : Option Nat
deriving DecidableEq

/-- `_run_extcmd`, server/extcmd.c:119-347.  The text in the buffer before the call is empty; a buffer without
any room would be written to.  The numbers of lines are taken to be below 2^31. -/
def _run_extcmd {σ : Type} (O : Os σ) (uid gid : Nat) (cmd : Str) (a : ExtArgs) (w : σ) : Res (ExtRet × σ) := do
  let r ← strtoargv cmd
  match r with
  | none => return (⟨EXTCMD_ARGV_ERROR, [], some 0⟩, w)
  | some argv =>
    let reads := a.so_buf.isSome || a.search.isSome
    if reads && !O.pipe then return (⟨EXTCMD_PIPE_ERROR, [], some 0⟩, w)
    else if !O.fork then return (⟨EXTCMD_FORK_ERROR, [], some 0⟩, w)
    else
      let c := extChild O uid gid argv w
      if reads && !O.fdopen then return (⟨EXTCMD_OPEN_ERROR, [], some 0⟩, c.2)
      else do
        Res.mem (a.so_buf = some 0)
        let out := pipeOut a.want_stderr c.1.writes
        let x := if reads then extLoop a (outLines (out.length + 1) out) [] 0 else ([], 0, false, true)
        let status := c.1.ends x.2.2.2
        let buf := if a.allow_partial then x.1 else truncate_partial_line x.1
        let ret : Int :=
          if a.search.isSome then (if x.2.2.1 then x.2.1 else 0)
          else if status.isSome then EXTCMD_SUCCESS_ALL_OUTPUT else EXTCMD_EXECUTION_ERROR
        return (⟨ret, buf, status⟩, c.2)

end Fwknop
