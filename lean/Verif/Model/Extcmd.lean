import Verif.Model.Ctx

/-!
# Running external programs (server/extcmd.c, common/fko_util.c)

The program that is started is a parameter: a function from the words of the command line and a
state of the world to what it prints, whether it exited normally (`WIFEXITED`) and the new state.
A program that could not be started (`fork`, `pipe` or `fdopen` failed) is one that did not exit
normally.  Modelled for a build with `execvp`.
-/

namespace Fwknop

abbrev MAX_CMDLINE_ARGS : Nat := 30
abbrev MAX_ARGS_LINE_LEN : Nat := 1024
abbrev CMD_BUFSIZE : Nat := 256
abbrev STANDARD_CMD_OUT_BUFSIZE : Nat := 4096

/-- `add_argv`, common/fko_util.c:763-784; `none` for the return value 0. -/
def add_argv (argv : List Str) (a : Str) : Option (List Str) :=
  if argv.length + 1 ≥ MAX_CMDLINE_ARGS - 1 then none else some (argv ++ [a])

/-- A word is complete, common/fko_util.c:801-810, 816-824: the terminator is written to
`arg_tmp[1024]`. -/
def endArg (argv : List Str) (cur : Str) : Res (Option (List Str)) :=
  if cur = [] then .ok (some argv)
  else do
    Res.mem (cur.length ≥ MAX_ARGS_LINE_LEN)
    return add_argv argv cur

/-- The loop of `strtoargv`, common/fko_util.c:792-824; `cur` is what has been written to
`arg_tmp[1024]`. -/
def argvLoop : Str → (cur : Str) → (argv : List Str) → Res (Option (List Str))
  | [], cur, argv => endArg argv cur
  | c :: cs, cur, argv =>
    if !isSpace c then do
      Res.mem (cur.length ≥ MAX_ARGS_LINE_LEN)
      argvLoop cs (cur ++ [c]) argv
    else do
      let r ← endArg argv cur
      match r with
      | none => return none
      | some argv => argvLoop cs [] argv

/-- `strtoargv`, common/fko_util.c:786-826; `none` for the return value 0. -/
def strtoargv (s : Str) : Res (Option (List Str)) := argvLoop s [] []

/-- What a program did: what it printed (standard output and standard error go to one pipe) and
whether it exited normally, with whatever status. -/
structure ToolOut where
  out : Str
  exited : Bool

/-- A program, as seen by its caller. -/
structure Tool (σ : Type) where
  exec : List Str → σ → ToolOut × σ

/-- `truncate_partial_line`, server/utils.c:173-203. -/
def truncate_partial_line (s : Str) : Str :=
  if s.contains 10 then (s.reverse.dropWhile (· ≠ 10)).reverse else s

/-- `chop_newline`, common/fko_util.c:730-746. -/
def chop_newline (s : Str) : Str :=
  if s.length > 1 ∧ s.getLast? = some 10 then s.dropLast else s

/-- Return value (is it EXTCMD_SUCCESS_ALL_OUTPUT?) and output buffer of `run_extcmd`. -/
structure ExtOut where
  success : Bool
  buf : Str

/-- `run_extcmd` with WANT_STDERR and an output buffer of `size` bytes, zeroed before the call,
server/extcmd.c:118-347 (`copy_or_search` 76-110).  The output is a text without NUL; it is read
until the buffer is full. -/
def run_extcmd {σ : Type} (T : Tool σ) (cmd : Str) (size : Nat) (w : σ) : Res (ExtOut × σ) := do
  let a ← strtoargv cmd
  match a with
  | none => return (⟨false, []⟩, w)
  | some argv =>
    let r := T.exec argv w
    return (⟨r.1.exited, truncate_partial_line (r.1.out.take (size - 1))⟩, r.2)

example : strtoargv b!"/sbin/iptables  -t filter -L X" =
    .ok (some [b!"/sbin/iptables", b!"-t", b!"filter", b!"-L", b!"X"]) := by decide
example : truncate_partial_line b!"ab" = b!"ab" := by decide
example : truncate_partial_line (b!"ab" ++ [10] ++ b!"c") = b!"ab" ++ [10] := by decide

end Fwknop
