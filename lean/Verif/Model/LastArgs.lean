import Verif.Model.Extcmd
import Verif.Model.Spa

/-!
# The saved command line of the client (client/fwknop.c)

Opening the file and checking its permissions and owner are not modelled: the file is there and may be
read and written.
-/

namespace Fwknop

/-- The loop of `save_args`, client/fwknop.c:1016-1026 (MAX_PATH_LEN and MAX_LINE_LEN are 1024,
common/common.h:157-158); `none` if the arguments are too long. -/
def saveLoop : List Str → (len : Nat) → (line : Str) → Option Str
  | [], _, line => some (strlcat line [10] 1024)
  | a :: as, len, line =>
    if len + a.length ≥ 1024 then none
    else saveLoop as (len + a.length) (strlcat (strlcat line a 1024) [32] 1024)

/-- `save_args`, client/fwknop.c:1003-1035: the content of the file after it and the return value.  The
file is truncated first. -/
def save_args (argv : List Str) : Str × Bool :=
  match saveLoop argv 0 [] with
  | none => ([], false)
  | some line => (line, true)

/-- `fgets` with room for `n` bytes: up to the first newline; `none` for NULL. -/
def fgets (n : Nat) (file : Str) : Option Str :=
  if file = [] then none
  else
    let line := file.takeWhile (· ≠ 10)
    some ((if line.length < file.length then line ++ [10] else line).take (n - 1))

/-- `run_last_args`, client/fwknop.c:928-979: the arguments given to `config_init`; `none` if it is not
called. -/
def run_last_args (file : Str) : Res (Option (List Str)) :=
  match fgets 1024 file with
  | none => .ok (some [])
  | some line => strtoargv line

end Fwknop
