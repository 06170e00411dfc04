import Verif.Model.Pf

/-!
# The run directory (server/fwknopd.c: check_dir_path, make_dir_path)

A file system is a map from lists of names to what is there.  Not modelled: `.`, `..`, symbolic links, other
processes.  `mkdir` may be refused for any path (`allow`).
-/

namespace Fwknop

/-- What is at a path. -/
inductive Node where
  | dir
  | file
deriving DecidableEq

/-- The file system; the root is there. -/
abbrev Fs := List Str → Option Node

/-- The names of a path: what is between slashes, without the empty ones. -/
def namesOf : Str → Str → List Str
  | cur, [] => if cur = [] then [] else [cur]
  | cur, c :: cs => if c = 47 then (if cur = [] then namesOf [] cs else cur :: namesOf [] cs) else namesOf (cur ++ [c]) cs

/-- The result of `stat`. -/
inductive StatRes where
  | found (n : Node)
  | enoent
  | enotdir
deriving DecidableEq

/-- `stat` of the path with these names below the directory `base`. -/
def statNames (fs : Fs) : (base : List Str) → List Str → StatRes
  | _, [] => .found .dir
  | base, n :: ns =>
    match fs (base ++ [n]) with
    | none => .enoent
    | some .dir => statNames fs (base ++ [n]) ns
    | some .file => if ns = [] then .found .file else .enotdir

/-- `stat(path, &st)`. -/
def stat (fs : Fs) (path : Str) : StatRes := statNames fs [] (namesOf [] path)

/-- `mkdir(path, S_IRWXU)`: the file system and whether it works. -/
def mkdir (allow : List Str → Bool) (fs : Fs) (path : Str) : Fs × Bool :=
  let ns := namesOf [] path
  if ns ≠ [] ∧ statNames fs [] ns.dropLast = .found .dir ∧ fs ns = none ∧ allow ns = true then
    (fun p => if p = ns then some .dir else fs p, true)
  else (fs, false)

/-- The loop of `make_dir_path`, server/fwknopd.c:819-866: what is before the position `ndx` and what is from there on.
When `stat` fails for another reason than a missing name, `st` is looked at as it was before. -/
def makeDirLoop (allow : List Str → Bool) : (fs : Fs) → (done : Str) → (rest : Str) → Res (Fs × Bool)
  | fs, done, [] => .ok (mkdir allow fs done)
  | fs, done, c :: cs =>
    if c = 47 then
      match stat fs done with
      | .enotdir => .ub
      | .found .file => .ok (fs, false)
      | .found .dir => makeDirLoop allow fs (done ++ [c]) cs
      | .enoent =>
        let r := mkdir allow fs done
        if r.2 then makeDirLoop allow r.1 (done ++ [c]) cs else .ok (fs, false)
    else makeDirLoop allow fs (done ++ [c]) cs

/-- `make_dir_path`, server/fwknopd.c:806-867; the array holds 1023 characters. -/
def make_dir_path (allow : List Str → Bool) (fs : Fs) (dir : Str) : Res (Fs × Bool) :=
  match chop_char (dir.take 1023) 47 with
  | [] => .ok (mkdir allow fs [])
  | c :: cs => makeDirLoop allow fs [c] cs

/-- `check_dir_path`, server/fwknopd.c:720-804, as it is called (without `use_basename`): the file system and whether the
daemon goes on. -/
def check_dir_path (allow : List Str → Bool) (fs : Fs) (path : Str) : Res (Fs × Bool) :=
  if path.head? ≠ some 47 then .ok (fs, false)
  else
    let tmp := path.take 1023
    if tmp.length < 2 then .ok (fs, true)
    else
      match stat fs tmp with
      | .found .dir => .ok (fs, true)
      | .found .file => .ok (fs, false)
      | .enotdir => .ok (fs, false)
      | .enoent => make_dir_path allow fs tmp

end Fwknop
