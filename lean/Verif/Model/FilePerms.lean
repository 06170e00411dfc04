import Verif.Model.Client

/-!
# Looking at files before they are used (server/utils.c, client/utils.c: verify_file_perms_ownership; server/utils.c: is_valid_path)

Modelled for a build with `stat`, `lstat`, `fstat` and `fileno`.  The file system may change in any way between two
calls of the program: each call meets a `Disk` of its own.  Numbers of files are never used twice.  The texts of the
messages are left out, what they are about is kept.
-/

namespace Fwknop

/-- A file: `st_mode`, `st_uid` and its contents. -/
structure FileNode where
  mode : Nat
  uid : Nat
  text : Str := []

/-- What `stat` or `lstat` says about a path: the file, ENOENT, or another error. -/
inductive Look
  | found (n : Nat) | absent | error
  deriving DecidableEq

/-- The file system at a moment: its files, and what `stat` and `lstat` say about the paths. -/
structure Disk where
  node : Nat → FileNode
  stat : Str → Look
  lstat : Str → Look

/-- What a message is about. -/
inductive FileWarn
  | kind | perms | owner | stat
  deriving DecidableEq

abbrev S_IFMT : Nat := 61440
abbrev S_IFDIR : Nat := 16384
abbrev S_IFREG : Nat := 32768
abbrev S_IFLNK : Nat := 40960

/-- `(fd >= 0 && fstat(fd, &st) == 0) || stat(file, &st) == 0`, server/utils.c:120, client/utils.c:69: the descriptor, if
there is one, of the file, if `fstat` works. -/
def statOf (d : Disk) (file : Str) : Option (Option Nat) → Look
  | some (some n) => .found n
  | _ => d.stat file

/-- `verify_file_perms_ownership`, server/utils.c:111-170. -/
def srvVerify (me : Nat) (d : Disk) (file : Str) (fd : Option (Option Nat)) : Bool × List FileWarn :=
  match statOf d file fd with
  | .found n =>
    let st := d.node n
    if st.mode &&& S_IFMT ≠ S_IFREG ∧ st.mode &&& S_IFMT ≠ S_IFLNK then (false, [.kind])
    else (true, (if st.mode &&& 511 ≠ 384 then [.perms] else []) ++ (if st.uid ≠ me then [.owner] else []))
  | .absent => (true, [])
  | .error => (false, [.stat])

/-- `verify_file_perms_ownership`, client/utils.c:58-121. -/
def cliVerify (me : Nat) (d : Disk) (file : Str) (fd : Option (Option Nat)) : Bool × List FileWarn :=
  match statOf d file fd with
  | .found n =>
    let st := d.node n
    (true, (if st.mode &&& S_IFMT ≠ S_IFREG ∧ st.mode &&& S_IFMT ≠ S_IFLNK then [.kind] else [])
      ++ (if st.mode &&& 511 ≠ 384 then [.perms] else []) ++ (if st.uid ≠ me then [.owner] else []))
  | .absent => (true, [])
  | .error => (false, [.stat])

/-- `fopen(file, "r")`; whether the permissions allow it is for the kernel to say (`may`). -/
def openRead (may : Nat → Bool) (d : Disk) (file : Str) : Option Nat :=
  match d.stat file with
  | .found n => if may n then some n else none
  | _ => none

/-- How a file is read that is looked at when it is open: access.conf and the files it includes (server/access.c:1502-1520),
fwknopd.conf (server/config_init.c:297-314), the digest cache (server/replay_cache.c:269-284) with the check of the
server; the saved command line (client/fwknop.c:893-909, 936-951) with that of the client.  It is opened at the first
moment, looked at at the second and read at the third.  Simplified: its contents are read at once. -/
def readChecked (verify : Disk → Str → Option (Option Nat) → Bool × List FileWarn) (may : Nat → Bool) (fstatWorks : Bool)
    (file : Str) (d0 d1 d2 : Disk) : Option Str × List FileWarn :=
  match openRead may d0 file with
  | none => (none, [])
  | some n =>
    let r := verify d1 file (some (if fstatWorks then some n else none))
    (if r.1 then some (d2.node n).text else none, r.2)

/-- How the client reads its rc file: it is looked at by its name (`set_rc_file`, client/config_init.c:698-706) and opened
later (`process_rc_section`, client/config_init.c:1543). -/
def readRc (me : Nat) (may : Nat → Bool) (file : Str) (d0 d1 d2 : Disk) : Option Str × List FileWarn :=
  let r := cliVerify me d0 file none
  (if r.1 then (openRead may d1 file).map fun n => (d2.node n).text else none, r.2)

/-- IS_DIR, IS_EXE and IS_FILE, server/utils.h:56-58. -/
inductive PathKind
  | dir | exe | file
  deriving DecidableEq

/-- `is_valid_path`, server/utils.c:40-91. -/
def is_valid_path (d : Disk) (path : Str) (k : PathKind) : Bool :=
  if min path.length MAX_PATH_LEN = MAX_PATH_LEN then false
  else match d.lstat path with
    | .found n =>
      let m := (d.node n).mode
      match k with
      | .dir => m &&& S_IFMT == S_IFDIR
      | .exe => !(m &&& S_IFMT != S_IFREG || m &&& 64 == 0)
      | .file => m &&& S_IFMT == S_IFREG
    | _ => false

/-- An entry of a directory: a file, or a symbolic link to a file.  Simplified: a link holds the number of the file, not a
path. -/
inductive SaveEntry
  | file (n : Nat) | link (n : Nat)
  deriving DecidableEq

/-- The directory entries and the contents of files that `write_spa_packet_data` meets; `next` is the number of the next new
file. -/
structure SaveDisk where
  entry : Str → Option SaveEntry
  text : Nat → Str
  next : Nat

/-- `unlink`; it fails if the directory may not be written. -/
def SaveDisk.unlink (d : SaveDisk) (works : Bool) (name : Str) : SaveDisk :=
  if works then { d with entry := fun x => if x = name then none else d.entry x } else d

/-- `fopen(name, "w")` or, with `append`, `fopen(name, "a")`, and then `fprintf` of a text, where a new file can be made and an old
one can be written. -/
def SaveDisk.write (d : SaveDisk) (append : Bool) (name text : Str) : SaveDisk :=
  match d.entry name with
  | some (.file n) | some (.link n) =>
    { d with text := fun m => if m = n then (if append then d.text n ++ text else text) else d.text m }
  | none =>
    { entry := fun x => if x = name then some (.file d.next) else d.entry x,
      text := fun m => if m = d.next then text else d.text m, next := d.next + 1 }

/-- `write_spa_packet_data`, client/spa_comm.c:756-796, called in client/fwknop.c:420-421, which ignores what it returns: `opens` says
whether `fopen` works, `data` is what `fko_get_spa_data` gives, `none` an error of it.  It gives no null pointer without an error (lib/fko_funcs.c: fko_get_spa_data). -/
def write_spa_packet_data (append unlinks opens : Bool) (name : Str) (data : Option Str) (d : SaveDisk) : Int × SaveDisk :=
  match data with
  | none => (-1, d)
  | some p =>
    let d1 := if append then d else d.unlink unlinks name
    if !opens then (-1, d1)
    else (0, d1.write append name (p ++ [10]))

end Fwknop
