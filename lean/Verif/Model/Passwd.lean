import Verif.Model.Client

/-!
# Keys that are typed in: client/getpasswd.c
-/

namespace Fwknop

abbrev PW_BUFSIZE : Nat := 128
abbrev PW_BREAK_CHAR : Nat := 0x03
abbrev PW_BS_CHAR : Nat := 0x08
abbrev PW_LF_CHAR : Nat := 0x0A
abbrev PW_CLEAR_CHAR : Nat := 0x15

/-- The static array `password` and the place where the next character goes. -/
structure PwSt where
  password : Str
  ptr : Nat
deriving DecidableEq

/-- The loop of `read_passwd_from_stream`, client/getpasswd.c:75-98 (not WIN32), and what it leaves: the
character that ended it (`none` for the end of the file) and what follows in the stream. -/
def pwLoop : (stream : List Nat) → PwSt → Res (PwSt × Option Nat × List Nat)
  | [], s => .ok (s, none, [])
  | c :: cs, s =>
    if c = PW_LF_CHAR ∨ c = PW_BREAK_CHAR then .ok (s, some c, cs)
    else if c = PW_BS_CHAR then
      pwLoop cs (if s.ptr ≠ 0 then { s with ptr := s.ptr - 1 } else s)
    else if c = PW_CLEAR_CHAR then pwLoop cs { s with ptr := 0 }
    else if s.ptr < PW_BUFSIZE - 1 then do
      Res.mem (s.ptr ≥ s.password.length)
      pwLoop cs ⟨s.password.set s.ptr c, s.ptr + 1⟩
    else pwLoop cs s

/-- `read_passwd_from_stream`, client/getpasswd.c:61-112: the string that is returned, the array, and what
is left in the stream.  `password` is what the array holds before. -/
def read_passwd_from_stream (password : Str) (stream : List Nat) : Res (Str × Str × List Nat) := do
  let r ← pwLoop stream ⟨password, 0⟩
  let at_ := if r.2.1 = some PW_BREAK_CHAR then 0 else r.1.ptr
  Res.mem (at_ ≥ r.1.password.length)
  let p := r.1.password.set at_ 0
  Res.mem (0 ∉ p)
  return (p.takeWhile (· ≠ 0), p, r.2.2)

/-- What `getpasswd` reads from: the bytes that will be typed at each prompt on the terminal (none if it
cannot be opened), what is behind each open descriptor, and the static array. -/
structure PwWorld where
  typed : List (List Nat) := []
  fds : Nat → Option (List Nat) := fun _ => none
  password : Str := List.replicate PW_BUFSIZE 0

/-- `getpasswd`, client/getpasswd.c:130-213 (not WIN32): NULL is `none`.  The stream made from a descriptor
is closed afterwards, and the descriptor with it, whatever was not read.  What has been typed before a
prompt is discarded (TCSAFLUSH). -/
def getpasswd (fd : Int) (w : PwWorld) : Res (Option Str × PwWorld) :=
  if fd ≥ 0 then
    match w.fds fd.toNat with
    | none => .ok (none, w)
    | some s => do
      let r ← read_passwd_from_stream w.password s
      return (some r.1, { w with fds := fun d => if d = fd.toNat then none else w.fds d, password := r.2.1 })
  else
    match w.typed with
    | [] => .ok (none, w)
    | s :: rest => do
      let r ← read_passwd_from_stream w.password s
      return (some r.1, { w with typed := rest, password := r.2.1 })

/-- Is the encryption key, or the passphrase of the signing key, asked for?  client/fwknop.c:1085-1157. -/
def asksKey (o : CliOpts) : Bool :=
  !o.have_key && !o.have_base64_key && o.get_key_file = [] &&
    (!o.use_gpg || (!o.use_gpg_agent && !o.gpg_no_signing_pw && o.gpg_signer_key ≠ []))

/-- Is the HMAC key asked for?  client/fwknop.c:1159-1197. -/
def asksHmac (o : CliOpts) : Bool :=
  !o.have_hmac_key && !o.have_hmac_base64_key && o.use_hmac && o.get_hmac_key_file = []

/-- The world in which the rest of `get_keys` runs: `passwd` and `hmacPasswd` are what the two calls of
`getpasswd` give, in their order.  If the first gives NULL, `get_keys` fails without the second. -/
def withTyped (E : CliEnv) (o : CliOpts) (input_fd : Int) (w : PwWorld) : Res CliEnv := do
  let a ← if asksKey o then getpasswd input_fd w else .ok (none, w)
  let b ← if asksHmac o then getpasswd input_fd a.2 else .ok (none, a.2)
  return { E with passwd := a.1, hmacPasswd := b.1 }

end Fwknop
