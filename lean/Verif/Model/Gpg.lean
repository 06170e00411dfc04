import Verif.Model.Incoming

/-!
# Decryption and signatures with GnuPG

lib/gpgme_funcs.c and the functions of lib/fko_encryption.c and server/incoming_spa.c that call it.
GnuPG itself, which gpgme runs as another program, is a parameter.
-/

namespace Fwknop

/-- `struct _gpgme_signature`, of gpgme.h, as far as lib/gpgme_funcs.c:134-144 reads it.  `status` 0
is GPG_ERR_NO_ERROR; `validity` counts from 0 (unknown) over 2 (never), 3 (marginal) to 5 (ultimate).
Simplification: gpgme gives every signature a fingerprint (or the identity of the key), so `fpr` is
never NULL. -/
structure GpgSig where
  summary : Nat := 0
  status : Nat
  validity : Nat
  fpr : Str
deriving DecidableEq

/-- What `gpgme_op_decrypt_verify`, `gpgme_op_decrypt_result` and `gpgme_op_verify_result` tell
(lib/gpgme_funcs.c:467-502). -/
structure GpgReply where
  plain : Str
  unsupported_algorithm : Bool := false
  sigs : List GpgSig

/-- gpgme and GnuPG: does the engine work with this program and key ring (lib/gpgme_funcs.c:52-76),
what does it answer to a request to decrypt, given the function it calls for the passphrase; and
the file system, as far as it is asked
(lib/fko_encryption.c:765-769, 900-904). -/
structure Gpg where
  engine : (exe : Str) → (home : Option Str) → Bool
  decrypt_verify : (exe : Str) → (home : Option Str) → (cb : Bool → Option Str) → (cipher : Str) → Option GpgReply
  isFile : Str → Bool
  isDir : Str → Bool

/-- The GPG members of `struct fko_context`, lib/fko_context.h:107-132, with what
`fko_new_with_data` sets (lib/fko_funcs.c:262-266).  `gpg_sigs` is the list in memory. -/
structure GpgCtx where
  gpg_exe : Option Str := none
  gpg_home_dir : Option Str := none
  verify_gpg_sigs : Bool := true
  ignore_gpg_sig_error : Bool := false
  gpg_sigs : List GpgSig := []
deriving DecidableEq

/-- GPG_EXE, the program configure found; config.h.  Simplification: the usual one. -/
abbrev GPG_EXE : Str := b!"/usr/bin/gpg"

/-- `my_passphrase_cb`, lib/gpgme_funcs.c:83-103: what it writes to gpgme's descriptor; `none` when
it returns an error.  Simplification: both writes succeed. -/
def my_passphrase_cb (pw : Str) (prev_was_bad : Bool) : Option Str :=
  if prev_was_bad then none else some (pw.takeWhile (· ≠ 0) ++ [10])

/-- The list that the loop of `process_sigs` leaves, lib/gpgme_funcs.c:127-159: each signature after
the first becomes the second of the list. -/
def keepSigs : List GpgSig → List GpgSig
  | [] => []
  | [s] => [s]
  | s :: t :: rest => [s, rest.getLastD t]

/-- `process_sigs`, lib/gpgme_funcs.c:107-178; `none` is an error. -/
def process_sigs (g : GpgCtx) (sigs : List GpgSig) : Option GpgCtx :=
  match keepSigs sigs with
  | [] => none
  | s :: rest =>
    let g' := { g with gpg_sigs := s :: rest }
    if g.ignore_gpg_sig_error then some g'
    else if s.status ≠ 0 ∨ s.validity < 3 then none
    else some g'

/-- `gpgme_decrypt`, lib/gpgme_funcs.c:415-537 (with `init_gpgme`, 37-80): the plaintext and the
context; `none` is an error.  Simplification: memory is never short. -/
def gpgme_decrypt (G : Gpg) (g : GpgCtx) (pw cipher : Str) : Option (Str × GpgCtx) :=
  let exe := g.gpg_exe.getD GPG_EXE
  if !G.engine exe g.gpg_home_dir then none
  else
    match G.decrypt_verify exe g.gpg_home_dir (my_passphrase_cb pw) cipher with
    | none => none
    | some r =>
      if r.unsupported_algorithm then none
      else if g.verify_gpg_sigs then
        match process_sigs g r.sigs with
        | none => none
        | some g' => some (r.plain, g')
      else some (r.plain, g)

/-- `fko_set_gpg_exe`, lib/fko_encryption.c:752-783. -/
def fko_set_gpg_exe (G : Gpg) (g : GpgCtx) (exe : Str) : Option GpgCtx :=
  if G.isFile exe then some { g with gpg_exe := some exe } else none

/-- `fko_set_gpg_home_dir`, lib/fko_encryption.c:887-918. -/
def fko_set_gpg_home_dir (G : Gpg) (g : GpgCtx) (dir : Str) : Option GpgCtx :=
  if G.isDir dir then some { g with gpg_home_dir := some dir } else none

/-- The settings of `handle_gpg_enc`, server/incoming_spa.c:630-680.
(`fko_set_gpg_recipient`, called there with GPG_DECRYPT_ID, fails because the type of the encryption
is not yet known, and its result is not looked at.) -/
def gpgSettings (G : Gpg) (acc : Stanza) : Option GpgCtx := do
  let g : GpgCtx := {}
  let g ← (match acc.gpg_exe with
    | none => some g
    | some e => fko_set_gpg_exe G g e)
  let g ← (match acc.gpg_home_dir with
    | none => some g
    | some d => fko_set_gpg_home_dir G g d)
  if acc.gpg_require_sig then
    return { g with verify_gpg_sigs := true, ignore_gpg_sig_error := acc.gpg_ignore_sig_error }
  else return { g with verify_gpg_sigs := false, ignore_gpg_sig_error := true }

/-- The first half of `gpg_decrypt`, lib/fko_encryption.c:433-456: the bytes that go to GnuPG. -/
def gpgCipher (c : Ctx) : Option Str :=
  let c' := (if !c.added_gpg_prefix then
      match add_gpg_prefix c with
      | .ok c' => c'
      | _ => c
    else c)
  Base64.b64_decode (c'.encrypted_msg.getD [])

/-- `fko_get_gpg_signature_fpr`, lib/fko_encryption.c:1007-1036, with the type of encryption known
to be GPG. -/
def fko_get_gpg_signature_fpr (g : GpgCtx) : Option Str :=
  if !g.verify_gpg_sigs then none else g.gpg_sigs.head?.map (·.fpr)

/-- What the server sees of GnuPG while it handles a packet: `gpgme_decrypt` with the settings of
the stanza, and the fingerprint in the context afterwards (server/incoming_spa.c:604-689, 702-717). -/
def gpgEnv (K : Crypto) (G : Gpg) : Env where
  K := K
  gpgReady acc := (gpgSettings G acc).isSome
  gpgDec acc key cipher := do
    let g ← gpgSettings G acc
    let r ← gpgme_decrypt G g key cipher
    return r.1
  gpgSig acc text :=
    match fko_new_with_data K text none FKO_ENC_MODE_ASYMMETRIC acc.hmac_key acc.hmac_type with
    | .ok c => do
      let cipher ← gpgCipher c
      let g ← gpgSettings G acc
      let r ← gpgme_decrypt G g (acc.gpg_decrypt_pw.getD []) cipher
      fko_get_gpg_signature_fpr r.2
    | _ => none

end Fwknop
