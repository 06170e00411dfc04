import Verif.Spec.Knock
import Verif.Spec.Gpg

/-!
# What GnuPG makes of a request, and what a stanza for GnuPG has to say
-/

namespace Fwknop.Spec

/-- What the client gives to GnuPG: the encoded request and, after a colon, the base64 text of its
digest. -/
def Request.signed (H : Hash) (digest : Int) (r : Request) : List Nat := r.wire ++ 58 :: b64NoPad (H digest r.wire)

/-- A message of GnuPG that begins with a public-key encrypted session key packet in the old format with
a length of two octets (RFC 4880, 4.2.1 and 5.1), as it is for RSA and Elgamal keys. -/
def OldSessionKey (cipher : List Nat) : Prop :=
  IsBytes cipher ∧ ∃ hi lo rest, cipher = 0x85 :: hi :: lo :: rest ∧ 256 * hi + lo ≤ rest.length

/-- A stanza for GnuPG: a passphrase, no KEY, and signatures are required. -/
structure GpgStanza (acc : Stanza) (pw : List Nat) : Prop where
  gpg : acc.use_gpg = true
  no_key : acc.use_rijndael = false
  pw : acc.gpg_decrypt_pw = some pw
  signed : acc.gpg_require_sig = true

/-- The program and the key ring that the stanza names are there. -/
structure GpgThere (G : Gpg) (acc : Stanza) : Prop where
  exe : ∀ e, acc.gpg_exe = some e → G.isFile e = true
  home : ∀ d, acc.gpg_home_dir = some d → G.isDir d = true
  engine : G.engine (acc.gpg_exe.getD b!"/usr/bin/gpg") acc.gpg_home_dir = true

/-- The stanza takes this signature: GnuPG vouches for it, and its fingerprint and its short identity
are in those lists that the stanza has. -/
structure Takes (acc : Stanza) (s : GpgSig) : Prop where
  vouched : Vouched s
  long : 8 ≤ s.fpr.length
  fpr : acc.gpg_remote_fpr_list = [] ∨ s.fpr ∈ acc.gpg_remote_fpr_list
  id : acc.gpg_remote_id_list = [] ∨ keyId s.fpr ∈ acc.gpg_remote_id_list

/-- The server's GnuPG understands the ciphertext: it decrypts it, with the stanza's key ring and
passphrase, to the plaintext, and the first signature it finds is one that the stanza takes. -/
def Understands (G : Gpg) (acc : Stanza) (pw cipher plain : List Nat) : Prop :=
  ∃ r s, GpgSays G (acc.gpg_exe.getD b!"/usr/bin/gpg") acc.gpg_home_dir pw cipher r ∧ r.unsupported_algorithm = false ∧
    r.plain = plain ∧ r.sigs.head? = some s ∧ Takes acc s

end Fwknop.Spec
