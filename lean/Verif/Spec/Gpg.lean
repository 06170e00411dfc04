import Verif.Model.Gpg
import Verif.Spec.AccessFile

/-!
# Who signed a request

What GnuPG says is quoted in the terms of gpgme; the demands are those of fwknopd(8) and
access.conf(5).
-/

namespace Fwknop.Spec

/-- GnuPG found the signature to be correct, and it believes, at least marginally, that the key
belongs to the person it names. -/
def Vouched (s : GpgSig) : Prop := s.status = 0 ∧ 3 ≤ s.validity

/-- The short identity of a key: the last eight digits of its fingerprint. -/
def keyId (fpr : List Nat) : List Nat := fpr.drop (fpr.length - 8)

/-- GnuPG, run with this key ring and given this passphrase once, says this of a ciphertext. -/
def GpgSays (G : Gpg) (exe : List Nat) (home : Option (List Nat)) (pw cipher : List Nat) (r : GpgReply) : Prop :=
  G.decrypt_verify exe home (fun again => if again then none else some (pw.takeWhile (· ≠ 0) ++ [10])) cipher = some r

/-- The text of a packet begins with the base64 text of the ciphertext, where the constant start of
all such texts may have been left out. -/
def CarriesCipher (text cipher : List Nat) : Prop :=
  ∃ body, body <+: text ∧ (Base64.b64_decode body = some cipher ∨ Base64.b64_decode (b!"hQ" ++ body) = some cipher)

/-- The request is the one that the plaintext spells (C02 says what decoding does). -/
def SpelledBy (H : Hash) (plain : List Nat) (c : Ctx) : Prop :=
  ∃ c0 : Ctx, fko_decode_spa_data H
    { c0 with encoded_msg := some (plain ++ [0]), encoded_msg_len := (plain.takeWhile (· ≠ 0)).length } = .ok c

/-- A request was signed: GnuPG decrypts the ciphertext in the packet to it, and the first signature
it finds meets the demands. -/
def SignedRequest (H : Hash) (G : Gpg) (exe : List Nat) (home : Option (List Nat)) (pw text : List Nat) (c : Ctx)
    (demands : GpgSig → Prop) : Prop :=
  ∃ cipher r s, CarriesCipher text cipher ∧ GpgSays G exe home pw cipher r ∧ SpelledBy H r.plain c ∧
    r.sigs.head? = some s ∧ 8 ≤ s.fpr.length ∧ demands s

/-- The mode of encryption for KEY is the default, or one with a name other than `Asymmetric`. -/
def SymmetricMode (opts : List Entry) : Prop :=
  lastOf [b!"ENCRYPTION_MODE"] opts = none ∨
  ∃ n k v, (n, k) ∈ modeNames ∧ k ≠ 7 ∧ lastOf [b!"ENCRYPTION_MODE"] opts = some v ∧ v.map lower = n.map lower

/-- The items of a list in access.conf: separated by commas, blanks in front of an item are not part
of it. -/
def Items (v : List Nat) (l : List (List Nat)) : Prop :=
  ∃ q : List (List Nat × List Nat), q ≠ [] ∧ l = q.map (·.2) ∧ v = commaJoin (q.map fun i => i.1 ++ i.2) ∧
    ∀ i ∈ q, (∀ c ∈ i.1, IsBlank c) ∧ i.2 ≠ [] ∧ (∀ c ∈ i.2, c ≠ 44) ∧ ¬ IsBlank (i.2.headD 0)

end Fwknop.Spec
