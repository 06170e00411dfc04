import Verif.Model.Basic

/-!
# Independent specifications for the symmetric layer

The feedback modes as NIST SP 800-38A defines them (an equation for each ciphertext block), the
password-based key derivation of OpenSSL (`EVP_BytesToKey` with MD5 and one iteration), and
PKCS #7 padding.
-/

namespace Fwknop.Spec

/-- Bytewise exclusive or. -/
def xorB (a b : List Nat) : List Nat := List.zipWith (· ^^^ ·) a b

/-- The number a byte string denotes, most significant byte first. -/
def beVal (b : List Nat) : Nat := b.foldl (fun a x => 256 * a + x) 0

/-- The block before block `i` in a chain that starts with `iv`. -/
def prev (iv : List Nat) (bs : List (List Nat)) (i : Nat) : List Nat :=
  if i = 0 then iv else bs.getD (i - 1) []

/-- SP 800-38A 6.1: C_i = E(P_i). -/
def IsECB (E : List Nat → List Nat) (P C : List (List Nat)) : Prop :=
  C.length = P.length ∧ ∀ i < P.length, C.getD i [] = E (P.getD i [])

/-- SP 800-38A 6.2: C_1 = E(P_1 + IV), C_i = E(P_i + C_{i-1}). -/
def IsCBC (E : List Nat → List Nat) (iv : List Nat) (P C : List (List Nat)) : Prop :=
  C.length = P.length ∧ ∀ i < P.length, C.getD i [] = E (xorB (P.getD i []) (prev iv C i))

/-- SP 800-38A 6.3 with whole blocks: C_i = P_i + E(C_{i-1}). -/
def IsCFB (E : List Nat → List Nat) (iv : List Nat) (P C : List (List Nat)) : Prop :=
  C.length = P.length ∧ ∀ i < P.length, C.getD i [] = xorB (P.getD i []) (E (prev iv C i))

/-- The OFB key stream: O_1 = E(IV), O_i = E(O_{i-1}). -/
def ofbStream (E : List Nat → List Nat) (iv : List Nat) : Nat → List Nat
  | 0 => E iv
  | i + 1 => E (ofbStream E iv i)

/-- SP 800-38A 6.4: C_i = P_i + O_i. -/
def IsOFB (E : List Nat → List Nat) (iv : List Nat) (P C : List (List Nat)) : Prop :=
  C.length = P.length ∧ ∀ i < P.length, C.getD i [] = xorB (P.getD i []) (ofbStream E iv i)

/-- SP 800-38A 6.5 and B.1: C_i = P_i + E(T_i), where the counter block T_i is the 16-byte string
of the number of the first counter plus i, modulo 2^128. -/
def IsCTR (E : List Nat → List Nat) (iv : List Nat) (P C : List (List Nat)) : Prop :=
  C.length = P.length ∧ ∀ i < P.length, ∃ T : List Nat, T.length = 16 ∧ IsBytes T ∧
    beVal T = (beVal iv + i) % 2 ^ 128 ∧ C.getD i [] = xorB (P.getD i []) (E T)

/-- `EVP_BytesToKey`: D_1 = MD5(password salt), D_i = MD5(D_{i-1} password salt); `bytesToKey n` is
the concatenation of the first `n`. -/
def bytesToKeyAux (md5 : List Nat → List Nat) (pw salt : List Nat) : Nat → List Nat → List Nat
  | 0, _ => []
  | n + 1, d => md5 (d ++ pw ++ salt) ++ bytesToKeyAux md5 pw salt n (md5 (d ++ pw ++ salt))

def bytesToKey (md5 : List Nat → List Nat) (pw salt : List Nat) (n : Nat) : List Nat :=
  bytesToKeyAux md5 pw salt n []

/-- PKCS #7: the plaintext, then 1 to 16 bytes each of which is their number, up to a multiple of
16. -/
def IsPkcs7 (plain padded : List Nat) : Prop :=
  padded.length % 16 = 0 ∧ ∃ n, 1 ≤ n ∧ n ≤ 16 ∧ padded = plain ++ List.replicate n n

end Fwknop.Spec
