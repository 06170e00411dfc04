import Verif.Lemmas.Std
import Verif.Props.Fko
import Verif.Props.Aes

/-!
# Properties of the digest and HMAC functions

Strings are lists of bytes; `.ok x` says that no memory outside an object was read or written and
that `x` was stored.  `junk` is what was in the memory of a context that the code does not clear.
-/

namespace Fwknop.Props

open Spec

/-! ## C74: MD5, SHA-1 and SHA-2 -/

/-- **C74.** `md5` stores the MD5 digest of RFC 1321, for every message below 4 GiB and whatever was
in the memory of the context. -/
theorem C74_md5_is_rfc1321 (junk m : Str) (hj : junk.length = 64) (hm : m.length < 2 ^ 32) :
    Md5.md5 junk m = .ok (Spec.md5 m) := Md5.md5_eq hj hm

example : Md5.md5 (List.replicate 64 0xaa)
    b!"abcdbcdecdefdefgefghfghighijhijkijkljklmklmnlmnomnopnopq" = .ok [0x82, 0x15, 0xef, 0x07,
    0x96, 0xa2, 0x0b, 0xca, 0xaa, 0xe1, 0x16, 0xd3, 0x87, 0x6c, 0x66, 0x4a] := by
  decide +kernel

/-- **C74.** `sha1` stores the SHA-1 digest of FIPS 180-4, for every message below 2 GiB. -/
theorem C74_sha1_is_fips180 (junk m : Str) (hj : junk.length = 64) (hm : m.length < 2 ^ 31) (hb : IsBytes m) :
    Sha1.sha1 junk m = .ok (Spec.sha1 m) := Sha1.sha1_eq hj hm hb

example : Sha1.sha1 (List.replicate 64 0xaa)
    b!"abcdbcdecdefdefgefghfghighijhijkijkljklmklmnlmnomnopnopq" = .ok [0x84, 0x98, 0x3e, 0x44,
    0x1c, 0x3b, 0xd2, 0x6e, 0xba, 0xae, 0x4a, 0xa1, 0xf9, 0x51, 0x29, 0xe5, 0xe5, 0x46, 0x70,
    0xf1] := by
  decide +kernel

/-- **C74.** `sha256` stores the SHA-256 digest of FIPS 180-4. -/
theorem C74_sha256_is_fips180 (m : Str) (hb : IsBytes m) : Sha2.sha256 m = .ok (Spec.sha256 m) := Sha2.sha256_eq hb

example : Sha2.sha256 b!"abcdbcdecdefdefgefghfghighijhijkijkljklmklmnlmnomnopnopq" = .ok [0x24,
    0x8d, 0x6a, 0x61, 0xd2, 0x06, 0x38, 0xb8, 0xe5, 0xc0, 0x26, 0x93, 0x0c, 0x3e, 0x60, 0x39,
    0xa3, 0x3c, 0xe4, 0x59, 0x64, 0xff, 0x21, 0x67, 0xf6, 0xec, 0xed, 0xd4, 0x19, 0xdb, 0x06,
    0xc1] := by
  decide +kernel

/-- **C74.** `sha384` stores the SHA-384 digest of FIPS 180-4. -/
theorem C74_sha384_is_fips180 (m : Str) (hb : IsBytes m) : Sha2.sha384 m = .ok (Spec.sha384 m) := Sha2.sha384_eq hb

example : Sha2.sha384 b!"abcdbcdecdefdefgefghfghighijhijkijkljklmklmnlmnomnopnopq" = .ok [0x33,
    0x91, 0xfd, 0xdd, 0xfc, 0x8d, 0xc7, 0x39, 0x37, 0x07, 0xa6, 0x5b, 0x1b, 0x47, 0x09, 0x39,
    0x7c, 0xf8, 0xb1, 0xd1, 0x62, 0xaf, 0x05, 0xab, 0xfe, 0x8f, 0x45, 0x0d, 0xe5, 0xf3, 0x6b,
    0xc6, 0xb0, 0x45, 0x5a, 0x85, 0x20, 0xbc, 0x4e, 0x6f, 0x5f, 0xe9, 0x5b, 0x1f, 0xe3, 0xc8,
    0x45, 0x2b] := by
  decide +kernel

/-- **C74.** `sha512` stores the SHA-512 digest of FIPS 180-4. -/
theorem C74_sha512_is_fips180 (m : Str) (hb : IsBytes m) : Sha2.sha512 m = .ok (Spec.sha512 m) := Sha2.sha512_eq hb

example : Sha2.sha512 b!"abcdbcdecdefdefgefghfghighijhijkijkljklmklmnlmnomnopnopq" = .ok [0x20,
    0x4a, 0x8f, 0xc6, 0xdd, 0xa8, 0x2f, 0x0a, 0x0c, 0xed, 0x7b, 0xeb, 0x8e, 0x08, 0xa4, 0x16,
    0x57, 0xc1, 0x6e, 0xf4, 0x68, 0xb2, 0x28, 0xa8, 0x27, 0x9b, 0xe3, 0x31, 0xa7, 0x03, 0xc3,
    0x35, 0x96, 0xfd, 0x15, 0xc1, 0x3b, 0x1b, 0x07, 0xf9, 0xaa, 0x1d, 0x3b, 0xea, 0x57, 0x78,
    0x9c, 0xa0, 0x31, 0xad, 0x85, 0xc7, 0xa7, 0x1d, 0xd7, 0x03, 0x54, 0xec, 0x63, 0x12, 0x38,
    0xca, 0x34, 0x45] := by
  decide +kernel

theorem pieces_rep {σ : Type} {R : σ → Str → Prop} {f : σ → Str → Res σ}
    (h : ∀ s m d, R s m → IsBytes m → IsBytes d → ∃ s', f s d = .ok s' ∧ R s' (m ++ d)) (ds : List Str) (s : σ)
    (m : Str) (hr : R s m) (hm : IsBytes m) (hd : ∀ d ∈ ds, IsBytes d) :
    ∃ s', ds.foldlM f s = .ok s' ∧ R s' (m ++ ds.flatten) := by
  induction ds generalizing s m with
  | nil => exact ⟨s, rfl, by simpa using hr⟩
  | cons d ds ih =>
    have hdb : IsBytes d := hd d (by simp)
    obtain ⟨s', h1, h2⟩ := h s m d hr hm hdb
    obtain ⟨s'', h3, h4⟩ := ih s' (m ++ d) h2 (isB_append hm hdb) (fun x hx => hd x (by simp [hx]))
    refine ⟨s'', ?_, by simpa using h4⟩
    rw [List.foldlM_cons, h1]
    exact h3

theorem flatten_bytes {ds : List Str} (hd : ∀ d ∈ ds, IsBytes d) : IsBytes ds.flatten := by
  intro c hc
  obtain ⟨d, h1, h2⟩ := List.mem_flatten.mp hc
  exact hd d h1 c h2

theorem nil_bytes : IsBytes [] := fun _ h => by cases h

/-- **C74.** A message handed over in pieces, of any number and any lengths, has the digest of the
whole. -/
theorem C74_md5_any_pieces (junk : Str) (hj : junk.length = 64) (ds : List Str) (hd : ∀ d ∈ ds, IsBytes d) :
    (do let c ← ds.foldlM Md5.MD5Update (Md5.MD5Init junk)
        Md5.MD5Final c) = .ok (Spec.md5 ds.flatten) := by
  obtain ⟨c, h1, h2⟩ := pieces_rep (R := Md5.Rep) (f := Md5.MD5Update) (fun s m d hr _ _ => Md5.rep_update hr d) ds
    (Md5.MD5Init junk) [] (Md5.rep_init hj) nil_bytes hd
  rw [h1, Res.bind_ok, Md5.final_eq h2]
  rfl

/-- **C74.** -/
theorem C74_sha1_any_pieces (junk : Str) (hj : junk.length = 64) (ds : List Str) (hd : ∀ d ∈ ds, IsBytes d) :
    (do let c ← ds.foldlM Sha1.sha1_update (Sha1.sha1_init junk)
        Sha1.sha1_final c) = .ok (Spec.sha1 ds.flatten) := by
  obtain ⟨c, h1, h2⟩ := pieces_rep (R := Sha1.Rep) (f := Sha1.sha1_update)
    (fun s m d hr hm hd => Sha1.rep_update hr hm d hd) ds (Sha1.sha1_init junk) [] (Sha1.rep_init hj) nil_bytes hd
  rw [h1, Res.bind_ok, Sha1.final_eq h2 (flatten_bytes hd)]
  rfl

/-- **C74.** -/
theorem C74_sha256_any_pieces (ds : List Str) (hd : ∀ d ∈ ds, IsBytes d) :
    (do let c ← ds.foldlM Sha2.SHA256_Update Sha2.SHA256_Init
        Sha2.SHA256_Final c) = .ok (Spec.sha256 ds.flatten) := by
  obtain ⟨c, h1, h2⟩ := pieces_rep (R := Sha2.Rep256) (f := Sha2.SHA256_Update)
    (fun s m d hr hm hd => Sha2.rep_update256 hr hm d hd) ds Sha2.SHA256_Init [] Sha2.rep_init256 nil_bytes hd
  rw [h1, Res.bind_ok, Sha2.final_eq256 h2 (flatten_bytes hd)]
  rfl

/-- **C74.** -/
theorem C74_sha384_any_pieces (ds : List Str) (hd : ∀ d ∈ ds, IsBytes d) :
    (do let c ← ds.foldlM Sha2.SHA512_Update Sha2.SHA384_Init
        Sha2.SHA384_Final c) = .ok (Spec.sha384 ds.flatten) := by
  obtain ⟨c, h1, h2⟩ := pieces_rep (R := Sha2.Rep512 Spec.sha384H0) (f := Sha2.SHA512_Update)
    (fun s m d hr hm hd => Sha2.rep_update512 hr hm d hd) ds Sha2.SHA384_Init [] Sha2.rep_init384 nil_bytes hd
  rw [h1, Res.bind_ok, Sha2.final_eq384 h2 (flatten_bytes hd)]
  rfl

/-- **C74.** -/
theorem C74_sha512_any_pieces (ds : List Str) (hd : ∀ d ∈ ds, IsBytes d) :
    (do let c ← ds.foldlM Sha2.SHA512_Update Sha2.SHA512_Init
        Sha2.SHA512_Final c) = .ok (Spec.sha512 ds.flatten) := by
  obtain ⟨c, h1, h2⟩ := pieces_rep (R := Sha2.Rep512 Spec.sha512H0) (f := Sha2.SHA512_Update)
    (fun s m d hr hm hd => Sha2.rep_update512 hr hm d hd) ds Sha2.SHA512_Init [] Sha2.rep_init512 nil_bytes hd
  rw [h1, Res.bind_ok, Sha2.final_eq512 h2 (flatten_bytes hd)]
  rfl

/-- **C74.** The constants the code adds in the rounds of SHA-256 are the first 32 bits of the
fractional parts of the cube roots of the first 64 primes, as FIPS 180-4 says. -/
theorem C74_sha256_round_constants : Sha2.K256.length = 64 ∧
    ∀ i < 64, RootBits 3 32 (primes.getD i 0) (Sha2.K256.getD i 0) := by
  unfold RootBits
  decide +kernel

/-- **C74.** Those of SHA-384 and SHA-512 are the first 64 bits for the first 80 primes. -/
theorem C74_sha512_round_constants : Sha2.K512.length = 80 ∧
    ∀ i < 80, RootBits 3 64 (primes.getD i 0) (Sha2.K512.getD i 0) := by
  unfold RootBits
  decide +kernel

/-- The eight words of a state. -/
def words {w : Nat} : Eight w → List (BitVec w)
  | (a, b, c, d, e, f, g, h) => [a, b, c, d, e, f, g, h]

/-- **C74.** The initial values of SHA-256 and SHA-512 come from the square roots of the first eight
primes, those of SHA-384 from the ninth to the sixteenth. -/
theorem C74_sha2_initial_values :
    (∀ i < 8, RootBits 2 32 (primes.getD i 0) ((words Sha2.SHA256_Init.state).getD i 0)) ∧
    (∀ i < 8, RootBits 2 64 (primes.getD i 0) ((words Sha2.SHA512_Init.state).getD i 0)) ∧
    (∀ i < 8, RootBits 2 64 (primes.getD (8 + i) 0) ((words Sha2.SHA384_Init.state).getD i 0)) := by
  unfold RootBits
  decide +kernel

/-- The list of primes is the list of primes. -/
example : primes.take 10 = [2, 3, 5, 7, 11, 13, 17, 19, 23, 29] ∧ primes.length = 80 := by decide +kernel

/-- **C74, limit.** Of a message of 4 GiB or more, `md5` digests only a beginning: the length is
converted to `unsigned`. -/
theorem C74_md5_long_message_truncated (junk m : Str) (hj : junk.length = 64) :
    Md5.md5 junk m = .ok (Spec.md5 (m.take (m.length % 2 ^ 32))) := by
  obtain ⟨c, h1, h2⟩ := Md5.rep_update (Md5.rep_init hj) (m.take (m.length % 2 ^ 32))
  unfold Md5.md5
  rw [h1]
  exact Md5.final_eq h2

/-- **C74, limit.** The behaviour of `sha1` is undefined for a message of 2 GiB up to 4 GiB. -/
theorem C74_sha1_undefined_from_two_gigabytes (junk m : Str) (h1 : 2 ^ 31 ≤ m.length) (h2 : m.length < 2 ^ 32) :
    Sha1.sha1 junk m = .ub := by
  unfold Sha1.sha1
  rw [Nat.mod_eq_of_lt h2, Res.mem, if_pos (by simpa using h1)]
  rfl

example : ∃ m : Str, 2 ^ 31 ≤ m.length ∧ m.length < 2 ^ 32 := 
  ⟨List.replicate (2 ^ 31) 0, by rw [List.length_replicate]; exact Nat.le_refl _, by rw [List.length_replicate]; omega⟩

/-! ## C75: SHA-3 -/

/-- **C75.** `sha3_256` stores the SHA3-256 digest of FIPS 202, for every message below 4 GiB. -/
theorem C75_sha3_256_is_fips202 (m : Str) (hm : m.length < 2 ^ 32) (hb : IsBytes m) :
    Sha3.sha3_256 m = .ok (Spec.sha3_256 m) := Sha3.sha3_256_eq hm hb

example : Sha3.sha3_256 b!"abc" = .ok (Spec.sha3_256 b!"abc") :=
  C75_sha3_256_is_fips202 _ (by decide) (by decide)

/-- **C75.** `sha3_512` stores the SHA3-512 digest of FIPS 202. -/
theorem C75_sha3_512_is_fips202 (m : Str) (hm : m.length < 2 ^ 32) (hb : IsBytes m) :
    Sha3.sha3_512 m = .ok (Spec.sha3_512 m) := Sha3.sha3_512_eq hm hb

example : Sha3.sha3_512 b!"abc" = .ok (Spec.sha3_512 b!"abc") :=
  C75_sha3_512_is_fips202 _ (by decide) (by decide)

/-- The round constants are the published ones (the model was also run, with `#eval`, on published
test vectors). -/
example : keccakRC 0 = 0x0000000000000001 ∧ keccakRC 1 = 0x0000000000008082 ∧
    keccakRC 2 = 0x800000000000808a ∧ keccakRC 23 = 0x8000000080008008 := by decide +kernel

/-- **C75.** The permutation of the code, on any state of 200 bytes, is Keccak-p[1600, 24]. -/
theorem C75_permutation_is_keccak (s : Str) (hl : s.length = 200) (hb : IsBytes s) :
    Sha3.KeccakF1600_StatePermute s = Spec.keccakP s := (Sha3.permute_eq hl hb).1

/-- **C75.** The rotations of the code are never by 0 or by 64, where `>>` would be undefined. -/
theorem C75_rotations_defined : ∀ t < 24, 0 < (t + 1) * (t + 2) / 2 % 64 ∧ (t + 1) * (t + 2) / 2 % 64 < 64 :=
  fun t ht => Sha3.offsets_ok t (List.mem_range.mpr ht)

/-! ## C76: HMAC -/

/-- **C76.** The HMAC functions store the RFC 2104 HMAC over the standard digest function of the
type, for every key and every message below 2 GiB, and stay inside their arrays; a key longer than a
block is digested first. -/
theorem C76_hmac_is_rfc2104_over_standard (junk : Nat → Str) (hj : ∀ i, (junk i).length = 64) (t : Nat)
    (ht : 1 ≤ t ∧ t ≤ 7) (msg key : Str) (hm : IsBytes msg) (hk : IsBytes key) (hml : msg.length + 136 < 2 ^ 31)
    (hkl : key.length < 2 ^ 31) :
    hmacCode junk t msg key = .ok (rfc2104 (Spec.digest t) (hashBlock t) key msg) := by
  rw [hmacCode_eq hj t hm hk hml hkl]
  rw [C58_hmac_is_rfc2104 stdHash_lawful t ht]
  rfl

example : hmacCode (fun _ => List.replicate 64 0xaa) 3 b!"what do ya want for nothing?" b!"Jefe"
    = .ok [0x5b, 0xdc, 0xc1, 0x46, 0xbf, 0x60, 0x75, 0x4e, 0x6a, 0x04, 0x24, 0x26, 0x08, 0x95,
    0x75, 0xc7, 0x5a, 0x00, 0x3f, 0x08, 0x9d, 0x27, 0x39, 0x83, 0x9d, 0xec, 0x58, 0xb9, 0x64,
    0xec, 0x38, 0x43] := by
  decide +kernel

example : hmacCode (fun _ => List.replicate 64 0xaa) 2 b!"Hi There" (List.replicate 80 0xaa) =
    .ok [0x8a, 0xc7, 0xda, 0x9b, 0x64, 0x8e, 0x88, 0x91, 0x3b, 0xb4, 0xdc, 0x6c, 0x58, 0x55,
    0x7c, 0x5b, 0x84, 0xe4, 0x0f, 0x6e] := by
  decide +kernel

/-! ## C77: the protocol with the standard algorithms -/

/-- The algorithms that are compiled in: the standard digests and AES. -/
def stdCrypto (gpgEnc gpgDec : (key text : Str) → Option Str) : Crypto where
  H := stdHash
  bc := Aes.cipher
  gpgEnc := gpgEnc
  gpgDec := gpgDec

/-- **C77.** What the other theorems assume of the digest functions holds of the standard ones. -/
theorem C77_standard_digests_lawful : stdHash.Lawful := stdHash_lawful

/-- **C77.** A packet is accepted, with an HMAC key configured, only if it ends in the RFC 2104 HMAC
under that key over MD5, SHA-1, SHA-2 or SHA-3. -/
theorem C77_accepted_only_with_standard_hmac (gpgEnc gpgDec : (key text : Str) → Option Str) (msg k : Str)
    (hk : k ≠ []) (dec_key : Option Str) (mode : Int) (t : Nat) (c' : Ctx)
    (h : fko_new_with_data (stdCrypto gpgEnc gpgDec) msg dec_key mode (some k) t = .ok c') :
    Authentic (Spec.digest t) (hashBlock t) k (mode = 7) msg ∧ 1 ≤ t ∧ t ≤ 7 :=
  C15_accepted_only_with_valid_hmac (K := stdCrypto gpgEnc gpgDec) stdHash_lawful msg k hk dec_key mode t c' h

/-- **C77.** With the algorithms that are compiled in, and no assumption on them, what a client
sends is decoded by a server with the same keys to the same request (the limits are those of C17). -/
theorem C77_end_to_end_partial (gpgEnc gpgDec : (key text : Str) → Option Str)
    {rands : List Nat} {user : Str} {now : Int} {c0 : Ctx} (h0 : fko_new rands user now = some c0)
    (calls : List Call) {c : Ctx} (hcalls : runCalls (stdCrypto gpgEnc gpgDec) c0 calls = .ok c)
    {r : Request} (hr : r.WellFormed) (hc : Carries c r)
    (hd : 1 ≤ c.digest_type ∧ c.digest_type ≤ 7) (hrij : c.encryption_type = 1)
    (hmode : InvertibleMode c.encryption_mode)
    (hdig : ∀ ch ∈ r.rand, isDigit ch = true)
    (salt key : Str) (hs : salt.length = 8) (hsb : IsBytes salt) (hk : key.length ≤ 32)
    (hkey : Option Str)
    (hcase : (c.hmac_type = 0 ∧ hkey = none ∧ plainLen r c.digest_type ≤ 287) ∨
      ((1 ≤ c.hmac_type ∧ c.hmac_type ≤ 7) ∧ (∃ k, hkey = some k ∧ 1 ≤ k.length ∧ k.length ≤ 136) ∧
        plainLen r c.digest_type ≤ 271)) :
    ∃ c' packet s, fko_spa_data_final (stdCrypto gpgEnc gpgDec) salt c (some key) hkey = .ok (true, c') ∧
      fko_get_spa_data c' = some packet ∧
      fko_new_with_data (stdCrypto gpgEnc gpgDec) packet (some key) c.encryption_mode hkey c.hmac_type = .ok s ∧
      Carries s r ∧ s.digest = some (b64NoPad (Spec.digest c.digest_type.toNat r.wire)) := by
  obtain ⟨c', packet, s, h1, h2, h3, h4, h5⟩ := C17_end_to_end_partial (K := stdCrypto gpgEnc gpgDec) stdHash_lawful
    C63_cipher_lawful h0 calls hcalls hr hc hd hrij hmode hdig salt key hs hsb hk hkey hcase
  refine ⟨c', packet, s, h1, h2, h3, h4, ?_⟩
  rw [h5, show (stdCrypto gpgEnc gpgDec).H = stdHash from rfl, digest_base64_eq stdHash_lawful]
  rfl

end Fwknop.Props
