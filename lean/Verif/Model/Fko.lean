import Verif.Model.Cipher
import Verif.Model.Spa

/-!
# Encryption, HMAC and whole-packet functions of libfko
(lib/hmac.c, lib/fko_hmac.c, lib/fko_encryption.c, lib/cipher_funcs.c, lib/fko_funcs.c)

Allocation failures and the results of `zero_free` (which fail only on optimised-away stores)
are not modelled.  A key argument is the byte string of its given length; a NULL key is `none`.
-/

namespace Fwknop

/-- The algorithms the library calls: digests, the block cipher, and GnuPG through gpgme
(`gpgEnc key plain`, `gpgDec key cipher`; `none` is any gpgme error, and all errors of a build
without gpgme). -/
structure Crypto where
  H : Hash
  bc : BlockCipher
  gpgEnc : (key plain : Str) → Option Str
  gpgDec : (key cipher : Str) → Option Str

/-- Block lengths: lib/md5.h:39, sha1.h:46, sha2.h:69-79, sha3.h:11-12. -/
def blockLen (t : Int) : Nat :=
  if t = FKO_DIGEST_SHA384 ∨ t = FKO_DIGEST_SHA512 then 128
  else if t = FKO_DIGEST_SHA3_256 then 136
  else if t = FKO_DIGEST_SHA3_512 then 72
  else 64

/-- lib/hmac.h:35. -/
abbrev MAX_DIGEST_BLOCK_LEN : Nat := 136

/-- One of the two pads filled by `pad_init`, lib/hmac.c:41-62. -/
def pad_init (c : Nat) (key : Str) : Str :=
  (key.take MAX_DIGEST_BLOCK_LEN).map (· ^^^ c)
    ++ List.replicate (MAX_DIGEST_BLOCK_LEN - key.length) c

/-- `hmac_md5`, `hmac_sha1`, ..., lib/hmac.c:64-387 (seven copies of one text). -/
def hmac (H : Hash) (t : Int) (msg key : Str) : Str :=
  let fk := if blockLen t < key.length then H t key else key
  let inner := H t ((pad_init 0x36 fk).take (blockLen t) ++ msg)
  H t ((pad_init 0x5c fk).take (blockLen t) ++ inner)

/-- `fko_set_spa_hmac`, lib/fko_hmac.c:236-352.  The type 0 leaves `res` at FKO_ERROR_UNKNOWN.
Reading beyond the string (possible when `encrypted_msg_len` exceeds it) is reported as `ub`.
The length test at 335-349 accepts every supported digest length. -/
def fko_set_spa_hmac (H : Hash) (c : Ctx) (key : Option Str) : Res Ctx :=
  match key with
  | none => .err
  | some k => do
    Res.guard (k.length > MAX_DIGEST_BLOCK_LEN)
    Res.guard (c.hmac_type < 1 ∨ c.hmac_type ≥ FKO_LAST_HMAC_MODE)
    let m := c.encrypted_msg.getD []
    Res.mem (c.encrypted_msg.isNone ∨ c.encrypted_msg_len < 0 ∨ c.encrypted_msg_len > m.length)
    let h := Base64.strip_b64_eq (Base64.b64_encode
      (hmac H c.hmac_type (m.take c.encrypted_msg_len.toNat) k))
    return { c with msg_hmac := some h, msg_hmac_len := h.length }

/-- lib/fko.h:325-329. -/
abbrev B64_RIJNDAEL_SALT : Str := b!"U2FsdGVkX1"
abbrev B64_GPG_PREFIX : Str := b!"hQ"

/-- `add_salted_str`, lib/cipher_funcs.c:332-375 (without AFL_FUZZING).  The comparison reads
the first ten characters. -/
def add_salted_str (c : Ctx) : Res Ctx :=
  match c.encrypted_msg with
  | none => .ub
  | some m => do
    Res.mem (c.encrypted_msg_len ≠ m.length ∨ m.length < 10)
    Res.guard (!Base64.is_base64 m)
    if constant_runtime_cmp m B64_RIJNDAEL_SALT 10 ≠ 0 then
      return { c with encrypted_msg := some (B64_RIJNDAEL_SALT ++ m),
                      encrypted_msg_len := c.encrypted_msg_len + 10, added_salted_str := true }
    else return c

/-- `add_gpg_prefix`, lib/cipher_funcs.c:380-418. -/
def add_gpg_prefix (c : Ctx) : Res Ctx :=
  match c.encrypted_msg with
  | none => .ub
  | some m => do
    Res.mem (c.encrypted_msg_len ≠ m.length ∨ m.length < 2)
    Res.guard (!Base64.is_base64 m)
    if constant_runtime_cmp m B64_GPG_PREFIX 2 ≠ 0 then
      return { c with encrypted_msg := some (B64_GPG_PREFIX ++ m),
                      encrypted_msg_len := c.encrypted_msg_len + 2, added_gpg_prefix := true }
    else return c

/-- The digest lengths accepted before encryption, lib/fko_encryption.c:75-89, 305-319. -/
def okDigestLen (n : Int) : Bool := n = 22 ∨ n = 27 ∨ n = 43 ∨ n = 64 ∨ n = 86

/-- The plaintext `"%s:%s"` of encoded message and digest, lib/fko_encryption.c:101, 335
(`encoded_msg` includes its terminator). -/
def plainText (c : Ctx) : Str :=
  (c.encoded_msg.getD []).takeWhile (· ≠ 0) ++ 58 :: c.digest.getD []

/-- Storing a ciphertext, lib/fko_encryption.c:140-169, 392-421: base64 without '=', then the
length test on the result. -/
def storeCipher (c : Ctx) (cipher : Str) : Res (Bool × Ctx) :=
  let e := Base64.strip_b64_eq (Base64.b64_encode cipher)
  let c' := { c with encrypted_msg := some e,
                     encrypted_msg_len := ((min e.length MAX_SPA_ENCODED_MSG_SIZE : Nat) : Int) }
  .ok (is_valid_encoded_msg_len c'.encrypted_msg_len, c')

/-- `_rijndael_encrypt`, lib/fko_encryption.c:59-170.  The buffer has
`encoded_msg_len + digest_len + 18` bytes and receives the text and up to 16 bytes of padding. -/
def _rijndael_encrypt (K : Crypto) (salt : Str) (c : Ctx) (key : Str) : Res (Bool × Ctx) :=
  if key.length > RIJNDAEL_MAX_KEYSIZE ∨ !is_valid_encoded_msg_len c.encoded_msg_len
    ∨ !okDigestLen c.digest_len then .ok (false, c)
  else
    let pt := plainText c
    if !is_valid_encoded_msg_len pt.length then .ok (false, c)
    else do
      Res.mem (((addPad pt).length : Int) > c.encoded_msg_len + c.digest_len + 18)
      storeCipher c (rij_encrypt K.H K.bc salt pt key c.encryption_mode)

/-- `gpg_encrypt`, lib/fko_encryption.c:291-422; the choice of recipient and signer keys is
inside `gpgEnc`. -/
def gpg_encrypt (K : Crypto) (c : Ctx) (key : Option Str) : Res (Bool × Ctx) :=
  if !is_valid_encoded_msg_len c.encoded_msg_len ∨ !okDigestLen c.digest_len then .ok (false, c)
  else
    let pt := plainText c
    if !is_valid_encoded_msg_len pt.length then .ok (false, c)
    else
      match K.gpgEnc (key.getD []) pt with
      | none => .ok (false, c)
      | some cipher => storeCipher c cipher

/-- `fko_encrypt_spa_data`, lib/fko_encryption.c:587-635, after the re-encoding step. -/
def encryptEncoded (K : Crypto) (salt : Str) (c : Ctx) (key : Option Str) : Res (Bool × Ctx) :=
  if !is_valid_encoded_msg_len c.encoded_msg_len then .ok (false, c)
  else if c.encryption_type = FKO_ENCRYPTION_RIJNDAEL then
    match key with
    | none => .ok (false, c)
    | some k => _rijndael_encrypt K salt c k
  else if c.encryption_type = FKO_ENCRYPTION_GPG then gpg_encrypt K c key
  else .ok (false, c)

/-- `fko_encrypt_spa_data`, lib/fko_encryption.c:587-635: success flag and context. -/
def fko_encrypt_spa_data (K : Crypto) (salt : Str) (c : Ctx) (key : Option Str) :
    Res (Bool × Ctx) :=
  if c.encoded_msg.isNone ∨ c.isModified then do
    let r ← fko_encode_spa_data K.H c
    if r.1 then encryptEncoded K salt r.2 key else return (false, r.2)
  else encryptEncoded K salt c key

/-- Appending the HMAC, lib/fko_funcs.c:493-512 (note that the recorded length becomes two more
than the length of the string). -/
def appendHmac (H : Hash) (c : Ctx) (hmac_key : Option Str) : Res (Bool × Ctx) :=
  match fko_set_spa_hmac H c hmac_key with
  | .ub => .ub
  | .err => .ok (false, c)
  | .ok c1 =>
    let n := c1.encrypted_msg_len + 1 + c1.msg_hmac_len + 1
    .ok (true, { c1 with
      encrypted_msg := some (strlcat (c1.encrypted_msg.getD []) (c1.msg_hmac.getD []) n.toNat),
      encrypted_msg_len := n })

/-- `fko_spa_data_final`, lib/fko_funcs.c:465-516. -/
def fko_spa_data_final (K : Crypto) (salt : Str) (c : Ctx) (key hmac_key : Option Str) :
    Res (Bool × Ctx) := do
  let r ← fko_encrypt_spa_data K salt c key
  if r.1 && r.2.hmac_type ≠ FKO_HMAC_UNKNOWN then appendHmac K.H r.2 hmac_key else return r

/-- `fko_get_spa_data`, lib/fko_funcs.c:520-563. -/
def fko_get_spa_data (c : Ctx) : Option Str :=
  match c.encrypted_msg with
  | none => none
  | some m =>
    if !is_valid_encoded_msg_len ((min m.length MAX_SPA_ENCODED_MSG_SIZE : Nat) : Int) then none
    else if c.encryption_type = FKO_ENCRYPTION_RIJNDAEL then some (m.drop 10)
    else if c.encryption_type = FKO_ENCRYPTION_GPG then some (m.drop 2)
    else some m

/-- `fko_set_spa_data`, lib/fko_funcs.c:567-597. -/
def fko_set_spa_data (c : Ctx) (m : Str) : Option Ctx :=
  if !is_valid_encoded_msg_len ((min m.length MAX_SPA_ENCODED_MSG_SIZE : Nat) : Int) then none
  else some { c with encrypted_msg := some m,
                     encrypted_msg_len := ((min m.length MAX_SPA_ENCODED_MSG_SIZE : Nat) : Int) }

/-- `fko_encryption_type`, lib/fko_encryption.c:679-703. -/
def fko_encryption_type (m : Str) : Int :=
  let n := min m.length MAX_SPA_ENCODED_MSG_SIZE
  if !is_valid_encoded_msg_len (n : Int) then FKO_ENCRYPTION_UNKNOWN
  else if n ≥ 400 then FKO_ENCRYPTION_GPG
  else FKO_ENCRYPTION_RIJNDAEL

/-- The checks of `_rijndael_decrypt` after decryption, lib/fko_encryption.c:254-283: `buf` is
the plaintext buffer, `n` the length reported. -/
def afterDecrypt (H : Hash) (c : Ctx) (cipher_len : Nat) (buf : Str) (n : Nat) : Res Ctx := do
  Res.guard ((n : Int) < (cipher_len : Int) - 32 ∨ n = 0)
  Res.guard (!is_valid_encoded_msg_len n)
  Res.guard (!((buf.take FKO_RAND_VAL_SIZE).all isDigit) ∨ buf.getD FKO_RAND_VAL_SIZE 0 ≠ 58)
  fko_decode_spa_data H { c with encoded_msg := some buf, encoded_msg_len := n }

/-- `_rijndael_decrypt`, lib/fko_encryption.c:174-284. -/
def _rijndael_decrypt (K : Crypto) (c : Ctx) (key : Str) : Res Ctx := do
  Res.guard (key.length > RIJNDAEL_MAX_KEYSIZE)
  let c ← (if !c.added_salted_str then add_salted_str c else pure c)
  match Base64.b64_decode (c.encrypted_msg.getD []) with
  | none => .err
  | some cipher => do
    Res.guard (cipher.length % RIJNDAEL_BLOCKSIZE ≠ 0)
    let r ← rij_decrypt K.H K.bc cipher key c.encryption_mode
    afterDecrypt K.H c cipher.length r.1 r.2

/-- `gpg_decrypt`, lib/fko_encryption.c:426-492: the result of `add_gpg_prefix` is ignored;
`gpgme_decrypt` returns the plaintext in a buffer with one more zero byte
(lib/gpgme_funcs.c:518-533). -/
def gpg_decrypt (K : Crypto) (c : Ctx) (key : Str) : Res Ctx := do
  let c ← (if !c.added_gpg_prefix then
      match add_gpg_prefix c with
      | .ub => Res.ub
      | .err => .ok c
      | .ok c' => .ok c'
    else .ok c)
  match Base64.b64_decode (c.encrypted_msg.getD []) with
  | none => .err
  | some cipher =>
    match K.gpgDec key cipher with
    | none => .err
    | some pt => do
      let n := min (pt.takeWhile (· ≠ 0)).length MAX_SPA_ENCODED_MSG_SIZE
      Res.guard (!is_valid_encoded_msg_len (n : Int))
      fko_decode_spa_data K.H { c with encoded_msg := some (pt ++ [0]), encoded_msg_len := n }

/-- `fko_decrypt_spa_data`, lib/fko_encryption.c:639-675. -/
def fko_decrypt_spa_data (K : Crypto) (c : Ctx) (key : Str) : Res Ctx :=
  let t := fko_encryption_type (c.encrypted_msg.getD [])
  if t = FKO_ENCRYPTION_GPG ∧ c.encryption_mode = FKO_ENC_MODE_ASYMMETRIC then
    gpg_decrypt K { c with encryption_type := FKO_ENCRYPTION_GPG } key
  else if t = FKO_ENCRYPTION_RIJNDAEL then
    _rijndael_decrypt K { c with encryption_type := FKO_ENCRYPTION_RIJNDAEL } key
  else .err

/-- Restoring the prefix before the HMAC is computed, lib/fko_hmac.c:109-140. -/
def addPrefix (c : Ctx) : Res Ctx :=
  if c.encryption_mode = FKO_ENC_MODE_ASYMMETRIC then
    (if !c.added_gpg_prefix then add_gpg_prefix c else .ok c)
  else (if !c.added_salted_str then add_salted_str c else .ok c)

/-- Computing the HMAC and comparing it with the one from the packet, lib/fko_hmac.c:145-167. -/
def compareHmac (H : Hash) (k tag : Str) (hl : Nat) (c : Ctx) : Res Ctx :=
  match fko_set_spa_hmac_type c c.hmac_type with
  | none => .err
  | some c3 => do
    let c4 ← fko_set_spa_hmac H c3 (some k)
    Res.mem ((c4.msg_hmac.getD []).length < hl)
    Res.guard (constant_runtime_cmp tag (c4.msg_hmac.getD []) hl ≠ 0)
    return c4

/-- `fko_verify_hmac`, lib/fko_hmac.c:36-168. -/
def fko_verify_hmac (H : Hash) (c : Ctx) (k : Str) : Res Ctx := do
  Res.guard (!is_valid_encoded_msg_len c.encrypted_msg_len)
  Res.guard (k.length > MAX_DIGEST_BLOCK_LEN)
  Res.guard (c.hmac_type < 1 ∨ c.hmac_type ≥ FKO_LAST_HMAC_MODE)
  let hl := b64DigestLen c.hmac_type
  Res.guard (c.encrypted_msg_len - hl < MIN_SPA_ENCODED_MSG_SIZE)
  let m := c.encrypted_msg.getD []
  Res.mem (c.encrypted_msg.isNone ∨ c.encrypted_msg_len ≠ m.length)
  let c2 ← addPrefix { c with encrypted_msg := some (m.take (m.length - hl)),
                              encrypted_msg_len := c.encrypted_msg_len - hl }
  compareHmac H k (m.drop (m.length - hl)) hl c2

/-- `fko_new_with_data`, lib/fko_funcs.c:161-271, with non-negative key lengths.  Every error
destroys the new context. -/
def fko_new_with_data (K : Crypto) (msg : Str) (dec_key : Option Str) (encryption_mode : Int)
    (hmac_key : Option Str) (hmac_type : Int) : Res Ctx :=
  let n : Int := ((min msg.length MAX_SPA_ENCODED_MSG_SIZE : Nat) : Int)
  if !is_valid_encoded_msg_len n then .err
  else
    match fko_set_spa_encryption_mode { encrypted_msg := some msg, encrypted_msg_len := n }
        encryption_mode with
    | none => .err
    | some c1 =>
      match fko_set_spa_hmac_type c1 hmac_type with
      | none => .err
      | some c2 => do
        let c3 ← (match hmac_key with
          | none => Res.ok c2
          | some k => if k.length > 0 then fko_verify_hmac K.H c2 k else .ok c2)
        let c4 := c3.setFlag FKO_CTX_INITIALIZED
        match dec_key with
        | none => .ok c4
        | some k => fko_decrypt_spa_data K c4 k

end Fwknop
