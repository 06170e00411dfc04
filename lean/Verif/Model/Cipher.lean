import Verif.Model.Ctx

/-!
# Rijndael block modes, key derivation and padding (lib/rijndael.c, lib/cipher_funcs.c)

The block cipher itself is a parameter here (`Model/Aes.lean` transcribes the one of
lib/rijndael.c).  A key is the 32 bytes that `rijndael_setup` receives.
-/

namespace Fwknop

abbrev RIJNDAEL_BLOCKSIZE : Nat := 16
abbrev RIJNDAEL_MIN_KEYSIZE : Nat := 16
abbrev RIJNDAEL_MAX_KEYSIZE : Nat := 32
abbrev SALT_LEN : Nat := 8

/-- `rijndael_encrypt` and `rijndael_decrypt` (lib/rijndael.c:402-467) under the key given to
`rijndael_setup`. -/
structure BlockCipher where
  enc : (key block : Str) → Str
  dec : (key block : Str) → Str

/-- What is assumed of the block cipher: on 32-byte keys it maps 16-byte blocks to 16-byte
blocks and decryption undoes encryption.  (Proved of the code's cipher in `Props/Aes.lean`.) -/
structure BlockCipher.Lawful (bc : BlockCipher) : Prop where
  enc_len : ∀ k b, k.length = 32 → IsBytes k → b.length = 16 → IsBytes b → (bc.enc k b).length = 16
  enc_bytes : ∀ k b, k.length = 32 → IsBytes k → b.length = 16 → IsBytes b → IsBytes (bc.enc k b)
  dec_len : ∀ k b, k.length = 32 → IsBytes k → b.length = 16 → IsBytes b → (bc.dec k b).length = 16
  dec_bytes : ∀ k b, k.length = 32 → IsBytes k → b.length = 16 → IsBytes b → IsBytes (bc.dec k b)
  dec_enc : ∀ k b, k.length = 32 → IsBytes k → b.length = 16 → IsBytes b → bc.dec k (bc.enc k b) = b

/-- The loops `block[j] ^= input[i*16 + j]`. -/
def xorBytes (a b : Str) : Str := List.zipWith (· ^^^ ·) a b

/-- The first `n` 16-byte blocks of a buffer, `&input[16*i]` for `i < n`. -/
def blocksN : Nat → Str → List Str
  | 0, _ => []
  | n + 1, s => s.take 16 :: blocksN n (s.drop 16)

/-- Increment of the counter, least significant byte first, with carry: lib/rijndael.c:522-530. -/
def incLE : Str → Str
  | [] => []
  | b :: bs => if (b + 1) % 256 ≠ 0 then (b + 1) % 256 :: bs else 0 :: incLE bs

/-- lib/rijndael.c:522-530 on the block as stored (the last byte is incremented first). -/
def ctrInc (blk : Str) : Str := (incLE blk.reverse).reverse

/-- MODE_ECB, lib/rijndael.c:479-484 and 547-552. -/
def ecb (f : Str → Str) (bs : List Str) : List Str := bs.map f

/-- MODE_CBC encryption, lib/rijndael.c:485-494; `iv` is the running `block`. -/
def cbcEnc (E : Str → Str) : (iv : Str) → List Str → List Str
  | _, [] => []
  | iv, b :: bs => E (xorBytes iv b) :: cbcEnc E (E (xorBytes iv b)) bs

/-- MODE_CBC decryption, lib/rijndael.c:553-566; `iv` is the iv or the previous input block.
(The C code handles block 0 even when there is none; see `rij_decrypt`.) -/
def cbcDec (D : Str → Str) : (iv : Str) → List Str → List Str
  | _, [] => []
  | iv, b :: bs => xorBytes (D b) iv :: cbcDec D b bs

/-- MODE_CFB encryption, lib/rijndael.c:495-503. -/
def cfbEnc (E : Str → Str) : (iv : Str) → List Str → List Str
  | _, [] => []
  | iv, b :: bs => xorBytes (E iv) b :: cfbEnc E (xorBytes (E iv) b) bs

/-- MODE_CFB decryption, lib/rijndael.c:567-577. -/
def cfbDec (E : Str → Str) : (iv : Str) → List Str → List Str
  | _, [] => []
  | iv, b :: bs => xorBytes (E iv) b :: cfbDec E b bs

/-- MODE_OFB, lib/rijndael.c:504-513 and 578-589. -/
def ofb (E : Str → Str) : (iv : Str) → List Str → List Str
  | _, [] => []
  | iv, b :: bs => xorBytes (E iv) b :: ofb E (E iv) bs

/-- MODE_CTR, lib/rijndael.c:514-532 and 590-608. -/
def ctr (E : Str → Str) : (iv : Str) → List Str → List Str
  | _, [] => []
  | iv, b :: bs => xorBytes (E iv) b :: ctr E (ctrInc iv) bs

/-- `ctx->mode` set by `rijndael_init`, lib/cipher_funcs.c:211-225: the values of MODE_* and
FKO_ENC_MODE_* coincide (lib/rijndael.h:50-55, lib/fko.h:135-143) except that
CBC_LEGACY_IV maps to CBC. -/
def rijMode (encryption_mode : Int) : Int :=
  if encryption_mode = FKO_ENC_MODE_CBC ∨ encryption_mode = FKO_ENC_MODE_CBC_LEGACY_IV
  then FKO_ENC_MODE_CBC else encryption_mode

/-- `block_encrypt`, lib/rijndael.c:469-536: what the calloc'ed output buffer holds over
`inputlen` bytes.  Modes without a case (`default: break`) leave it zero. -/
def block_encrypt (bc : BlockCipher) (mode : Int) (key iv input : Str) : Str :=
  let bs := blocksN (input.length / 16) input
  let E := bc.enc key
  if mode = FKO_ENC_MODE_ECB then (ecb E bs).flatten
  else if mode = FKO_ENC_MODE_CBC then (cbcEnc E iv bs).flatten
  else if mode = FKO_ENC_MODE_CFB then (cfbEnc E iv bs).flatten
  else if mode = FKO_ENC_MODE_OFB then (ofb E iv bs).flatten
  else if mode = FKO_ENC_MODE_CTR then (ctr E iv bs).flatten
  else List.replicate input.length 0

/-- `block_decrypt`, lib/rijndael.c:538-612, for an input of at least one block. -/
def block_decrypt (bc : BlockCipher) (mode : Int) (key iv input : Str) : Str :=
  let bs := blocksN (input.length / 16) input
  let E := bc.enc key
  let D := bc.dec key
  if mode = FKO_ENC_MODE_ECB then (ecb D bs).flatten
  else if mode = FKO_ENC_MODE_CBC then (cbcDec D iv bs).flatten
  else if mode = FKO_ENC_MODE_CFB then (cfbDec E iv bs).flatten
  else if mode = FKO_ENC_MODE_OFB then (ofb E iv bs).flatten
  else if mode = FKO_ENC_MODE_CTR then (ctr E iv bs).flatten
  else List.replicate input.length 0

/-- The password actually used, lib/cipher_funcs.c:132-158. -/
def finalKey (encryption_mode : Int) (key : Str) : Str :=
  if encryption_mode = FKO_ENC_MODE_CBC_LEGACY_IV then
    if key.length < RIJNDAEL_MIN_KEYSIZE
    then key ++ List.replicate (RIJNDAEL_MIN_KEYSIZE - key.length) 48 else key
  else key

/-- `rij_salt_and_iv`, lib/cipher_funcs.c:120-199, once the salt is known: the 32-byte key and
the 16-byte iv, from three rounds of MD5 (the loop at 183-195). -/
def rij_salt_and_iv (H : Hash) (encryption_mode : Int) (key salt : Str) : Str × Str :=
  let pw := finalKey encryption_mode key
  let d1 := H FKO_DIGEST_MD5 (pw ++ salt)
  let d2 := H FKO_DIGEST_MD5 (d1 ++ pw ++ salt)
  let d3 := H FKO_DIGEST_MD5 (d2 ++ pw ++ salt)
  (d1 ++ d2, d3)

/-- The padding appended to the plaintext, lib/cipher_funcs.c:260-262. -/
def addPad (s : Str) : Str :=
  s ++ List.replicate (RIJNDAEL_BLOCKSIZE - s.length % RIJNDAEL_BLOCKSIZE)
    (RIJNDAEL_BLOCKSIZE - s.length % RIJNDAEL_BLOCKSIZE)

/-- `rij_encrypt`, lib/cipher_funcs.c:239-273; `salt` is the random salt drawn. -/
def rij_encrypt (H : Hash) (bc : BlockCipher) (salt input key : Str) (encryption_mode : Int) : Str :=
  let kiv := rij_salt_and_iv H encryption_mode key salt
  b!"Salted__" ++ salt ++ block_encrypt bc (rijMode encryption_mode) kiv.1 kiv.2 (addPad input)

/-- The number of padding bytes removed, lib/cipher_funcs.c:304-318. -/
def padLen (out : Str) : Nat :=
  let v := out.getLastD 0
  if v ≤ RIJNDAEL_BLOCKSIZE ∧ (out.drop (out.length - v)).all (· = v) then v else 0

/-- `rij_decrypt`, lib/cipher_funcs.c:277-327, on an input whose length is a multiple of 16,
with an output buffer of `input.length` zero bytes (as its only caller allocates): the content of
that buffer and the length returned.  With no block after the salt the code reads `out[-1]`
(line 304), and with no input at all `in_len - 16` wraps around. -/
def rij_decrypt (H : Hash) (bc : BlockCipher) (input key : Str) (encryption_mode : Int) :
    Res (Str × Nat) :=
  if input.length < 2 * RIJNDAEL_BLOCKSIZE then .ub
  else
    let kiv := rij_salt_and_iv H encryption_mode key ((input.drop SALT_LEN).take SALT_LEN)
    let out := block_decrypt bc (rijMode encryption_mode) kiv.1 kiv.2 (input.drop RIJNDAEL_BLOCKSIZE)
    let n := out.length - padLen out
    -- *ondx = '\0'
    .ok ((out ++ List.replicate (input.length - out.length) 0).set n 0, n)

/-! Tests of the definitions. -/
example : ctrInc [0, 255, 255] = [1, 0, 0] := by decide
example : ctrInc [7, 8, 9] = [7, 8, 10] := by decide
example : addPad [1, 2, 3] = [1, 2, 3] ++ List.replicate 13 13 := by decide
example : padLen [9, 9, 2, 2] = 2 := by decide
example : padLen [9, 9, 1, 2] = 0 := by decide

end Fwknop
