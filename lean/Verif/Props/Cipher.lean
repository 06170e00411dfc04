import Verif.Lemmas.Fresh
import Verif.Props.Spa

/-!
# C12, C13, C58: the cipher and HMAC layers
-/

namespace Fwknop.Props
open Fwknop Fwknop.Spec Fwknop.Res

/-! ## Concrete algorithms used to show that hypotheses can be met -/

/-- A lawful (not a good) block cipher. -/
def toyCipher : BlockCipher where
  enc k b := xorBytes (k.take 16) b
  dec k b := xorBytes (k.take 16) b

theorem toyCipher_lawful : toyCipher.Lawful where
  enc_len k b hk _ hb _ := by
    show (xorBytes _ _).length = 16
    rw [xorBytes_length (by simp; omega)]; simp; omega
  enc_bytes k b _ hk _ hb := xorBytes_bytes (isBytes_take _ hk) hb
  dec_len k b hk _ hb _ := by
    show (xorBytes _ _).length = 16
    rw [xorBytes_length (by simp; omega)]; simp; omega
  dec_bytes k b _ hk _ hb := xorBytes_bytes (isBytes_take _ hk) hb
  dec_enc k b hk _ hb _ := xorBytes_cancel _ _ (by simp; omega)

def toyCrypto : Crypto where
  H := toyHash
  bc := toyCipher
  gpgEnc _ p := some (0x85 :: 1 :: p)
  gpgDec _ c := some (c.drop 2)

/-! ## C12 -/

/-- **C12** (part; PCBC is missing, `C12_pcbc_not_implemented`): for every plaintext, key and salt and every other feedback mode
(ECB, CBC, CFB, OFB, CTR and the legacy CBC), decrypting what was encrypted reports the length
of the plaintext and leaves the plaintext, NUL-terminated, in the buffer.  The cipher and the
hash are any with the right shapes; `Props/Aes.lean` shows the code's Rijndael is one. -/
theorem C12_encrypt_decrypt_roundtrip_partial {H : Hash} (hH : H.Lawful) {bc : BlockCipher} (hbc : bc.Lawful)
    (mode : Int) (hm : mode = 1 ∨ mode = 2 ∨ mode = 3 ∨ mode = 5 ∨ mode = 6 ∨ mode = 8)
    (salt plain key : Str) (hs : salt.length = 8) (hb : IsBytes plain) :
    ∃ buf, rij_decrypt H bc (rij_encrypt H bc salt plain key mode) key mode = .ok (buf, plain.length) ∧
      buf.take plain.length = plain ∧ buf[plain.length]? = some 0 := by
  have hm : InvertibleMode mode := by
    unfold InvertibleMode
    simp only [FKO_ENC_MODE_ECB, FKO_ENC_MODE_CBC, FKO_ENC_MODE_CFB, FKO_ENC_MODE_OFB,
      FKO_ENC_MODE_CTR, FKO_ENC_MODE_CBC_LEGACY_IV]
    omega
  obtain ⟨rest, h⟩ := rij_roundtrip hH hbc hm salt hs plain key hb
  exact ⟨_, h, by simp, by simp⟩

/-- **C12.** The ciphertext: "Salted__", the salt, then the padded plaintext, block by block. -/
theorem C12_ciphertext_shape {H : Hash} (hH : H.Lawful) {bc : BlockCipher} (hbc : bc.Lawful)
    (mode : Int) (salt plain key : Str) (hs : salt.length = 8) (hb : IsBytes plain) :
    (rij_encrypt H bc salt plain key mode).take 8 = b!"Salted__" ∧
    ((rij_encrypt H bc salt plain key mode).drop 8).take 8 = salt ∧
    (rij_encrypt H bc salt plain key mode).length % 16 = 0 ∧
    plain.length + 16 < (rij_encrypt H bc salt plain key mode).length ∧
    (rij_encrypt H bc salt plain key mode).length ≤ plain.length + 32 := by
  have hl := rij_encrypt_length (K := ⟨H, bc, fun _ _ => none, fun _ _ => none⟩) hH hbc salt plain key
    mode hs hb
  simp only at hl
  refine ⟨?_, ?_, by omega, by omega, by omega⟩
  · simp [rij_encrypt, List.take_append]
  · simp only [rij_encrypt, List.append_assoc]
    rw [List.drop_left' (by rfl)]
    exact List.take_left' hs

example : rij_decrypt toyHash toyCipher
    (rij_encrypt toyHash toyCipher b!"saltsalt" b!"some plain text!" b!"key" 2) b!"key" 2
    = .ok (b!"some plain text!" ++ 0 :: List.replicate 15 16 ++ List.replicate 16 0, 16) := by
  decide +kernel

/-- PCBC (mode 4) has a number but no code: what was encrypted does not come back. -/
theorem C12_pcbc_not_implemented : ∃ plain key salt : Str,
    (rij_decrypt toyHash toyCipher (rij_encrypt toyHash toyCipher salt plain key 4) key 4)
      ≠ .ok (plain ++ [0], plain.length) ∧
    ∀ buf n, rij_decrypt toyHash toyCipher (rij_encrypt toyHash toyCipher salt plain key 4) key 4
      = .ok (buf, n) → buf.take n ≠ plain := by
  refine ⟨b!"some plain text", b!"key", b!"saltsalt", by decide +kernel, ?_⟩
  intro buf n h
  have e : rij_decrypt toyHash toyCipher
    (rij_encrypt toyHash toyCipher b!"saltsalt" b!"some plain text" b!"key" 4) b!"key" 4
    = .ok (List.replicate 32 0, 16) := by decide +kernel
  rw [e] at h
  cases h
  decide

/-! ## C13 -/

/-- **C13 is false as stated.** A packet of 36 printable characters, without any HMAC, makes the
decryption read before its output buffer: an early '=' cuts the decoded ciphertext to the 16
bytes of the salt. -/
theorem C13_early_padding_out_of_bounds :
    fko_new_with_data toyCrypto (b!"abcdefghijkl=abcdefghijklmnopqrstuvwx") (some b!"key") 2 none 0
      = .ub := by
  decide +kernel

/-- **C13, proved part.** On every ciphertext of at least two blocks, `rij_decrypt` stays within
its buffers, fills a buffer of the ciphertext's length and reports a smaller length. -/
theorem C13_two_blocks_memory_safe_partial {H : Hash} (hH : H.Lawful) {bc : BlockCipher}
    (hbc : bc.Lawful) (mode : Int) (cipher key : Str) (h32 : 32 ≤ cipher.length)
    (hmod : cipher.length % 16 = 0) (hb : IsBytes cipher) :
    ∃ buf n, rij_decrypt H bc cipher key mode = .ok (buf, n) ∧ buf.length = cipher.length ∧
      n + 16 ≤ cipher.length := by
  obtain ⟨buf, n, h1, h2, h3, -⟩ := rij_decrypt_shape hH hbc mode cipher key h32 hmod hb
  exact ⟨buf, n, h1, h2, h3⟩

/-- **C13, proved part.** Whatever the packet, the keys, the mode and the HMAC type, a packet
text without '=' (no sender produces one) is processed without leaving a buffer. -/
theorem C13_packet_memory_safe_partial {K : Crypto} (hH : K.H.Lawful) (hbc : K.bc.Lawful) (msg : Str)
    (dec_key : Option Str) (mode : Int) (hmac_key : Option Str) (hmac_type : Int)
    (h0 : 0 ∉ msg) (h61 : 61 ∉ msg) :
    fko_new_with_data K msg dec_key mode hmac_key hmac_type ≠ .ub :=
  (new_with_data_sat hH hbc msg dec_key mode hmac_key hmac_type h0 h61).ne_ub

example : toyCrypto.H.Lawful ∧ toyCrypto.bc.Lawful ∧ 61 ∉ b!"abcdefghijklmnopqrstuvwxyz0123456789" :=
  ⟨toyHash_lawful, toyCipher_lawful, by decide⟩

/-! ## C58 -/

/-- **C58.** The library's HMAC is the HMAC of RFC 2104 with the algorithm's block length, for
every key and every message. -/
theorem C58_hmac_is_rfc2104 {H : Hash} (hH : H.Lawful) (t : Nat) (ht : 1 ≤ t ∧ t ≤ 7) (msg key : Str) :
    hmac H t msg key = rfc2104 (H t) (hashBlock t) key msg := by
  rw [hmac_eq hH]
  have : t = 1 ∨ t = 2 ∨ t = 3 ∨ t = 4 ∨ t = 5 ∨ t = 6 ∨ t = 7 := by omega
  rcases this with rfl | rfl | rfl | rfl | rfl | rfl | rfl <;> rfl

/-- **C58.** In terms of the API: for every supported type and every accepted key the HMAC set in
the context is the unpadded base64 of the RFC 2104 HMAC of the encrypted text. -/
theorem C58_set_hmac {H : Hash} (hH : H.Lawful) (c : Ctx) (t : Nat) (ht : 1 ≤ t ∧ t ≤ 7)
    (hc : c.hmac_type = t) (m key : Str) (hm : c.encrypted_msg = some m)
    (hl : c.encrypted_msg_len = m.length) (hk : key.length ≤ 136) :
    ∃ c', fko_set_spa_hmac H c (some key) = .ok c' ∧
      c'.msg_hmac = some (b64NoPad (rfc2104 (H t) (hashBlock t) key m)) := by
  refine ⟨_, set_hmac_eq hH c key m hk (by omega) hm hl, ?_⟩
  simp only [tagOf, hc, ← hmac_eq hH, C58_hmac_is_rfc2104 hH t ht]

/-- **C58.** Longer keys are refused. -/
theorem C58_long_key_refused (H : Hash) (c : Ctx) (key : Str) (hk : 136 < key.length) :
    fko_set_spa_hmac H c (some key) = .err := by
  unfold fko_set_spa_hmac
  simp only
  rw [guard_of (by simp only [MAX_DIGEST_BLOCK_LEN]; omega)]
  rfl

example : fko_set_spa_hmac toyHash { encrypted_msg := some b!"abc", encrypted_msg_len := 3, hmac_type := 3 }
    (some b!"key") ≠ .err := by decide +kernel

end Fwknop.Props
