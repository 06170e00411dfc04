import Verif.Lemmas.Modes
import Verif.Props.Cipher

/-!
# C60, C61: the symmetric layer is the one of OpenSSL
-/

namespace Fwknop.Props
open Fwknop Fwknop.Spec

/-- **C60.** Key and iv are derived from the password and the salt as OpenSSL does
(`EVP_BytesToKey`, MD5, one iteration): together they are the first 48 bytes of the derivation,
the key the first 32. -/
theorem C60_key_derivation {H : Hash} (hH : H.Lawful) (mode : Int) (hm : mode ≠ 8) (key salt : Str) :
    rij_salt_and_iv H mode key salt
      = ((bytesToKey (H 1) key salt 3).take 32, (bytesToKey (H 1) key salt 3).drop 32) := by
  have hk := kiv_spec H mode key salt
  have hf : finalKey mode key = key := by unfold finalKey; rw [if_neg hm]
  have hl := (kiv_shape hH mode key salt).1.1
  rw [hf] at hk
  rw [← hk, List.take_left' hl, List.drop_left' hl]

/-- **C60.** In the legacy mode a password shorter than 16 bytes is first filled up with the
character '0'; longer passwords are used as they are. -/
theorem C60_legacy_key_derivation {H : Hash} (hH : H.Lawful) (key salt : Str) :
    ∃ pw : Str, pw = key ++ List.replicate (16 - key.length) 48 ∧
    rij_salt_and_iv H 8 key salt
      = ((bytesToKey (H 1) pw salt 3).take 32, (bytesToKey (H 1) pw salt 3).drop 32) := by
  refine ⟨_, rfl, ?_⟩
  have hk := kiv_spec H 8 key salt
  have hf : finalKey 8 key = key ++ List.replicate (16 - key.length) 48 := by
    unfold finalKey
    rw [if_pos rfl]
    simp only [RIJNDAEL_MIN_KEYSIZE]
    split
    · rfl
    · rw [show 16 - key.length = 0 by omega]; simp
  have hl := (kiv_shape hH 8 key salt).1.1
  rw [hf] at hk
  rw [← hk, List.take_left' hl, List.drop_left' hl]

/-- **C61.** The ciphertext is "Salted__", the salt and the blocks that SP 800-38A prescribes for
the PKCS #7 padded plaintext under the derived key and iv, in each of the modes ECB, CBC (also
legacy), CFB, OFB and CTR. -/
theorem C61_ciphertext_is_standard {H : Hash} (hH : H.Lawful) (bc : BlockCipher) (mode : Int)
    (salt plain key : Str) (hb : IsBytes plain) :
    ∃ (padded k iv : Str) (P C : List Str), IsPkcs7 plain padded ∧ P.flatten = padded ∧
      (∀ b ∈ P, b.length = 16) ∧ rij_salt_and_iv H mode key salt = (k, iv) ∧
      (mode = 1 → IsECB (bc.enc k) P C) ∧ (mode = 2 ∨ mode = 8 → IsCBC (bc.enc k) iv P C) ∧
      (mode = 3 → IsCFB (bc.enc k) iv P C) ∧ (mode = 5 → IsOFB (bc.enc k) iv P C) ∧
      (mode = 6 → IsCTR (bc.enc k) iv P C) ∧
      ((mode = 1 ∨ mode = 2 ∨ mode = 3 ∨ mode = 5 ∨ mode = 6 ∨ mode = 8) →
        rij_encrypt H bc salt plain key mode = b!"Salted__" ++ salt ++ C.flatten) := by
  obtain ⟨hk, hiv⟩ := kiv_shape hH mode key salt
  generalize hkv : rij_salt_and_iv H mode key salt = kiv at hk hiv
  obtain ⟨k, iv⟩ := kiv
  have hn : (addPad plain).length = 16 * ((addPad plain).length / 16) := by
    have := addPad_mod plain; omega
  have hP := blocksN_flatten _ _ hn
  have hPb := blocksN_block _ _ hn (addPad_bytes hb)
  refine ⟨addPad plain, k, iv, blocksN ((addPad plain).length / 16) (addPad plain),
    (let P := blocksN ((addPad plain).length / 16) (addPad plain)
     if mode = 1 then ecb (bc.enc k) P
     else if mode = 3 then cfbEnc (bc.enc k) iv P else if mode = 5 then ofb (bc.enc k) iv P
     else if mode = 6 then ctr (bc.enc k) iv P else cbcEnc (bc.enc k) iv P),
    addPad_spec plain, hP, fun b hb' => (hPb b hb').1, rfl, ?_, ?_, ?_, ?_, ?_, ?_⟩
  · rintro rfl; exact ecb_spec _ _
  · rintro (rfl | rfl) <;> exact cbc_spec _ _ _
  · rintro rfl; exact cfb_spec _ _ _
  · rintro rfl; exact ofb_spec _ _ _
  · rintro rfl; exact ctr_spec _ _ hiv _
  · intro hm
    unfold rij_encrypt
    rw [hkv]
    congr 1
    rcases hm with rfl | rfl | rfl | rfl | rfl | rfl <;> rfl

example : rij_encrypt toyHash toyCipher b!"saltsalt" b!"some plain text!" b!"key" 6 ≠
    rij_encrypt toyHash toyCipher b!"saltsalt" b!"some plain text!" b!"key" 2 := by decide +kernel

end Fwknop.Props
