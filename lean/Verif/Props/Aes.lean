import Verif.Lemmas.AesRounds
import Verif.Props.Fko
import Verif.Props.Modes

/-!
# C62, C63: the block cipher of lib/rijndael.c

`Spec/Aes.lean` defines AES as FIPS 197 does.
-/

namespace Fwknop.Props

open Fwknop.Aes Fwknop.Spec

/-- The key expansion of the code produces a schedule of the right length. -/
theorem setup_sched {nk nr keysize : Nat} (hs : sizes keysize = (nk, nr))
    (hnk : nk = 4 ∧ nr = 10 ∨ nk = 6 ∧ nr = 12 ∨ nk = 8 ∧ nr = 14) {key : Str} (hb : IsBytes key)
    (hl : key.length = 4 * nk) :
    Sched nk key (setupKeys keysize key) ∧ (setupKeys keysize key).length = 4 * (nr + 1) := by
  obtain ⟨h1, h2⟩ := keyWords_sched nk hb hl
  have h := expand_sched nk (by omega) key (4 * (nr + 1) - nk) 1 (keyWords nk key) h1 (by omega) (by
    rw [h2]
    have : (nk + nk - 1) / nk - 1 = 0 := by
      rcases hnk with ⟨rfl, -⟩ | ⟨rfl, -⟩ | ⟨rfl, -⟩ <;> rfl
    rw [this]; rfl)
  unfold setupKeys
  simp only [hs]
  refine ⟨h.1, ?_⟩
  rw [h.2, h2]; omega

/-- **C62.** For every key of 128, 192 or 256 bits and every 16-byte block, setting up the key and
encrypting the block yields what FIPS 197 prescribes. -/
theorem C62_encrypt_is_fips197 (keysize : Nat) (hs : keysize = 16 ∨ keysize = 24 ∨ keysize = 32)
    (key block : Str) (hk : key.length = keysize) (hkb : IsBytes key) (hb : IsBytes block) :
    rijndael_encrypt (setupKeys keysize key) (sizes keysize).2 block
      = Spec.Aes.cipher (keysize / 4) (keysize / 4 + 6) key block := by
  rcases hs with rfl | rfl | rfl
  · have := setup_sched (nk := 4) (nr := 10) (keysize := 16) rfl (by simp) hkb (by omega)
    exact encrypt_eq _ 4 10 (by decide) this.1 this.2 hb
  · have := setup_sched (nk := 6) (nr := 12) (keysize := 24) rfl (by simp) hkb (by omega)
    exact encrypt_eq _ 6 12 (by decide) this.1 this.2 hb
  · have := setup_sched (nk := 8) (nr := 14) (keysize := 32) rfl (by simp) hkb (by omega)
    exact encrypt_eq _ 8 14 (by decide) this.1 this.2 hb

/-- The example of FIPS 197, appendix C.3. -/
example : rijndael_encrypt (setupKeys 32 (List.range 32)) 14 ((List.range 16).map (· * 17))
    = [0x8e, 0xa2, 0xb7, 0xca, 0x51, 0x67, 0x45, 0xbf, 0xea, 0xfc, 0x49, 0x90, 0x4b, 0x49, 0x60, 0x89] := by
  decide +kernel

/-- **C63.** Whatever key is set up, decrypting an encrypted block returns the block. -/
theorem C63_decrypt_inverts_encrypt (keysize : Nat) (key block : Str) (hb : IsBytes block)
    (hl : block.length = 16) :
    rijndael_decrypt (inverseKeys (sizes keysize).2 (setupKeys keysize key)) (sizes keysize).2
      (rijndael_encrypt (setupKeys keysize key) (sizes keysize).2 block) = block := by
  apply dec_enc _ _ _ hb hl
  unfold sizes; split
  · decide
  · split <;> decide

/-- **C63.** The cipher of the library satisfies everything the other theorems assume of a block
cipher. -/
theorem C63_cipher_lawful : Aes.cipher.Lawful where
  enc_len := fun k b _ _ _ _ => by
    show (rijndael_encrypt _ _ _).length = 16
    rw [enc_store, store_length]
  enc_bytes := fun k b _ _ _ _ => by
    show IsBytes (rijndael_encrypt _ _ _)
    rw [enc_store]
    exact store_bytes (addKeys_bytes (fun _ _ => subT_sbox_bytes (st_bytes _) _ _) _ _)
  dec_len := fun k b _ _ _ _ => by
    show (key_addition32to8 _ _ _).length = 16
    rw [add32to8, store_length]
  dec_bytes := fun k b _ _ _ _ => by
    show IsBytes (key_addition32to8 _ _ _)
    rw [add32to8]
    exact store_bytes (addKeys_bytes (st_bytes _) _ _)
  dec_enc := fun k b _ _ hl hb => dec_enc _ 14 (by decide) hb hl

/-- **C12** (part; PCBC is missing) for the cipher of lib/rijndael.c. -/
theorem C12_aes_roundtrip_partial {H : Hash} (hH : H.Lawful) (mode : Int)
    (hm : mode = 1 ∨ mode = 2 ∨ mode = 3 ∨ mode = 5 ∨ mode = 6 ∨ mode = 8)
    (salt plain key : Str) (hs : salt.length = 8) (hb : IsBytes plain) :
    ∃ buf, rij_decrypt H Aes.cipher (rij_encrypt H Aes.cipher salt plain key mode) key mode
        = .ok (buf, plain.length) ∧
      buf.take plain.length = plain ∧ buf[plain.length]? = some 0 :=
  C12_encrypt_decrypt_roundtrip_partial hH C63_cipher_lawful mode hm salt plain key hs hb

end Fwknop.Props
