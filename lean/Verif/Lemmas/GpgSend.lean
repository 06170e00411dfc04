import Verif.Spec.GpgSend
import Verif.Lemmas.Gpg
import Verif.Lemmas.Fresh

/-!
# A packet encrypted by GnuPG: the sender's side and the text in the receiver
-/

namespace Fwknop
open Spec Res Base64

theorem fullText_signed {H : Hash} (hH : H.Lawful) (d : Int) (r : Request) : fullText H d r = r.signed H d := by
  unfold fullText Request.signed
  rw [digest_base64_eq hH]

theorem plainText_eq {H : Hash} {r : Request} (hr : r.WellFormed) {c : Ctx} {d : Int}
    (he : c.encoded_msg = some (r.wire ++ [0])) (hd : c.digest = some (digest_base64 H d r.wire)) :
    plainText c = fullText H d r := by
  unfold plainText fullText
  rw [he, hd]
  simp only [Option.getD_some]
  rw [List.takeWhile_append_of_pos]
  · simp
  · intro x hx
    have : x ≠ 0 := fun h => wire_no_zero hr (h ▸ hx)
    simpa using this

/-- The sender's encryption step on an encoded request. -/
theorem gpg_encrypt_eq {K : Crypto} {r : Request} (hH : K.H.Lawful) (hr : r.WellFormed) (key : Option Str)
    (c : Ctx) (d : Int) (he : c.encoded_msg = some (r.wire ++ [0])) (hel : c.encoded_msg_len = r.wire.length)
    (hd : c.digest = some (digest_base64 K.H d r.wire)) (hdl : c.digest_len = b64DigestLen d) :
    gpg_encrypt K c key = match K.gpgEnc (key.getD []) (fullText K.H d r) with
      | none => .ok (false, c)
      | some cipher => storeCipher c cipher := by
  have hwl := wire_length hr
  have hft := fullText_length (r := r) hH d
  have hdr := b64DigestLen_range d
  unfold gpg_encrypt
  rw [if_neg, plainText_eq hr he hd]
  · dsimp only
    rw [if_neg]
    · rfl
    · rw [hft]; unfold is_valid_encoded_msg_len; simp only [MIN_SPA_ENCODED_MSG_SIZE]; simp; omega
  · rw [hel, hdl, okDigest]
    unfold is_valid_encoded_msg_len
    simp only [MIN_SPA_ENCODED_MSG_SIZE]; simp; omega

theorem gpg_encryptEncoded {K : Crypto} {r : Request} (hH : K.H.Lawful) (hr : r.WellFormed) (salt : Str) (key : Option Str)
    (c : Ctx) (d : Int) (ht : c.encryption_type = FKO_ENCRYPTION_GPG)
    (he : c.encoded_msg = some (r.wire ++ [0])) (hel : c.encoded_msg_len = r.wire.length)
    (hd : c.digest = some (digest_base64 K.H d r.wire)) (hdl : c.digest_len = b64DigestLen d) :
    encryptEncoded K salt c key = match K.gpgEnc (key.getD []) (fullText K.H d r) with
      | none => .ok (false, c)
      | some cipher => storeCipher c cipher := by
  have hwl := wire_length hr
  unfold encryptEncoded
  rw [if_neg (by
      rw [hel]; unfold is_valid_encoded_msg_len
      simp only [MIN_SPA_ENCODED_MSG_SIZE]; simp; omega),
    if_neg (by rw [ht]; decide), if_pos ht]
  exact gpg_encrypt_eq hH hr key c d he hel hd hdl

/-- The sender's encryption, for any context in which no out-of-date encoding can be used. -/
theorem gpg_encrypt_spa {K : Crypto} {r : Request} (hH : K.H.Lawful) (hr : r.WellFormed) (salt : Str) (key : Option Str)
    (c : Ctx) (hc : Carries c r) (hd : 1 ≤ c.digest_type ∧ c.digest_type ≤ 7)
    (ht : c.encryption_type = FKO_ENCRYPTION_GPG) (hfresh : Fresh K.H c) {cipher : Str}
    (hcip : K.gpgEnc (key.getD []) (fullText K.H c.digest_type r) = some cipher) (hb : IsBytes cipher) :
    ∃ c', fko_encrypt_spa_data K salt c key = .ok (
        is_valid_encoded_msg_len ((min (b64NoPad cipher).length MAX_SPA_ENCODED_MSG_SIZE : Nat) : Int), c') ∧
      c'.encrypted_msg = some (b64NoPad cipher) ∧
      c'.encrypted_msg_len = ((min (b64NoPad cipher).length MAX_SPA_ENCODED_MSG_SIZE : Nat) : Int) ∧
      c'.encryption_type = FKO_ENCRYPTION_GPG ∧ c'.hmac_type = c.hmac_type ∧ Carries c' r := by
  obtain ⟨c1, e1, g1, g2, g3, g4, g5, g6, g7, g8, g9, g10⟩ := encode_wire hr K.H c hc hd
  by_cases hm : c.encoded_msg = none ∨ c.isModified = true
  · unfold fko_encrypt_spa_data
    rw [if_pos (by rcases hm with h | h <;> simp [h]), e1, Res.bind_ok]
    simp only [if_true]
    rw [gpg_encryptEncoded hH hr salt key c1 c.digest_type (by rw [g7, ht]) g2 g3 g4 g6, hcip]
    dsimp only
    unfold storeCipher
    rw [strip_encode _ hb]
    exact ⟨_, rfl, rfl, rfl, by rw [← ht, ← g7], g9, g1⟩
  · simp only [not_or] at hm
    have hE : Encoded K.H c := by
      rcases hfresh.2 with h | h | h
      · exact absurd h hm.1
      · exact absurd h hm.2
      · exact h
    obtain ⟨r1, r2, r3, r4⟩ := reencode hE e1
    unfold fko_encrypt_spa_data
    rw [if_neg (by
      simp only [not_or]
      exact ⟨by cases h : c.encoded_msg <;> simp_all, hm.2⟩)]
    rw [gpg_encryptEncoded hH hr salt key c c.digest_type ht (by rw [← r1, g2]) (by rw [← r2, g3])
      (by rw [← r3, g4]) (by rw [← r4, g6]), hcip]
    dsimp only
    unfold storeCipher
    rw [strip_encode _ hb]
    exact ⟨_, rfl, rfl, rfl, ht, rfl, hc⟩

/-- The sender's finalisation, without and with an HMAC. -/
theorem gpg_final {K : Crypto} {r : Request} (hH : K.H.Lawful) (hr : r.WellFormed) (salt : Str) (key : Option Str)
    (c : Ctx) (hc : Carries c r) (hd : 1 ≤ c.digest_type ∧ c.digest_type ≤ 7)
    (ht : c.encryption_type = FKO_ENCRYPTION_GPG) (hfresh : Fresh K.H c) {cipher : Str}
    (hcip : K.gpgEnc (key.getD []) (fullText K.H c.digest_type r) = some cipher) (hb : IsBytes cipher)
    (hkey : Option Str) (hfit : (b64NoPad cipher).length < 1500) (hmin : 36 ≤ (b64NoPad cipher).length)
    (hh : c.hmac_type = 0 ∨ (1 ≤ c.hmac_type ∧ c.hmac_type ≤ 7) ∧ ∃ k, hkey = some k ∧ k.length ≤ 136) :
    ∃ c', fko_spa_data_final K salt c key hkey = .ok (true, c') ∧ c'.encryption_type = FKO_ENCRYPTION_GPG ∧ Carries c' r ∧
      c'.encrypted_msg = some (b64NoPad cipher ++
        if c.hmac_type = 0 then [] else tagOf K.H c.hmac_type (hkey.getD []) (b64NoPad cipher)) := by
  obtain ⟨c1, e1, g1, g2, g3, g4, g5⟩ := gpg_encrypt_spa hH hr salt key c hc hd ht hfresh hcip hb
  have hm : min (b64NoPad cipher).length MAX_SPA_ENCODED_MSG_SIZE = (b64NoPad cipher).length := by
    simp only [MAX_SPA_ENCODED_MSG_SIZE]; omega
  rw [hm] at e1 g2
  have hv : is_valid_encoded_msg_len ((b64NoPad cipher).length : Int) = true := by
    unfold is_valid_encoded_msg_len; simp only [MIN_SPA_ENCODED_MSG_SIZE]; simp; omega
  rw [hv] at e1
  unfold fko_spa_data_final
  rw [e1, Res.bind_ok]
  rcases hh with h0 | ⟨h0, k, rfl, hkl⟩
  · refine ⟨c1, ?_, g3, g5, ?_⟩
    · simp only [g4, h0]; rfl
    · rw [g1, if_pos h0, List.append_nil]
  · have hne : c1.hmac_type ≠ FKO_HMAC_UNKNOWN := by
      rw [g4]; simp only [FKO_HMAC_UNKNOWN]; omega
    simp only [hne, ne_eq, not_false_eq_true, decide_true, Bool.and_self, if_true]
    unfold appendHmac
    rw [set_hmac_eq hH c1 k _ hkl (by rw [g4]; exact h0) g1 g2]
    refine ⟨_, rfl, g3, g5, ?_⟩
    simp only [g1, Option.getD_some, g4, if_neg (show ¬ c.hmac_type = 0 by omega)]
    unfold strlcat
    rw [if_neg (by rw [g2]; omega), List.take_of_length_le]
    rw [g2]; omega

/-- When the finalisation succeeds GnuPG has made a ciphertext; `d` is the context with the message type
that the encoder gives it. -/
theorem gpg_final_inv {K : Crypto} {r : Request} (hH : K.H.Lawful) (hr : r.WellFormed) {salt : Str} {key hkey : Option Str}
    {c d c' : Ctx} (hfc : Fresh K.H c) (hc : Carries d r) (hd : 1 ≤ d.digest_type ∧ d.digest_type ≤ 7)
    (ht : c.encryption_type = FKO_ENCRYPTION_GPG)
    (hv : { c with message_type := timeoutType c.message_type c.client_timeout : Ctx }.values
      = { d with message_type := timeoutType d.message_type d.client_timeout : Ctx }.values)
    (hfd : Fresh K.H d) (h : fko_spa_data_final K salt c key hkey = .ok (true, c')) :
    ∃ cipher, K.gpgEnc (key.getD []) (fullText K.H d.digest_type r) = some cipher := by
  obtain ⟨b, x1, e1, -⟩ := encrypt_fresh hH salt c key hfc
  unfold fko_spa_data_final at h
  rw [e1, Res.bind_ok] at h
  cases b with
  | false => simp at h
  | true =>
    obtain ⟨c0, a3, a4, a5⟩ := encrypt_split hfc e1
    obtain ⟨d0, q1, -, q2, q3, q4, -, q6, -⟩ := encode_wire hr K.H d hc hd
    obtain ⟨b', d1, e', -, henc⟩ := encode_fresh K.H d hfd
    rw [q1] at e'
    cases e'
    have hv0 : c0.values = d0.values := by rw [a5, hv, encode_values q1]
    obtain ⟨w1, w2, w3, w4⟩ := encoded_det a3 (henc rfl) hv0
    have hty : c0.encryption_type = FKO_ENCRYPTION_GPG := by
      simp only [Ctx.values, Prod.mk.injEq] at a5
      rw [a5.2.2.2.2.2.2.2.2.2.2.1, ht]
    rw [gpg_encryptEncoded hH hr salt key c0 d.digest_type hty (by rw [w1, q2]) (by rw [w2, q3]) (by rw [w3, q4])
      (by rw [w4, q6])] at a4
    cases hg : K.gpgEnc (key.getD []) (fullText K.H d.digest_type r) with
    | none => rw [hg] at a4; cases a4
    | some cipher => exact ⟨cipher, rfl⟩

/-! ## The text -/

/-- The base64 text of such a message: the prefix that is left out, and a character that starts none. -/
theorem gpg_split {cipher : Str} (h : OldSessionKey cipher) (hl : (b64NoPad cipher).length < 1500) :
    ∃ k body, k ≤ 19 ∧ b64NoPad cipher = B64_GPG_PREFIX ++ b64Char k :: body := by
  obtain ⟨hb, hi, lo, rest, rfl, hlen⟩ := h
  have hlo : lo < 256 := hb lo (by simp)
  rw [b64NoPad_length] at hl
  simp only [List.length_cons] at hl
  refine ⟨hi % 16 * 4 + lo / 64, b64Char (lo % 64) :: b64NoPad rest, by omega, ?_⟩
  simp only [b64NoPad]
  rw [show 133 / 4 = 33 from rfl, show 133 % 4 * 16 + hi / 16 = 16 from by omega]
  rfl

theorem gpg_first {k : Nat} (hk : k ≤ 19) : b64Char k ≠ 104 ∧ b64Char k ≠ 85 := by
  have hall : ∀ k < 20, b64Char k ≠ 104 ∧ b64Char k ≠ 85 := by decide
  exact hall k (by omega)

theorem gpg_restored {k : Nat} (hk : k ≤ 19) (body : Str) :
    restored true (b64Char k :: body) = B64_GPG_PREFIX ++ b64Char k :: body := by
  unfold restored
  rw [if_neg]
  · rfl
  · intro hp
    rw [show omitted true = 104 :: [81] from rfl, List.cons_prefix_cons] at hp
    exact (gpg_first hk).1 hp.1.symm

theorem gpg_type {m : Str} (h : 400 ≤ m.length) (h2 : m.length < 1500) : fko_encryption_type m = FKO_ENCRYPTION_GPG := by
  unfold fko_encryption_type
  have hm : min m.length MAX_SPA_ENCODED_MSG_SIZE = m.length := by simp only [MAX_SPA_ENCODED_MSG_SIZE]; omega
  simp only [hm]
  rw [if_neg, if_pos (by omega)]
  unfold is_valid_encoded_msg_len
  simp only [MIN_SPA_ENCODED_MSG_SIZE]; simp; omega

/-- The receiver's context before GnuPG is called. -/
theorem gpg_received {K : Crypto} (hH : K.H.Lawful) {cipher body : Str} (hb : IsBytes cipher)
    (he : b64NoPad cipher = B64_GPG_PREFIX ++ body) (hres : restored true body = b64NoPad cipher)
    (h1 : 400 ≤ body.length) {hkey : Option Str} {ht : Int} {tag : Str}
    (h2 : (b64NoPad cipher).length + tag.length < 1500)
    (hcase : (tag = [] ∧ hkey = none ∧ 0 ≤ ht ∧ ht ≤ 7) ∨ ((1 ≤ ht ∧ ht ≤ 7) ∧
      ∃ k, hkey = some k ∧ 1 ≤ k.length ∧ k.length ≤ 136 ∧ tag = tagOf K.H ht k (b64NoPad cipher))) :
    fko_encryption_type (body ++ tag) = FKO_ENCRYPTION_GPG ∧
    ∃ c1, fko_new_with_data K (body ++ tag) none FKO_ENC_MODE_ASYMMETRIC hkey ht = .ok c1 ∧
      fko_encryption_type (c1.encrypted_msg.getD []) = FKO_ENCRYPTION_GPG ∧ gpgCipher c1 = some cipher := by
  have hlen : (b64NoPad cipher).length = body.length + 2 := by rw [he]; simp
  have hchars : ∀ c ∈ body, IsB64Char c := fun x hx => b64NoPad_chars _ hb x (by rw [he]; exact List.mem_append_right _ hx)
  have hdec : Base64.b64_decode (b64NoPad cipher) = some cipher := by
    have := decodeLoop_spec cipher [] 0 0 hb rfl (fun _ _ => rfl)
    rw [List.append_nil] at this
    exact this
  have hadd : ∀ (c : Ctx) (m : Str), c.encrypted_msg = some m → c.encrypted_msg_len = m.length → 2 ≤ m.length →
      is_base64 m = true → restored true m = b64NoPad cipher →
      (c.added_gpg_prefix = true → m = b64NoPad cipher) → gpgCipher c = some cipher := by
    intro c m q1 q2 q3 q4 q5 q6
    unfold gpgCipher
    dsimp only
    cases ha : c.added_gpg_prefix with
    | true =>
      simp only [Bool.not_true, Bool.false_eq_true, if_false]
      rw [q1, q6 ha]
      exact hdec
    | false =>
      obtain ⟨c', e, e2, -⟩ := add_gpg_eq c m q1 q2 q3 q4
      simp only [Bool.not_false, if_true]
      rw [e]
      dsimp only
      rw [e2, q5]
      exact hdec
  refine ⟨gpg_type (by simp; omega) (by simp; omega), ?_⟩
  rcases hcase with ⟨rfl, rfl, hr1, hr2⟩ | ⟨hr, k, rfl, hk1, hk2, htag⟩
  · rw [List.append_nil, new_with_data_ok K body none FKO_ENC_MODE_ASYMMETRIC none ht (by omega) (by omega) (by decide) (by omega)]
    refine ⟨_, rfl, gpg_type (m := body) h1 (by omega), ?_⟩
    exact hadd _ body rfl rfl (by omega) (is_base64_of hchars) hres (fun h => by cases h)
  · have htl : tag.length = b64DigestLen ht := by rw [htag]; exact tagOf_length hH _ _ _
    rw [new_with_data_ok K (body ++ tag) none FKO_ENC_MODE_ASYMMETRIC (some k) ht (by simp; omega) (by simp; omega) (by decide)
      (by omega)]
    have hgm : isGpgMode FKO_ENC_MODE_ASYMMETRIC = true := by decide
    obtain ⟨cv, v1, v2⟩ := (verify_hmac_main hH (startCtx (body ++ tag) FKO_ENC_MODE_ASYMMETRIC ht) k body tag rfl rfl
      rfl rfl hr htl (by omega) hk2 (by rw [List.length_append]; omega)).2.2 (is_base64_of hchars) (by
        show tag = tagOf K.H ht k (restored (isGpgMode FKO_ENC_MODE_ASYMMETRIC) body)
        rw [hgm, hres, htag])
    dsimp only
    rw [if_pos (by omega), v1]
    have hm : cv.encrypted_msg = some (b64NoPad cipher) := by rw [v2.msg]; exact congrArg some hres
    have hl : cv.encrypted_msg_len = (b64NoPad cipher).length := by
      rw [v2.len]
      show (((restored true body).length : Nat) : Int) = _
      rw [hres]
    refine ⟨_, rfl, ?_, ?_⟩
    · show fko_encryption_type (cv.encrypted_msg.getD []) = _
      rw [hm]
      exact gpg_type (m := b64NoPad cipher) (by omega) (by omega)
    · exact hadd (cv.setFlag FKO_CTX_INITIALIZED) _ hm hl (by omega) (is_base64_of (b64NoPad_chars _ hb))
        (by rw [← hres, restored_idem]) (fun _ => rfl)

/-! ## What the server can give to GnuPG -/

/-- A text that begins with the prefix is that of bytes whose text begins with the prefix. -/
theorem decode_prefixed {rest cipher : Str} (h : Base64.b64_decode (B64_GPG_PREFIX ++ rest) = some cipher) :
    B64_GPG_PREFIX <+: b64NoPad cipher := by
  have h : decodeLoop (b64Char 33 :: b64Char 16 :: rest) 0 0 = some cipher := h
  rw [decodeLoop_char 33 (by omega), decodeLoop_char 16 (by omega)] at h
  simp only [Nat.zero_mod, if_true] at h
  cases hd : decodeLoop rest (0 + 1 + 1) (((0 * 64 + 33) % 2 ^ 32 * 64 + 16) % 2 ^ 32) with
  | none => rw [hd] at h; cases h
  | some out =>
    rw [hd] at h
    simp at h
    subst h
    have hout : out = [] ∨ ∃ y tl, y < 16 ∧ out = y :: tl := by
      cases rest with
      | nil => rw [decodeLoop] at hd; cases hd; exact .inl rfl
      | cons c cs =>
        rw [decodeLoop] at hd
        split at hd
        · cases hd; exact .inl rfl
        split at hd
        · cases hd
        rename_i x hx
        have hx64 : x < 64 := by
          have hall : ∀ v ∈ map2, v = 0xff ∨ v < 64 := by decide
          unfold charVal at hx
          split at hx
          · cases hx
          split at hx
          · cases hx
          rename_i v hv
          split at hx
          · cases hx
          cases hx
          rcases hall _ (List.mem_of_getElem? hv) with h | h <;> omega
        dsimp only at hd
        split at hd
        · cases hd
        rw [if_neg (by decide)] at hd
        cases hd
        refine .inr ⟨_, _, ?_, rfl⟩
        simp only [Nat.shiftRight_eq_div_pow, Nat.shiftLeft_eq]
        simp
        omega
    rcases hout with rfl | ⟨y, tl, hy, rfl⟩
    · exact ⟨[], by decide⟩
    · rcases tl with _ | ⟨z, tl⟩
      · refine ⟨[b64Char (y % 16 * 4)], ?_⟩
        simp only [b64NoPad]
        rw [show 133 / 4 = 33 from rfl, show 133 % 4 * 16 + y / 16 = 16 from by omega]
        rfl
      · refine ⟨b64Char (y % 16 * 4 + z / 64) :: b64Char (z % 64) :: b64NoPad tl, ?_⟩
        simp only [b64NoPad]
        rw [show 133 / 4 = 33 from rfl, show 133 % 4 * 16 + y / 16 = 16 from by omega]
        rfl

theorem restored_starts (m : Str) : ∃ rest, restored true m = B64_GPG_PREFIX ++ rest := by
  unfold restored
  split
  · rename_i h
    obtain ⟨t, rfl⟩ := h
    exact ⟨t, rfl⟩
  · exact ⟨m, rfl⟩

/-- Whatever the packet, the message that GnuPG is given has a text that begins with the prefix. -/
theorem gpg_only_prefixed {K : Crypto} (hH : K.H.Lawful) {text : Str} {hk : Option Str} {ht : Int} {c : Ctx} {cipher : Str}
    (hb : is_base64 text = true) (h : fko_new_with_data K text none FKO_ENC_MODE_ASYMMETRIC hk ht = .ok c)
    (hc : gpgCipher c = some cipher) : B64_GPG_PREFIX <+: b64NoPad cipher := by
  have fin : ∀ m, Base64.b64_decode (restored true m) = some cipher → B64_GPG_PREFIX <+: b64NoPad cipher := by
    intro m hm
    obtain ⟨rest, e⟩ := restored_starts m
    rw [e] at hm
    exact decode_prefixed hm
  have plain : ∀ c0 : Ctx, c0.encrypted_msg = some text → c0.encrypted_msg_len = text.length → 2 ≤ text.length →
      c0.added_gpg_prefix = false → gpgCipher c0 = some cipher → B64_GPG_PREFIX <+: b64NoPad cipher := by
    intro c0 q1 q2 q3 q4 q5
    unfold gpgCipher at q5
    dsimp only at q5
    rw [q4] at q5
    obtain ⟨c', e, e2, -⟩ := add_gpg_eq c0 text q1 q2 q3 hb
    simp only [Bool.not_false, if_true] at q5
    rw [e] at q5
    dsimp only at q5
    rw [e2] at q5
    exact fin text q5
  rcases new_with_data_eq K text none FKO_ENC_MODE_ASYMMETRIC hk ht with e | ⟨⟨h36, -⟩, e⟩
  · rw [e] at h; cases h
  rw [e] at h
  obtain ⟨c3, h3, h4⟩ := bind_eq_ok h
  cases h4
  cases hk with
  | none => cases h3; exact plain _ rfl rfl (by omega) rfl hc
  | some k =>
    dsimp only at h3
    split at h3
    · rcases verify_hmac_cases hH (startCtx text FKO_ENC_MODE_ASYMMETRIC ht) k text rfl rfl rfl rfl with
        e | ⟨body, c', e, hbo, hbl, hb64, -, hver⟩
      · rw [e] at h3; cases h3
      · rw [e] at h3
        cases h3
        have hm : c3.encrypted_msg = some (restored true body) := hver.msg
        have hl : c3.encrypted_msg_len = (restored true body).length := hver.len
        unfold gpgCipher at hc
        dsimp only at hc
        split at hc
        · have hlen := (restored_length true body).1
          obtain ⟨c', e, e2, -⟩ := add_gpg_eq (c3.setFlag FKO_CTX_INITIALIZED) (restored true body) hm hl (by omega)
            (restored_base64 true body hb64)
          rw [e] at hc
          dsimp only at hc
          rw [e2] at hc
          exact fin _ hc
        · rw [show (c3.setFlag FKO_CTX_INITIALIZED).encrypted_msg = _ from hm] at hc
          exact fin _ hc
    · cases h3; exact plain _ rfl rfl (by omega) rfl hc

end Fwknop
