import Verif.Props.Cipher

/-!
# C14, C15, C17, C19, C20: whole packets
-/

namespace Fwknop.Props
open Fwknop Fwknop.Spec Fwknop.Res Fwknop.Base64

/-! ## C14 -/

/-- **C14, symmetric.** Whatever is encrypted, the text handed to the network is the base64
ciphertext without its first ten characters, these are the constant "U2FsdGVkX1", and the
receiver, which puts the constant back unless the text starts with it, ends up with exactly the
sender's text. -/
theorem C14_salted_prefix_removed_and_restored {K : Crypto} (hH : K.H.Lawful) (hbc : K.bc.Lawful)
    (mode : Int) (salt plain key : Str) (hs : salt.length = 8) (hsb : IsBytes salt) (hb : IsBytes plain)
    (c c1 : Ctx) (hst : storeCipher c (rij_encrypt K.H K.bc salt plain key mode) = .ok (true, c1))
    (ht : c.encryption_type = 1) :
    ∃ sent, fko_get_spa_data c1 = some sent ∧ c1.encrypted_msg = some (b!"U2FsdGVkX1" ++ sent) ∧
      ¬ b!"U2FsdGVkX1" <+: sent ∧
      (∀ s : Ctx, s.encrypted_msg = some sent → s.encrypted_msg_len = sent.length →
        ∃ s', add_salted_str s = .ok s' ∧ s'.encrypted_msg = c1.encrypted_msg) := by
  obtain ⟨body, h1, h2, h3⟩ := rij_text_split hH hbc salt plain key mode hs hsb hb
  have hlen := rij_encrypt_length hH hbc salt plain key mode hs hb
  have hl2 : 10 + body.length
      = (4 * (16 + (plain.length + (16 - plain.length % 16))) + 2) / 3 := by
    rw [← hlen, ← b64NoPad_length, h1, List.length_append]; rfl
  unfold storeCipher at hst
  simp only [Res.ok.injEq, Prod.mk.injEq] at hst
  obtain ⟨hv, rfl⟩ := hst
  rw [strip_encode _ (rij_encrypt_bytes hH hbc salt plain key mode hsb hb), h1] at hv ⊢
  have hnp : ¬ b!"U2FsdGVkX1" <+: body := by
    intro hp
    have : restored false body = body := if_pos hp
    rw [this, h1] at h2
    have := congrArg List.length h2
    simp at this
    omega
  refine ⟨body, ?_, rfl, hnp, ?_⟩
  · unfold fko_get_spa_data
    simp only [hv]
    rw [if_neg (by simp), if_pos (by rw [ht])]
    rfl
  · intro s hs1 hs2
    obtain ⟨s', g1, g2, -⟩ := add_salted_eq s body hs1 hs2 (by omega) h3
    exact ⟨s', g1, by rw [g2, h2, h1]⟩

/-- **C14, GnuPG.** The same for a ciphertext that starts with an old-format public-key encrypted
session key packet (0x85 and a two-byte length that fits the message, as GnuPG writes it). -/
theorem C14_gpg_prefix_removed_and_restored (hi lo : Nat) (rest : Str) (hb : IsBytes (0x85 :: hi :: lo :: rest))
    (hlen : 256 * hi + lo ≤ rest.length)
    (c c1 : Ctx) (hst : storeCipher c (0x85 :: hi :: lo :: rest) = .ok (true, c1))
    (ht : c.encryption_type = 2) :
    ∃ sent, fko_get_spa_data c1 = some sent ∧ c1.encrypted_msg = some (b!"hQ" ++ sent) ∧
      (∀ s : Ctx, s.encrypted_msg = some sent → s.encrypted_msg_len = sent.length →
        ∃ s', add_gpg_prefix s = .ok s' ∧ s'.encrypted_msg = c1.encrypted_msg) := by
  unfold storeCipher at hst
  simp only [Res.ok.injEq, Prod.mk.injEq] at hst
  obtain ⟨hv, rfl⟩ := hst
  rw [strip_encode _ hb] at hv ⊢
  have hv2 := hv
  unfold is_valid_encoded_msg_len at hv2
  simp only [MAX_SPA_ENCODED_MSG_SIZE, MIN_SPA_ENCODED_MSG_SIZE, b64NoPad_length] at hv2
  simp at hv2
  have hlo : lo < 256 := hb lo (by simp)
  have hhi : hi < 8 := by omega
  obtain ⟨b3, b4, t, e, h3⟩ : ∃ b3 b4 t, b64NoPad (0x85 :: hi :: lo :: rest)
      = b!"hQ" ++ b3 :: b4 :: t ∧ b3 ≠ 104 := by
    refine ⟨b64Char (hi % 16 * 4 + lo / 64), b64Char (lo % 64), b64NoPad rest, ?_, ?_⟩
    · simp only [b64NoPad]
      rw [show 133 / 4 = 33 from rfl, show 133 % 4 * 16 + hi / 16 = 16 from by omega]
      rfl
    · have : hi % 16 * 4 + lo / 64 < 32 := by omega
      have hall : ∀ k < 32, b64Char k ≠ 104 := by decide
      exact hall _ this
  rw [e] at hv ⊢
  have hb64 : Base64.is_base64 (b3 :: b4 :: t) = true := is_base64_of fun x hx =>
    b64NoPad_chars _ hb x (by rw [e]; exact List.mem_append_right _ hx)
  refine ⟨b3 :: b4 :: t, ?_, rfl, ?_⟩
  · unfold fko_get_spa_data
    simp only [hv]
    rw [if_neg (by simp), if_neg (by rw [ht]; decide), if_pos (by rw [ht])]
    rfl
  · intro s hs1 hs2
    obtain ⟨s', g1, g2, -⟩ := add_gpg_eq s _ hs1 hs2 (by simp) hb64
    refine ⟨s', g1, ?_⟩
    rw [g2]
    unfold restored
    rw [if_neg]
    · rfl
    · intro hp
      rw [show omitted true = 104 :: [81] from rfl, List.cons_prefix_cons] at hp
      exact h3 hp.1.symm

/-- The condition on the packet length matters: the text of a ciphertext that starts
0x85 0x08 0x50 starts with the prefix twice, so that nothing is put back. -/
example :
    let sent := b!"hQ" ++ List.replicate 80 65
    fko_get_spa_data { encryption_type := 2, encrypted_msg := some (b!"hQ" ++ sent) } = some sent ∧
    (add_gpg_prefix { encrypted_msg := some sent, encrypted_msg_len := 82 }
      = .ok { encrypted_msg := some sent, encrypted_msg_len := 82 }) := by
  decide +kernel

/-- The hypotheses of the two theorems are met. -/
example : (do let p ← storeCipher { encryption_type := 1 }
                (rij_encrypt toyHash toyCipher b!"saltsalt" b!"some plain text!" b!"key" 2)
              return p.1) = .ok true := by decide +kernel

example : (do let p ← storeCipher { encryption_type := 2 } (0x85 :: 0 :: 40 :: List.replicate 60 1)
              return p.1) = .ok true := by decide +kernel

/-! ## C15 -/

/-- **C15.** With an HMAC key configured, a packet is accepted (and a context handed to the
caller) only when it ends in the HMAC, of the configured type and under that key, of the
ciphertext text that precedes it. -/
theorem C15_accepted_only_with_valid_hmac {K : Crypto} (hH : K.H.Lawful) (msg k : Str) (hk : k ≠ [])
    (dec_key : Option Str) (mode : Int) (hmac_type : Nat) (c' : Ctx)
    (h : fko_new_with_data K msg dec_key mode (some k) hmac_type = .ok c') :
    Authentic (K.H hmac_type) (hashBlock hmac_type) k (mode = 7) msg ∧
      1 ≤ hmac_type ∧ hmac_type ≤ 7 := by
  rcases new_with_data_eq K msg dec_key mode (some k) hmac_type with e | ⟨-, e⟩
  · rw [e] at h; cases h
  rw [e] at h
  have hpos : k.length > 0 := List.length_pos_iff.2 hk
  simp only [if_pos hpos] at h
  rcases verify_hmac_cases hH (startCtx msg mode hmac_type) k msg rfl rfl rfl rfl with
    e | ⟨body, c1, e, hb, -, -, ht, -⟩
  · rw [e] at h; cases h
  have ht : (1 : Int) ≤ hmac_type ∧ (hmac_type : Int) ≤ 7 := ht
  refine ⟨⟨body, _, hb, ?_⟩, by omega, by omega⟩
  unfold tagOf
  rw [← hmac_eq hH]
  show b64NoPad (hmac K.H (hmac_type : Int) _ k) = _
  rw [C58_hmac_is_rfc2104 hH hmac_type (by omega)]
  rfl

/-- **C15.** Otherwise the result is an error whatever the block cipher, GnuPG and the decryption
key are: nothing was decrypted, and no field is exposed. -/
theorem C15_nothing_decrypted_without_valid_hmac {K : Crypto} (hH : K.H.Lawful) (msg k : Str)
    (hk : k ≠ []) (mode : Int) (hmac_type : Nat)
    (h : ¬ Authentic (K.H hmac_type) (hashBlock hmac_type) k (mode = 7) msg)
    (bc : BlockCipher) (gpgEnc gpgDec : Str → Str → Option Str) (dec_key : Option Str) :
    fko_new_with_data ⟨K.H, bc, gpgEnc, gpgDec⟩ msg dec_key mode (some k) hmac_type = .err := by
  rcases new_with_data_eq ⟨K.H, bc, gpgEnc, gpgDec⟩ msg dec_key mode (some k) hmac_type with e | ⟨-, e⟩
  · exact e
  rw [e]
  have hpos : k.length > 0 := List.length_pos_iff.2 hk
  simp only [if_pos hpos]
  rcases verify_hmac_cases hH (startCtx msg mode hmac_type) k msg rfl rfl rfl rfl with
    e | ⟨body, c1, e, hb, -, -, ht, -⟩
  · rw [e]; rfl
  exfalso
  have ht : (1 : Int) ≤ hmac_type ∧ (hmac_type : Int) ≤ 7 := ht
  apply h
  refine ⟨body, _, hb, ?_⟩
  unfold tagOf
  rw [← hmac_eq hH]
  show b64NoPad (hmac K.H (hmac_type : Int) _ k) = _
  rw [C58_hmac_is_rfc2104 hH hmac_type (by omega)]
  rfl

/-- A packet with a valid HMAC, and one with a changed character. -/
example :
    let body := b!"U2FsdGVkX1" ++ List.replicate 60 65
    let good := body.drop 10 ++ b64NoPad (hmac toyHash 3 body b!"hmac key")
    (do let c ← fko_new_with_data toyCrypto good none 2 (some b!"hmac key") 3; return c.encrypted_msg)
      = .ok (some body) ∧
    fko_new_with_data toyCrypto (good.set 5 66) none 2 (some b!"hmac key") 3 = .err := by
  decide +kernel

/-! ## C17 -/

/-- The number of characters the library encrypts for a request. -/
def plainLen (r : Request) (digest_type : Int) : Nat := r.wire.length + 1 + b64DigestLen digest_type

/-- What the client does with a context in which no out-of-date encoding can be used, and what the
server does with the text. -/
theorem roundtrip {K : Crypto} (hH : K.H.Lawful) (hbc : K.bc.Lawful) {r : Request}
    (hr : r.WellFormed) (c : Ctx) (hfresh : Fresh K.H c) (hc : Carries c r)
    (hd : 1 ≤ c.digest_type ∧ c.digest_type ≤ 7) (hrij : c.encryption_type = 1)
    (hmode : InvertibleMode c.encryption_mode)
    (hdig : ∀ ch ∈ r.rand, isDigit ch = true)
    (salt key : Str) (hs : salt.length = 8) (hsb : IsBytes salt) (hk : key.length ≤ 32)
    (hkey : Option Str)
    (hcase : (c.hmac_type = 0 ∧ hkey = none ∧ plainLen r c.digest_type ≤ 287) ∨
      ((1 ≤ c.hmac_type ∧ c.hmac_type ≤ 7) ∧ (∃ k, hkey = some k ∧ 1 ≤ k.length ∧ k.length ≤ 136) ∧
        plainLen r c.digest_type ≤ 271)) :
    ∃ c' packet s, fko_spa_data_final K salt c (some key) hkey = .ok (true, c') ∧
      fko_get_spa_data c' = some packet ∧
      fko_new_with_data K packet (some key) c.encryption_mode hkey c.hmac_type = .ok s ∧
      Carries s r ∧ s.digest = some (digest_base64 K.H c.digest_type r.wire) ∧
      PacketShape (plainLen r c.digest_type) (if c.hmac_type = 0 then 0 else b64DigestLen c.hmac_type) packet := by
  have hw := wire_length hr
  have hdr := b64DigestLen_range c.digest_type
  have hT : plainLen r c.digest_type ≤ 287 := by rcases hcase with h | h <;> omega
  have hlen := cipherText_length hH hbc hr salt key c.encryption_mode c.digest_type hs
  have hpl : plainLen r c.digest_type = r.wire.length + 1 + b64DigestLen c.digest_type := rfl
  rw [← hpl] at hlen
  obtain ⟨c', e1, g1, -, g2⟩ := final_eq hH hbc hr salt key c hc hd hrij hfresh hsb hk hkey
    (by omega) (by omega) (by
      rcases hcase with h | ⟨h1, ⟨k, h2, h3, h4⟩, h5⟩
      · exact Or.inl h.1
      · exact Or.inr ⟨h1, k, h2, h4⟩)
  obtain ⟨body, b1, b2, b3⟩ := rij_text_split hH hbc salt (fullText K.H c.digest_type r) key
    c.encryption_mode hs hsb (fullText_bytes hH hr _)
  obtain ⟨b4, hd1, hd2, b5, b6, b7⟩ := rij_text_first hH hbc salt (fullText K.H c.digest_type r) key
    c.encryption_mode hs hsb (fullText_bytes hH hr _) b1
  have b1 : cipherText K salt key c.encryption_mode c.digest_type r = B64_RIJNDAEL_SALT ++ body := b1
  have b2 : restored false body = cipherText K salt key c.encryption_mode c.digest_type r := b2
  have hbl : 10 + body.length = (cipherText K salt key c.encryption_mode c.digest_type r).length := by
    rw [b1, List.length_append]; rfl
  have hmr := invertible_range hmode
  have hgm : isGpgMode c.encryption_mode = false := by
    unfold isGpgMode; simp only [FKO_ENC_MODE_ASYMMETRIC]; simpa using hmr.2.2
  -- decrypting a context with the right text
  have hdecr : ∀ (s : Ctx) (x : Str), s.encrypted_msg = some x → s.encrypted_msg_len = x.length →
      36 ≤ x.length → x.length < 400 → is_base64 x = true →
      restored false x = cipherText K salt key c.encryption_mode c.digest_type r →
      (s.added_salted_str = true → x = cipherText K salt key c.encryption_mode c.digest_type r) →
      s.encryption_mode = c.encryption_mode → s.nat_access = none → s.server_auth = none →
      s.client_timeout = 0 → ∃ s', fko_decrypt_spa_data K (s.setFlag FKO_CTX_INITIALIZED) key = .ok s' ∧
        Carries s' r ∧ s'.digest = some (digest_base64 K.H c.digest_type r.wire) := by
    intro s x a1 a2 a3 a4 a5 a6 a7 a8 a9 a10 a11
    have hty : fko_encryption_type x = FKO_ENCRYPTION_RIJNDAEL := by
      unfold fko_encryption_type
      have : min x.length MAX_SPA_ENCODED_MSG_SIZE = x.length := by
        simp only [MAX_SPA_ENCODED_MSG_SIZE]; omega
      simp only [this]
      rw [if_neg, if_neg (by omega)]
      unfold is_valid_encoded_msg_len; simp only [MIN_SPA_ENCODED_MSG_SIZE]; simp; omega
    unfold fko_decrypt_spa_data
    have a1' : (s.setFlag FKO_CTX_INITIALIZED).encrypted_msg = some x := a1
    simp only [a1', Option.getD_some, hty]
    rw [if_neg (by simp [FKO_ENCRYPTION_RIJNDAEL, FKO_ENCRYPTION_GPG]), if_pos trivial]
    rw [← a8] at a6 a7
    exact rijndael_decrypt_eq hH hbc hr salt key _ c.digest_type hd x hs hsb hk
      (by show InvertibleMode s.encryption_mode; rw [a8]; exact hmode) hdig rfl a2 (by omega) a5 a6 a7
      a9 a10 a11
  have hget : ∀ tl : Str, c'.encrypted_msg = some (B64_RIJNDAEL_SALT ++ (body ++ tl)) → tl.length ≤ 86 →
      fko_get_spa_data c' = some (body ++ tl) := by
    intro tl h htl
    have hm : min (B64_RIJNDAEL_SALT ++ (body ++ tl)).length MAX_SPA_ENCODED_MSG_SIZE
        = 10 + body.length + tl.length := by
      simp only [MAX_SPA_ENCODED_MSG_SIZE, List.length_append]
      show min (10 + _) 1500 = _
      omega
    unfold fko_get_spa_data
    rw [h]
    simp only [hm]
    rw [if_neg, if_pos g1]
    · rfl
    · unfold is_valid_encoded_msg_len; simp only [MIN_SPA_ENCODED_MSG_SIZE]; simp; omega
  rcases hcase with ⟨h0, rfl, -⟩ | ⟨ht, ⟨k, rfl, hk1, hk2⟩, hT2⟩
  · rw [if_pos h0, b1, List.append_nil] at g2
    have hg := hget [] (by rw [List.append_nil]; exact g2) (by simp)
    rw [List.append_nil] at hg
    obtain ⟨s', q1, q2⟩ := hdecr (startCtx body c.encryption_mode c.hmac_type) body rfl rfl (by omega)
      (by omega) b3 b2 (fun h => by cases h) rfl rfl rfl rfl
    refine ⟨c', body, s', e1, hg, ?_, q2.1, q2.2, ?_, b4, hd1, hd2, b5, b6, b7⟩
    rotate_left
    · rw [if_pos h0, ← hlen, ← hbl]
      omega
    rw [new_with_data_ok K body (some key) c.encryption_mode none c.hmac_type (by omega) (by omega)
      ⟨hmr.1, hmr.2.1⟩ (by omega)]
    exact q1
  · rw [if_neg (by omega), Option.getD_some] at g2
    generalize htag : tagOf K.H c.hmac_type k (cipherText K salt key c.encryption_mode c.digest_type r)
      = tag at g2
    have htl : tag.length = b64DigestLen c.hmac_type := by rw [← htag]; exact tagOf_length hH _ _ _
    have htr := b64DigestLen_range c.hmac_type
    rw [b1, List.append_assoc] at g2
    have hg := hget tag g2 (by omega)
    have hv := (verify_hmac_main hH (startCtx (body ++ tag) c.encryption_mode c.hmac_type) k body tag rfl rfl
      rfl rfl ht htl (by omega) hk2 (by rw [List.length_append]; omega)).2.2 b3 (by
        show tag = tagOf K.H c.hmac_type k (restored (isGpgMode c.encryption_mode) body)
        rw [hgm, b2, htag])
    obtain ⟨cv, v1, v2⟩ := hv
    have hres : restored (isGpgMode (startCtx (body ++ tag) c.encryption_mode c.hmac_type).encryption_mode) body
        = cipherText K salt key c.encryption_mode c.digest_type r := by
      show restored (isGpgMode c.encryption_mode) body = _
      rw [hgm, b2]
    have v3 := v2.msg
    have v4 := v2.len
    rw [hres] at v3 v4
    obtain ⟨s', q1, q2⟩ := hdecr cv _ v3 v4 (by omega) (by omega)
      (by rw [← b2]; exact restored_base64 false body b3) (by rw [← b2, restored_idem])
      (fun _ => rfl) v2.mode v2.nat v2.auth v2.timeout
    refine ⟨c', body ++ tag, s', e1, hg, ?_, q2.1, q2.2, ?_, ?_, hd1, hd2 ++ tag, b5, b6, by rw [b7]; rfl⟩
    rotate_left
    · rw [if_neg (by omega), ← hlen, ← hbl, List.length_append, htl]
      omega
    · intro x hx
      rcases List.mem_append.1 hx with hx | hx
      · exact b4 x hx
      · rw [← htag] at hx
        exact b64NoPad_chars _ (by rw [← hmac_eq hH]; exact hmac_bytes hH _ _ _) x hx
    rw [new_with_data_ok K (body ++ tag) (some key) c.encryption_mode (some k) c.hmac_type
      (by rw [List.length_append]; omega) (by rw [List.length_append]; omega)
      ⟨hmr.1, hmr.2.1⟩ (by omega)]
    simp only
    rw [if_pos (by omega), v1]
    exact q1

/-- A context built by `fko_new` and any history of API calls never holds an out-of-date
encoding where it would be used. -/
theorem history_fresh {K : Crypto} (hH : K.H.Lawful) {rands : List Nat} {user : Str} {now : Int}
    {c0 : Ctx} (h0 : fko_new rands user now = some c0) {calls : List Call} {c : Ctx}
    (h : runCalls K c0 calls = .ok c) : Fresh K.H c := by
  have hf : Fresh K.H c0 := by
    refine ⟨by rw [(fko_new_some h0).2.2.1]; rfl, Or.inl (fko_new_encoded h0)⟩
  obtain ⟨c', e, h1⟩ := runCalls_fresh hH calls c0 hf
  rw [h] at e; cases e; exact h1

/-- **C17.** A client that has used the API in any way (any setter calls with any arguments, any
earlier encoding, encryption or finalisation), whose context now holds the well-formed request
`r` with symmetric encryption, and whose text fits the receiver's limits (287 characters, or 271
with an HMAC), produces a packet which the server, given the same keys, mode and HMAC type,
decodes to exactly `r`.  The limits are those of C19. -/
theorem C17_end_to_end_partial {K : Crypto} (hH : K.H.Lawful) (hbc : K.bc.Lawful)
    {rands : List Nat} {user : Str} {now : Int} {c0 : Ctx} (h0 : fko_new rands user now = some c0)
    (calls : List Call) {c : Ctx} (hcalls : runCalls K c0 calls = .ok c)
    {r : Request} (hr : r.WellFormed) (hc : Carries c r)
    (hd : 1 ≤ c.digest_type ∧ c.digest_type ≤ 7) (hrij : c.encryption_type = 1)
    (hmode : InvertibleMode c.encryption_mode)
    (hdig : ∀ ch ∈ r.rand, isDigit ch = true)
    (salt key : Str) (hs : salt.length = 8) (hsb : IsBytes salt) (hk : key.length ≤ 32)
    (hkey : Option Str)
    (hcase : (c.hmac_type = 0 ∧ hkey = none ∧ plainLen r c.digest_type ≤ 287) ∨
      ((1 ≤ c.hmac_type ∧ c.hmac_type ≤ 7) ∧ (∃ k, hkey = some k ∧ 1 ≤ k.length ∧ k.length ≤ 136) ∧
        plainLen r c.digest_type ≤ 271)) :
    ∃ c' packet s, fko_spa_data_final K salt c (some key) hkey = .ok (true, c') ∧
      fko_get_spa_data c' = some packet ∧
      fko_new_with_data K packet (some key) c.encryption_mode hkey c.hmac_type = .ok s ∧
      Carries s r ∧ s.digest = some (digest_base64 K.H c.digest_type r.wire) :=
  have ⟨c', packet, s, h1, h2, h3, h4, h5, _⟩ :=
    roundtrip hH hbc hr c (history_fresh hH h0 hcalls) hc hd hrij hmode hdig salt key hs hsb hk hkey hcase
  ⟨c', packet, s, h1, h2, h3, h4, h5⟩

/-- A client that builds a request, sends it, changes its mind twice and sends again. -/
def sampleCalls : List Call :=
  [.set (.message b!"1.2.3.4,tcp/22"), .final b!"saltsalt" (some b!"key") none,
   .set (.message b!"5.6.7.8,udp/53"), .set (.hmacType 3), .set (.timeout 30)]

/-- The request the context then holds. -/
def sampleFinal : Request where
  rand := b!"1804289383846930"
  user := b!"mbr"
  ts := 1700000000
  version := b!"3.0.0"
  type := 3
  msg := b!"5.6.7.8,udp/53"
  nat := none
  auth := none
  timeout := 30

theorem sampleFinal_wf : sampleFinal.WellFormed where
  rand_len := by decide
  rand_chars := by unfold IsPlainField; decide
  user_ne := by decide
  user_len := by decide
  user_chars := by unfold IsUserChar; decide
  ts_lt := by decide
  version_len := by decide
  version_chars := by unfold IsPlainField; decide
  type_le := by decide
  msg_text := by unfold IsText; decide
  msg_len := by decide
  msg_cmd := fun h => absurd h (by decide)
  msg_access := fun _ => (validate_access_iff _).1 (by decide)
  nat_some := fun h => absurd h (by decide)
  nat_none := by decide
  auth_ok := fun a h => by cases h
  timeout_some := by decide
  timeout_none := by decide

/-- A new context, as a result. -/
def newCtx (rands : List Nat) (user : Str) (now : Int) : Res Ctx :=
  match fko_new rands user now with
  | some c => .ok c
  | none => .err

theorem newCtx_ok {rands : List Nat} {user : Str} {now : Int} {c : Ctx}
    (h : newCtx rands user now = .ok c) : fko_new rands user now = some c := by
  unfold newCtx at h
  split at h
  · cases h; assumption
  · cases h

instance : DecidableEq Str := inferInstanceAs (DecidableEq (List Nat))

instance (c : Ctx) (r : Request) : Decidable (Carries c r) := by unfold Carries; infer_instance

/-- The hypotheses of C17 are met by it. -/
example : ∃ c0, fko_new [1804289383, 846930886] b!"mbr" 1700000000 = some c0 ∧
    ∃ c, runCalls toyCrypto c0 sampleCalls = .ok c ∧ sampleFinal.WellFormed ∧ Carries c sampleFinal ∧
      c.digest_type = 3 ∧ c.encryption_type = 1 ∧ InvertibleMode c.encryption_mode ∧ c.hmac_type = 3 ∧
      plainLen sampleFinal 3 ≤ 271 := by
  have h : check (newCtx [1804289383, 846930886] b!"mbr" 1700000000) (fun c0 =>
      check (runCalls toyCrypto c0 sampleCalls) (fun c => decide (Carries c sampleFinal ∧
        c.digest_type = 3 ∧ c.encryption_type = 1 ∧ c.encryption_mode = 2 ∧ c.hmac_type = 3))) = true := by
    decide +kernel
  obtain ⟨c0, h0, h⟩ := exists_of_check h
  obtain ⟨c, h1, h⟩ := exists_of_check h
  have h := of_decide_eq_true h
  exact ⟨c0, newCtx_ok h0, c, h1, sampleFinal_wf, h.1, h.2.1, h.2.2.1, by rw [h.2.2.2.1]; exact Or.inr (Or.inl rfl), h.2.2.2.2,
    by decide +kernel⟩

/-! ## C19 -/

/-- The packet of a symmetric request without HMAC, and its length. -/
theorem sent_length {K : Crypto} (hH : K.H.Lawful) (hbc : K.bc.Lawful)
    {r : Request} (hr : r.WellFormed) {c c' : Ctx} (hfresh : Fresh K.H c) (hc : Carries c r)
    (hd : 1 ≤ c.digest_type ∧ c.digest_type ≤ 7) (hrij : c.encryption_type = 1) (hh : c.hmac_type = 0)
    {salt key : Str} (hs : salt.length = 8) (hsb : IsBytes salt) (hk : key.length ≤ 32) {packet : Str}
    (hfin : fko_spa_data_final K salt c (some key) none = .ok (true, c'))
    (hget : fko_get_spa_data c' = some packet) :
    36 ≤ packet.length ∧ packet.length < 1500 ∧
    packet.length + 10 = (4 * (16 + (plainLen r c.digest_type +
        (16 - plainLen r c.digest_type % 16))) + 2) / 3 := by
  have hlen := cipherText_length hH hbc hr salt key c.encryption_mode c.digest_type hs
  have hw := wire_length hr
  have hdr := b64DigestLen_range c.digest_type
  have hpl : plainLen r c.digest_type = r.wire.length + 1 + b64DigestLen c.digest_type := rfl
  rw [← hpl] at hlen
  obtain ⟨c1, e1, g1, g2, g3, g4, -⟩ := encrypt_spa_eq_fresh hH hbc hr salt key c hc hd hrij hfresh hsb hk
  unfold fko_spa_data_final at hfin
  rw [e1, Res.bind_ok] at hfin
  simp only [g4, hh] at hfin
  simp only [FKO_HMAC_UNKNOWN, ne_eq, not_true_eq_false, decide_false, Bool.and_false] at hfin
  simp only [Bool.false_eq_true, if_false, Res.pure_eq, Res.ok.injEq, Prod.mk.injEq] at hfin
  obtain ⟨hv, rfl⟩ := hfin
  unfold fko_get_spa_data at hget
  simp only [g1] at hget
  rw [if_neg (by rw [hv]; decide), if_pos g3, Option.some.injEq] at hget
  subst hget
  unfold is_valid_encoded_msg_len at hv
  simp only [MAX_SPA_ENCODED_MSG_SIZE, MIN_SPA_ENCODED_MSG_SIZE] at hv
  simp at hv
  rw [List.length_drop]
  omega

/-- **C19, for messages within the receiver's limit.** The text the client sends without an HMAC
is recognised as symmetric exactly when at most 287 characters were encrypted. -/
theorem C19_recognised_iff_short_partial {K : Crypto} (hH : K.H.Lawful) (hbc : K.bc.Lawful)
    {rands : List Nat} {user : Str} {now : Int} {c0 : Ctx} (h0 : fko_new rands user now = some c0)
    (calls : List Call) {c : Ctx} (hcalls : runCalls K c0 calls = .ok c)
    {r : Request} (hr : r.WellFormed) (hc : Carries c r) {c' : Ctx}
    (hd : 1 ≤ c.digest_type ∧ c.digest_type ≤ 7) (hrij : c.encryption_type = 1) (hh : c.hmac_type = 0)
    (salt key : Str) (hs : salt.length = 8) (hsb : IsBytes salt) (hk : key.length ≤ 32) (packet : Str)
    (hfin : fko_spa_data_final K salt c (some key) none = .ok (true, c'))
    (hget : fko_get_spa_data c' = some packet) :
    fko_encryption_type packet = FKO_ENCRYPTION_RIJNDAEL ↔ plainLen r c.digest_type ≤ 287 := by
  obtain ⟨h1, h2, h3⟩ := sent_length hH hbc hr (history_fresh hH h0 hcalls) hc hd hrij hh hs hsb hk hfin hget
  unfold fko_encryption_type
  have : min packet.length MAX_SPA_ENCODED_MSG_SIZE = packet.length := by
    simp only [MAX_SPA_ENCODED_MSG_SIZE]; omega
  simp only [this]
  rw [if_neg (by unfold is_valid_encoded_msg_len; simp only [MIN_SPA_ENCODED_MSG_SIZE]; simp; omega)]
  constructor
  · intro h
    by_cases hg : packet.length ≥ 400
    · rw [if_pos hg] at h; cases h
    · omega
  · intro h
    rw [if_neg (by omega)]

/-- **C19 is false as stated.** Every symmetric ciphertext of a text of 288 characters or more,
produced without an HMAC, is taken for GnuPG by the receiver and refused, whatever the key: such
a request can be built and sent but never decoded. -/
theorem C19_long_messages_refused {K : Crypto} (hH : K.H.Lawful) (hbc : K.bc.Lawful)
    {rands : List Nat} {user : Str} {now : Int} {c0 : Ctx} (h0 : fko_new rands user now = some c0)
    (calls : List Call) {c : Ctx} (hcalls : runCalls K c0 calls = .ok c)
    {r : Request} (hr : r.WellFormed) (hc : Carries c r) {c' : Ctx}
    (hd : 1 ≤ c.digest_type ∧ c.digest_type ≤ 7) (hrij : c.encryption_type = 1)
    (hmode : c.encryption_mode ≠ 7) (hh : c.hmac_type = 0)
    (salt key : Str) (hs : salt.length = 8) (hsb : IsBytes salt) (hk : key.length ≤ 32)
    (hlong : 288 ≤ plainLen r c.digest_type) (packet : Str)
    (hfin : fko_spa_data_final K salt c (some key) none = .ok (true, c'))
    (hget : fko_get_spa_data c' = some packet) (key' : Str) :
    fko_new_with_data K packet (some key') c.encryption_mode none 0 = .err := by
  obtain ⟨h1, h2, h3⟩ := sent_length hH hbc hr (history_fresh hH h0 hcalls) hc hd hrij hh hs hsb hk hfin hget
  rcases new_with_data_eq K packet (some key') c.encryption_mode none 0 with e | ⟨-, e⟩
  · exact e
  rw [e]
  have : min packet.length MAX_SPA_ENCODED_MSG_SIZE = packet.length := by
    simp only [MAX_SPA_ENCODED_MSG_SIZE]; omega
  have hty : fko_encryption_type packet = FKO_ENCRYPTION_GPG := by
    unfold fko_encryption_type
    simp only [this]
    rw [if_neg (by unfold is_valid_encoded_msg_len; simp only [MIN_SPA_ENCODED_MSG_SIZE]; simp; omega),
      if_pos (by omega)]
  show fko_decrypt_spa_data K ((startCtx packet c.encryption_mode 0).setFlag FKO_CTX_INITIALIZED) key' = .err
  unfold fko_decrypt_spa_data
  have a1 : ((startCtx packet c.encryption_mode 0).setFlag FKO_CTX_INITIALIZED).encrypted_msg = some packet := rfl
  have a2 : ((startCtx packet c.encryption_mode 0).setFlag FKO_CTX_INITIALIZED).encryption_mode
      = c.encryption_mode := rfl
  simp only [a1, Option.getD_some, hty, a2]
  rw [if_neg (fun h => hmode h.2), if_neg (by decide)]

/-- A client that opens many ports in one request. -/
def longCalls : List Call :=
  [.set (.message (b!"1.2.3.4,tcp/22" ++ (List.replicate 18 b!",tcp/5000").flatten))]

def longRequest : Request :=
  { sampleFinal with
    type := 1
    msg := b!"1.2.3.4,tcp/22" ++ (List.replicate 18 b!",tcp/5000").flatten
    timeout := 0 }

/-- The hypotheses of `C19_long_messages_refused` are met: the request is well formed, and the
client builds a packet from it. -/
example : longRequest.WellFormed where
  rand_len := by decide
  rand_chars := by unfold IsPlainField; decide
  user_ne := by decide
  user_len := by decide
  user_chars := by unfold IsUserChar; decide
  ts_lt := by decide
  version_len := by decide
  version_chars := by unfold IsPlainField; decide
  type_le := by decide
  msg_text := by unfold IsText; decide +kernel
  msg_len := by decide +kernel
  msg_cmd := fun h => absurd h (by decide)
  msg_access := fun _ => (validate_access_iff _).1 (by decide +kernel)
  nat_some := fun h => absurd h (by decide)
  nat_none := by decide
  auth_ok := fun a h => by cases h
  timeout_some := by decide
  timeout_none := by decide

example : check (newCtx [1804289383, 846930886] b!"mbr" 1700000000) (fun c0 =>
    check (runCalls toyCrypto c0 longCalls) (fun c => decide (Carries c longRequest ∧
      c.digest_type = 3 ∧ c.encryption_type = 1 ∧ c.encryption_mode = 2 ∧ c.hmac_type = 0 ∧
      288 ≤ plainLen longRequest c.digest_type) &&
      check (fko_spa_data_final toyCrypto b!"saltsalt" c (some b!"key") none) (fun p =>
        p.1 && (fko_get_spa_data p.2).isSome))) = true := by
  decide +kernel

/-! ## C20 -/

/-- **C20 is false as stated.** After a successful setter call the library still hands out the
packet built from the earlier values: here a client packs a request for tcp/22, successfully
replaces the message, and gets the packet for tcp/22 back unchanged. -/
theorem C20_stale_packet_returned :
    ∃ c0 c1 c2 packet, fko_new [1804289383, 846930886] b!"mbr" 1700000000 = some c0 ∧
      runCalls toyCrypto c0 [.set (.message b!"1.2.3.4,tcp/22"),
        .final b!"saltsalt" (some b!"key") none] = .ok c1 ∧
      fko_set_spa_message c1 b!"5.6.7.8,udp/53" = some c2 ∧ c2.message ≠ c1.message ∧
      fko_get_spa_data c1 = some packet ∧ fko_get_spa_data c2 = some packet := by
  have h : check (newCtx [1804289383, 846930886] b!"mbr" 1700000000) (fun c0 =>
      check (runCalls toyCrypto c0 [.set (.message b!"1.2.3.4,tcp/22"),
        .final b!"saltsalt" (some b!"key") none]) (fun c1 =>
        check (match fko_set_spa_message c1 b!"5.6.7.8,udp/53" with | some c => .ok c | none => .err)
          (fun c2 => decide (c2.message ≠ c1.message ∧ fko_get_spa_data c2 = fko_get_spa_data c1 ∧
            (fko_get_spa_data c1).isSome)))) = true := by
    decide +kernel
  obtain ⟨c0, h0, h⟩ := exists_of_check h
  obtain ⟨c1, h1, h⟩ := exists_of_check h
  obtain ⟨c2, h2, h⟩ := exists_of_check h
  obtain ⟨a1, a2, a3⟩ := of_decide_eq_true h
  obtain ⟨packet, a3⟩ := Option.isSome_iff_exists.1 a3
  refine ⟨c0, c1, c2, packet, newCtx_ok h0, h1, ?_, a1, a3, by rw [a2, a3]⟩
  cases hm : fko_set_spa_message c1 b!"5.6.7.8,udp/53" with
  | none => rw [hm] at h2; cases h2
  | some c => rw [hm] at h2; cases h2; rfl

/-- **C20, for packets taken after packing.** If the caller packs the context
(`fko_spa_data_final`) after its last setter call, the packet depends only on the values the
context holds then: two contexts with the same values, reached through any two histories of API
calls whatever was packed before, give the same packet. -/
theorem C20_packed_from_current_values_partial {K : Crypto} (hH : K.H.Lawful)
    {rands rands' : List Nat} {user user' : Str} {now now' : Int} {c0 d0 : Ctx}
    (hc0 : fko_new rands user now = some c0) (hd0 : fko_new rands' user' now' = some d0)
    (calls calls' : List Call) {c d : Ctx}
    (hc : runCalls K c0 calls = .ok c) (hd : runCalls K d0 calls' = .ok d)
    (hv : c.values = d.values) (salt : Str) (key hkey : Option Str) {c' d' : Ctx}
    (ec : fko_spa_data_final K salt c key hkey = .ok (true, c'))
    (ed : fko_spa_data_final K salt d key hkey = .ok (true, d')) :
    fko_get_spa_data c' = fko_get_spa_data d' :=
  final_det hH (history_fresh hH hc0 hc) (history_fresh hH hd0 hd) hv ec ed

/-- Two histories with the same values at the end, one of which packed another message before. -/
example : check (newCtx [1804289383, 846930886] b!"mbr" 1700000000) (fun c0 =>
    check (runCalls toyCrypto c0 sampleCalls) (fun c =>
      check (runCalls toyCrypto c0 [.set (.hmacType 3), .set (.timeout 30), .set (.message b!"5.6.7.8,udp/53")])
        (fun d => (c.values == d.values) && decide (c.encoded_msg ≠ d.encoded_msg) &&
          check (fko_spa_data_final toyCrypto b!"saltsalt" c (some b!"key") (some b!"hkey")) (fun p => p.1) &&
          check (fko_spa_data_final toyCrypto b!"saltsalt" d (some b!"key") (some b!"hkey")) (fun p => p.1)))) = true := by
  decide +kernel

end Fwknop.Props
