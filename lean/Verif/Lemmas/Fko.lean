import Verif.Model.Fko
import Verif.Lemmas.Cipher
import Verif.Lemmas.Encode
import Verif.Spec.Hmac

/-!
# Lemmas on HMAC, prefixes and whole packets
-/

namespace Fwknop
open Fwknop.Spec Fwknop.Res Fwknop.Base64

/-! ## HMAC -/

theorem map_xor_replicate (n c : Nat) : (List.replicate n 0).map (· ^^^ c) = List.replicate n c := by
  simp

theorem pad_init_take (c B : Nat) (k : Str) (hk : k.length ≤ B) (hB : B ≤ 136) :
    (pad_init c k).take B = (k ++ List.replicate (B - k.length) 0).map (· ^^^ c) := by
  unfold pad_init
  rw [List.take_of_length_le (l := k) (by simp only [MAX_DIGEST_BLOCK_LEN]; omega),
    List.map_append, map_xor_replicate, List.take_append, List.take_of_length_le (by simp; omega), List.take_replicate]
  simp only [List.length_map, MAX_DIGEST_BLOCK_LEN]
  congr 2
  omega

theorem blockLen_le (t : Int) : 64 ≤ blockLen t ∧ blockLen t ≤ 136 := by
  unfold blockLen
  repeat' split
  all_goals omega

theorem digestLen_le (t : Int) : digestLen t ≤ 64 := by
  unfold digestLen
  repeat' split
  all_goals omega

theorem hmac_eq {H : Hash} (hH : H.Lawful) (t : Int) (msg key : Str) :
    hmac H t msg key = rfc2104 (H t) (blockLen t) key msg := by
  have hb := blockLen_le t
  have hd := digestLen_le t
  unfold hmac rfc2104
  simp only [gt_iff_lt]
  have hl : (if blockLen t < key.length then H t key else key).length ≤ blockLen t := by
    split
    · rw [hH.len]; omega
    · omega
  rw [pad_init_take _ _ _ hl hb.2, pad_init_take _ _ _ hl hb.2]

/-! ## Prefixes -/

theorem is_base64_of {s : Str} (h : ∀ c ∈ s, IsB64Char c) : is_base64 s = true := by
  unfold is_base64
  rw [List.all_eq_true]
  intro c hc
  have := h c hc
  unfold IsB64Char at this
  unfold isB64Char
  simp only [Bool.or_eq_true, Bool.and_eq_true, decide_eq_true_eq]
  omega

theorem cmp_prefix (m p : Str) (n : Nat) (hp : p.length = n) (hm : n ≤ m.length) :
    constant_runtime_cmp m p n = 0 ↔ p <+: m := by
  rw [constant_runtime_cmp_iff m p n hm (by omega), List.take_of_length_le (l := p) (by omega)]
  constructor
  · intro h; exact ⟨m.drop n, by rw [← h, List.take_append_drop]⟩
  · rintro ⟨t, rfl⟩
    rw [← hp, List.take_left]

theorem add_salted_eq (c : Ctx) (m : Str) (hc : c.encrypted_msg = some m)
    (hl : c.encrypted_msg_len = m.length) (h10 : 10 ≤ m.length) (hb : is_base64 m = true) :
    ∃ c', add_salted_str c = .ok c' ∧ c'.encrypted_msg = some (restored false m) ∧
      c'.encrypted_msg_len = (restored false m).length ∧
      (∃ f, c' = { c with encrypted_msg := some (restored false m),
                          encrypted_msg_len := (restored false m).length, added_salted_str := f }) := by
  unfold add_salted_str
  simp only [hc, hl]
  rw [mem_of_not (by omega), hb]
  simp only [Res.bind_ok, Bool.not_true, Res.guard_false]
  have hcm := cmp_prefix m B64_RIJNDAEL_SALT 10 rfl h10
  have hrest : restored false m = if B64_RIJNDAEL_SALT <+: m then m else B64_RIJNDAEL_SALT ++ m := rfl
  by_cases hp : B64_RIJNDAEL_SALT <+: m
  · rw [if_neg (by rw [hcm.2 hp]; decide), hrest, if_pos hp]
    refine ⟨c, rfl, hc, hl, c.added_salted_str, ?_⟩
    cases c; simp_all
  · rw [if_pos (fun h => hp (hcm.1 h)), hrest, if_neg hp]
    refine ⟨_, rfl, rfl, ?_, true, ?_⟩
    · simp; omega
    · simp; omega

theorem add_gpg_eq (c : Ctx) (m : Str) (hc : c.encrypted_msg = some m)
    (hl : c.encrypted_msg_len = m.length) (h10 : 2 ≤ m.length) (hb : is_base64 m = true) :
    ∃ c', add_gpg_prefix c = .ok c' ∧ c'.encrypted_msg = some (restored true m) ∧
      c'.encrypted_msg_len = (restored true m).length ∧
      (∃ f, c' = { c with encrypted_msg := some (restored true m),
                          encrypted_msg_len := (restored true m).length, added_gpg_prefix := f }) := by
  unfold add_gpg_prefix
  simp only [hc, hl]
  rw [mem_of_not (by omega), hb]
  simp only [Res.bind_ok, Bool.not_true, Res.guard_false]
  have hcm := cmp_prefix m B64_GPG_PREFIX 2 rfl h10
  have hrest : restored true m = if B64_GPG_PREFIX <+: m then m else B64_GPG_PREFIX ++ m := rfl
  by_cases hp : B64_GPG_PREFIX <+: m
  · rw [if_neg (by rw [hcm.2 hp]; decide), hrest, if_pos hp]
    refine ⟨c, rfl, hc, hl, c.added_gpg_prefix, ?_⟩
    cases c; simp_all
  · rw [if_pos (fun h => hp (hcm.1 h)), hrest, if_neg hp]
    refine ⟨_, rfl, rfl, ?_, true, ?_⟩
    · simp; omega
    · simp; omega

/-- The base64 text of "Salted__", a salt byte and anything: the constant prefix, then a
character that cannot start the prefix again. -/
theorem salted_split (a : Nat) (x : Str) (ha : a < 256) :
    ∃ k t, 60 ≤ k ∧ k ≤ 63 ∧
      b64NoPad (b!"Salted__" ++ a :: x) = B64_RIJNDAEL_SALT ++ b64Char k :: t := by
  refine ⟨60 + a / 64, b64Char (a % 64) :: b64NoPad x, by omega, by omega, ?_⟩
  simp only [List.cons_append, List.nil_append, b64NoPad]
  rw [show (95 % 16 * 4 + a / 64) = 60 + a / 64 from by omega]
  rfl

theorem not_prefix_again (k : Nat) (t : Str) (h : 60 ≤ k ∧ k ≤ 63) :
    ¬ B64_RIJNDAEL_SALT <+: b64Char k :: t := by
  intro hp
  have : b64Char k ≠ 85 := by
    have : k = 60 ∨ k = 61 ∨ k = 62 ∨ k = 63 := by omega
    rcases this with e | e | e | e <;> subst e <;> decide
  rw [List.cons_prefix_cons] at hp
  exact this hp.1.symm

theorem restored_idem (g : Bool) (m : Str) : restored g (restored g m) = restored g m := by
  unfold restored
  by_cases h : omitted g <+: m
  · simp [h]
  · rw [if_neg h, if_pos (List.prefix_append _ _)]

theorem restored_length (g : Bool) (m : Str) :
    m.length ≤ (restored g m).length ∧ (restored g m).length ≤ m.length + 10 := by
  unfold restored omitted
  cases g <;> simp only [if_true, if_false, Bool.false_eq_true] <;> split <;>
    simp <;> omega

theorem restored_base64 (g : Bool) (m : Str) (h : is_base64 m = true) :
    is_base64 (restored g m) = true := by
  unfold restored
  split
  · exact h
  · unfold is_base64 at *
    rw [List.all_append, h]
    cases g <;> rfl

/-! ## Computing and checking the HMAC -/

/-- The tag of a text: base64 of its HMAC. -/
def tagOf (H : Hash) (t : Int) (k m : Str) : Str := b64NoPad (rfc2104 (H t) (blockLen t) k m)

theorem hmac_bytes {H : Hash} (hH : H.Lawful) (t : Int) (m k : Str) : IsBytes (hmac H t m k) :=
  hH.bytes _ _

theorem tagOf_length {H : Hash} (hH : H.Lawful) (t : Int) (k m : Str) :
    (tagOf H t k m).length = b64DigestLen t := by
  unfold tagOf
  rw [b64NoPad_length, ← hmac_eq hH, hmac, hH.len, b64DigestLen_eq]

theorem set_hmac_eq {H : Hash} (hH : H.Lawful) (c : Ctx) (k m : Str) (hk : k.length ≤ 136)
    (ht : 1 ≤ c.hmac_type ∧ c.hmac_type ≤ 7) (hm : c.encrypted_msg = some m)
    (hl : c.encrypted_msg_len = m.length) :
    fko_set_spa_hmac H c (some k) = .ok { c with
      msg_hmac := some (tagOf H c.hmac_type k m)
      msg_hmac_len := (tagOf H c.hmac_type k m).length } := by
  have e : strip_b64_eq (b64_encode (hmac H c.hmac_type m k)) = tagOf H c.hmac_type k m := by
    rw [strip_encode _ (hmac_bytes hH _ _ _), hmac_eq hH]; rfl
  unfold fko_set_spa_hmac
  simp only [hm, hl, Option.getD_some, Option.isNone_some, Bool.false_eq_true, false_or,
    Int.toNat_natCast, List.take_length]
  rw [guard_of_not (by simp only [MAX_DIGEST_BLOCK_LEN]; omega), Res.bind_ok,
    guard_of_not (by simp only [FKO_LAST_HMAC_MODE]; omega), Res.bind_ok,
    mem_of_not (by omega), Res.bind_ok, e]
  rfl

/-- Does the mode say GnuPG? -/
def isGpgMode (mode : Int) : Bool := mode = FKO_ENC_MODE_ASYMMETRIC

/-- The context after a successful HMAC check. -/
structure Verified (H : Hash) (c : Ctx) (k body : Str) (c' : Ctx) : Prop where
  msg : c'.encrypted_msg = some (restored (isGpgMode c.encryption_mode) body)
  len : c'.encrypted_msg_len = (restored (isGpgMode c.encryption_mode) body).length
  mode : c'.encryption_mode = c.encryption_mode
  nat : c'.nat_access = c.nat_access
  auth : c'.server_auth = c.server_auth
  timeout : c'.client_timeout = c.client_timeout
  hmac : c'.msg_hmac = some (tagOf H c.hmac_type k (restored (isGpgMode c.encryption_mode) body))

theorem set_hmac_type_some (c : Ctx) (ht : 1 ≤ c.hmac_type ∧ c.hmac_type ≤ 7) :
    fko_set_spa_hmac_type c c.hmac_type = some (c.setFlag FKO_HMAC_MODE_MODIFIED) := by
  unfold fko_set_spa_hmac_type
  rw [if_neg (by simp only [FKO_LAST_HMAC_MODE]; omega)]

/-- The prefix step of `fko_verify_hmac`. -/
theorem prefix_step (c1 : Ctx) (body : Str) (hm : c1.encrypted_msg = some body)
    (hl : c1.encrypted_msg_len = body.length) (h36 : 36 ≤ body.length)
    (hg : c1.added_gpg_prefix = false) (hs : c1.added_salted_str = false) :
    (is_base64 body = false → addPrefix c1 = .err) ∧
    (is_base64 body = true → ∃ c2, addPrefix c1 = .ok c2 ∧ ∃ f g, c2 = { c1 with
        encrypted_msg := some (restored (isGpgMode c1.encryption_mode) body)
        encrypted_msg_len := (restored (isGpgMode c1.encryption_mode) body).length
        added_salted_str := f
        added_gpg_prefix := g }) := by
  unfold addPrefix
  rw [hg, hs]
  simp only [Bool.not_false, if_true]
  constructor
  · intro hb
    unfold add_gpg_prefix add_salted_str
    simp only [hm, hl, hb]
    rw [mem_of_not (by omega), mem_of_not (by omega)]
    split <;> rfl
  · intro hb
    by_cases hmode : c1.encryption_mode = FKO_ENC_MODE_ASYMMETRIC
    · rw [if_pos hmode]
      obtain ⟨c', e, -, -, f, h⟩ := add_gpg_eq c1 body hm hl (by omega) hb
      refine ⟨c', e, false, f, ?_⟩
      rw [show isGpgMode c1.encryption_mode = true from by simp [isGpgMode, hmode], h, ← hs]
    · rw [if_neg hmode]
      obtain ⟨c', e, -, -, f, h⟩ := add_salted_eq c1 body hm hl (by omega) hb
      refine ⟨c', e, f, false, ?_⟩
      rw [show isGpgMode c1.encryption_mode = false from by simp [isGpgMode, hmode], h, ← hg]

theorem compareHmac_eq {H : Hash} (hH : H.Lawful) (c : Ctx) (k m tag : Str) (hk : k.length ≤ 136)
    (ht : 1 ≤ c.hmac_type ∧ c.hmac_type ≤ 7) (hm : c.encrypted_msg = some m)
    (hl : c.encrypted_msg_len = m.length) (htag : tag.length = b64DigestLen c.hmac_type) :
    compareHmac H k tag (b64DigestLen c.hmac_type) c =
      if tag = tagOf H c.hmac_type k m then
        .ok { c.setFlag FKO_HMAC_MODE_MODIFIED with
          msg_hmac := some (tagOf H c.hmac_type k m)
          msg_hmac_len := (tagOf H c.hmac_type k m).length }
      else .err := by
  have htl := tagOf_length hH c.hmac_type k m
  have hset := set_hmac_eq hH (c.setFlag FKO_HMAC_MODE_MODIFIED) k m hk ht hm hl
  unfold compareHmac
  rw [set_hmac_type_some c ht]
  simp only
  rw [hset, Res.bind_ok]
  simp only [Option.getD_some]
  have hty : (c.setFlag FKO_HMAC_MODE_MODIFIED).hmac_type = c.hmac_type := rfl
  rw [hty, mem_of_not (by omega), Res.bind_ok]
  have hiff := cmp_eq_zero htag htl
  by_cases h : tag = tagOf H c.hmac_type k m
  · rw [if_pos h, guard_of_not (by simpa using hiff.2 h)]; rfl
  · rw [if_neg h, guard_of (p := _ ≠ _) (fun e => h (hiff.1 e))]; rfl

/-- `fko_verify_hmac` as a decision. -/
theorem verify_hmac_eq (H : Hash) (c : Ctx) (k m : Str)
    (hm : c.encrypted_msg = some m) (hl : c.encrypted_msg_len = m.length) :
    fko_verify_hmac H c k = .err ∨
    ((1 ≤ c.hmac_type ∧ c.hmac_type ≤ 7) ∧ 36 + b64DigestLen c.hmac_type ≤ m.length ∧
      k.length ≤ 136 ∧ m.length < 1500) := by
  by_cases hv : is_valid_encoded_msg_len (m.length : Int) = true
  case neg =>
    left; unfold fko_verify_hmac
    rw [hm, hl, Bool.eq_false_iff.2 hv]; rfl
  by_cases hk : k.length > MAX_DIGEST_BLOCK_LEN
  · left; unfold fko_verify_hmac
    rw [hm, hl, hv, guard_of hk]; rfl
  by_cases ht : c.hmac_type < 1 ∨ c.hmac_type ≥ FKO_LAST_HMAC_MODE
  · left; unfold fko_verify_hmac
    rw [hm, hl, hv, guard_of_not hk, guard_of ht]; rfl
  by_cases h36 : (m.length : Int) - b64DigestLen c.hmac_type < MIN_SPA_ENCODED_MSG_SIZE
  · left; unfold fko_verify_hmac
    rw [hm, hl, hv, guard_of_not hk, guard_of_not ht]
    simp only [Bool.not_true, Res.guard_false, Res.bind_ok]
    rw [guard_of h36]; rfl
  right
  simp only [FKO_LAST_HMAC_MODE] at ht
  simp only [MIN_SPA_ENCODED_MSG_SIZE] at h36
  simp only [MAX_DIGEST_BLOCK_LEN] at hk
  unfold is_valid_encoded_msg_len at hv
  simp at hv
  omega

theorem verify_hmac_main {H : Hash} (hH : H.Lawful) (c : Ctx) (k body tag : Str)
    (hm : c.encrypted_msg = some (body ++ tag)) (hl : c.encrypted_msg_len = (body ++ tag).length)
    (hg : c.added_gpg_prefix = false) (hs : c.added_salted_str = false)
    (ht : 1 ≤ c.hmac_type ∧ c.hmac_type ≤ 7) (htag : tag.length = b64DigestLen c.hmac_type)
    (h36 : 36 ≤ body.length) (hk : k.length ≤ 136) (hmax : (body ++ tag).length < 1500) :
    (is_base64 body = false → fko_verify_hmac H c k = .err) ∧
    (tag ≠ tagOf H c.hmac_type k (restored (isGpgMode c.encryption_mode) body) →
      fko_verify_hmac H c k = .err) ∧
    (is_base64 body = true →
      tag = tagOf H c.hmac_type k (restored (isGpgMode c.encryption_mode) body) →
      ∃ c', fko_verify_hmac H c k = .ok c' ∧ Verified H c k body c') := by
  have hv : is_valid_encoded_msg_len (((body ++ tag).length : Nat) : Int) = true := by
    unfold is_valid_encoded_msg_len
    simp only [MIN_SPA_ENCODED_MSG_SIZE, List.length_append] at *
    simp; omega
  have hlen : (body ++ tag).length - b64DigestLen c.hmac_type = body.length := by simp; omega
  have hps := prefix_step { c with
      encrypted_msg := some body
      encrypted_msg_len := ((body ++ tag).length : Int) - b64DigestLen c.hmac_type }
    body rfl (by simp; omega) h36 hg hs
  have hred : fko_verify_hmac H c k = (do
      let c2 ← addPrefix { c with
        encrypted_msg := some body
        encrypted_msg_len := ((body ++ tag).length : Int) - b64DigestLen c.hmac_type }
      compareHmac H k tag (b64DigestLen c.hmac_type) c2) := by
    unfold fko_verify_hmac
    rw [hm, hl, hv, guard_of_not (by simp only [MAX_DIGEST_BLOCK_LEN]; omega),
      guard_of_not (by simp only [FKO_LAST_HMAC_MODE]; omega)]
    simp only [Bool.not_true, Res.guard_false, Res.bind_ok]
    rw [guard_of_not (by simp only [MIN_SPA_ENCODED_MSG_SIZE]; simp; omega)]
    simp only [Option.getD_some, hlen, List.take_left, List.drop_left,
      Res.bind_ok]
    rw [mem_of_not (by simp), Res.bind_ok]
  rw [hred]
  cases hb : is_base64 body with
  | false => rw [hps.1 hb]; exact ⟨fun _ => rfl, fun _ => rfl, fun h => by cases h⟩
  | true =>
    obtain ⟨c2, e2, f, g, h2⟩ := hps.2 hb
    have hty : c2.hmac_type = c.hmac_type := by rw [h2]
    have hcmp := compareHmac_eq hH c2 k (restored (isGpgMode c.encryption_mode) body) tag hk
      (by rw [hty]; exact ht) (by rw [h2]) (by rw [h2]) (by rw [hty]; exact htag)
    rw [hty] at hcmp
    rw [e2, Res.bind_ok, hcmp]
    refine ⟨fun h => (by cases h), fun h => (by rw [if_neg h]), fun _ h => ?_⟩
    rw [if_pos h]
    refine ⟨_, rfl, ?_⟩
    subst h2
    exact ⟨rfl, rfl, rfl, rfl, rfl, rfl, rfl⟩

theorem verify_hmac_cases {H : Hash} (hH : H.Lawful) (c : Ctx) (k m : Str)
    (hm : c.encrypted_msg = some m) (hl : c.encrypted_msg_len = m.length)
    (hg : c.added_gpg_prefix = false) (hs : c.added_salted_str = false) :
    fko_verify_hmac H c k = .err ∨
    ∃ body c', fko_verify_hmac H c k = .ok c' ∧
      m = body ++ tagOf H c.hmac_type k (restored (isGpgMode c.encryption_mode) body) ∧
      36 ≤ body.length ∧ is_base64 body = true ∧ (1 ≤ c.hmac_type ∧ c.hmac_type ≤ 7) ∧
      Verified H c k body c' := by
  rcases verify_hmac_eq H c k m hm hl with h | ⟨ht, h36, hk, hmax⟩
  · exact Or.inl h
  have hsplit : m = m.take (m.length - b64DigestLen c.hmac_type)
      ++ m.drop (m.length - b64DigestLen c.hmac_type) := (List.take_append_drop _ _).symm
  generalize hbody : m.take (m.length - b64DigestLen c.hmac_type) = body at hsplit
  generalize htag : m.drop (m.length - b64DigestLen c.hmac_type) = tag at hsplit
  have hbl : 36 ≤ body.length := by rw [← hbody]; simp; omega
  have hmain := verify_hmac_main hH c k body tag (by rw [hm, hsplit]) (by rw [hl, hsplit]) hg hs ht
    (by rw [← htag]; simp; omega) hbl hk (by rw [← hsplit]; exact hmax)
  cases hb : is_base64 body with
  | false => exact Or.inl (hmain.1 hb)
  | true =>
    by_cases he : tag = tagOf H c.hmac_type k (restored (isGpgMode c.encryption_mode) body)
    · obtain ⟨c', h1, h2⟩ := hmain.2.2 hb he
      exact Or.inr ⟨body, c', h1, by rw [← he]; exact hsplit, hbl, hb, ht, h2⟩
    · exact Or.inl (hmain.2.1 he)

/-! ## Decryption -/

theorem decodeLoop_length_ge (s : Str) : ∀ (i v : Nat) (out : Str), decodeLoop s i v = some out →
    0 ∉ s → 61 ∉ s → 3 * s.length ≤ 4 * out.length + (if i % 4 = 0 then 3 else i % 4 - 1) := by
  induction s with
  | nil => intro i v out _ _ _; simp
  | cons c cs ih =>
    intro i v out h h0 h61
    simp only [List.mem_cons, not_or] at h0 h61
    rw [decodeLoop, if_neg (by omega)] at h
    split at h
    · simp at h
    · simp only at h
      split at h
      · simp at h
      · rename_i o ho
        have := ih _ _ _ ho h0.2 h61.2
        rw [and3] at h
        split at h
        · simp at h; subst h
          simp only [List.length_cons]
          split at this <;> split <;> omega
        · simp at h; subst h
          simp only [List.length_cons]
          split at this <;> split <;> omega

theorem decodeLoop_bytes (s : Str) : ∀ (i v : Nat) (out : Str), decodeLoop s i v = some out →
    IsBytes out := by
  induction s with
  | nil => intro i v out h; simp [decodeLoop] at h; subst h; intro c hc; cases hc
  | cons c cs ih =>
    intro i v out h
    rw [decodeLoop] at h
    split at h
    · simp at h; subst h; intro c hc; cases hc
    · split at h
      · simp at h
      · simp only at h
        split at h
        · simp at h
        · rename_i o ho
          have := ih _ _ _ ho
          split at h
          · simp at h; subst h; exact this
          · simp at h; subst h
            intro c hc
            rcases List.mem_cons.1 hc with e | e
            · omega
            · exact this c e

theorem zero_split (buf : Str) (n : Nat) (h : buf[n]? = some 0) :
    ∃ rest, buf = buf.takeWhile (· ≠ 0) ++ 0 :: rest ∧ 0 ∉ buf.takeWhile (· ≠ 0) ∧
      (buf.takeWhile (· ≠ 0)).length ≤ n := by
  induction buf generalizing n with
  | nil => simp at h
  | cons a buf ih =>
    by_cases ha : a = 0
    · subst ha; exact ⟨buf, by simp, by simp, by simp⟩
    · cases n with
      | zero => simp at h; exact absurd h ha
      | succ n =>
        obtain ⟨rest, h1, h2, h3⟩ := ih n (by simpa using h)
        refine ⟨rest, ?_, ?_, ?_⟩
        · rw [List.takeWhile_cons, if_pos (by simpa using ha), List.cons_append, ← h1]
        · rw [List.takeWhile_cons, if_pos (by simpa using ha)]
          simp only [List.mem_cons, not_or]
          exact ⟨Ne.symm ha, h2⟩
        · rw [List.takeWhile_cons, if_pos (by simpa using ha), List.length_cons]
          omega

/-- Checks and decoding after a decryption never leave the buffer. -/
theorem afterDecrypt_sat {H : Hash} (hH : H.Lawful) (c : Ctx) (cl : Nat) (buf : Str) (n : Nat)
    (hn : n + 16 ≤ buf.length) (h0 : buf[n]? = some 0) :
    Sat (afterDecrypt H c cl buf n) fun _ => True := by
  unfold afterDecrypt
  refine sat_guard fun _ => sat_guard fun _ => sat_guard fun _ => ?_
  obtain ⟨rest, h1, h2, h3⟩ := zero_split buf n h0
  exact (decode_sat hH { c with encoded_msg := some buf, encoded_msg_len := n }
    (buf.takeWhile (· ≠ 0)) rest (by rw [← h1]) h2 (by simpa using h3)
    (by rw [← h1]; show (n : Int) < _; omega)).mono fun _ _ => trivial

theorem restored_mem {g : Bool} {m : Str} {x : Nat} (h : x ∈ restored g m) :
    x ∈ m ∨ x ≠ 61 ∧ x ≠ 0 := by
  unfold restored at h
  split at h
  · exact Or.inl h
  · rw [List.mem_append] at h
    rcases h with h | h
    · right
      have : ∀ y ∈ omitted g, y ≠ 61 ∧ y ≠ 0 := by cases g <;> decide
      exact this x h
    · exact Or.inl h

theorem not_zero_of_base64 {m : Str} (h : is_base64 m = true) : 0 ∉ m := by
  intro h0
  unfold is_base64 at h
  have := List.all_eq_true.1 h 0 h0
  simp [isB64Char] at this

/-- The prefix step of `_rijndael_decrypt`. -/
theorem salted_step (c : Ctx) (x : Str) (hm : c.encrypted_msg = some x)
    (hl : c.encrypted_msg_len = x.length) (h10 : 10 ≤ x.length) :
    ((if !c.added_salted_str then add_salted_str c else pure c) = Res.err ∧
      is_base64 x = false ∧ c.added_salted_str = false) ∨
    ∃ c' f, (if !c.added_salted_str then add_salted_str c else pure c) = Res.ok c' ∧
      c' = { c with
        encrypted_msg := some (if c.added_salted_str then x else restored false x)
        encrypted_msg_len := (if c.added_salted_str then x else restored false x).length
        added_salted_str := f } := by
  cases hf : c.added_salted_str with
  | true =>
    right
    refine ⟨c, true, by simp [pure], ?_⟩
    simp only [if_true]
    cases c; simp_all
  | false =>
    simp only [Bool.not_false, if_true, Bool.false_eq_true, if_false]
    cases hb : is_base64 x with
    | true =>
      right
      obtain ⟨c', e, -, -, f, h⟩ := add_salted_eq c x hm hl h10 hb
      exact ⟨c', f, e, h⟩
    | false =>
      left
      refine ⟨?_, by simp, by simp⟩
      unfold add_salted_str
      simp only [hm, hl, hb]
      rw [mem_of_not (by omega)]
      rfl

/-- Rijndael decryption of a text of at least 36 characters without NUL and '=' stays in its
buffers. -/
theorem rijndael_decrypt_sat {K : Crypto} (hH : K.H.Lawful) (hbc : K.bc.Lawful) (c : Ctx) (key x : Str)
    (hm : c.encrypted_msg = some x) (hl : c.encrypted_msg_len = x.length) (h36 : 36 ≤ x.length)
    (h0 : 0 ∉ x) (h61 : 61 ∉ x) : Sat (_rijndael_decrypt K c key) fun _ => True := by
  unfold _rijndael_decrypt
  refine sat_guard fun _ => ?_
  rcases salted_step c x hm hl (by omega) with ⟨e, -⟩ | ⟨c', f, e, hc'⟩
  · rw [e]; trivial
  rw [e, Res.bind_ok, hc']
  simp only [Option.getD_some]
  generalize hy : (if c.added_salted_str then x else restored false x) = y
  have hlen : x.length ≤ y.length := by
    rw [← hy]; split
    · exact Nat.le_refl _
    · exact (restored_length _ _).1
  have hmem : ∀ v ∈ y, v ∈ x ∨ v ≠ 61 ∧ v ≠ 0 := by
    intro v hv
    rw [← hy] at hv; split at hv
    · exact Or.inl hv
    · exact restored_mem hv
  have y0 : 0 ∉ y := fun h => (hmem 0 h).elim h0 fun h => h.2 rfl
  have y61 : 61 ∉ y := fun h => (hmem 61 h).elim h61 fun h => h.1 rfl
  cases hd : b64_decode y with
  | none => trivial
  | some cipher =>
    have h1 := decodeLoop_length_ge y 0 0 cipher hd y0 y61
    have h2 := decodeLoop_bytes y 0 0 cipher hd
    refine sat_guard fun hmod => ?_
    simp only [RIJNDAEL_BLOCKSIZE, decide_eq_false_iff_not, Decidable.not_not] at hmod
    simp at h1
    obtain ⟨buf, n, e, hb1, hb2, -, hb4⟩ := rij_decrypt_shape hH hbc c.encryption_mode cipher key
      (by omega) hmod h2
    rw [e, Res.bind_ok]
    exact afterDecrypt_sat hH _ _ _ _ (by simp only; omega) hb4

theorem gpg_decrypt_sat {K : Crypto} (hH : K.H.Lawful) (c : Ctx) (key x : Str)
    (hm : c.encrypted_msg = some x) (hl : c.encrypted_msg_len = x.length) (h36 : 36 ≤ x.length) :
    Sat (gpg_decrypt K c key) fun _ => True := by
  have hdec : ∀ c : Ctx, Sat (match Base64.b64_decode (c.encrypted_msg.getD []) with
      | none => (.err : Res Ctx)
      | some cipher =>
        match K.gpgDec key cipher with
        | none => .err
        | some pt => do
          let n := min (pt.takeWhile (· ≠ 0)).length MAX_SPA_ENCODED_MSG_SIZE
          Res.guard (!is_valid_encoded_msg_len (n : Int))
          fko_decode_spa_data K.H { c with encoded_msg := some (pt ++ [0]), encoded_msg_len := n })
      fun _ => True := by
    intro c
    split
    · trivial
    · split
      · trivial
      · rename_i pt _
        refine sat_guard fun hv => ?_
        obtain ⟨rest, h1, h2, h3⟩ := zero_split (pt ++ [0]) pt.length (by simp)
        have htw : (pt ++ [0]).takeWhile (· ≠ 0) = pt.takeWhile (· ≠ 0) := by
          rw [List.takeWhile_append]; split <;> simp
          rename_i h; simpa using ((List.takeWhile_prefix _).eq_of_length h).symm
        rw [htw] at h1 h2 h3
        have hlt : (pt.takeWhile (· ≠ 0)).length < 1500 := by
          unfold is_valid_encoded_msg_len at hv
          simp only [MAX_SPA_ENCODED_MSG_SIZE, MIN_SPA_ENCODED_MSG_SIZE] at hv
          simp at hv
          have : MAX_SPA_ENCODED_MSG_SIZE = 1500 := rfl
          simp
          omega
        have hmin : min (pt.takeWhile (· ≠ 0)).length MAX_SPA_ENCODED_MSG_SIZE
            = (pt.takeWhile (· ≠ 0)).length := by
          simp only [MAX_SPA_ENCODED_MSG_SIZE]; omega
        rw [hmin]
        refine (decode_sat hH _ (pt.takeWhile (· ≠ 0)) rest (by rw [← h1]) h2 (by simp) ?_).mono
          fun _ _ => trivial
        simp only [List.length_append, List.length_cons]
        omega
  unfold gpg_decrypt
  refine sat_bind (fun _ => True) ?_ fun c' _ => hdec c'
  split
  · cases hb : is_base64 x with
    | true =>
      obtain ⟨c', e, -⟩ := add_gpg_eq c x hm hl (by omega) hb
      rw [e]; trivial
    | false =>
      have : add_gpg_prefix c = .err := by
        unfold add_gpg_prefix
        simp only [hm, hl, hb]
        rw [mem_of_not (by omega)]
        rfl
      rw [this]; trivial
  · trivial

theorem decrypt_spa_sat {K : Crypto} (hH : K.H.Lawful) (hbc : K.bc.Lawful) (c : Ctx) (key x : Str)
    (hm : c.encrypted_msg = some x) (hl : c.encrypted_msg_len = x.length) (h36 : 36 ≤ x.length)
    (h0 : 0 ∉ x) (h61 : 61 ∉ x) : Sat (fko_decrypt_spa_data K c key) fun _ => True := by
  unfold fko_decrypt_spa_data
  simp only
  split
  · exact gpg_decrypt_sat hH _ key x hm hl h36
  · split
    · exact rijndael_decrypt_sat hH hbc _ key x hm hl h36 h0 h61
    · trivial

/-- The context `fko_new_with_data` has built when it starts looking at the packet. -/
def startCtx (msg : Str) (mode ht : Int) : Ctx :=
  ({ (({ encrypted_msg := some msg
         encrypted_msg_len := msg.length
         encryption_mode := mode } : Ctx).setFlag FKO_ENCRYPT_MODE_MODIFIED) with
      hmac_type := ht }).setFlag FKO_HMAC_MODE_MODIFIED

/-- `fko_new_with_data` after its argument checks. -/
theorem new_with_data_eq (K : Crypto) (msg : Str) (dk : Option Str) (mode : Int) (hk : Option Str)
    (ht : Int) :
    fko_new_with_data K msg dk mode hk ht = .err ∨
    (36 ≤ msg.length ∧ msg.length < 1500 ∧ (0 ≤ mode ∧ mode < FKO_LAST_ENC_MODE) ∧
      (0 ≤ ht ∧ ht < FKO_LAST_HMAC_MODE)) ∧
      fko_new_with_data K msg dk mode hk ht = (do
        let c3 ← (match hk with
          | none => Res.ok (startCtx msg mode ht)
          | some k => if k.length > 0 then fko_verify_hmac K.H (startCtx msg mode ht) k
              else .ok (startCtx msg mode ht))
        match dk with
        | none => .ok (c3.setFlag FKO_CTX_INITIALIZED)
        | some k => fko_decrypt_spa_data K (c3.setFlag FKO_CTX_INITIALIZED) k) := by
  by_cases hv : is_valid_encoded_msg_len ((min msg.length MAX_SPA_ENCODED_MSG_SIZE : Nat) : Int) = true
  case neg =>
    left; unfold fko_new_with_data
    simp only [Bool.eq_false_iff.2 hv]; rfl
  by_cases hm : mode < 0 ∨ mode ≥ FKO_LAST_ENC_MODE
  · left; unfold fko_new_with_data fko_set_spa_encryption_mode
    simp only [hv, if_pos hm]; rfl
  by_cases hh : ht < 0 ∨ ht ≥ FKO_LAST_HMAC_MODE
  · left; unfold fko_new_with_data fko_set_spa_encryption_mode fko_set_spa_hmac_type
    simp only [hv, if_neg hm, if_pos hh]; rfl
  right
  have hlen : 36 ≤ msg.length ∧ msg.length < 1500 := by
    unfold is_valid_encoded_msg_len at hv
    simp [MAX_SPA_ENCODED_MSG_SIZE, MIN_SPA_ENCODED_MSG_SIZE] at hv
    omega
  refine ⟨⟨hlen.1, hlen.2, by omega, by omega⟩, ?_⟩
  have hmin : min msg.length MAX_SPA_ENCODED_MSG_SIZE = msg.length := by
    simp only [MAX_SPA_ENCODED_MSG_SIZE]; omega
  unfold fko_new_with_data fko_set_spa_encryption_mode fko_set_spa_hmac_type
  rw [hmin] at hv ⊢
  simp only [hv, if_neg hm, if_neg hh, Bool.not_true, Bool.false_eq_true, if_false]
  rfl

theorem new_with_data_ok (K : Crypto) (msg : Str) (dk : Option Str) (mode : Int) (hk : Option Str)
    (ht : Int) (h36 : 36 ≤ msg.length) (hlt : msg.length < 1500) (hm : 0 ≤ mode ∧ mode < 9)
    (hh : 0 ≤ ht ∧ ht < 8) :
    fko_new_with_data K msg dk mode hk ht = (do
        let c3 ← (match hk with
          | none => Res.ok (startCtx msg mode ht)
          | some k => if k.length > 0 then fko_verify_hmac K.H (startCtx msg mode ht) k
              else .ok (startCtx msg mode ht))
        match dk with
        | none => .ok (c3.setFlag FKO_CTX_INITIALIZED)
        | some k => fko_decrypt_spa_data K (c3.setFlag FKO_CTX_INITIALIZED) k) := by
  have hmin : min msg.length MAX_SPA_ENCODED_MSG_SIZE = msg.length := by
    simp only [MAX_SPA_ENCODED_MSG_SIZE]; omega
  have hv : is_valid_encoded_msg_len (msg.length : Int) = true := by
    unfold is_valid_encoded_msg_len; simp only [MIN_SPA_ENCODED_MSG_SIZE]; simp; omega
  have hm' : ¬ (mode < 0 ∨ mode ≥ FKO_LAST_ENC_MODE) := by simp only [FKO_LAST_ENC_MODE]; omega
  have hh' : ¬ (ht < 0 ∨ ht ≥ FKO_LAST_HMAC_MODE) := by simp only [FKO_LAST_HMAC_MODE]; omega
  unfold fko_new_with_data fko_set_spa_encryption_mode fko_set_spa_hmac_type
  rw [hmin]
  simp only [hv, if_neg hm', if_neg hh', Bool.not_true, Bool.false_eq_true, if_false]
  rfl

theorem invertible_range {m : Int} (h : InvertibleMode m) : 0 ≤ m ∧ m < 9 ∧ m ≠ 7 := by
  unfold InvertibleMode at h
  simp only [FKO_ENC_MODE_ECB, FKO_ENC_MODE_CBC, FKO_ENC_MODE_CFB, FKO_ENC_MODE_OFB,
    FKO_ENC_MODE_CTR, FKO_ENC_MODE_CBC_LEGACY_IV] at h
  omega

/-- Every packet without '=' is processed inside the buffers. -/
theorem new_with_data_sat {K : Crypto} (hH : K.H.Lawful) (hbc : K.bc.Lawful) (msg : Str)
    (dk : Option Str) (mode : Int) (hk : Option Str) (ht : Int) (h0 : 0 ∉ msg) (h61 : 61 ∉ msg) :
    Sat (fko_new_with_data K msg dk mode hk ht) fun _ => True := by
  rcases new_with_data_eq K msg dk mode hk ht with h | ⟨⟨h36, -⟩, h⟩
  · rw [h]; trivial
  rw [h]
  have hfin : ∀ (c3 : Ctx) (x : Str), c3.encrypted_msg = some x → c3.encrypted_msg_len = x.length →
      36 ≤ x.length → 0 ∉ x → 61 ∉ x →
      Sat (match dk with
        | none => .ok (c3.setFlag FKO_CTX_INITIALIZED)
        | some k => fko_decrypt_spa_data K (c3.setFlag FKO_CTX_INITIALIZED) k) fun _ => True := by
    intro c3 x a1 a2 a3 a4 a5
    cases dk with
    | none => trivial
    | some k => exact decrypt_spa_sat hH hbc _ k x a1 a2 a3 a4 a5
  refine sat_bind (fun c3 => ∃ x, c3.encrypted_msg = some x ∧ c3.encrypted_msg_len = x.length ∧
      36 ≤ x.length ∧ 0 ∉ x ∧ 61 ∉ x) ?_ fun c3 ⟨x, a1, a2, a3, a4, a5⟩ => hfin c3 x a1 a2 a3 a4 a5
  have hstart : Sat (Res.ok (startCtx msg mode ht)) fun c3 => ∃ x, c3.encrypted_msg = some x ∧
      c3.encrypted_msg_len = x.length ∧ 36 ≤ x.length ∧ 0 ∉ x ∧ 61 ∉ x :=
    ⟨msg, rfl, rfl, h36, h0, h61⟩
  cases hk with
  | none => exact hstart
  | some k =>
    simp only
    split
    · rcases verify_hmac_cases hH (startCtx msg mode ht) k msg rfl rfl rfl rfl with
        e | ⟨body, c', e, hb, hbl, hb64, -, hver⟩
      · rw [e]; trivial
      · rw [e]
        have hsub : ∀ v ∈ restored (isGpgMode (startCtx msg mode ht).encryption_mode) body,
            v ∈ msg ∨ v ≠ 61 ∧ v ≠ 0 := by
          intro v hv
          rcases restored_mem hv with hv | hv
          · left; rw [hb]; exact List.mem_append_left _ hv
          · exact Or.inr hv
        refine ⟨_, hver.msg, hver.len, ?_, fun h => (hsub 0 h).elim h0 fun h => h.2 rfl,
          fun h => (hsub 61 h).elim h61 fun h => h.1 rfl⟩
        have := (restored_length (isGpgMode (startCtx msg mode ht).encryption_mode) body).1
        omega
    · exact hstart

/-! ## End to end -/

/-- The plaintext of a request. -/
def fullText (H : Hash) (d : Int) (r : Request) : Str := r.wire ++ 58 :: digest_base64 H d r.wire

/-- The base64 text of the ciphertext of a request. -/
def cipherText (K : Crypto) (salt key : Str) (mode d : Int) (r : Request) : Str :=
  b64NoPad (rij_encrypt K.H K.bc salt (fullText K.H d r) key mode)

variable {K : Crypto} {r : Request}

theorem fullText_length (hH : K.H.Lawful) (d : Int) :
    (fullText K.H d r).length = r.wire.length + 1 + b64DigestLen d := by
  unfold fullText
  rw [List.length_append, List.length_cons, digest_base64_length hH]; omega

theorem b64DigestLen_range (d : Int) : 22 ≤ b64DigestLen d ∧ b64DigestLen d ≤ 86 := by
  unfold b64DigestLen; repeat' split
  all_goals omega

theorem fullText_bytes (hH : K.H.Lawful) (hr : r.WellFormed) (d : Int) : IsBytes (fullText K.H d r) := by
  have hw : IsBytes r.wire := fun c hc => by
    have := print_wire hr c hc
    simp only [isPrint, Bool.and_eq_true, decide_eq_true_eq] at this; omega
  have hd : IsBytes (digest_base64 K.H d r.wire) := by
    rw [digest_base64_eq hH]
    intro c hc
    have := b64NoPad_chars _ (hH.bytes _ _) c hc
    simp only [IsB64Char] at this; omega
  intro c hc
  simp only [fullText, List.mem_append, List.mem_cons] at hc
  rcases hc with h | h | h
  · exact hw c h
  · omega
  · exact hd c h

theorem rij_encrypt_length (hH : K.H.Lawful) (hbc : K.bc.Lawful) (salt s key : Str) (mode : Int)
    (hs : salt.length = 8) (hb : IsBytes s) :
    (rij_encrypt K.H K.bc salt s key mode).length = 16 + (s.length + (16 - s.length % 16)) := by
  obtain ⟨hk, hiv⟩ := kiv_shape hH mode key salt
  have hsh := block_encrypt_shape hbc hk hiv (rijMode mode) (addPad s) (addPad_mod s) (addPad_bytes hb)
  simp only [rij_encrypt, List.length_append, hsh.1, hs, addPad_length]
  simp

theorem rij_encrypt_bytes (hH : K.H.Lawful) (hbc : K.bc.Lawful) (salt s key : Str) (mode : Int)
    (hsb : IsBytes salt) (hb : IsBytes s) : IsBytes (rij_encrypt K.H K.bc salt s key mode) := by
  obtain ⟨hk, hiv⟩ := kiv_shape hH mode key salt
  have hsh := block_encrypt_shape hbc hk hiv (rijMode mode) (addPad s) (addPad_mod s) (addPad_bytes hb)
  unfold rij_encrypt
  refine isBytes_append (isBytes_append ?_ hsb) hsh.2
  intro c hc
  have : ∀ y ∈ b!"Salted__", y < 256 := by decide
  exact this c hc

/-- Shape of the base64 ciphertext: the constant part, then something that does not start with
the constant part. -/
theorem rij_text_split (hH : K.H.Lawful) (hbc : K.bc.Lawful) (salt s key : Str) (mode : Int)
    (hs : salt.length = 8) (hsb : IsBytes salt) (hb : IsBytes s) :
    ∃ body, b64NoPad (rij_encrypt K.H K.bc salt s key mode) = B64_RIJNDAEL_SALT ++ body ∧
      restored false body = b64NoPad (rij_encrypt K.H K.bc salt s key mode) ∧
      is_base64 body = true := by
  obtain ⟨a, salt', rfl⟩ : ∃ a t, salt = a :: t := by
    cases salt with
    | nil => simp at hs
    | cons a t => exact ⟨a, t, rfl⟩
  obtain ⟨k, t, h1, h2, h3⟩ := salted_split a (salt' ++ block_encrypt K.bc (rijMode mode)
    (rij_salt_and_iv K.H mode key (a :: salt')).1 (rij_salt_and_iv K.H mode key (a :: salt')).2
    (addPad s)) (hsb a (by simp))
  have e : rij_encrypt K.H K.bc (a :: salt') s key mode = b!"Salted__" ++ a :: (salt' ++
      block_encrypt K.bc (rijMode mode)
    (rij_salt_and_iv K.H mode key (a :: salt')).1 (rij_salt_and_iv K.H mode key (a :: salt')).2
    (addPad s)) := by
    simp [rij_encrypt]
  rw [← e] at h3
  refine ⟨b64Char k :: t, h3, ?_, ?_⟩
  · rw [h3]
    unfold restored
    rw [if_neg (show ¬ omitted false <+: _ from not_prefix_again k t ⟨h1, h2⟩)]; rfl
  · refine is_base64_of fun c hc => ?_
    refine b64NoPad_chars _ (rij_encrypt_bytes hH hbc (a :: salt') s key mode hsb hb) c ?_
    rw [h3]; exact List.mem_append_right _ hc

/-- The same with the first character. -/
theorem rij_text_first (hH : K.H.Lawful) (hbc : K.bc.Lawful) (salt s key : Str) (mode : Int)
    (hs : salt.length = 8) (hsb : IsBytes salt) (hb : IsBytes s) {body : Str}
    (h : b64NoPad (rij_encrypt K.H K.bc salt s key mode) = B64_RIJNDAEL_SALT ++ body) :
    (∀ c ∈ body, IsB64Char c) ∧ ∃ k t, 60 ≤ k ∧ k ≤ 63 ∧ body = b64Char k :: t := by
  obtain ⟨a, salt', rfl⟩ : ∃ a t, salt = a :: t := by
    cases salt with
    | nil => simp at hs
    | cons a t => exact ⟨a, t, rfl⟩
  obtain ⟨k, t, h1, h2, h3⟩ := salted_split a (salt' ++ block_encrypt K.bc (rijMode mode)
    (rij_salt_and_iv K.H mode key (a :: salt')).1 (rij_salt_and_iv K.H mode key (a :: salt')).2
    (addPad s)) (hsb a (by simp))
  have e : rij_encrypt K.H K.bc (a :: salt') s key mode = b!"Salted__" ++ a :: (salt' ++
      block_encrypt K.bc (rijMode mode)
    (rij_salt_and_iv K.H mode key (a :: salt')).1 (rij_salt_and_iv K.H mode key (a :: salt')).2
    (addPad s)) := by
    simp [rij_encrypt]
  rw [← e, h] at h3
  refine ⟨fun c hc => b64NoPad_chars _ (rij_encrypt_bytes hH hbc (a :: salt') s key mode hsb hb) c (by
    rw [h]; exact List.mem_append_right _ hc), k, t, h1, h2, List.append_cancel_left h3⟩

/-- The text of a packet: its length, its characters and its first character. -/
structure PacketShape (plain tag : Nat) (t : Str) : Prop where
  len : t.length = (4 * (16 + (plain + (16 - plain % 16))) + 2) / 3 - 10 + tag
  chars : ∀ c ∈ t, IsB64Char c
  first : ∃ k r, 60 ≤ k ∧ k ≤ 63 ∧ t = b64Char k :: r

theorem okDigest (d : Int) : okDigestLen (b64DigestLen d) = true := by
  unfold b64DigestLen; repeat' split
  all_goals decide

/-- The sender's encryption step on an encoded request. -/
theorem rijndael_encrypt_eq (hH : K.H.Lawful) (hr : r.WellFormed) (salt key : Str)
    (c : Ctx) (d : Int) (hk : key.length ≤ 32)
    (he : c.encoded_msg = some (r.wire ++ [0])) (hel : c.encoded_msg_len = r.wire.length)
    (hd : c.digest = some (digest_base64 K.H d r.wire)) (hdl : c.digest_len = b64DigestLen d) :
    _rijndael_encrypt K salt c key = storeCipher c
      (rij_encrypt K.H K.bc salt (fullText K.H d r) key c.encryption_mode) := by
  have hwl := wire_length hr
  have hft := fullText_length (r := r) hH d
  have hdr := b64DigestLen_range d
  have hpt : plainText c = fullText K.H d r := by
    unfold plainText fullText
    rw [he, hd]
    simp only [Option.getD_some]
    rw [List.takeWhile_append_of_pos]
    · simp
    · intro x hx
      have : x ≠ 0 := fun h => wire_no_zero hr (h ▸ hx)
      simpa using this
  unfold _rijndael_encrypt
  rw [if_neg, hpt]
  · simp only
    rw [if_neg, hel, hdl, mem_of_not]
    · rfl
    · rw [addPad_length, hft]; omega
    · rw [hft]; unfold is_valid_encoded_msg_len; simp only [MIN_SPA_ENCODED_MSG_SIZE]; simp; omega
  · rw [hel, hdl, okDigest]
    unfold is_valid_encoded_msg_len
    simp only [MIN_SPA_ENCODED_MSG_SIZE, RIJNDAEL_MAX_KEYSIZE]; simp; omega

/-- The receiver's decryption step on the sender's text. -/
theorem rijndael_decrypt_eq (hH : K.H.Lawful) (hbc : K.bc.Lawful) (hr : r.WellFormed) (salt key : Str)
    (c : Ctx) (d : Int) (hd : 1 ≤ d ∧ d ≤ 7) (x : Str)
    (hs : salt.length = 8) (hsb : IsBytes salt) (hk : key.length ≤ 32)
    (hmode : InvertibleMode c.encryption_mode)
    (hdig : ∀ ch ∈ r.rand, isDigit ch = true)
    (hm : c.encrypted_msg = some x) (hl : c.encrypted_msg_len = x.length) (h10 : 10 ≤ x.length)
    (hb : is_base64 x = true)
    (hx : restored false x = cipherText K salt key c.encryption_mode d r)
    (hx2 : c.added_salted_str = true → x = cipherText K salt key c.encryption_mode d r)
    (h1 : c.nat_access = none) (h2 : c.server_auth = none) (h3 : c.client_timeout = 0) :
    ∃ s', _rijndael_decrypt K c key = .ok s' ∧ Carries s' r ∧
      s'.digest = some (digest_base64 K.H d r.wire) := by
  have hft := fullText_length (r := r) hH d
  have hfb := fullText_bytes hH hr d
  have hwl := wire_length hr
  have hdr := b64DigestLen_range d
  have hclen := rij_encrypt_length hH hbc salt (fullText K.H d r) key c.encryption_mode hs hfb
  have hcb := rij_encrypt_bytes hH hbc salt (fullText K.H d r) key c.encryption_mode hsb hfb
  obtain ⟨rest, hrt⟩ := rij_roundtrip hH hbc hmode salt hs (fullText K.H d r) key hfb
  unfold _rijndael_decrypt
  rw [guard_of_not (by simp only [RIJNDAEL_MAX_KEYSIZE]; omega), Res.bind_ok]
  rcases salted_step c x hm hl h10 with ⟨-, e, -⟩ | ⟨c', f, e, hc'⟩
  · rw [hb] at e; cases e
  have hy : (if c.added_salted_str = true then x else restored false x)
      = cipherText K salt key c.encryption_mode d r := by
    split
    · rename_i h; exact hx2 h
    · exact hx
  rw [hy] at hc'
  rw [e, Res.bind_ok, hc']
  simp only [Option.getD_some]
  have hdec : b64_decode (cipherText K salt key c.encryption_mode d r)
      = some (rij_encrypt K.H K.bc salt (fullText K.H d r) key c.encryption_mode) := by
    have := decodeLoop_spec (rij_encrypt K.H K.bc salt (fullText K.H d r) key c.encryption_mode) [] 0 0
      hcb rfl (fun _ _ => rfl)
    rw [List.append_nil] at this
    exact this
  rw [hdec]
  simp only
  rw [guard_of_not (by simp only [RIJNDAEL_BLOCKSIZE]; omega), Res.bind_ok, hrt, Res.bind_ok]
  unfold afterDecrypt
  have htake : (fullText K.H d r ++ 0 :: rest).take FKO_RAND_VAL_SIZE = r.rand := by
    unfold fullText Request.wire
    rw [List.append_assoc, List.append_assoc]
    exact List.take_left' hr.rand_len
  have hget : (fullText K.H d r ++ 0 :: rest).getD FKO_RAND_VAL_SIZE 0 = 58 := by
    have : FKO_RAND_VAL_SIZE = r.rand.length := hr.rand_len.symm
    rw [this]
    unfold fullText Request.wire
    simp [List.getD]
  have hv : is_valid_encoded_msg_len ((fullText K.H d r).length : Int) = true := by
    rw [hft]; unfold is_valid_encoded_msg_len; simp only [MIN_SPA_ENCODED_MSG_SIZE]; simp; omega
  rw [guard_of_not (by rw [hclen]; omega), Res.bind_ok, hv]
  simp only [Bool.not_true, Res.guard_false, Res.bind_ok]
  rw [htake, guard_of_not, Res.bind_ok]
  · exact decode_wire hr hH d hd _ rest rfl rfl h1 h2 h3
  · rw [hget]
    have : r.rand.all isDigit = true := List.all_eq_true.2 hdig
    simp [this]

theorem cipherText_length (hH : K.H.Lawful) (hbc : K.bc.Lawful) (hr : r.WellFormed) (salt key : Str)
    (mode d : Int) (hs : salt.length = 8) :
    (cipherText K salt key mode d r).length =
      (4 * (16 + ((r.wire.length + 1 + b64DigestLen d) +
        (16 - (r.wire.length + 1 + b64DigestLen d) % 16))) + 2) / 3 := by
  unfold cipherText
  rw [b64NoPad_length, rij_encrypt_length hH hbc _ _ _ _ hs (fullText_bytes hH hr d),
    fullText_length hH]

/-- The sender's encryption: the context holds the base64 ciphertext. -/
theorem encrypt_spa_eq (hH : K.H.Lawful) (hbc : K.bc.Lawful) (hr : r.WellFormed) (salt key : Str)
    (c : Ctx) (hc : Carries c r) (hd : 1 ≤ c.digest_type ∧ c.digest_type ≤ 7)
    (ht : c.encryption_type = FKO_ENCRYPTION_RIJNDAEL)
    (hfresh : c.encoded_msg = none ∨ c.isModified = true)
    (hsb : IsBytes salt) (hk : key.length ≤ 32) :
    ∃ c', fko_encrypt_spa_data K salt c (some key) = .ok (
        is_valid_encoded_msg_len ((min (cipherText K salt key c.encryption_mode c.digest_type r).length
          MAX_SPA_ENCODED_MSG_SIZE : Nat) : Int), c') ∧
      c'.encrypted_msg = some (cipherText K salt key c.encryption_mode c.digest_type r) ∧
      c'.encrypted_msg_len = ((min (cipherText K salt key c.encryption_mode c.digest_type r).length
          MAX_SPA_ENCODED_MSG_SIZE : Nat) : Int) ∧
      c'.encryption_type = FKO_ENCRYPTION_RIJNDAEL ∧ c'.hmac_type = c.hmac_type ∧ Carries c' r := by
  obtain ⟨c1, e1, g1, g2, g3, g4, g5, g6, g7, g8, g9, g10⟩ := encode_wire hr K.H c hc hd
  have hw := wire_length hr
  unfold fko_encrypt_spa_data
  rw [if_pos (by rcases hfresh with h | h <;> simp [h]), e1, Res.bind_ok]
  simp only [if_true]
  unfold encryptEncoded
  rw [if_neg (by
      rw [g3]; unfold is_valid_encoded_msg_len
      simp only [MIN_SPA_ENCODED_MSG_SIZE]; simp; omega),
    if_pos (by rw [g7, ht])]
  simp only
  rw [rijndael_encrypt_eq hH hr salt key c1 c.digest_type hk g2 g3 g4 g6]
  unfold storeCipher
  simp only
  rw [strip_encode _ (rij_encrypt_bytes hH hbc salt _ key _ hsb (fullText_bytes hH hr _)), g8]
  exact ⟨_, rfl, rfl, rfl, by rw [← ht, ← g7], g9, g1⟩

end Fwknop
