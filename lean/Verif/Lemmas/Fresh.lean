import Verif.Lemmas.Fko
import Verif.Lemmas.Setters

/-!
# Histories of API calls: the encoding kept in a context is never out of date when it is used
-/

namespace Fwknop
open Fwknop.Spec Fwknop.Res Fwknop.Base64

/-- The encoding held by the context is the one its current fields give. -/
def Encoded (H : Hash) (c : Ctx) : Prop :=
  ∃ rand user ver msg t d, c.username = some user ∧ c.version = some ver ∧ c.message = some msg ∧
    c.rand_val = some rand ∧ validate_username user = true ∧ min ver.length MAX_SPA_VERSION_SIZE ≠ 0 ∧
    min msg.length MAX_SPA_MESSAGE_SIZE ≠ 0 ∧
    timeoutType c.message_type c.client_timeout = c.message_type ∧
    encodeText rand user c.timestamp ver c.message_type msg c.nat_access c.server_auth
      c.client_timeout = some t ∧
    c.encoded_msg = some (t ++ [0]) ∧
    c.encoded_msg_len = (min t.length MAX_SPA_ENCODED_MSG_SIZE : Nat) ∧
    is_valid_encoded_msg_len c.encoded_msg_len = true ∧
    set_digest H t c.digest_type = some d ∧ c.digest = some d ∧
    c.digest_len = b64DigestLen c.digest_type

/-- No out-of-date encoding can be used. -/
def Fresh (H : Hash) (c : Ctx) : Prop :=
  c.rand_val.isSome = true ∧ (c.encoded_msg = none ∨ c.isModified = true ∨ Encoded H c)

theorem timeoutType_idem (t : Int) (n : Nat) : timeoutType (timeoutType t n) n = timeoutType t n := by
  unfold timeoutType
  simp only [FKO_ACCESS_MSG, FKO_CLIENT_TIMEOUT_ACCESS_MSG, FKO_NAT_ACCESS_MSG,
    FKO_CLIENT_TIMEOUT_NAT_ACCESS_MSG, FKO_LOCAL_NAT_ACCESS_MSG,
    FKO_CLIENT_TIMEOUT_LOCAL_NAT_ACCESS_MSG]
  repeat' split
  all_goals omega

theorem testBit_mask {s b : Nat} (i : Nat) (h : s.testBit i = true) (hb : b.testBit i = true) :
    s &&& b ≠ 0 := by
  intro h0
  have : (s &&& b).testBit i = true := by rw [Nat.testBit_and, h, hb]; rfl
  rw [h0] at this
  simp at this

theorem isModified_of (c : Ctx) (i : Nat) (h : c.state.testBit i = true)
    (hb : FKO_SPA_DATA_MODIFIED.testBit i = true) : c.isModified = true := by
  unfold Ctx.isModified
  exact decide_eq_true (testBit_mask i h hb)

theorem isModified_setFlag (c : Ctx) (i f : Nat) (hf : f.testBit i = true)
    (hb : FKO_SPA_DATA_MODIFIED.testBit i = true) : (c.setFlag f).isModified = true := by
  refine isModified_of _ i ?_ hb
  show (c.state ||| f).testBit i = true
  rw [Nat.testBit_or, hf, Bool.or_true]

theorem isModified_or {c : Ctx} (f : Nat) (h : c.isModified = true) :
    (c.setFlag f).isModified = true := by
  unfold Ctx.isModified at h ⊢
  simp only [decide_eq_true_eq] at h ⊢
  intro h0
  apply h
  show c.state &&& _ = 0
  have h0 : (c.state ||| f) &&& FKO_SPA_DATA_MODIFIED = 0 := h0
  rw [Nat.and_or_distrib_right, Nat.or_eq_zero_iff] at h0
  exact h0.1

theorem timeout_modified {c c' : Ctx} {t : Int} (h : fko_set_spa_client_timeout c t = some c') :
    c'.isModified = true := by
  unfold fko_set_spa_client_timeout at h
  split at h
  · cases h
  · simp only [Option.some.injEq] at h
    subst h
    split
    · exact isModified_setFlag _ 6 _ (by decide) (by decide)
    · exact isModified_setFlag _ 1 _ (by decide) (by decide)

/-- Every setter call keeps the context fresh. -/
theorem setter_fresh (H : Hash) (c : Ctx) (s : Setter) (h : Fresh H c) :
    Fresh H ((s.run c).getD c) := by
  have key : ∀ (c' : Ctx) (i f : Nat), c'.rand_val.isSome = true → f.testBit i = true →
      FKO_SPA_DATA_MODIFIED.testBit i = true → Fresh H (c'.setFlag f) :=
    fun c' i f h1 h2 h3 => ⟨h1, Or.inr (Or.inl (isModified_setFlag c' i f h2 h3))⟩
  have keep : ∀ (c' : Ctx) (f : Nat), c'.rand_val = c.rand_val → c'.encoded_msg = c.encoded_msg →
      c'.isModified = c.isModified → (Encoded H c → Encoded H (c'.setFlag f)) → Fresh H (c'.setFlag f) := by
    intro c' f h1 h2 h3 h4
    refine ⟨by show c'.rand_val.isSome = true; rw [h1]; exact h.1, ?_⟩
    rcases h.2 with h | h | h
    · exact Or.inl (by show c'.encoded_msg = none; rw [h2, h])
    · exact Or.inr (Or.inl (isModified_or _ (by rw [h3]; exact h)))
    · exact Or.inr (Or.inr (h4 h))
  have hr := h.1
  cases s <;> simp only [Setter.run]
  case msgType t =>
    unfold fko_set_spa_message_type; split
    · exact h
    · exact key _ 6 _ hr (by decide) (by decide)
  case message m =>
    unfold fko_set_spa_message; split
    · exact h
    · split
      · exact h
      · generalize (if c.message_type = FKO_COMMAND_MSG then validate_cmd_msg m
          else validate_access_msg m) = b
        cases b
        · exact h
        · exact key _ 1 _ hr (by decide) (by decide)
  case timeout t =>
    cases e : fko_set_spa_client_timeout c t with
    | none => exact h
    | some c' =>
      refine ⟨?_, Or.inr (Or.inl (timeout_modified e))⟩
      unfold fko_set_spa_client_timeout at e
      split at e
      · cases e
      · simp only [Option.some.injEq] at e
        subst e
        simp only [Option.getD_some]
        split <;> exact hr
  case natAccess m =>
    unfold fko_set_spa_nat_access; split
    · exact h
    · split
      · exact h
      · split
        · exact h
        · exact key _ 1 _ hr (by decide) (by decide)
  case serverAuth m =>
    unfold fko_set_spa_server_auth; split
    · exact h
    · split
      · exact h
      · exact key _ 1 _ hr (by decide) (by decide)
  case username u =>
    unfold fko_set_username; simp only
    generalize (if min u.length MAX_SPA_USERNAME_SIZE = MAX_SPA_USERNAME_SIZE
      then u.take (MAX_SPA_USERNAME_SIZE - 1) else u) = v
    split
    · exact key _ 1 _ hr (by decide) (by decide)
    · exact h
  case randValue v =>
    unfold fko_set_rand_value; split
    · exact h
    · exact key _ 1 _ rfl (by decide) (by decide)
  case timestamp n o =>
    unfold fko_set_timestamp; split
    · exact h
    · exact key _ 1 _ hr (by decide) (by decide)
  case digestType t =>
    unfold fko_set_spa_digest_type; split
    · exact h
    · exact key _ 12 _ hr (by decide) (by decide)
  case encType t =>
    unfold fko_set_spa_encryption_type; split
    · exact h
    · exact key _ 13 _ hr (by decide) (by decide)
  case encMode t =>
    unfold fko_set_spa_encryption_mode; split
    · exact h
    · exact keep _ _ rfl rfl rfl id
  case hmacType t =>
    unfold fko_set_spa_hmac_type; split
    · exact h
    · exact keep _ _ rfl rfl rfl id

theorem clear_not_modified (c : Ctx) : c.clearModified.isModified = false := by
  unfold Ctx.clearModified Ctx.isModified
  rw [decide_eq_false_iff_not, Decidable.not_not]
  show c.state &&& _ &&& _ = 0
  rw [Nat.and_assoc]
  rw [show (0xffff - FKO_SPA_DATA_MODIFIED) &&& FKO_SPA_DATA_MODIFIED = 0 by decide, Nat.and_zero]

/-- What the encoder leaves behind: on success a context whose encoding matches its fields. -/
theorem encode_cases (H : Hash) (c : Ctx) (hr : c.rand_val.isSome = true) :
    ∃ b c', fko_encode_spa_data H c = .ok (b, c') ∧ c'.rand_val.isSome = true ∧
      c'.hmac_type = c.hmac_type ∧ c'.encryption_mode = c.encryption_mode ∧
      (b = true → Encoded H c') ∧ (b = false → c' = c ∨ c'.isModified = true) := by
  obtain ⟨rand, hrand⟩ := Option.isSome_iff_exists.1 hr
  cases hu : c.username with
  | none => exact ⟨false, c, by unfold fko_encode_spa_data; rw [hu], hr, rfl, rfl, by simp, by simp⟩
  | some user =>
  cases hv : c.version with
  | none => exact ⟨false, c, by unfold fko_encode_spa_data; rw [hu, hv], hr, rfl, rfl, by simp, by simp⟩
  | some ver =>
  cases hm : c.message with
  | none => exact ⟨false, c, by unfold fko_encode_spa_data; rw [hu, hv, hm], hr, rfl, rfl, by simp, by simp⟩
  | some msg =>
  unfold fko_encode_spa_data
  simp only [hu, hv, hm, hrand]
  split
  · exact ⟨false, c, rfl, hr, rfl, rfl, by simp, by simp⟩
  rename_i g1
  split
  · exact ⟨false, c, rfl, hr, rfl, rfl, by simp, by simp⟩
  rename_i g2
  obtain ⟨c1, hc1⟩ : ∃ c1, fko_set_spa_client_timeout c c.client_timeout = some c1 := by
    unfold fko_set_spa_client_timeout
    rw [if_neg (by omega)]; exact ⟨_, rfl⟩
  have hmod := timeout_modified hc1
  have hst : ∃ st, c1 = { c with
      message_type := timeoutType c.message_type c.client_timeout
      state := st } := by
    unfold fko_set_spa_client_timeout at hc1
    rw [if_neg (by omega)] at hc1
    simp only [Option.some.injEq, Int.toNat_natCast] at hc1
    subst hc1
    split <;> exact ⟨_, rfl⟩
  obtain ⟨st, hst⟩ := hst
  rw [hc1]
  simp only [Option.getD_some]
  have k1 : c1.rand_val.isSome = true := by rw [hst]; exact hr
  have k2 : c1.hmac_type = c.hmac_type := by rw [hst]
  have k3 : c1.encryption_mode = c.encryption_mode := by rw [hst]
  split
  · exact ⟨false, c1, rfl, k1, k2, k3, by simp, fun _ => Or.inr hmod⟩
  rename_i t ht
  split
  · exact ⟨false, _, rfl, k1, k2, k3, by simp, fun _ => Or.inr hmod⟩
  rename_i g3
  split
  · exact ⟨false, _, rfl, k1, k2, k3, by simp, fun _ => Or.inr hmod⟩
  rename_i d hd
  refine ⟨true, _, rfl, k1, k2, k3, fun _ => ?_, by simp⟩
  simp only [not_or] at g1
  have e1 : c1.message_type = timeoutType c.message_type c.client_timeout := by rw [hst]
  have e2 : c1.client_timeout = c.client_timeout := by rw [hst]
  have e3 : c1.nat_access = c.nat_access := by rw [hst]
  have e4 : c1.server_auth = c.server_auth := by rw [hst]
  have e5 : c1.timestamp = c.timestamp := by rw [hst]
  refine ⟨rand, user, ver, msg, t, d, by show c1.username = _; rw [hst]; exact hu,
    by show c1.version = _; rw [hst]; exact hv, by show c1.message = _; rw [hst]; exact hm,
    by show c1.rand_val = _; rw [hst]; exact hrand, by simpa using g1.1, g1.2.1, g1.2.2, ?_, ?_,
    rfl, rfl, by rw [Bool.not_eq_true, Bool.not_eq_false'] at g3; exact g3, hd, rfl, rfl⟩
  · show timeoutType c1.message_type c1.client_timeout = c1.message_type
    rw [e1, e2, timeoutType_idem]
  · show encodeText rand user c1.timestamp ver c1.message_type msg c1.nat_access c1.server_auth
      c1.client_timeout = some t
    rw [e3, e4, e5]; exact ht

/-- The parts of the context the encryption step depends on are determined by `Encoded`. -/
theorem encoded_plain {H : Hash} (hH : H.Lawful) {c : Ctx} (h : Encoded H c) :
    ∃ t d, c.encoded_msg = some (t ++ [0]) ∧ c.encoded_msg_len = t.length ∧ 36 ≤ t.length ∧
      t.length < 1500 ∧ c.digest = some d ∧ d = digest_base64 H c.digest_type t ∧
      c.digest_len = b64DigestLen c.digest_type ∧ (1 ≤ c.digest_type ∧ c.digest_type ≤ 7) ∧
      d.length = b64DigestLen c.digest_type := by
  obtain ⟨rand, user, ver, msg, t, d, -, -, -, -, -, -, -, -, -, h1, h2, h3, h4, h5, h6⟩ := h
  have hlen : 36 ≤ t.length ∧ t.length < 1500 := by
    rw [h2] at h3
    unfold is_valid_encoded_msg_len at h3
    simp [MAX_SPA_ENCODED_MSG_SIZE, MIN_SPA_ENCODED_MSG_SIZE] at h3
    omega
  unfold set_digest at h4
  rw [if_neg (by simp only [MAX_SPA_ENCODED_MSG_SIZE]; omega)] at h4
  split at h4
  · cases h4
  · rename_i hd
    simp only [FKO_LAST_DIGEST_TYPE] at hd
    simp only [Option.some.injEq] at h4
    subst h4
    refine ⟨t, _, h1, ?_, hlen.1, hlen.2, h5, rfl, h6, by omega, digest_base64_length hH _ _⟩
    rw [h2]; simp only [MAX_SPA_ENCODED_MSG_SIZE]; omega

/-- The encryption step changes nothing but the ciphertext. -/
theorem encryptEncoded_ok {K : Crypto} (hH : K.H.Lawful) (salt : Str) (c : Ctx) (key : Option Str)
    (h : Encoded K.H c) :
    ∃ b e n, encryptEncoded K salt c key
        = .ok (b, { c with encrypted_msg := e, encrypted_msg_len := n }) ∧
      (b = true → ∃ x : Str, e = some x ∧ n = x.length ∧ 36 ≤ x.length ∧ x.length < 1500) := by
  obtain ⟨t, d, h1, h2, h3, h4, h5, h6, h7, h8, h9⟩ := encoded_plain hH h
  have hdr := b64DigestLen_range c.digest_type
  have hself : ∃ b e n, (.ok (false, c) : Res (Bool × Ctx))
        = .ok (b, { c with encrypted_msg := e, encrypted_msg_len := n }) ∧
      (b = true → ∃ x : Str, e = some x ∧ n = x.length ∧ 36 ≤ x.length ∧ x.length < 1500) :=
    ⟨false, c.encrypted_msg, c.encrypted_msg_len, rfl, by simp⟩
  have hst : ∀ cipher, ∃ b e n, storeCipher c cipher
        = .ok (b, { c with encrypted_msg := e, encrypted_msg_len := n }) ∧
      (b = true → ∃ x : Str, e = some x ∧ n = x.length ∧ 36 ≤ x.length ∧ x.length < 1500) := by
    intro cipher
    refine ⟨_, _, _, rfl, ?_⟩
    intro hv
    simp only at hv
    unfold is_valid_encoded_msg_len at hv
    simp [MAX_SPA_ENCODED_MSG_SIZE, MIN_SPA_ENCODED_MSG_SIZE] at hv
    refine ⟨_, rfl, ?_, by omega, by omega⟩
    simp only [MAX_SPA_ENCODED_MSG_SIZE]; omega
  have hpl : (plainText c).length ≤ t.length + 1 + d.length := by
    unfold plainText
    rw [h1, h5]
    simp only [Option.getD_some, List.length_append, List.length_cons]
    have := (List.takeWhile_prefix (fun x => decide (x ≠ 0)) (l := t)).length_le
    have e : ((t ++ [0]).takeWhile (fun x => decide (x ≠ 0))).length ≤ t.length := by
      rw [List.takeWhile_append]
      split <;> simp
      simpa using this
    omega
  unfold encryptEncoded
  split
  · exact hself
  split
  · cases key with
    | none => exact hself
    | some k =>
      simp only
      unfold _rijndael_encrypt
      split
      · exact hself
      · simp only
        split
        · exact hself
        · rw [mem_of_not (by rw [addPad_length, h2, h7]; omega), Res.bind_ok]
          exact hst _
  split
  · unfold gpg_encrypt
    split
    · exact hself
    · simp only
      split
      · exact hself
      · split
        · exact hself
        · exact hst _
  · exact hself

/-- Calls of the public API on one context: setters and the three functions that pack it. -/
inductive Call where
  | set (s : Setter)
  | encode
  | encrypt (salt : Str) (key : Option Str)
  | final (salt : Str) (key hmac_key : Option Str)

/-- The context after a call; errors keep whatever the call changed. -/
def Call.run (K : Crypto) (c : Ctx) : Call → Res Ctx
  | .set s => .ok ((s.run c).getD c)
  | .encode => do let r ← fko_encode_spa_data K.H c; return r.2
  | .encrypt salt key => do let r ← fko_encrypt_spa_data K salt c key; return r.2
  | .final salt key hk => do let r ← fko_spa_data_final K salt c key hk; return r.2

/-- A history of calls. -/
def runCalls (K : Crypto) (c : Ctx) : List Call → Res Ctx
  | [] => .ok c
  | a :: as => do let c' ← a.run K c; runCalls K c' as

theorem encoded_with {H : Hash} {c : Ctx} (h : Encoded H c) (e : Option Str) (n : Int) (m : Option Str)
    (k : Int) : Encoded H { c with
      encrypted_msg := e
      encrypted_msg_len := n
      msg_hmac := m
      msg_hmac_len := k } := h

theorem fresh_of_encoded {H : Hash} {c : Ctx} (h : Encoded H c) : Fresh H c := by
  refine ⟨?_, Or.inr (Or.inr h)⟩
  obtain ⟨rand, user, ver, msg, t, d, -, -, -, h, -⟩ := h
  rw [h]; rfl

theorem encode_fresh (H : Hash) (c : Ctx) (h : Fresh H c) :
    ∃ b c', fko_encode_spa_data H c = .ok (b, c') ∧ Fresh H c' ∧ (b = true → Encoded H c') := by
  obtain ⟨b, c', e, h1, -, -, h2, h3⟩ := encode_cases H c h.1
  refine ⟨b, c', e, ?_, h2⟩
  cases b with
  | true => exact fresh_of_encoded (h2 rfl)
  | false =>
    rcases h3 rfl with rfl | h3
    · exact h
    · exact ⟨h1, Or.inr (Or.inl h3)⟩

/-- The encryption function on a fresh context: what it encrypts is the encoding of the current
fields. -/
theorem encrypt_fresh {K : Crypto} (hH : K.H.Lawful) (salt : Str) (c : Ctx) (key : Option Str)
    (h : Fresh K.H c) :
    ∃ b c', fko_encrypt_spa_data K salt c key = .ok (b, c') ∧ Fresh K.H c' ∧
      (b = true → Encoded K.H c' ∧ ∃ x : Str, c'.encrypted_msg = some x ∧ c'.encrypted_msg_len = x.length ∧
        36 ≤ x.length ∧ x.length < 1500) := by
  have main : ∀ c1 : Ctx, Encoded K.H c1 → ∃ b c', encryptEncoded K salt c1 key = .ok (b, c') ∧
      Fresh K.H c' ∧ (b = true → Encoded K.H c' ∧ ∃ x : Str, c'.encrypted_msg = some x ∧
        c'.encrypted_msg_len = x.length ∧ 36 ≤ x.length ∧ x.length < 1500) := by
    intro c1 h1
    obtain ⟨b, e, n, g1, g2⟩ := encryptEncoded_ok hH salt c1 key h1
    exact ⟨b, _, g1, fresh_of_encoded (c := { c1 with encrypted_msg := e, encrypted_msg_len := n }) h1,
      fun hb => ⟨h1, g2 hb⟩⟩
  unfold fko_encrypt_spa_data
  split
  · obtain ⟨b, c1, e, h1, h2⟩ := encode_fresh K.H c h
    rw [e, Res.bind_ok]
    cases b with
    | true => exact main c1 (h2 rfl)
    | false => exact ⟨false, c1, rfl, h1, by simp⟩
  · rename_i hn
    simp only [not_or] at hn
    refine main c ?_
    rcases h.2 with h | h | h
    · rw [h] at hn; exact absurd rfl hn.1
    · exact absurd h hn.2
    · exact h

theorem final_fresh {K : Crypto} (hH : K.H.Lawful) (salt : Str) (c : Ctx) (key hk : Option Str)
    (h : Fresh K.H c) :
    ∃ b c', fko_spa_data_final K salt c key hk = .ok (b, c') ∧ Fresh K.H c' ∧
      (b = true → Encoded K.H c') := by
  obtain ⟨b, c1, e, h1, h2⟩ := encrypt_fresh hH salt c key h
  unfold fko_spa_data_final
  rw [e, Res.bind_ok]
  simp only
  split
  · rename_i hb
    rw [Bool.and_eq_true] at hb
    obtain ⟨h3, x, g1, g2, g3, g4⟩ := h2 hb.1
    unfold appendHmac fko_set_spa_hmac
    cases hk with
    | none => exact ⟨false, c1, rfl, h1, by simp⟩
    | some k =>
      simp only
      by_cases a1 : k.length > MAX_DIGEST_BLOCK_LEN
      · rw [guard_of a1]; exact ⟨false, c1, rfl, h1, by simp⟩
      by_cases a2 : c1.hmac_type < 1 ∨ c1.hmac_type ≥ FKO_LAST_HMAC_MODE
      · rw [guard_of_not a1, guard_of a2]; exact ⟨false, c1, rfl, h1, by simp⟩
      rw [guard_of_not a1, guard_of_not a2, g1, g2]
      simp only [Res.bind_ok, Option.getD_some]
      rw [mem_of_not (by simp)]
      exact ⟨true, _, rfl, fresh_of_encoded (encoded_with h3 _ _ _ _), fun _ => encoded_with h3 _ _ _ _⟩
  · exact ⟨b, c1, rfl, h1, fun hb => (h2 hb).1⟩

theorem call_fresh {K : Crypto} (hH : K.H.Lawful) (c : Ctx) (a : Call) (h : Fresh K.H c) :
    ∃ c', a.run K c = .ok c' ∧ Fresh K.H c' := by
  cases a with
  | set s => exact ⟨_, rfl, setter_fresh K.H c s h⟩
  | encode =>
    obtain ⟨b, c', e, h1, -⟩ := encode_fresh K.H c h
    exact ⟨c', by simp only [Call.run]; rw [e]; rfl, h1⟩
  | encrypt salt key =>
    obtain ⟨b, c', e, h1, -⟩ := encrypt_fresh hH salt c key h
    exact ⟨c', by simp only [Call.run]; rw [e]; rfl, h1⟩
  | final salt key hk =>
    obtain ⟨b, c', e, h1, -⟩ := final_fresh hH salt c key hk h
    exact ⟨c', by simp only [Call.run]; rw [e]; rfl, h1⟩

theorem runCalls_fresh {K : Crypto} (hH : K.H.Lawful) (as : List Call) (c : Ctx) (h : Fresh K.H c) :
    ∃ c', runCalls K c as = .ok c' ∧ Fresh K.H c' := by
  induction as generalizing c with
  | nil => exact ⟨c, rfl, h⟩
  | cons a as ih =>
    obtain ⟨c1, e, h1⟩ := call_fresh hH c a h
    obtain ⟨c2, e2, h2⟩ := ih c1 h1
    exact ⟨c2, by unfold runCalls; rw [e, Res.bind_ok, e2], h2⟩

/-- Encoding a context again that is already encoded gives the same text. -/
theorem reencode {H : Hash} {c c' : Ctx} (h : Encoded H c)
    (he : fko_encode_spa_data H c = .ok (true, c')) :
    c'.encoded_msg = c.encoded_msg ∧ c'.encoded_msg_len = c.encoded_msg_len ∧ c'.digest = c.digest ∧
      c'.digest_len = c.digest_len := by
  obtain ⟨rand, user, ver, msg, t, d, h1, h2, h3, h4, h5, h6, h7, h8, h9, h10, h11, h12, h13, h14,
    h15⟩ := h
  obtain ⟨c1, hc1, hst⟩ : ∃ c1, fko_set_spa_client_timeout c c.client_timeout = some c1 ∧
      ∃ st, c1 = { c with state := st } := by
    unfold fko_set_spa_client_timeout
    rw [if_neg (by omega)]
    simp only [Int.toNat_natCast, h8]
    refine ⟨_, rfl, ?_⟩
    simp only [ne_eq, not_true_eq_false, if_false]
    exact ⟨_, rfl⟩
  obtain ⟨st, hst⟩ := hst
  unfold fko_encode_spa_data at he
  simp only [h1, h2, h3, h4, hc1, Option.getD_some] at he
  split at he
  · simp at he
  split at he
  · simp at he
  have e1 : c1.message_type = c.message_type := by rw [hst]
  have e2 : c1.client_timeout = c.client_timeout := by rw [hst]
  have e3 : c1.digest_type = c.digest_type := by rw [hst]
  rw [e1, e2, h9] at he
  simp only [← h11, h12, Bool.not_true, Bool.false_eq_true, if_false, e3, h13] at he
  simp only [Res.ok.injEq, Prod.mk.injEq, true_and] at he
  subst he
  exact ⟨h10.symm, by rw [h11]; rfl, h14.symm, by rw [h15]; rfl⟩

/-- `encrypt_spa_eq` for any context in which no out-of-date encoding can be used. -/
theorem encrypt_spa_eq_fresh {K : Crypto} {r : Request} (hH : K.H.Lawful) (hbc : K.bc.Lawful)
    (hr : r.WellFormed) (salt key : Str)
    (c : Ctx) (hc : Carries c r) (hd : 1 ≤ c.digest_type ∧ c.digest_type ≤ 7)
    (ht : c.encryption_type = FKO_ENCRYPTION_RIJNDAEL)
    (hfresh : Fresh K.H c)
    (hsb : IsBytes salt) (hk : key.length ≤ 32) :
    ∃ c', fko_encrypt_spa_data K salt c (some key) = .ok (
        is_valid_encoded_msg_len ((min (cipherText K salt key c.encryption_mode c.digest_type r).length
          MAX_SPA_ENCODED_MSG_SIZE : Nat) : Int), c') ∧
      c'.encrypted_msg = some (cipherText K salt key c.encryption_mode c.digest_type r) ∧
      c'.encrypted_msg_len = ((min (cipherText K salt key c.encryption_mode c.digest_type r).length
          MAX_SPA_ENCODED_MSG_SIZE : Nat) : Int) ∧
      c'.encryption_type = FKO_ENCRYPTION_RIJNDAEL ∧ c'.hmac_type = c.hmac_type ∧ Carries c' r := by
  by_cases hm : c.encoded_msg = none ∨ c.isModified = true
  · exact encrypt_spa_eq hH hbc hr salt key c hc hd ht hm hsb hk
  simp only [not_or] at hm
  have hE : Encoded K.H c := by
    rcases hfresh.2 with h | h | h
    · exact absurd h hm.1
    · exact absurd h hm.2
    · exact h
  obtain ⟨c1, e1, -, g2, g3, g4, -, g6, -⟩ := encode_wire hr K.H c hc hd
  obtain ⟨r1, r2, r3, r4⟩ := reencode hE e1
  have hw := wire_length hr
  unfold fko_encrypt_spa_data
  rw [if_neg (by
    simp only [not_or]
    exact ⟨by cases h : c.encoded_msg <;> simp_all, hm.2⟩)]
  unfold encryptEncoded
  rw [if_neg (by
      rw [← r2, g3]; unfold is_valid_encoded_msg_len
      simp only [MIN_SPA_ENCODED_MSG_SIZE]; simp; omega),
    if_pos ht]
  simp only
  rw [rijndael_encrypt_eq hH hr salt key c c.digest_type hk (by rw [← r1, g2]) (by rw [← r2, g3])
    (by rw [← r3, g4]) (by rw [← r4, g6])]
  unfold storeCipher
  simp only
  rw [strip_encode _ (rij_encrypt_bytes hH hbc salt _ key _ hsb (fullText_bytes hH hr _))]
  exact ⟨_, rfl, rfl, rfl, ht, rfl, hc⟩

/-- The sender's finalisation, both without and with an HMAC. -/
theorem final_eq {K : Crypto} {r : Request} (hH : K.H.Lawful) (hbc : K.bc.Lawful) (hr : r.WellFormed) (salt key : Str)
    (c : Ctx) (hc : Carries c r) (hd : 1 ≤ c.digest_type ∧ c.digest_type ≤ 7)
    (ht : c.encryption_type = FKO_ENCRYPTION_RIJNDAEL)
    (hfresh : Fresh K.H c)
    (hsb : IsBytes salt) (hk : key.length ≤ 32) (hkey : Option Str)
    (hfit : (cipherText K salt key c.encryption_mode c.digest_type r).length < 1500)
    (hmin : 36 ≤ (cipherText K salt key c.encryption_mode c.digest_type r).length)
    (hh : c.hmac_type = 0 ∨ (1 ≤ c.hmac_type ∧ c.hmac_type ≤ 7) ∧ ∃ k, hkey = some k ∧ k.length ≤ 136) :
    ∃ c', fko_spa_data_final K salt c (some key) hkey = .ok (true, c') ∧
      c'.encryption_type = FKO_ENCRYPTION_RIJNDAEL ∧ Carries c' r ∧
      c'.encrypted_msg = some (cipherText K salt key c.encryption_mode c.digest_type r ++
        if c.hmac_type = 0 then [] else tagOf K.H c.hmac_type (hkey.getD [])
          (cipherText K salt key c.encryption_mode c.digest_type r)) := by
  obtain ⟨c1, e1, g1, g2, g3, g4, g5⟩ := encrypt_spa_eq_fresh hH hbc hr salt key c hc hd ht hfresh hsb hk
  have hm : min (cipherText K salt key c.encryption_mode c.digest_type r).length
      MAX_SPA_ENCODED_MSG_SIZE = (cipherText K salt key c.encryption_mode c.digest_type r).length := by
    simp only [MAX_SPA_ENCODED_MSG_SIZE]; omega
  rw [hm] at e1 g2
  have hv : is_valid_encoded_msg_len
      ((cipherText K salt key c.encryption_mode c.digest_type r).length : Int) = true := by
    unfold is_valid_encoded_msg_len; simp only [MIN_SPA_ENCODED_MSG_SIZE]; simp; omega
  rw [hv] at e1
  unfold fko_spa_data_final
  rw [e1, Res.bind_ok]
  rcases hh with h0 | ⟨h0, k, rfl, hkl⟩
  · refine ⟨c1, ?_, g3, g5, ?_⟩
    · simp only [g4, h0]; rfl
    · rw [g1, if_pos h0, List.append_nil]
  · have hne : c1.hmac_type ≠ FKO_HMAC_UNKNOWN := by
      rw [g4]; simp only [FKO_HMAC_UNKNOWN]; omega
    simp only [hne, ne_eq, not_false_eq_true, decide_true, Bool.and_self, if_true]
    unfold appendHmac
    rw [set_hmac_eq hH c1 k _ hkl (by rw [g4]; exact h0) g1 g2]
    refine ⟨_, rfl, g3, g5, ?_⟩
    simp only [g1, Option.getD_some, g4, if_neg (show ¬ c.hmac_type = 0 by omega)]
    unfold strlcat
    rw [if_neg (by rw [g2]; omega), List.take_of_length_le]
    rw [g2]; omega

/-! ## The packet is determined by the current values -/

/-- What a successful encoding leaves in the values. -/
theorem encode_values {H : Hash} {c c' : Ctx} (h : fko_encode_spa_data H c = .ok (true, c')) :
    c'.values = { c with message_type := timeoutType c.message_type c.client_timeout : Ctx }.values := by
  unfold fko_encode_spa_data at h
  split at h
  case h_2 => simp at h
  rename_i user ver msg hu hv hm
  split at h
  · simp at h
  split at h
  · simp at h
  split at h
  · simp at h
  obtain ⟨c1, hc1⟩ : ∃ c1, fko_set_spa_client_timeout c c.client_timeout = some c1 := by
    unfold fko_set_spa_client_timeout
    rw [if_neg (by omega)]; exact ⟨_, rfl⟩
  have hst : c1.values = { c with message_type := timeoutType c.message_type c.client_timeout : Ctx }.values := by
    unfold fko_set_spa_client_timeout at hc1
    rw [if_neg (by omega)] at hc1
    simp only [Option.some.injEq, Int.toNat_natCast] at hc1
    subst hc1
    split <;> rfl
  rw [hc1] at h
  simp only [Option.getD_some] at h
  split at h
  · simp at h
  split at h
  · simp at h
  split at h
  · simp at h
  simp only [Res.ok.injEq, Prod.mk.injEq, true_and] at h
  subst h
  exact hst

/-- The encoding held by two contexts with the same values is the same. -/
theorem encoded_det {H : Hash} {c d : Ctx} (hc : Encoded H c) (hd : Encoded H d)
    (hv : c.values = d.values) :
    c.encoded_msg = d.encoded_msg ∧ c.encoded_msg_len = d.encoded_msg_len ∧ c.digest = d.digest ∧
      c.digest_len = d.digest_len := by
  simp only [Ctx.values, Prod.mk.injEq] at hv
  obtain ⟨v1, v2, v3, v4, v5, v6, v7, v8, v9, v10, v11, v12, v13⟩ := hv
  obtain ⟨r1, u1, e1, m1, t1, d1, a1, a2, a3, a4, -, -, -, -, a5, a6, a7, -, a8, a9, a10⟩ := hc
  obtain ⟨r2, u2, e2, m2, t2, d2, b1, b2, b3, b4, -, -, -, -, b5, b6, b7, -, b8, b9, b10⟩ := hd
  rw [v2, b1] at a1; rw [v4, b2] at a2; rw [v6, b3] at a3; rw [v1, b4] at a4
  cases a1; cases a2; cases a3; cases a4
  rw [v3, v5, v7, v8, v9, b5] at a5
  cases a5
  rw [v10, b8] at a8
  cases a8
  exact ⟨by rw [a6, b6], by rw [a7, b7], by rw [a9, b9], by rw [a10, b10, v10]⟩

theorem storeCipher_congr (c d : Ctx) (x : Str) :
    ∃ b e n, storeCipher c x = .ok (b, { c with encrypted_msg := e, encrypted_msg_len := n }) ∧
      storeCipher d x = .ok (b, { d with encrypted_msg := e, encrypted_msg_len := n }) :=
  ⟨_, _, _, rfl, rfl⟩

/-- The encryption step depends on the encoding and the values only. -/
theorem encryptEncoded_congr {K : Crypto} {salt : Str} {c d c' d' : Ctx} {key : Option Str}
    (hc : Encoded K.H c) (hd : Encoded K.H d) (hv : c.values = d.values)
    (ec : encryptEncoded K salt c key = .ok (true, c')) (ed : encryptEncoded K salt d key = .ok (true, d')) :
    c'.encrypted_msg = d'.encrypted_msg ∧ c'.encrypted_msg_len = d'.encrypted_msg_len ∧
      c'.values = d'.values := by
  obtain ⟨w1, w2, w3, w4⟩ := encoded_det hc hd hv
  have hv' := hv
  simp only [Ctx.values, Prod.mk.injEq] at hv
  obtain ⟨v1, v2, v3, v4, v5, v6, v7, v8, v9, v10, v11, v12, v13⟩ := hv
  have hp : plainText c = plainText d := by unfold plainText; rw [w1, w3]
  have fin : ∀ x, storeCipher c x = .ok (true, c') → storeCipher d x = .ok (true, d') →
      c'.encrypted_msg = d'.encrypted_msg ∧ c'.encrypted_msg_len = d'.encrypted_msg_len ∧
      c'.values = d'.values := by
    intro x h1 h2
    obtain ⟨b, e, n, k1, k2⟩ := storeCipher_congr c d x
    rw [k1] at h1; rw [k2] at h2
    simp only [Res.ok.injEq, Prod.mk.injEq] at h1 h2
    obtain ⟨-, rfl⟩ := h1
    obtain ⟨-, rfl⟩ := h2
    exact ⟨rfl, rfl, hv'⟩
  unfold encryptEncoded at ec ed
  rw [← w2, ← v11] at ed
  split at ec
  · simp at ec
  rename_i g0
  rw [if_neg g0] at ed
  split at ec
  · rename_i g1
    rw [if_pos g1] at ed
    cases key with
    | none => simp at ec
    | some k =>
      simp only at ec ed
      unfold _rijndael_encrypt at ec ed
      rw [← w2, ← w4, ← hp, ← v12] at ed
      split at ec
      · simp at ec
      rename_i g2
      rw [if_neg g2] at ed
      simp only at ec ed
      split at ec
      · simp at ec
      rename_i g3
      rw [if_neg g3] at ed
      generalize Res.mem _ = r at ec ed
      cases r with
      | ub => cases ec
      | err => cases ec
      | ok u => exact fin _ ec ed
  · rename_i g1
    rw [if_neg g1] at ed
    split at ec
    · rename_i g2
      rw [if_pos g2] at ed
      unfold gpg_encrypt at ec ed
      rw [← w2, ← w4, ← hp] at ed
      split at ec
      · simp at ec
      rename_i g2
      rw [if_neg g2] at ed
      simp only at ec ed
      split at ec
      · simp at ec
      rename_i g3
      rw [if_neg g3] at ed
      split at ec
      · simp at ec
      · rename_i cipher hg
        rw [hg] at ed
        exact fin _ ec ed
    · simp at ec

/-- Before the encryption step: a context whose encoding is current and whose values are those of
the given context, with the message type adjusted to the timeout. -/
theorem encrypt_split {K : Crypto} {salt : Str} {c c' : Ctx} {key : Option Str} (hf : Fresh K.H c)
    (h : fko_encrypt_spa_data K salt c key = .ok (true, c')) :
    ∃ c1, Encoded K.H c1 ∧ encryptEncoded K salt c1 key = .ok (true, c') ∧
      c1.values = { c with message_type := timeoutType c.message_type c.client_timeout : Ctx }.values := by
  unfold fko_encrypt_spa_data at h
  split at h
  · obtain ⟨b, c1, e, h1, h2⟩ := encode_fresh K.H c hf
    rw [e, Res.bind_ok] at h
    cases b with
    | true => exact ⟨c1, h2 rfl, h, encode_values e⟩
    | false => simp at h
  · rename_i hn
    simp only [not_or] at hn
    refine ⟨c, ?_, h, ?_⟩
    · rcases hf.2 with h | h | h
      · rw [h] at hn; exact absurd rfl hn.1
      · exact absurd h hn.2
      · exact h
    · rcases hf.2 with h | h | h
      · rw [h] at hn; exact absurd rfl hn.1
      · exact absurd h hn.2
      · obtain ⟨_, _, _, _, _, _, -, -, -, -, -, -, -, ht, -⟩ := h
        simp only [Ctx.values, ht]

theorem normal_values {c d : Ctx} (hv : c.values = d.values) :
    { c with message_type := timeoutType c.message_type c.client_timeout : Ctx }.values
      = { d with message_type := timeoutType d.message_type d.client_timeout : Ctx }.values := by
  simp only [Ctx.values, Prod.mk.injEq] at hv ⊢
  obtain ⟨v1, v2, v3, v4, v5, v6, v7, v8, v9, v10, v11, v12, v13⟩ := hv
  rw [v5, v9]
  exact ⟨v1, v2, v3, v4, rfl, v6, v7, v8, rfl, v10, v11, v12, v13⟩

/-- Two contexts with the same values, once the message types are adjusted to the timeouts, give the
same packet. -/
theorem final_det_norm {K : Crypto} (hH : K.H.Lawful) {salt : Str} {c d c' d' : Ctx} {key hk : Option Str}
    (hc : Fresh K.H c) (hd : Fresh K.H d)
    (hv : { c with message_type := timeoutType c.message_type c.client_timeout : Ctx }.values
      = { d with message_type := timeoutType d.message_type d.client_timeout : Ctx }.values)
    (ec : fko_spa_data_final K salt c key hk = .ok (true, c'))
    (ed : fko_spa_data_final K salt d key hk = .ok (true, d')) :
    fko_get_spa_data c' = fko_get_spa_data d' := by
  have key1 : ∀ x : Ctx, Fresh K.H x → ∀ x', fko_spa_data_final K salt x key hk = .ok (true, x') →
      ∃ x1, fko_encrypt_spa_data K salt x key = .ok (true, x1) ∧
        (if x1.hmac_type ≠ FKO_HMAC_UNKNOWN then appendHmac K.H x1 hk else .ok (true, x1)) = .ok (true, x') := by
    intro x hx x' e
    obtain ⟨b, x1, e1, -⟩ := encrypt_fresh hH salt x key hx
    unfold fko_spa_data_final at e
    rw [e1, Res.bind_ok] at e
    cases b with
    | true =>
      refine ⟨x1, e1, ?_⟩
      simp only [Bool.true_and, decide_eq_true_eq] at e
      exact e
    | false => simp at e
  obtain ⟨c1, a1, a2⟩ := key1 c hc c' ec
  obtain ⟨d1, b1, b2⟩ := key1 d hd d' ed
  obtain ⟨c0, a3, a4, a5⟩ := encrypt_split hc a1
  obtain ⟨d0, b3, b4, b5⟩ := encrypt_split hd b1
  have hv0 : c0.values = d0.values := by rw [a5, b5]; exact hv
  obtain ⟨q1, q2, q3⟩ := encryptEncoded_congr a3 b3 hv0 a4 b4
  simp only [Ctx.values, Prod.mk.injEq] at q3
  obtain ⟨v1, v2, v3, v4, v5, v6, v7, v8, v9, v10, v11, v12, v13⟩ := q3
  suffices h : c'.encrypted_msg = d'.encrypted_msg ∧ c'.encryption_type = d'.encryption_type by
    unfold fko_get_spa_data; rw [h.1, h.2]
  rw [← v13] at b2
  by_cases h0 : c1.hmac_type ≠ FKO_HMAC_UNKNOWN
  · rw [if_pos h0] at a2 b2
    unfold appendHmac fko_set_spa_hmac at a2 b2
    cases hk with
    | none => simp at a2
    | some k =>
      simp only at a2 b2
      rw [← q1, ← q2, ← v13] at b2
      generalize Res.guard (decide (k.length > MAX_DIGEST_BLOCK_LEN)) = r1 at a2 b2
      generalize Res.guard (decide (c1.hmac_type < 1 ∨ c1.hmac_type ≥ FKO_LAST_HMAC_MODE)) = r2 at a2 b2
      generalize Res.mem _ = r3 at a2 b2
      cases r1 <;> cases r2 <;> cases r3 <;> simp at a2 b2
      subst a2 b2
      exact ⟨rfl, v11⟩
  · rw [if_neg h0] at a2 b2
    cases a2; cases b2
    exact ⟨q1, v11⟩

/-- Two contexts with the same values give the same packet. -/
theorem final_det {K : Crypto} (hH : K.H.Lawful) {salt : Str} {c d c' d' : Ctx} {key hk : Option Str}
    (hc : Fresh K.H c) (hd : Fresh K.H d) (hv : c.values = d.values)
    (ec : fko_spa_data_final K salt c key hk = .ok (true, c'))
    (ed : fko_spa_data_final K salt d key hk = .ok (true, d')) :
    fko_get_spa_data c' = fko_get_spa_data d' :=
  final_det_norm hH hc hd (normal_values hv) ec ed

/-- Without an HMAC type the HMAC key does not matter. -/
theorem final_no_hmac {K : Crypto} (hH : K.H.Lawful) {salt : Str} {c c' : Ctx} {key hk : Option Str} (hk' : Option Str)
    (hc : Fresh K.H c) (h0 : c.hmac_type = 0) (ec : fko_spa_data_final K salt c key hk = .ok (true, c')) :
    fko_spa_data_final K salt c key hk' = .ok (true, c') := by
  obtain ⟨b, x1, e1, -⟩ := encrypt_fresh hH salt c key hc
  unfold fko_spa_data_final at ec ⊢
  rw [e1, Res.bind_ok] at ec ⊢
  cases b with
  | false => simp at ec
  | true =>
    obtain ⟨c0, a3, a4, a5⟩ := encrypt_split hc e1
    obtain ⟨b, e, n, g, -⟩ := encryptEncoded_ok hH salt c0 key a3
    rw [a4] at g
    simp only [Res.ok.injEq, Prod.mk.injEq] at g
    simp only [Ctx.values, Prod.mk.injEq] at a5
    have hz : x1.hmac_type = FKO_HMAC_UNKNOWN := by
      rw [g.2]
      show c0.hmac_type = 0
      rw [a5.2.2.2.2.2.2.2.2.2.2.2.2, h0]
    simp only [hz, ne_eq, not_true_eq_false, decide_false, Bool.and_false, Bool.false_eq_true, if_false] at ec ⊢
    exact ec

end Fwknop
