import Verif.Lemmas.Decode
import Verif.Spec.Carries

/-!
# Encoding and decoding of well-formed requests
-/

namespace Fwknop
open Fwknop.Base64 Fwknop.Spec Fwknop.Res

/-! ## Decimal numbers -/

theorem digitChar_toNat : ∀ d : Fin 10, (Nat.digitChar d.val).toNat = 48 + d.val := by decide

theorem decStr_decimal (n : Nat) : decStr n = decimal n := by
  induction n using Nat.strongRecOn with
  | ind n ih =>
    unfold decimal
    by_cases h : n < 10
    · rw [decStr_lt n h, Nat.toDigits_of_lt_base h]
      simp [digitChar_toNat ⟨n, h⟩]
    · rw [decStr_ge n (by omega), Nat.toDigits_of_base_le (by decide) (by omega)]
      rw [List.map_append, ih (n / 10) (by omega)]
      simp [decimal, digitChar_toNat ⟨n % 10, Nat.mod_lt _ (by decide)⟩]

theorem digit_ne {c : Nat} (h : isDigit c = true) : c ≠ 58 ∧ c ≠ 0 := by
  simp only [isDigit, Bool.and_eq_true, decide_eq_true_eq] at h; omega

theorem decStr_no_colon (n : Nat) : 58 ∉ decStr n := fun h => (digit_ne (decStr_digits n _ h)).1 rfl
theorem decStr_no_zero (n : Nat) : 0 ∉ decStr n := fun h => (digit_ne (decStr_digits n _ h)).2 rfl

theorem decStrInt_nat (n : Nat) : decStrInt (n : Int) = decStr n := by
  unfold decStrInt
  rw [if_neg (by omega)]; simp

/-! ## One field at a time -/

section fwd
variable {buf E : Str} (hg : Good buf E) (ndx : Nat) (c : Ctx)

/-- `f` is the field at `ndx` and `t` is what follows it (nothing, or a colon and more). -/
def FieldAt (E : Str) (ndx : Nat) (f t : Str) : Prop :=
  E.drop ndx = f ++ t ∧ 58 ∉ f ∧ f ≠ [] ∧ (t = [] ∨ ∃ t', t = 58 :: t')

variable {f t : Str} (hf : FieldAt E ndx f t)
include hf

theorem FieldAt.bound : ndx ≤ E.length := by
  have h := congrArg List.length hf.1
  have : 1 ≤ f.length := by
    have := hf.2.2.1
    cases f with
    | nil => exact absurd rfl this
    | cons _ _ => simp
  simp only [List.length_drop, List.length_append] at h
  omega

theorem FieldAt.len : fieldLen (E.drop ndx) = f.length := by
  obtain ⟨h1, h2, _, h4⟩ := hf
  rw [h1]
  rcases h4 with rfl | ⟨t', rfl⟩
  · rw [List.append_nil]; exact fieldLen_none f h2
  · exact fieldLen_split f t' h2

theorem FieldAt.take : (E.drop ndx).take f.length = f := by rw [hf.1]; simp

theorem FieldAt.next : E.drop (ndx + f.length + 1) = t.drop 1 := by
  have e : ndx + f.length + 1 = ndx + (f.length + 1) := by omega
  rw [e, ← List.drop_drop, hf.1, List.drop_append]
  simp

theorem FieldAt.next_bound : ndx + f.length + 1 ≤ E.length + 1 := by
  have h := congrArg List.length hf.1
  have hb := FieldAt.bound ndx hf
  simp only [List.length_drop, List.length_append] at h
  omega

include hg

theorem FieldAt.read : readStr buf ndx = .ok (E.drop ndx) :=
  readStr_good hg ndx (by have := FieldAt.bound ndx hf; omega)

theorem fwd_rand (hl : f.length = 16) :
    parse_rand_val buf ndx c = .ok (ndx + f.length + 1, { c with rand_val := some f }) := by
  unfold parse_rand_val
  rw [FieldAt.read hg ndx hf]
  simp only [bind_ok, FieldAt.len ndx hf, FKO_RAND_VAL_SIZE, hl]
  have := FieldAt.take ndx hf
  rw [hl] at this
  simp [this]

theorem fwd_version (h2 : f.length ≤ 8) :
    parse_version buf ndx c = .ok (ndx + f.length + 1, { c with version := some f }) := by
  have h1 : 1 ≤ f.length := by
    have := hf.2.2.1
    cases f with
    | nil => exact absurd rfl this
    | cons _ _ => simp
  unfold parse_version
  rw [FieldAt.read hg ndx hf]
  simp only [bind_ok, FieldAt.len ndx hf, FieldAt.take ndx hf, MAX_SPA_VERSION_SIZE]
  rw [decide_eq_false (by omega), decide_eq_false (by omega)]
  rfl

end fwd

theorem isText_bytes {s : Str} (h : IsText s) : IsBytes s := fun c hc => (h c hc).2

theorem isText_no_zero {s : Str} (h : IsText s) : 0 ∉ s := fun hc => by
  have := (h 0 hc).1; omega

theorem copyField_ok (s : Str) (n : Nat) (h : n + 1 ≤ 1024) : copyField s n = .ok (s.take n) := by
  unfold copyField; simp only [FKO_ENCODE_TMP_BUF_SIZE]; rw [if_neg (by omega)]

theorem decodeField_b64 (u : Str) (h : IsText u) :
    decodeField (b64NoPad u) (b64NoPad u).length = .ok u := by
  have hd := decodeLoop_spec u [] 0 0 (isText_bytes h) rfl (fun _ _ => rfl)
  rw [List.append_nil] at hd
  unfold decodeField b64_decode
  rw [hd]
  simp only
  rw [if_neg (by rw [b64NoPad_length]; omega), takeWhile_ne_self _ _ (isText_no_zero h)]

section fwd2
variable {buf E : Str} (hg : Good buf E) (ndx : Nat) (c : Ctx) {t : Str}
include hg

theorem fwd_username {u : Str} (hf : FieldAt E ndx (b64NoPad u) t) (hu : IsText u)
    (hv : validate_username u = true) (hl : u.length ≤ 48) :
    parse_username buf ndx c =
      .ok (ndx + (b64NoPad u).length + 1, { c with username := some u }) := by
  have h64 : (b64NoPad u).length ≤ 64 := by rw [b64NoPad_length]; omega
  have h1 : 1 ≤ (b64NoPad u).length := List.length_pos_iff.mpr hf.2.2.1
  unfold parse_username
  rw [FieldAt.read hg ndx hf]
  simp only [bind_ok, FieldAt.len ndx hf, MAX_SPA_USERNAME_SIZE]
  rw [decide_eq_false (by omega), decide_eq_false (by omega), copyField_ok _ _ (by omega)]
  simp only [guard_false, bind_ok, FieldAt.take ndx hf, decodeField_b64 u hu, hv]
  rfl

theorem fwd_timestamp {n : Nat} (hf : FieldAt E ndx (decStr n) t) (hn : n < 2 ^ 31) :
    parse_timestamp buf ndx c =
      .ok (ndx + (decStr n).length + 1, { c with timestamp := n }) := by
  have h12 : (decStr n).length ≤ 12 := decStr_length_le n 12 (by decide) (by omega)
  have h1 : 1 ≤ (decStr n).length := List.length_pos_iff.mpr hf.2.2.1
  unfold parse_timestamp
  rw [FieldAt.read hg ndx hf]
  simp only [bind_ok, FieldAt.len ndx hf, MAX_SPA_TIMESTAMP_SIZE]
  rw [decide_eq_false (by omega), decide_eq_false (by omega), copyField_ok _ _ (by omega)]
  simp only [guard_false, bind_ok, FieldAt.take ndx hf]
  rw [strtol_wrapper_digits _ (decStr_digits n) (decStr_ne_nil n) (by rw [decStr_val]; exact hn)]
  rw [decStr_val]
  have e : ((n : Nat) : Int) % 2 ^ 32 = n := by omega
  simp only [e]
  rw [decide_eq_true (by omega)]
  rfl

theorem fwd_type {n : Nat} (hf : FieldAt E ndx (decStr n) t) (hn : n ≤ 6)
    (hc : t.count 58 ≤ maxRemaining n) :
    parse_msg_type buf ndx c =
      .ok (ndx + (decStr n).length + 1, { c with message_type := n }) := by
  have h12 : (decStr n).length ≤ 1 := decStr_length_le n 1 (by decide) (by omega)
  have h1 : 1 ≤ (decStr n).length := List.length_pos_iff.mpr hf.2.2.1
  unfold parse_msg_type
  rw [FieldAt.read hg ndx hf]
  simp only [bind_ok, FieldAt.len ndx hf, MAX_SPA_MESSAGE_TYPE_SIZE]
  rw [decide_eq_false (by omega), decide_eq_false (by omega), copyField_ok _ _ (by omega)]
  simp only [guard_false, bind_ok, FieldAt.take ndx hf]
  rw [strtol_wrapper_digits _ (decStr_digits n) (decStr_ne_nil n) (by rw [decStr_val]; omega)]
  rw [decStr_val]
  simp only [FKO_LAST_MSG_TYPE]
  rw [decide_eq_true (by omega), numFields_eq, hf.1, List.count_append,
    List.count_eq_zero.mpr hf.2.1]
  simp only [Bool.not_true, guard_false, bind_ok]
  rw [decide_eq_false (by omega)]
  rfl

theorem fwd_msg {m : Str} (hf : FieldAt E ndx (b64NoPad m) t) (hm : IsText m)
    (hv : (if c.message_type = 0 then validate_cmd_msg m else validate_access_msg m) = true)
    (hl : m.length ≤ 192) :
    parse_msg buf ndx c = .ok (ndx + (b64NoPad m).length + 1, { c with message := some m }) := by
  have h64 : (b64NoPad m).length ≤ 256 := by rw [b64NoPad_length]; omega
  have h1 : 1 ≤ (b64NoPad m).length := List.length_pos_iff.mpr hf.2.2.1
  unfold parse_msg
  rw [FieldAt.read hg ndx hf]
  simp only [bind_ok, FieldAt.len ndx hf, MAX_SPA_MESSAGE_SIZE, FKO_COMMAND_MSG]
  rw [decide_eq_false (by omega), decide_eq_false (by omega), copyField_ok _ _ (by omega)]
  simp only [guard_false, bind_ok, FieldAt.take ndx hf, decodeField_b64 m hm, hv]
  rfl

theorem fwd_nat {m : Str} (hf : FieldAt E ndx (b64NoPad m) t) (hm : IsText m)
    (ht : isNatType c.message_type = true) (hv : validate_nat_access_msg m = true)
    (hl : m.length ≤ 192) :
    parse_nat_msg buf ndx c =
      .ok (ndx + (b64NoPad m).length + 1, { c with nat_access := some m }) := by
  have h64 : (b64NoPad m).length ≤ 256 := by rw [b64NoPad_length]; omega
  have h1 : 1 ≤ (b64NoPad m).length := List.length_pos_iff.mpr hf.2.2.1
  unfold parse_nat_msg
  rw [if_pos ht, FieldAt.read hg ndx hf]
  simp only [bind_ok, FieldAt.len ndx hf, MAX_SPA_MESSAGE_SIZE]
  rw [decide_eq_false (by omega), decide_eq_false (by omega), copyField_ok _ _ (by omega)]
  simp only [guard_false, bind_ok, FieldAt.take ndx hf, decodeField_b64 m hm, hv]
  rfl

/-- Nothing left. -/
theorem fwd_auth_none (hd : E.drop ndx = []) (hn : ndx ≤ E.length + 1) :
    parse_server_auth buf ndx c = .ok (ndx, c) := by
  unfold parse_server_auth
  rw [readStr_good hg ndx hn, hd]
  rfl

/-- Only a number left, in a timeout message. -/
theorem fwd_auth_timeout (ht : isTimeoutType c.message_type = true) (hn : ndx ≤ E.length + 1)
    (h58 : 58 ∉ E.drop ndx) (hl : (E.drop ndx).length ≤ 256) :
    parse_server_auth buf ndx c = .ok (ndx, c) := by
  unfold parse_server_auth
  rw [readStr_good hg ndx hn]
  simp only [bind_ok, ht, MAX_SPA_MESSAGE_SIZE]
  by_cases h : (E.drop ndx).length > 0
  · rw [if_pos h, decide_eq_false (by omega)]
    simp only [guard_false, bind_ok]
    rw [if_pos trivial, strchr_none _ _ h58]
    rfl
  · rw [if_neg h]; rfl

/-- The last field of a message without timeout. -/
theorem fwd_auth_last {a : Str} (ht : isTimeoutType c.message_type = false)
    (hf : FieldAt E ndx (b64NoPad a) []) (ha : IsText a) (hl : a.length ≤ 63) :
    parse_server_auth buf ndx c = .ok (ndx, { c with server_auth := some a }) := by
  have h64 : (b64NoPad a).length ≤ 256 := by rw [b64NoPad_length]; omega
  have h1 : 1 ≤ (b64NoPad a).length := List.length_pos_iff.mpr hf.2.2.1
  unfold parse_server_auth
  rw [FieldAt.read hg ndx hf, hf.1, List.append_nil]
  simp only [bind_ok, ht, MAX_SPA_MESSAGE_SIZE]
  rw [if_pos (by omega), decide_eq_false (by omega)]
  simp only [guard_false, bind_ok]
  rw [if_neg (by decide), copyField_ok _ _ (by omega)]
  simp only [bind_ok, List.take_length, decodeField_b64 a ha]
  rfl

/-- A server_auth field followed by the timeout. -/
theorem fwd_auth_both {a : Str} (ht : isTimeoutType c.message_type = true) {t : Str}
    (hf : FieldAt E ndx (b64NoPad a) (58 :: t)) (ha : IsText a) (hl : a.length ≤ 63)
    (htl : t.length ≤ 100) :
    parse_server_auth buf ndx c =
      .ok (ndx + (b64NoPad a).length + 1, { c with server_auth := some a }) := by
  have h64 : (b64NoPad a).length ≤ 84 := by rw [b64NoPad_length]; omega
  have h1 : 1 ≤ (b64NoPad a).length := List.length_pos_iff.mpr hf.2.2.1
  have hlen : (E.drop ndx).length = (b64NoPad a).length + 1 + t.length := by
    rw [hf.1]; simp; omega
  have hchr : (strchr (E.drop ndx) 58).isSome = true := by
    rw [strchr_isSome, hf.1]; simp
  unfold parse_server_auth
  rw [FieldAt.read hg ndx hf]
  simp only [bind_ok, ht, MAX_SPA_MESSAGE_SIZE, hlen, hchr, FieldAt.len ndx hf]
  rw [if_pos (by omega), decide_eq_false (by omega), decide_eq_false (by omega),
    copyField_ok _ _ (by omega)]
  simp only [guard_false, bind_ok, FieldAt.take ndx hf, decodeField_b64 a ha]
  rfl

theorem fwd_timeout {n : Nat} (ht : isTimeoutType c.message_type = true)
    (hd : E.drop ndx = decStr n) (hn : ndx ≤ E.length + 1) (hle : n ≤ 65536) :
    parse_client_timeout buf ndx c = .ok (ndx, { c with client_timeout := n }) := by
  have h5 : (decStr n).length ≤ 5 := decStr_length_le n 5 (by decide) (by omega)
  have h1 : 1 ≤ (decStr n).length := List.length_pos_iff.mpr (decStr_ne_nil n)
  unfold parse_client_timeout
  rw [if_pos ht, readStr_good hg ndx hn, hd]
  simp only [bind_ok, MAX_SPA_MESSAGE_SIZE]
  rw [decide_eq_false (by omega), decide_eq_false (by omega),
    takeWhile_all _ (decStr_digits n),
    strtol_wrapper_digits _ (decStr_digits n) (decStr_ne_nil n) (by rw [decStr_val]; omega),
    decStr_val]
  simp only [guard_false, bind_ok]
  rw [decide_eq_false (by simp), decide_eq_true (by omega)]
  simp

end fwd2

theorem isNatType_iff (t : Nat) : isNatType (t : Int) = true ↔ HasNat t := by
  simp only [isNatType, HasNat, FKO_NAT_ACCESS_MSG, FKO_LOCAL_NAT_ACCESS_MSG,
    FKO_CLIENT_TIMEOUT_NAT_ACCESS_MSG, FKO_CLIENT_TIMEOUT_LOCAL_NAT_ACCESS_MSG, Bool.or_eq_true,
    decide_eq_true_eq]
  omega

theorem isTimeoutType_iff (t : Nat) : isTimeoutType (t : Int) = true ↔ HasTimeout t := by
  simp only [isTimeoutType, HasTimeout, FKO_CLIENT_TIMEOUT_ACCESS_MSG,
    FKO_CLIENT_TIMEOUT_NAT_ACCESS_MSG, FKO_CLIENT_TIMEOUT_LOCAL_NAT_ACCESS_MSG, Bool.or_eq_true,
    decide_eq_true_eq]
  omega

theorem b64NoPad_ne_nil {s : Str} (h : s ≠ []) : b64NoPad s ≠ [] := by
  have h1 : 1 ≤ s.length := List.length_pos_iff.mpr h
  intro e
  have := b64NoPad_length s
  rw [e] at this
  simp at this; omega

theorem plain_no_colon {s : Str} (h : IsPlainField s) : 58 ∉ s := fun hc => (h 58 hc).2.2 rfl
theorem plain_no_zero {s : Str} (h : IsPlainField s) : 0 ∉ s := fun hc => by
  have := (h 0 hc).1; omega

theorem userChar_text {s : Str} (h : ∀ c ∈ s, IsUserChar c) : IsText s := fun c hc => by
  have h1 := (h c hc).1
  have h2 := (h c hc).2.1
  omega

/-- The optional tail of the text. -/
def wireTail (r : Request) : Str :=
  optField r.nat ++ (optField r.auth ++ if r.timeout = 0 then [] else 58 :: decStr r.timeout)

theorem wire_eq (r : Request) : r.wire =
    r.rand ++ 58 :: (b64NoPad r.user ++ 58 :: (decStr r.ts ++ 58 :: (r.version ++
      58 :: (decStr r.type ++ 58 :: (b64NoPad r.msg ++ wireTail r))))) := by
  unfold Request.wire wireTail
  simp only [decStr_decimal]

theorem optField_no_zero {o : Option Str} (h : ∀ a, o = some a → IsText a) : 0 ∉ optField o := by
  cases o with
  | none => simp [optField]
  | some a =>
    have := (b64NoPad_no (isText_bytes (h a rfl))).2
    simp [optField, this]

theorem optField_count {o : Option Str} (h : ∀ a, o = some a → IsText a) :
    (optField o).count 58 = if o.isSome then 1 else 0 := by
  cases o with
  | none => simp [optField]
  | some a =>
    have := (b64NoPad_no (isText_bytes (h a rfl))).1
    simp [optField, List.count_eq_zero.mpr this]

section wf
variable {r : Request} (hr : r.WellFormed)
include hr

theorem wf_nat_text : ∀ a, r.nat = some a → IsText a := by
  intro a ha
  by_cases h : HasNat r.type
  · obtain ⟨n, hn, ht, _⟩ := hr.nat_some h
    rw [hn] at ha; cases ha; exact ht
  · rw [hr.nat_none h] at ha; cases ha

theorem wf_auth_text : ∀ a, r.auth = some a → IsText a := fun a ha => (hr.auth_ok a ha).1

theorem wf_msg_ne : r.msg ≠ [] := by
  intro h
  by_cases ht : r.type = 0
  · obtain ⟨ip, cmd, _, _, he, _⟩ := hr.msg_cmd ht
    rw [h] at he; simp at he
  · obtain ⟨ip, sp, sps, hip, _, _, he, _⟩ := hr.msg_access ht
    rw [h] at he; simp at he

theorem tail_no_zero : 0 ∉ wireTail r := by
  unfold wireTail
  have h1 := optField_no_zero (wf_nat_text hr)
  have h2 := optField_no_zero (wf_auth_text hr)
  have h3 := decStr_no_zero r.timeout
  simp only [List.mem_append, not_or]
  refine ⟨h1, h2, ?_⟩
  split
  · simp
  · simp [h3]

theorem tail_count : (wireTail r).count 58 + 1 ≤ maxRemaining r.type := by
  unfold wireTail
  rw [List.count_append, List.count_append, optField_count (wf_nat_text hr),
    optField_count (wf_auth_text hr)]
  have ha : (if r.auth.isSome = true then 1 else 0) ≤ 1 := by split <;> omega
  have hto : (if r.timeout = 0 then ([] : Str) else 58 :: decStr r.timeout).count 58
      = if r.timeout = 0 then 0 else 1 := by
    split
    · rfl
    · simp [List.count_eq_zero.mpr (decStr_no_colon r.timeout)]
  rw [hto]
  have hty := hr.type_le
  have hn1 := hr.nat_none
  have ht1 := hr.timeout_none
  simp only [HasNat, HasTimeout] at hn1 ht1
  unfold maxRemaining
  simp only [FKO_COMMAND_MSG, FKO_ACCESS_MSG, FKO_NAT_ACCESS_MSG, FKO_LOCAL_NAT_ACCESS_MSG,
    FKO_CLIENT_TIMEOUT_ACCESS_MSG]
  have cases : r.type = 0 ∨ r.type = 1 ∨ r.type = 2 ∨ r.type = 3 ∨ r.type = 4 ∨ r.type = 5 ∨
    r.type = 6 := by omega
  have hnn : (if r.nat.isSome = true then 1 else 0) ≤ 1 := by split <;> omega
  have htn : (if r.timeout = 0 then 0 else 1) ≤ 1 := by split <;> omega
  rcases cases with h | h | h | h | h | h | h <;> simp only [h] at hn1 ht1 ⊢ <;>
    simp at hn1 ht1 ⊢ <;> simp_all <;> omega

theorem user_valid : validate_username r.user = true := by
  rw [validate_username_iff]
  exact ⟨hr.user_ne, fun c hc => hr.user_chars c (List.mem_of_mem_take hc)⟩

theorem msg_valid : (if (r.type : Int) = 0 then validate_cmd_msg r.msg
    else validate_access_msg r.msg) = true := by
  by_cases h : r.type = 0
  · rw [if_pos (by omega)]; exact (validate_cmd_iff _).mpr (hr.msg_cmd h)
  · rw [if_neg (by omega)]; exact (validate_access_iff _).mpr (hr.msg_access h)

theorem wire_no_zero : 0 ∉ r.wire := by
  rw [wire_eq]
  have h1 := plain_no_zero hr.rand_chars
  have h2 := (b64NoPad_no (isText_bytes (userChar_text hr.user_chars))).2
  have h3 := decStr_no_zero r.ts
  have h4 := plain_no_zero hr.version_chars
  have h5 := decStr_no_zero r.type
  have h6 := (b64NoPad_no (isText_bytes hr.msg_text)).2
  have h7 := tail_no_zero hr
  simp only [List.mem_append, List.mem_cons, not_or]
  exact ⟨h1, by decide, h2, by decide, h3, by decide, h4, by decide, h5, by decide, h6, h7⟩

theorem wire_count : r.wire.count 58 ≤ 8 := by
  rw [wire_eq]
  have h1 := List.count_eq_zero.mpr (plain_no_colon hr.rand_chars)
  have h2 := List.count_eq_zero.mpr (b64NoPad_no (isText_bytes (userChar_text hr.user_chars))).1
  have h3 := List.count_eq_zero.mpr (decStr_no_colon r.ts)
  have h4 := List.count_eq_zero.mpr (plain_no_colon hr.version_chars)
  have h5 := List.count_eq_zero.mpr (decStr_no_colon r.type)
  have h6 := List.count_eq_zero.mpr (b64NoPad_no (isText_bytes hr.msg_text)).1
  have h7 := tail_count hr
  have h8 : maxRemaining r.type ≤ 4 := by
    unfold maxRemaining; split
    · omega
    · split <;> omega
  simp only [List.count_append, List.count_cons, h1, h2, h3, h4, h5, h6]
  simp; omega

omit hr in
theorem wire_count_ge : 5 ≤ r.wire.count 58 := by
  rw [wire_eq]
  simp only [List.count_append, List.count_cons]
  simp; omega

/-- The nine parsers on the text of a well-formed request. -/
theorem parse_wire {buf : Str} (hg : Good buf r.wire) (c : Ctx)
    (h1 : c.nat_access = none) (h2 : c.server_auth = none) (h3 : c.client_timeout = 0) :
    parseFields buf c = .ok
      { c with
        rand_val := some r.rand, username := some r.user, timestamp := r.ts,
        version := some r.version, message_type := r.type, message := some r.msg,
        nat_access := r.nat, server_auth := r.auth, client_timeout := r.timeout } := by
  have hw := wire_eq r
  unfold parseFields
  -- random value
  have f1 : FieldAt r.wire 0 r.rand _ := ⟨by rw [List.drop_zero]; exact hw,
    plain_no_colon hr.rand_chars, by have := hr.rand_len; intro e; rw [e] at this; simp at this,
    Or.inr ⟨_, rfl⟩⟩
  rw [fwd_rand hg 0 c f1 hr.rand_len]
  simp only [bind_ok]
  have d1 := FieldAt.next _ f1
  generalize 0 + r.rand.length + 1 = n1 at d1 ⊢
  rw [List.drop_one, List.tail_cons] at d1
  -- username
  have ut := userChar_text hr.user_chars
  have f2 : FieldAt r.wire n1 (b64NoPad r.user) _ := ⟨d1, (b64NoPad_no (isText_bytes ut)).1,
    b64NoPad_ne_nil hr.user_ne, Or.inr ⟨_, rfl⟩⟩
  rw [fwd_username hg n1 _ f2 ut (user_valid hr) hr.user_len]
  simp only [bind_ok]
  have d2 := FieldAt.next _ f2
  generalize n1 + (b64NoPad r.user).length + 1 = n2 at d2 ⊢
  rw [List.drop_one, List.tail_cons] at d2
  -- timestamp
  have f3 : FieldAt r.wire n2 (decStr r.ts) _ := ⟨d2, decStr_no_colon _, decStr_ne_nil _,
    Or.inr ⟨_, rfl⟩⟩
  rw [fwd_timestamp hg n2 _ f3 hr.ts_lt]
  simp only [bind_ok]
  have d3 := FieldAt.next _ f3
  generalize n2 + (decStr r.ts).length + 1 = n3 at d3 ⊢
  rw [List.drop_one, List.tail_cons] at d3
  -- version
  have f4 : FieldAt r.wire n3 r.version _ := ⟨d3, plain_no_colon hr.version_chars,
    List.length_pos_iff.mp hr.version_len.1, Or.inr ⟨_, rfl⟩⟩
  rw [fwd_version hg n3 _ f4 hr.version_len.2]
  simp only [bind_ok]
  have d4 := FieldAt.next _ f4
  generalize n3 + r.version.length + 1 = n4 at d4 ⊢
  rw [List.drop_one, List.tail_cons] at d4
  -- type
  have f5 : FieldAt r.wire n4 (decStr r.type) _ := ⟨d4, decStr_no_colon _, decStr_ne_nil _,
    Or.inr ⟨_, rfl⟩⟩
  have hcount : (58 :: (b64NoPad r.msg ++ wireTail r)).count 58 ≤ maxRemaining r.type := by
    have := tail_count hr
    rw [List.count_cons, List.count_append,
      List.count_eq_zero.mpr (b64NoPad_no (isText_bytes hr.msg_text)).1]
    simp; omega
  rw [fwd_type hg n4 _ f5 hr.type_le hcount]
  simp only [bind_ok]
  have d5 := FieldAt.next _ f5
  generalize n4 + (decStr r.type).length + 1 = n5 at d5 ⊢
  rw [List.drop_one, List.tail_cons] at d5
  -- message
  have htail : wireTail r = [] ∨ ∃ t', wireTail r = 58 :: t' := by
    unfold wireTail
    cases r.nat with
    | some n => right; exact ⟨_, rfl⟩
    | none =>
      cases r.auth with
      | some a => right; exact ⟨_, rfl⟩
      | none =>
        by_cases h : r.timeout = 0
        · left; simp [optField, h]
        · right; exact ⟨decStr r.timeout, by simp [optField, h]⟩
  have f6 : FieldAt r.wire n5 (b64NoPad r.msg) (wireTail r) := ⟨d5,
    (b64NoPad_no (isText_bytes hr.msg_text)).1, b64NoPad_ne_nil (wf_msg_ne hr), htail⟩
  rw [fwd_msg hg n5 _ f6 hr.msg_text (msg_valid hr) hr.msg_len]
  simp only [bind_ok]
  have d6 := FieldAt.next _ f6
  have b6 := FieldAt.next_bound _ f6
  generalize n5 + (b64NoPad r.msg).length + 1 = n6 at d6 b6 ⊢
  -- the NAT target
  let tail2 := optField r.auth ++ if r.timeout = 0 then [] else 58 :: decStr r.timeout
  have htail2 : tail2 = [] ∨ ∃ t', tail2 = 58 :: t' := by
    simp only [tail2]
    cases r.auth with
    | some a => right; exact ⟨_, rfl⟩
    | none =>
      by_cases h : r.timeout = 0
      · left; simp [optField, h]
      · right; exact ⟨decStr r.timeout, by simp [optField, h]⟩
  have natStep : ∀ c6 : Ctx, c6.message_type = r.type → c6.nat_access = none →
      ∃ n7, parse_nat_msg buf n6 c6 = .ok (n7, { c6 with nat_access := r.nat }) ∧
        r.wire.drop n7 = tail2.drop 1 ∧ n7 ≤ r.wire.length + 1 := by
    intro c6 ht hnn
    by_cases hN : HasNat r.type
    · obtain ⟨n, hn, hnt, hng, hnl⟩ := hr.nat_some hN
      have hne : n ≠ [] := by
        obtain ⟨host, ds, he, _⟩ := hng
        intro e; rw [e] at he; simp at he
      have hdn : r.wire.drop n6 = b64NoPad n ++ tail2 := by
        rw [d6]; unfold wireTail; rw [hn]; simp [optField, tail2]
      have f7 : FieldAt r.wire n6 (b64NoPad n) tail2 := ⟨hdn, (b64NoPad_no (isText_bytes hnt)).1,
        b64NoPad_ne_nil hne, htail2⟩
      refine ⟨n6 + (b64NoPad n).length + 1, ?_, FieldAt.next _ f7, FieldAt.next_bound _ f7⟩
      rw [fwd_nat hg n6 c6 f7 hnt (by rw [ht]; exact (isNatType_iff _).mpr hN)
        ((validate_nat_iff _).mpr ⟨hng, by omega⟩) hnl, hn]
    · refine ⟨n6, ?_, ?_, b6⟩
      · unfold parse_nat_msg
        have : isNatType c6.message_type = false := by
          rw [ht]
          cases h : isNatType (r.type : Int) with
          | false => rfl
          | true => exact absurd ((isNatType_iff _).mp h) hN
        rw [this, hr.nat_none hN, ← hnn]; rfl
      · rw [d6]; unfold wireTail; rw [hr.nat_none hN]; simp [optField, tail2]
  obtain ⟨n7, e7, d7, b7⟩ := natStep
    { c with rand_val := some r.rand, username := some r.user, timestamp := r.ts,
             version := some r.version, message_type := r.type, message := some r.msg } rfl h1
  rw [e7]
  simp only [bind_ok]
  -- server_auth and timeout
  have lastStep : ∀ c7 : Ctx, c7.message_type = r.type → c7.server_auth = none →
      c7.client_timeout = 0 →
      ∃ n8, parse_server_auth buf n7 c7 = .ok (n8, { c7 with server_auth := r.auth }) ∧
        n8 ≤ r.wire.length + 1 ∧
        (HasTimeout r.type → r.wire.drop n8 = decStr r.timeout) := by
    intro c7 ht ha hto
    by_cases hT : HasTimeout r.type
    · have hTt : isTimeoutType c7.message_type = true := by rw [ht]; exact (isTimeoutType_iff _).mpr hT
      have htp := hr.timeout_some hT
      have hl5 : (decStr r.timeout).length ≤ 5 := decStr_length_le _ 5 (by decide) (by omega)
      have hT0 : r.timeout ≠ 0 := by omega
      cases hau : r.auth with
      | none =>
        have hd : r.wire.drop n7 = decStr r.timeout := by
          rw [d7]; simp [tail2, hau, optField, hT0]
        refine ⟨n7, ?_, b7, fun _ => hd⟩
        rw [fwd_auth_timeout hg n7 c7 hTt b7 (by rw [hd]; exact decStr_no_colon _)
          (by rw [hd]; omega), ← ha]
      | some a =>
        obtain ⟨hat, hane, hal⟩ := hr.auth_ok a hau
        have hd : r.wire.drop n7 = b64NoPad a ++ 58 :: decStr r.timeout := by
          rw [d7]; simp [tail2, hau, optField, hT0]
        have f8 : FieldAt r.wire n7 (b64NoPad a) (58 :: decStr r.timeout) :=
          ⟨hd, (b64NoPad_no (isText_bytes hat)).1, b64NoPad_ne_nil hane, Or.inr ⟨_, rfl⟩⟩
        refine ⟨n7 + (b64NoPad a).length + 1, ?_, FieldAt.next_bound _ f8, fun _ => FieldAt.next _ f8⟩
        rw [fwd_auth_both hg n7 c7 hTt f8 hat hal (by omega)]
    · have hTt : isTimeoutType c7.message_type = false := by
        rw [ht]
        cases h : isTimeoutType (r.type : Int) with
        | false => rfl
        | true => exact absurd ((isTimeoutType_iff _).mp h) hT
      have hT0 := hr.timeout_none hT
      cases hau : r.auth with
      | none =>
        have hd : r.wire.drop n7 = [] := by
          rw [d7]; simp [tail2, hau, optField, hT0]
        refine ⟨n7, ?_, b7, fun h => absurd h hT⟩
        rw [fwd_auth_none hg n7 c7 hd b7, ← ha]
      | some a =>
        obtain ⟨hat, hane, hal⟩ := hr.auth_ok a hau
        have hd : r.wire.drop n7 = b64NoPad a ++ [] := by
          rw [d7]; simp [tail2, hau, optField, hT0]
        have f8 : FieldAt r.wire n7 (b64NoPad a) [] :=
          ⟨hd, (b64NoPad_no (isText_bytes hat)).1, b64NoPad_ne_nil hane, Or.inl rfl⟩
        refine ⟨n7, ?_, b7, fun h => absurd h hT⟩
        rw [fwd_auth_last hg n7 c7 hTt f8 hat hal]
  obtain ⟨n8, e8, b8, d8⟩ := lastStep
    { c with rand_val := some r.rand, username := some r.user, timestamp := r.ts,
             version := some r.version, message_type := r.type, message := some r.msg,
             nat_access := r.nat } rfl h2 h3
  rw [e8]
  simp only [bind_ok]
  by_cases hT : HasTimeout r.type
  · rw [fwd_timeout hg n8 _ ((isTimeoutType_iff _).mpr hT) (d8 hT) b8 (hr.timeout_some hT).2]
    rfl
  · have hTt : isTimeoutType (r.type : Int) = false := by
      cases h : isTimeoutType (r.type : Int) with
      | false => rfl
      | true => exact absurd ((isTimeoutType_iff _).mp h) hT
    unfold parse_client_timeout
    simp only [hTt]
    rw [if_neg (by decide), hr.timeout_none hT, ← h3]
    rfl

end wf

end Fwknop
