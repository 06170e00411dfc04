import Verif.Lemmas.Encode
import Verif.Lemmas.Consts
import Verif.Model.Util

/-!
# What the setters of the library keep true
-/

namespace Fwknop
open Fwknop.Spec

theorem setter_type_range (c : Ctx) (s : Setter) (h : 0 ≤ c.message_type ∧ c.message_type ≤ 6) :
    0 ≤ ((s.run c).getD c).message_type ∧ ((s.run c).getD c).message_type ≤ 6 := by
  cases s <;> simp only [Setter.run, fko_set_spa_message_type, fko_set_spa_message,
    fko_set_spa_client_timeout, fko_set_spa_nat_access, fko_set_spa_server_auth, fko_set_username,
    fko_set_rand_value, fko_set_timestamp, fko_set_spa_digest_type, fko_set_spa_encryption_type,
    fko_set_spa_encryption_mode, fko_set_spa_hmac_type, timeoutType, Ctx.setFlag] <;>
  repeat' (first | split | exact h)
  all_goals first
    | decide
    | (simp only [Option.getD_some, consts] at *
       omega)

theorem set_timeout_some {c c' : Ctx} {t : Int} (h : fko_set_spa_client_timeout c t = some c') :
    0 ≤ t ∧ c'.client_timeout = t.toNat ∧ c'.message_type = timeoutType c.message_type t.toNat := by
  unfold fko_set_spa_client_timeout at h
  split at h
  · cases h
  · refine ⟨by omega, ?_⟩
    simp only [Option.some.injEq] at h
    subst h
    split <;> exact ⟨rfl, rfl⟩

theorem timeoutType_spec (mt t : Int) (hr : 0 ≤ mt ∧ mt ≤ 6) (ht : 0 ≤ t) :
    (mt ≠ 0 → (0 < t ↔ HasTimeout (timeoutType mt t.toNat).toNat)) ∧
    (mt = 0 → timeoutType mt t.toNat = 0) ∧
    (HasNat (timeoutType mt t.toNat).toNat ↔ HasNat mt.toNat) := by
  have : mt = 0 ∨ mt = 1 ∨ mt = 2 ∨ mt = 3 ∨ mt = 4 ∨ mt = 5 ∨ mt = 6 := by omega
  by_cases h : 0 < t
  · have h' : t.toNat > 0 := by omega
    rcases this with rfl | rfl | rfl | rfl | rfl | rfl | rfl <;>
      simp [timeoutType, h, h', HasTimeout, HasNat, consts]
  · have h' : ¬ t.toNat > 0 := by omega
    rcases this with rfl | rfl | rfl | rfl | rfl | rfl | rfl <;>
      simp [timeoutType, h, h', HasTimeout, HasNat, consts]

theorem encode_type {H : Hash} {c c' : Ctx} (h : fko_encode_spa_data H c = .ok (true, c')) :
    c'.client_timeout = c.client_timeout ∧
    c'.message_type = timeoutType c.message_type c.client_timeout := by
  unfold fko_encode_spa_data at h
  have hs : ∃ d, fko_set_spa_client_timeout c c.client_timeout = some d := by
    unfold fko_set_spa_client_timeout
    rw [if_neg (by omega)]
    exact ⟨_, rfl⟩
  obtain ⟨d, hd⟩ := hs
  obtain ⟨-, h2, h3⟩ := set_timeout_some hd
  rw [hd] at h
  simp only [Option.getD_some, Int.toNat_natCast] at h h2 h3
  repeat' split at h
  all_goals first
    | (simp at h; done)
    | (simp only [Res.ok.injEq, Prod.mk.injEq, true_and] at h
       subst h
       exact ⟨h2, h3⟩)

/-- What `fko_new` leaves in the context. -/
theorem fko_new_some {rands : List Nat} {user : Str} {now : Int} {c : Ctx}
    (h : fko_new rands user now = some c) :
    c.message_type = 1 ∧ c.digest_type = 3 ∧ c.rand_val = some (randValue rands []) ∧
    c.version = some FKO_PROTOCOL_VERSION ∧ c.timestamp = now ∧ 0 ≤ now ∧ c.message = none ∧
    c.nat_access = none ∧ c.server_auth = none ∧ c.client_timeout = 0 ∧
    c.username = some (user.take 63) ∧ validate_username (user.take 63) = true := by
  have hu : (if min user.length MAX_SPA_USERNAME_SIZE = MAX_SPA_USERNAME_SIZE
      then user.take (MAX_SPA_USERNAME_SIZE - 1) else user) = user.take 63 := by
    simp only [MAX_SPA_USERNAME_SIZE]
    split
    · rfl
    · rw [List.take_of_length_le (by omega)]
  unfold fko_new at h
  simp only [Option.bind_eq_some_iff] at h
  obtain ⟨c1, h1, c2, h2, c3, h3, c4, h4, c5, h5, c6, h6, h7⟩ := h
  unfold fko_set_username at h1
  rw [hu] at h1
  unfold fko_set_timestamp at h2
  unfold fko_set_spa_digest_type at h3
  unfold fko_set_spa_message_type at h4
  unfold fko_set_spa_encryption_type at h5
  unfold fko_set_spa_encryption_mode at h6
  rw [if_neg (by decide), Option.some.injEq] at h3 h4 h5 h6
  rw [Option.some.injEq] at h7
  by_cases hv : validate_username (user.take 63) = true
  · rw [if_pos hv, Option.some.injEq] at h1
    by_cases hn : now + 0 < 0
    · rw [if_pos hn] at h2; cases h2
    · rw [if_neg hn, Option.some.injEq] at h2
      rw [Int.add_zero] at h2
      subst h1 h2 h3 h4 h5 h6 h7
      exact ⟨rfl, rfl, rfl, rfl, rfl, by omega, rfl, rfl, rfl, rfl, rfl, hv⟩
  · rw [if_neg hv] at h1
    cases h1

theorem fko_new_encoded {rands : List Nat} {user : Str} {now : Int} {c : Ctx}
    (h : fko_new rands user now = some c) : c.encoded_msg = none := by
  unfold fko_new at h
  simp only [Option.bind_eq_some_iff] at h
  obtain ⟨c1, h1, c2, h2, c3, h3, c4, h4, c5, h5, c6, h6, h7⟩ := h
  unfold fko_set_username at h1
  unfold fko_set_timestamp at h2
  unfold fko_set_spa_digest_type at h3
  unfold fko_set_spa_message_type at h4
  unfold fko_set_spa_encryption_type at h5
  unfold fko_set_spa_encryption_mode at h6
  rw [if_neg (by decide), Option.some.injEq] at h3 h4 h5 h6
  rw [Option.some.injEq] at h7
  generalize (if min user.length MAX_SPA_USERNAME_SIZE = MAX_SPA_USERNAME_SIZE
      then user.take (MAX_SPA_USERNAME_SIZE - 1) else user) = v at h1
  by_cases hv : validate_username v = true
  · rw [if_pos hv, Option.some.injEq] at h1
    by_cases hn : now + 0 < 0
    · rw [if_pos hn] at h2; cases h2
    · rw [if_neg hn, Option.some.injEq] at h2
      subst h1 h2 h3 h4 h5 h6 h7
      rfl
  · rw [if_neg hv] at h1
    cases h1

/-! ## The fields a sequence of setter calls can leave in a context -/

/-- Arguments are C strings. -/
def Setter.ArgText : Setter → Prop
  | .message m => IsText m
  | .natAccess m => IsText m
  | .serverAuth m => IsText m
  | .username m => IsText m
  | .randValue m => IsText m
  | _ => True

/-- The fields are as the setters check them. -/
structure FieldsChecked (c : Ctx) : Prop where
  rand : ∃ r, c.rand_val = some r ∧ r.length = 16
  user : ∃ u, c.username = some u ∧ validate_username u = true ∧ u.length ≤ 63
  ts : 0 ≤ c.timestamp
  version : c.version = some FKO_PROTOCOL_VERSION
  type : 0 ≤ c.message_type ∧ c.message_type ≤ 6
  msg : ∀ m, c.message = some m → IsText m ∧ 1 ≤ m.length
  nat : ∀ n, c.nat_access = some n → IsText n ∧ validate_nat_access_msg n = true ∧ n.length < 128
  auth : ∀ a, c.server_auth = some a → IsText a ∧ a ≠ [] ∧ a.length ≤ 63
  digest : 1 ≤ c.digest_type ∧ c.digest_type ≤ 7

theorem setter_fields (c : Ctx) (s : Setter) (hs : s.ArgText) (h : FieldsChecked c) :
    FieldsChecked ((s.run c).getD c) := by
  have ht := setter_type_range c s h.type
  obtain ⟨h1, h2, h3, h4, h5, h6, h7, h8, h9⟩ := h
  have h : FieldsChecked c := ⟨h1, h2, h3, h4, h5, h6, h7, h8, h9⟩
  cases s with
  | msgType t =>
    simp only [Setter.run, fko_set_spa_message_type] at ht ⊢
    split at ht <;> rename_i hc
    · rw [if_pos hc]; exact h
    · rw [if_neg hc]; exact ⟨h1, h2, h3, h4, ht, h6, h7, h8, h9⟩
  | message m =>
    simp only [Setter.run, fko_set_spa_message, MAX_SPA_MESSAGE_SIZE] at ht ⊢
    repeat' split
    all_goals first
      | exact h
      | (refine ⟨h1, h2, h3, h4, h5, ?_, h7, h8, h9⟩
         intro m' hm; cases hm; exact ⟨hs, by omega⟩)
  | timeout t =>
    simp only [Setter.run] at ht ⊢
    cases hr : fko_set_spa_client_timeout c t with
    | none => exact h
    | some c' =>
      rw [hr] at ht
      unfold fko_set_spa_client_timeout at hr
      split at hr
      · cases hr
      · simp only [Option.some.injEq] at hr
        subst hr
        simp only [Option.getD_some] at ht ⊢
        split at ht <;> rename_i hc
        · rw [if_pos hc]; exact ⟨h1, h2, h3, h4, ht, h6, h7, h8, h9⟩
        · rw [if_neg hc]; exact ⟨h1, h2, h3, h4, ht, h6, h7, h8, h9⟩
  | natAccess m =>
    simp only [Setter.run] at ht ⊢
    cases hr : fko_set_spa_nat_access c m with
    | none => exact h
    | some c' =>
      rw [hr] at ht
      unfold fko_set_spa_nat_access at hr
      simp only [MAX_SPA_NAT_ACCESS_SIZE] at hr
      split at hr
      · cases hr
      split at hr
      · cases hr
      split at hr
      · cases hr
      rename_i g1 g2 g3
      simp only [Option.some.injEq] at hr
      subst hr
      refine ⟨h1, h2, h3, h4, ht, h6, ?_, h8, h9⟩
      intro n hn
      simp only [Option.getD_some, Ctx.setFlag] at hn
      cases hn
      exact ⟨hs, by simpa using g3, by omega⟩
  | serverAuth m =>
    simp only [Setter.run, fko_set_spa_server_auth, MAX_SPA_SERVER_AUTH_SIZE] at ht ⊢
    repeat' split
    all_goals first
      | exact h
      | (refine ⟨h1, h2, h3, h4, h5, h6, h7, ?_, h9⟩
         intro m' hm; cases hm
         exact ⟨hs, by intro e; subst e; simp at *, by omega⟩)
  | username u =>
    simp only [Setter.run, fko_set_username, MAX_SPA_USERNAME_SIZE] at ht ⊢
    have hl : (if min u.length 64 = 64 then u.take (64 - 1) else u).length ≤ 63 := by
      split
      · simp only [List.length_take]; omega
      · omega
    generalize (if min u.length 64 = 64 then u.take (64 - 1) else u) = u' at *
    split
    · rename_i hv; exact ⟨h1, ⟨u', rfl, hv, hl⟩, h3, h4, h5, h6, h7, h8, h9⟩
    · exact h
  | randValue v =>
    simp only [Setter.run, fko_set_rand_value, FKO_RAND_VAL_SIZE] at ht ⊢
    split
    · exact h
    · exact ⟨⟨v, rfl, by omega⟩, h2, h3, h4, h5, h6, h7, h8, h9⟩
  | timestamp n o =>
    simp only [Setter.run, fko_set_timestamp] at ht ⊢
    split
    · exact h
    · exact ⟨h1, h2, by simp only [Option.getD_some, Ctx.setFlag]; omega, h4, h5, h6, h7, h8, h9⟩
  | digestType t =>
    simp only [Setter.run, fko_set_spa_digest_type, FKO_LAST_DIGEST_TYPE] at ht ⊢
    split
    · exact h
    · exact ⟨h1, h2, h3, h4, h5, h6, h7, h8, by simp only [Option.getD_some, Ctx.setFlag]; omega⟩
  | encType t =>
    simp only [Setter.run, fko_set_spa_encryption_type] at ht ⊢
    split
    · exact h
    · exact ⟨h1, h2, h3, h4, h5, h6, h7, h8, h9⟩
  | encMode t =>
    simp only [Setter.run, fko_set_spa_encryption_mode] at ht ⊢
    split
    · exact h
    · exact ⟨h1, h2, h3, h4, h5, h6, h7, h8, h9⟩
  | hmacType t =>
    simp only [Setter.run, fko_set_spa_hmac_type] at ht ⊢
    split
    · exact h
    · exact ⟨h1, h2, h3, h4, h5, h6, h7, h8, h9⟩

theorem runSetters_fields (ss : List Setter) (hs : ∀ s ∈ ss, s.ArgText) (c : Ctx)
    (h : FieldsChecked c) : FieldsChecked (runSetters c ss) := by
  induction ss generalizing c with
  | nil => exact h
  | cons s ss ih =>
    exact ih (fun x hx => hs x (by simp [hx])) _ (setter_fields c s (hs s (by simp)) h)

theorem randValue_length (rs : List Nat) (acc : Str) (ha : acc.length ≤ 16)
    (h : 16 ≤ acc.length + rs.length) : (randValue rs acc).length = 16 := by
  induction rs generalizing acc with
  | nil => simp only [randValue, List.length_nil] at *; omega
  | cons r rs ih =>
    unfold randValue
    simp only [FKO_RAND_VAL_SIZE, List.length_cons] at *
    split
    · have hd : 1 ≤ (decStr r).length := by
        have := decStr_ne_nil r
        cases hh : decStr r with
        | nil => exact absurd hh this
        | cons _ _ => simp
      apply ih
      · simp only [List.length_append, List.length_take]; omega
      · simp only [List.length_append, List.length_take]; omega
    · omega

theorem fko_new_fields {rands : List Nat} {user : Str} {now : Int} {c : Ctx}
    (hr : 16 ≤ rands.length) (h : fko_new rands user now = some c) : FieldsChecked c := by
  obtain ⟨h1, h2, h3, h4, h5, h6, h7, h8, h9, h10, h11, h12⟩ := fko_new_some h
  refine ⟨⟨_, h3, randValue_length _ _ (by simp) (by simpa using hr)⟩, ⟨_, h11, h12, by simp; omega⟩,
    by omega, h4, by omega, ?_, ?_, ?_, by omega⟩
  · rw [h7]; simp
  · rw [h8]; simp
  · rw [h9]; simp

end Fwknop
