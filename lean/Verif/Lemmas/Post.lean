import Verif.Lemmas.Fko
import Verif.Lemmas.Grammar

/-!
# Postconditions of successful calls

`Post r Q` says only that `r`, if successful, satisfies `Q`; unlike `Sat` it does not exclude
undefined behaviour, so it needs no assumption on the inputs.
-/

namespace Fwknop.Res

/-- If successful, then with this postcondition. -/
def Post {α : Type} (r : Res α) (Q : α → Prop) : Prop := ∀ a, r = ok a → Q a

theorem post_ok {α : Type} {a : α} {Q : α → Prop} (h : Q a) : Post (ok a) Q := by
  intro b hb; cases hb; exact h

theorem post_pure {α : Type} {a : α} {Q : α → Prop} (h : Q a) : Post (pure a) Q := post_ok h

theorem post_err {α : Type} {Q : α → Prop} : Post (err : Res α) Q := fun _ h => by cases h
theorem post_ub {α : Type} {Q : α → Prop} : Post (ub : Res α) Q := fun _ h => by cases h

theorem post_bind {α β : Type} {r : Res α} {f : α → Res β} {Q : β → Prop} (P : α → Prop)
    (h : Post r P) (hf : ∀ a, P a → Post (f a) Q) : Post (r >>= f) Q := by
  cases r with
  | ub => exact post_ub
  | err => exact post_err
  | ok a => exact hf a (h a rfl)

theorem post_any {α β : Type} {r : Res α} {f : α → Res β} {Q : β → Prop}
    (hf : ∀ a, Post (f a) Q) : Post (r >>= f) Q :=
  post_bind (fun _ => True) (fun _ _ => trivial) fun a _ => hf a

theorem post_guard {β : Type} {b : Bool} {k : Unit → Res β} {Q : β → Prop}
    (h : b = false → Post (k ()) Q) : Post (guard b >>= k) Q := by
  cases b with
  | true => exact post_err
  | false => exact h rfl

theorem post_mem {β : Type} {b : Bool} {k : Unit → Res β} {Q : β → Prop}
    (h : b = false → Post (k ()) Q) : Post (mem b >>= k) Q := by
  cases b with
  | true => exact post_ub
  | false => exact h rfl

theorem Post.mono {α : Type} {r : Res α} {P Q : α → Prop} (h : Post r P) (hpq : ∀ a, P a → Q a) :
    Post r Q := fun a e => hpq a (h a e)

theorem bind_eq_ok {α β : Type} {r : Res α} {f : α → Res β} {b : β} (h : (r >>= f) = ok b) :
    ∃ a, r = ok a ∧ f a = ok b := by
  cases r with
  | ub => cases h
  | err => cases h
  | ok a => exact ⟨a, rfl, h⟩

end Fwknop.Res

namespace Fwknop

open Res Spec

/-! ## Decoding -/

/-- What a decoded packet is known to be. -/
structure Decoded (c : Ctx) : Prop where
  username : ∃ u, c.username = some u ∧ validate_username u = true
  timestamp : 0 ≤ c.timestamp ∧ c.timestamp < 2 ^ 31
  type : 0 ≤ c.message_type ∧ c.message_type ≤ 6
  message : ∃ ip rest, IsIPv4 ip ∧ c.message = some (ip ++ 44 :: rest) ∧ rest.length < 256 ∧
    (c.message_type = 0 → rest ≠ []) ∧ (c.message_type ≠ 0 → IsAccessMsg (ip ++ 44 :: rest))
  timeout : c.client_timeout ≤ 65536
  plain_timeout : isTimeoutType c.message_type = false → c.client_timeout = 0
  nat : isNatType c.message_type = true → ∃ n, c.nat_access = some n ∧ validate_nat_access_msg n = true

theorem parse_rand_val_post (buf : Str) (n : Nat) (c : Ctx) :
    Post (parse_rand_val buf n c) fun r => ∃ v, r.2 = { c with rand_val := v } := by
  unfold parse_rand_val
  refine post_any fun s => post_guard fun _ => post_pure ⟨_, rfl⟩

theorem parse_username_post (buf : Str) (n : Nat) (c : Ctx) :
    Post (parse_username buf n c) fun r =>
      ∃ u, validate_username u = true ∧ r.2 = { c with username := some u } := by
  unfold parse_username
  refine post_any fun s => post_guard fun _ => post_guard fun _ => post_any fun f => post_any fun u =>
    post_guard fun h => post_pure ⟨u, by simpa using h, rfl⟩

theorem parse_timestamp_post (buf : Str) (n : Nat) (c : Ctx) :
    Post (parse_timestamp buf n c) fun r =>
      ∃ t, 0 ≤ t ∧ t < 2 ^ 31 ∧ r.2 = { c with timestamp := t } := by
  unfold parse_timestamp
  refine post_any fun s => post_guard fun _ => post_guard fun _ => post_any fun f =>
    post_guard fun h => post_pure ⟨_, ?_, ?_, rfl⟩
  · omega
  · have := wrapper_range f 0 (-1) (by simpa using h)
    omega

theorem parse_version_post (buf : Str) (n : Nat) (c : Ctx) :
    Post (parse_version buf n c) fun r => ∃ v, r.2 = { c with version := v } := by
  unfold parse_version
  refine post_any fun s => post_guard fun _ => post_guard fun _ => post_pure ⟨_, rfl⟩

theorem parse_msg_type_post (buf : Str) (n : Nat) (c : Ctx) :
    Post (parse_msg_type buf n c) fun r =>
      ∃ t, 0 ≤ t ∧ t ≤ 6 ∧ r.2 = { c with message_type := t } := by
  unfold parse_msg_type
  refine post_any fun s => post_guard fun _ => post_guard fun _ => post_any fun f =>
    post_guard fun h => post_guard fun _ => post_pure ⟨_, ?_, ?_, rfl⟩
  all_goals
    have := wrapper_range f 0 (FKO_LAST_MSG_TYPE - 1) (by simpa using h)
    simp only [FKO_LAST_MSG_TYPE] at *
    omega

theorem decodeField_post (f : Str) (n : Nat) : Post (decodeField f n) fun s => s.length ≤ n := by
  unfold decodeField
  split
  · exact post_err
  · rename_i d _
    split
    · exact post_ub
    · refine post_ok ?_
      have : (d.takeWhile (· ≠ 0)).length ≤ d.length := (List.takeWhile_sublist _).length_le
      omega

theorem parse_msg_post (buf : Str) (n : Nat) (c : Ctx) :
    Post (parse_msg buf n c) fun r =>
      ∃ m, m.length ≤ 256 ∧ (if c.message_type = 0 then validate_cmd_msg m else validate_access_msg m) = true ∧
        r.2 = { c with message := some m } := by
  unfold parse_msg
  refine post_any fun s => post_guard fun _ => post_guard fun h1 => post_any fun f =>
    post_bind _ (decodeField_post f (fieldLen s)) fun m hm => post_guard fun h => post_pure ⟨m, ?_, ?_, rfl⟩
  · simp only [MAX_SPA_MESSAGE_SIZE, decide_eq_false_iff_not] at h1; omega
  · simpa [FKO_COMMAND_MSG] using h

theorem parse_nat_msg_post (buf : Str) (n : Nat) (c : Ctx) :
    Post (parse_nat_msg buf n c) fun r =>
      (isNatType c.message_type = true ∧ ∃ m, validate_nat_access_msg m = true ∧ r.2 = { c with nat_access := some m }) ∨
      (isNatType c.message_type = false ∧ r.2 = c) := by
  unfold parse_nat_msg
  split
  · rename_i ht
    refine post_any fun s => post_guard fun _ => post_guard fun _ => post_any fun f => post_any fun m =>
      post_guard fun h => post_pure (.inl ⟨ht, m, by simpa using h, rfl⟩)
  · rename_i ht
    exact post_ok (.inr ⟨by simpa using ht, rfl⟩)

theorem parse_server_auth_post (buf : Str) (n : Nat) (c : Ctx) :
    Post (parse_server_auth buf n c) fun r => ∃ a, r.2 = { c with server_auth := a } := by
  unfold parse_server_auth
  refine post_any fun s => ?_
  split
  · refine post_guard fun _ => ?_
    split
    · split
      · exact post_guard fun _ => post_any fun f => post_any fun a => post_pure ⟨_, rfl⟩
      · exact post_pure ⟨c.server_auth, rfl⟩
    · exact post_any fun f => post_any fun a => post_pure ⟨_, rfl⟩
  · exact post_pure ⟨c.server_auth, rfl⟩

theorem parse_client_timeout_post (buf : Str) (n : Nat) (c : Ctx) :
    Post (parse_client_timeout buf n c) fun r =>
      (isTimeoutType c.message_type = true ∧ ∃ t, t ≤ 65536 ∧ r.2 = { c with client_timeout := t }) ∨
      (isTimeoutType c.message_type = false ∧ r.2 = c) := by
  unfold parse_client_timeout
  split
  · rename_i ht
    refine post_any fun s => post_guard fun _ => post_guard fun _ => post_guard fun _ =>
      post_guard fun h => post_pure (.inl ⟨ht, _, ?_, rfl⟩)
    have := wrapper_range s 0 65536 (by simpa using h)
    omega
  · rename_i ht
    exact post_ok (.inr ⟨by simpa using ht, rfl⟩)

theorem message_split {t : Int} {m : Str} (hl : m.length ≤ 256)
    (h : (if t = 0 then validate_cmd_msg m else validate_access_msg m) = true) :
    ∃ ip rest, IsIPv4 ip ∧ m = ip ++ 44 :: rest ∧ rest.length < 256 ∧
      (t = 0 → rest ≠ []) ∧ (t ≠ 0 → IsAccessMsg (ip ++ 44 :: rest)) := by
  by_cases ht : t = 0
  · rw [if_pos ht] at h
    obtain ⟨ip, cmd, h1, h2, rfl, -⟩ := (validate_cmd_iff m).1 h
    exact ⟨ip, cmd, h1, rfl, by simp at hl; omega, fun _ => h2, fun hh => absurd ht hh⟩
  · rw [if_neg ht] at h
    have ha := (validate_access_iff m).1 h
    obtain ⟨ip, spec, specs, h1, h2, h3, h4, h5⟩ := ha
    have h6 : m = ip ++ 44 :: (spec ++ (specs.map (44 :: ·)).flatten) := by
      rw [h4]; simp
    refine ⟨ip, _, h1, h6, ?_, fun hh => absurd hh ht, fun _ => ?_⟩
    · rw [h6] at h5; simp at h5 ⊢; omega
    · rw [← h6]; exact (validate_access_iff m).1 h

theorem parseFields_post (buf : Str) (c : Ctx) (hc : c.client_timeout = 0) :
    Post (parseFields buf c) Decoded := by
  unfold parseFields
  refine post_bind _ (parse_rand_val_post buf 0 c) ?_
  rintro ⟨n1, c1⟩ ⟨r, h1⟩
  refine post_bind _ (parse_username_post buf n1 c1) ?_
  rintro ⟨n2, c2⟩ ⟨u, hu, h2⟩
  refine post_bind _ (parse_timestamp_post buf n2 c2) ?_
  rintro ⟨n3, c3⟩ ⟨t, ht1, ht2, h3⟩
  refine post_bind _ (parse_version_post buf n3 c3) ?_
  rintro ⟨n4, c4⟩ ⟨v, h4⟩
  refine post_bind _ (parse_msg_type_post buf n4 c4) ?_
  rintro ⟨n5, c5⟩ ⟨mt, hm1, hm2, h5⟩
  refine post_bind _ (parse_msg_post buf n5 c5) ?_
  rintro ⟨n6, c6⟩ ⟨m, hml, hm, h6⟩
  refine post_bind _ (parse_nat_msg_post buf n6 c6) ?_
  rintro ⟨n7, c7⟩ h7
  refine post_bind _ (parse_server_auth_post buf n7 c7) ?_
  rintro ⟨n8, c8⟩ ⟨sa, h8⟩
  refine post_bind _ (parse_client_timeout_post buf n8 c8) ?_
  rintro ⟨n9, c9⟩ h9
  apply post_pure
  simp only at h1 h2 h3 h4 h5 h6 h7 h8 h9 ⊢
  subst h1 h2 h3 h4 h5 h6
  obtain ⟨ip, rest, q1, q2, q3, q4, q5⟩ := message_split hml hm
  subst q2
  rcases h7 with ⟨hn, nm, hnv, rfl⟩ | ⟨hn, rfl⟩ <;>
  rcases h9 with ⟨hto, to, htv, h9⟩ | ⟨hto, h9⟩ <;>
  (subst h8; subst h9
   simp only at hn hto
   constructor <;> simp_all)
  all_goals exact ⟨ip, q1, rest, rfl, q3, q4, q5⟩

theorem decode_post (H : Hash) (c : Ctx) (hc : c.client_timeout = 0) :
    Post (fko_decode_spa_data H c) Decoded := by
  unfold fko_decode_spa_data
  split
  · exact post_ub
  · refine post_guard fun _ => post_any fun s => post_guard fun _ => post_guard fun _ => ?_
    refine post_any fun dig => ?_
    dsimp only
    split
    · exact post_err
    · refine post_guard fun _ => post_mem fun _ => post_mem fun _ => ?_
      split
      · exact post_err
      · exact parseFields_post _ _ hc


/-! ## Decryption and HMAC -/

theorem add_salted_post (c : Ctx) :
    Post (add_salted_str c) fun c' => c'.client_timeout = c.client_timeout := by
  unfold add_salted_str
  split
  · exact post_ub
  · refine post_mem fun _ => post_guard fun _ => ?_
    split <;> exact post_pure rfl

theorem add_gpg_post (c : Ctx) :
    Post (add_gpg_prefix c) fun c' => c'.client_timeout = c.client_timeout := by
  unfold add_gpg_prefix
  split
  · exact post_ub
  · refine post_mem fun _ => post_guard fun _ => ?_
    split <;> exact post_pure rfl

theorem rijndael_decrypt_post (K : Crypto) (c : Ctx) (key : Str) (hc : c.client_timeout = 0) :
    Post (_rijndael_decrypt K c key) Decoded := by
  unfold _rijndael_decrypt
  refine post_guard fun _ => ?_
  refine post_bind (fun c' => c'.client_timeout = 0) ?_ ?_
  · split
    · exact (add_salted_post c).mono fun c' h => h.trans hc
    · exact post_pure hc
  · intro c1 h1
    split
    · exact post_err
    · refine post_guard fun _ => post_any fun r => ?_
      unfold afterDecrypt
      exact post_guard fun _ => post_guard fun _ => post_guard fun _ => decode_post _ _ h1

theorem gpg_decrypt_post (K : Crypto) (c : Ctx) (key : Str) (hc : c.client_timeout = 0) :
    Post (gpg_decrypt K c key) Decoded := by
  unfold gpg_decrypt
  refine post_bind (fun c' => c'.client_timeout = 0) ?_ ?_
  · split
    · have := add_gpg_post c
      split
      · exact post_ub
      · exact post_ok hc
      · rename_i c' h
        exact post_ok ((this c' h).trans hc)
    · exact post_ok hc
  · intro c1 h1
    split
    · exact post_err
    · split
      · exact post_err
      · exact post_guard fun _ => decode_post _ _ h1

theorem decrypt_post (K : Crypto) (c : Ctx) (key : Str) (hc : c.client_timeout = 0) :
    Post (fko_decrypt_spa_data K c key) Decoded := by
  unfold fko_decrypt_spa_data
  dsimp only
  split
  · exact gpg_decrypt_post K _ key hc
  · split
    · exact rijndael_decrypt_post K _ key hc
    · exact post_err

theorem set_hmac_post (H : Hash) (c : Ctx) (k : Option Str) :
    Post (fko_set_spa_hmac H c k) fun c' => c'.client_timeout = c.client_timeout := by
  unfold fko_set_spa_hmac
  split
  · exact post_err
  · exact post_guard fun _ => post_guard fun _ => post_mem fun _ => post_pure rfl

theorem verify_hmac_post (H : Hash) (c : Ctx) (k : Str) :
    Post (fko_verify_hmac H c k) fun c' => c'.client_timeout = c.client_timeout := by
  unfold fko_verify_hmac
  refine post_guard fun _ => post_guard fun _ => post_guard fun _ => post_guard fun _ => post_mem fun _ => ?_
  refine post_bind (fun c' => c'.client_timeout = c.client_timeout) ?_ ?_
  · unfold addPrefix
    split
    · split
      · exact (add_gpg_post _).mono fun _ h => h
      · exact post_ok rfl
    · split
      · exact (add_salted_post _).mono fun _ h => h
      · exact post_ok rfl
  · intro c2 h2
    unfold compareHmac
    split
    · exact post_err
    · rename_i c3 h3
      refine post_bind _ (set_hmac_post H c3 (some k)) fun c4 h4 => post_mem fun _ => post_guard fun _ =>
        post_pure ?_
      rw [h4, ← h2]
      unfold fko_set_spa_hmac_type at h3
      split at h3
      · cases h3
      · cases h3; rfl

theorem new_with_data_timeout (K : Crypto) (msg : Str) (mode : Int) (hk : Option Str) (ht : Int) :
    Post (fko_new_with_data K msg none mode hk ht) fun c => c.client_timeout = 0 := by
  rcases new_with_data_eq K msg none mode hk ht with h | ⟨-, h⟩
  · rw [h]; exact post_err
  · rw [h]
    refine post_bind (fun c => c.client_timeout = 0) ?_ fun c hc => post_ok hc
    split
    · exact post_ok rfl
    · split
      · exact (verify_hmac_post _ _ _).mono fun c h => h.trans rfl
      · exact post_ok rfl

theorem new_with_data_decoded (K : Crypto) (msg key : Str) (mode : Int) (hk : Option Str) (ht : Int) :
    Post (fko_new_with_data K msg (some key) mode hk ht) Decoded := by
  rcases new_with_data_eq K msg (some key) mode hk ht with h | ⟨-, h⟩
  · rw [h]; exact post_err
  · rw [h]
    refine post_bind (fun c => c.client_timeout = 0) ?_ fun c hc => decrypt_post K _ key hc
    split
    · exact post_ok rfl
    · split
      · exact (verify_hmac_post _ _ _).mono fun c h => h.trans rfl
      · exact post_ok rfl

end Fwknop
