import Verif.Lemmas.Base64
import Verif.Lemmas.CLib
import Verif.Lemmas.Grammar
import Verif.Lemmas.Res
import Verif.Model.Spa

/-!
# Lemmas about the SPA decoder
-/

namespace Fwknop
open Fwknop.Base64 Fwknop.Spec Fwknop.Res

/-! ## Fields -/

theorem fieldLen_split (p t : Str) (h : 58 ∉ p) : fieldLen (p ++ 58 :: t) = p.length := by
  unfold fieldLen strcspn
  rw [takeWhile_stop p t _ 58 _ (by decide)]
  intro x hx
  have : x ≠ 58 := fun e => h (e ▸ hx)
  simp [this]

theorem fieldLen_none (p : Str) (h : 58 ∉ p) : fieldLen p = p.length := by
  unfold fieldLen strcspn
  rw [takeWhile_all]
  intro x hx
  have : x ≠ 58 := fun e => h (e ▸ hx)
  simp [this]

theorem fieldLen_cases (s : Str) : ∃ p t, s = p ++ t ∧ 58 ∉ p ∧ fieldLen s = p.length ∧
    (t = [] ∨ ∃ t', t = 58 :: t') := by
  rcases split_first s 58 with h | ⟨p, t, hs, hp⟩
  · exact ⟨s, [], by simp, h, fieldLen_none s h, Or.inl rfl⟩
  · exact ⟨p, 58 :: t, hs, hp, by rw [hs, fieldLen_split p t hp], Or.inr ⟨t, rfl⟩⟩

theorem fieldLen_le (s : Str) : fieldLen s ≤ s.length := by
  obtain ⟨p, t, hs, _, hl, _⟩ := fieldLen_cases s
  rw [hl, hs]; simp

theorem strchr_isSome (s : Str) : (strchr s 58).isSome = true ↔ 58 ∈ s := by
  constructor
  · intro h
    obtain ⟨i, hi⟩ := Option.isSome_iff_exists.mp h
    obtain ⟨p, t, hs, _⟩ := strchr_some s 58 i hi
    rw [hs]; simp
  · intro h
    rcases split_first s 58 with hn | ⟨p, t, hs, hp⟩
    · exact absurd h hn
    · rw [hs, strchr_split p t 58 hp]; rfl

theorem numFields_eq (fuel : Nat) (s : Str) : numFields fuel s = min fuel (s.count 58) := by
  induction fuel generalizing s with
  | zero => simp [numFields]
  | succ n ih =>
    rw [numFields]
    rcases split_first s 58 with h | ⟨p, t, hs, hp⟩
    · rw [strchr_none s 58 h, List.count_eq_zero.mpr h]; simp
    · rw [hs, strchr_split p t 58 hp]
      simp only [ih]
      have : (p ++ 58 :: t).drop (p.length + 1) = t := by simp [List.drop_append]
      rw [this, List.count_append, List.count_eq_zero.mpr hp]
      simp; omega

/-- The last-field position is just after a colon. -/
theorem lastField_colon (fuel : Nat) (s : Str) (h : 1 ≤ numFields fuel s) :
    ∃ E t, s = E ++ 58 :: t ∧ lastField fuel s = E.length + 1 ∧ numFields fuel s ≤ E.length + 1 := by
  induction fuel generalizing s with
  | zero => simp [numFields] at h
  | succ n ih =>
    rw [numFields] at h
    rcases split_first s 58 with hn | ⟨p, t, hs, hp⟩
    · rw [strchr_none s 58 hn] at h; simp at h
    · subst hs
      have hd : (p ++ 58 :: t).drop (p.length + 1) = t := by simp [List.drop_append]
      rw [lastField, numFields, strchr_split p t 58 hp]
      simp only [hd]
      by_cases h1 : 1 ≤ numFields n t
      · obtain ⟨E, u, ht, hl, hn⟩ := ih t h1
        refine ⟨p ++ 58 :: E, u, by rw [ht]; simp, by rw [hl]; simp; omega, by simp; omega⟩
      · have h0 : lastField n t = 0 := by
          cases n with
          | zero => rfl
          | succ m =>
            rw [numFields] at h1
            rcases split_first t 58 with hn | ⟨q, v, hs, hq⟩
            · rw [lastField, strchr_none t 58 hn]
            · rw [hs, strchr_split q v 58 hq] at h1; simp at h1
        exact ⟨p, t, rfl, by omega, by omega⟩

/-- With few enough colons the last field is the text after the last colon. -/
theorem lastField_eq (fuel : Nat) (E D : Str) (hD : 58 ∉ D) (hc : E.count 58 < fuel) :
    lastField fuel (E ++ 58 :: D) = E.length + 1 := by
  induction fuel generalizing E with
  | zero => omega
  | succ n ih =>
    rw [lastField]
    rcases split_first E 58 with h | ⟨p, t, hs, hp⟩
    · rw [strchr_split E D 58 h]
      have hd : (E ++ 58 :: D).drop (E.length + 1) = D := by simp [List.drop_append]
      simp only [hd]
      cases n with
      | zero => rfl
      | succ m => rw [lastField, strchr_none D 58 hD]; rfl
    · subst hs
      have e : p ++ 58 :: t ++ 58 :: D = p ++ 58 :: (t ++ 58 :: D) := by simp
      rw [e, strchr_split p _ 58 hp]
      have hd : (p ++ 58 :: (t ++ 58 :: D)).drop (p.length + 1) = t ++ 58 :: D := by
        simp [List.drop_append]
      simp only [hd]
      rw [ih t]
      · simp; omega
      · rw [List.count_append, List.count_eq_zero.mpr hp] at hc
        simp at hc; omega

/-! ## Reading strings from the message buffer -/

theorem cstrAt_eq (a s rest : Str) (h : 0 ∉ s) :
    cstrAt (a ++ s ++ 0 :: rest) a.length = some s := by
  unfold cstrAt
  have hd : (a ++ s ++ 0 :: rest).drop a.length = s ++ 0 :: rest := by
    rw [List.append_assoc]; simp
  rw [hd, if_pos (by simp), takeWhile_ne_split s rest 0 h]

/-- `E` followed by two zero bytes: what is left of the buffer after the digest is cut off. -/
def Good (buf E : Str) : Prop := ∃ rest, buf = E ++ 0 :: 0 :: rest ∧ 0 ∉ E

theorem readStr_good {buf E : Str} (h : Good buf E) (i : Nat) (hi : i ≤ E.length + 1) :
    readStr buf i = .ok (E.drop i) := by
  obtain ⟨rest, hb, h0⟩ := h
  unfold readStr
  by_cases hle : i ≤ E.length
  · have e : buf = E.take i ++ E.drop i ++ 0 :: (0 :: rest) := by
      rw [List.take_append_drop, hb]
    have hl : (E.take i).length = i := by simp [hle]
    have hn : 0 ∉ E.drop i := fun hm => h0 (List.mem_of_mem_drop hm)
    have := cstrAt_eq (E.take i) (E.drop i) (0 :: rest) hn
    rw [hl, ← e] at this
    rw [this]
  · have hi' : i = E.length + 1 := by omega
    have e : buf = (E ++ [0]) ++ [] ++ 0 :: rest := by simp [hb]
    have := cstrAt_eq (E ++ [0]) [] rest (by simp)
    rw [← e] at this
    have hl : (E ++ [0]).length = i := by simp [hi']
    rw [hl] at this
    rw [this, hi']
    simp

theorem wrapper_range (s : Str) (min max : Int) (h : (strtol_wrapper s min max).2 = true) :
    min ≤ (strtol_wrapper s min max).1 ∧ (0 ≤ max → (strtol_wrapper s min max).1 ≤ max) ∧
    -(2 ^ 31) ≤ (strtol_wrapper s min max).1 ∧ (strtol_wrapper s min max).1 < 2 ^ 31 :=
  strtol_wrapper_range s min max _ (Prod.ext rfl h)

theorem decodeField_sat (f : Str) (n : Nat) (h : f.length ≤ n) :
    Sat (decodeField f n) (fun d => 4 * d.length ≤ 3 * f.length) := by
  unfold decodeField
  cases hd : b64_decode f with
  | none => exact sat_err
  | some d =>
    have := decodeLoop_length f 0 0 d hd
    simp only at *
    rw [if_neg (by simp at this; omega)]
    apply sat_ok
    have h2 : (d.takeWhile (· ≠ 0)).length ≤ d.length := (List.takeWhile_sublist _).length_le
    simp at this
    omega

theorem copyField_sat (s : Str) (n : Nat) (h : n + 1 ≤ 1024) :
    Sat (copyField s n) (fun f => f = s.take n) := by
  unfold copyField
  simp only [FKO_ENCODE_TMP_BUF_SIZE]
  rw [if_neg (by omega)]
  exact sat_ok rfl

/-! ## Each parser: no out-of-bounds access, and what success means -/

section parsers
variable {buf E : Str} (hg : Good buf E) (ndx : Nat) (hn : ndx ≤ E.length + 1) (c : Ctx)
include hg hn

omit hg hn in
theorem next_le (hl : fieldLen (E.drop ndx) ≥ 1) :
    ndx + fieldLen (E.drop ndx) + 1 ≤ E.length + 1 := by
  have := fieldLen_le (E.drop ndx)
  rw [List.length_drop] at this
  omega

theorem parse_rand_val_sat : Sat (parse_rand_val buf ndx c) fun x =>
    x.1 ≤ E.length + 1 ∧ ∃ r, r.length = 16 ∧ (∀ ch ∈ r, ch ∈ E) ∧ 58 ∉ r ∧
      x.2 = { c with rand_val := some r } := by
  unfold parse_rand_val
  rw [readStr_good hg ndx hn]
  apply sat_guard; intro h1
  simp only [decide_eq_false_iff_not, FKO_RAND_VAL_SIZE] at h1
  apply sat_pure
  refine ⟨next_le ndx (by omega), _, ?_, ?_, ?_, rfl⟩
  · have := fieldLen_le (E.drop ndx)
    simp only [List.length_take, FKO_RAND_VAL_SIZE]; omega
  · intro ch hc; exact List.mem_of_mem_drop (List.mem_of_mem_take hc)
  · obtain ⟨p, t, hs, hp, hl, _⟩ := fieldLen_cases (E.drop ndx)
    rw [hs, List.take_append_of_le_length (by simp only [FKO_RAND_VAL_SIZE]; omega)]
    exact fun h => hp (List.mem_of_mem_take h)

theorem parse_username_sat : Sat (parse_username buf ndx c) fun x =>
    x.1 ≤ E.length + 1 ∧ ∃ u, validate_username u = true ∧ u.length ≤ 48 ∧
      x.2 = { c with username := some u } := by
  unfold parse_username
  rw [readStr_good hg ndx hn]
  apply sat_guard; intro h1
  apply sat_guard; intro h2
  simp only [decide_eq_false_iff_not, MAX_SPA_USERNAME_SIZE] at h1 h2
  apply sat_bind _ (copyField_sat _ _ (by omega)); rintro f rfl
  apply sat_bind _ (decodeField_sat _ _ (by simp; omega)); intro u hu
  apply sat_guard; intro h3
  apply sat_pure
  refine ⟨next_le ndx (by omega), u, by simpa using h3, ?_, rfl⟩
  have := fieldLen_le (E.drop ndx)
  simp only [List.length_take] at hu; omega

theorem parse_timestamp_sat : Sat (parse_timestamp buf ndx c) fun x =>
    x.1 ≤ E.length + 1 ∧ ∃ t : Int, 0 ≤ t ∧ t < 2 ^ 31 ∧ x.2 = { c with timestamp := t } := by
  unfold parse_timestamp
  rw [readStr_good hg ndx hn]
  apply sat_guard; intro h1
  apply sat_guard; intro h2
  simp only [decide_eq_false_iff_not, MAX_SPA_TIMESTAMP_SIZE] at h1 h2
  apply sat_bind _ (copyField_sat _ _ (by omega)); rintro f rfl
  apply sat_guard; intro h3
  apply sat_pure
  refine ⟨next_le ndx (by omega), _, ?_, ?_, rfl⟩
  · exact Int.emod_nonneg _ (by decide)
  · have h3' : (strtol_wrapper ((E.drop ndx).take (fieldLen (E.drop ndx))) 0 (-1)).2 = true := by
      simpa using h3
    have := wrapper_range _ _ _ h3'
    omega

theorem parse_version_sat : Sat (parse_version buf ndx c) fun x =>
    x.1 ≤ E.length + 1 ∧ ∃ v, 1 ≤ v.length ∧ v.length ≤ 8 ∧ (∀ ch ∈ v, ch ∈ E) ∧ 58 ∉ v ∧
      x.2 = { c with version := some v } := by
  unfold parse_version
  rw [readStr_good hg ndx hn]
  apply sat_guard; intro h1
  apply sat_guard; intro h2
  simp only [decide_eq_false_iff_not, MAX_SPA_VERSION_SIZE] at h1 h2
  apply sat_pure
  have hle := fieldLen_le (E.drop ndx)
  refine ⟨next_le ndx (by omega), _, ?_, ?_, ?_, ?_, rfl⟩
  · simp only [List.length_take]; omega
  · simp only [List.length_take]; omega
  · intro ch hc; exact List.mem_of_mem_drop (List.mem_of_mem_take hc)
  · obtain ⟨p, t, hs, hp, hl, _⟩ := fieldLen_cases (E.drop ndx)
    rw [hl, hs]; simpa using hp

theorem parse_msg_type_sat : Sat (parse_msg_type buf ndx c) fun x =>
    x.1 ≤ E.length + 1 ∧ ∃ t : Int, 0 ≤ t ∧ t ≤ 6 ∧ x.2 = { c with message_type := t } := by
  unfold parse_msg_type
  rw [readStr_good hg ndx hn]
  apply sat_guard; intro h1
  apply sat_guard; intro h2
  simp only [decide_eq_false_iff_not, MAX_SPA_MESSAGE_TYPE_SIZE] at h1 h2
  apply sat_bind _ (copyField_sat _ _ (by omega)); rintro f rfl
  apply sat_guard; intro h3
  apply sat_guard; intro h4
  apply sat_pure
  have h3' : (strtol_wrapper ((E.drop ndx).take (fieldLen (E.drop ndx))) 0
      (FKO_LAST_MSG_TYPE - 1)).2 = true := by simpa using h3
  have := wrapper_range _ _ _ h3'
  exact ⟨next_le ndx (by omega), _, this.1, this.2.1 (by decide), rfl⟩

theorem parse_msg_sat : Sat (parse_msg buf ndx c) fun x =>
    x.1 ≤ E.length + 1 ∧ ∃ m, (if c.message_type = 0 then validate_cmd_msg m = true
      else validate_access_msg m = true) ∧ m.length ≤ 192 ∧
      x.2 = { c with message := some m } := by
  unfold parse_msg
  rw [readStr_good hg ndx hn]
  apply sat_guard; intro h1
  apply sat_guard; intro h2
  simp only [decide_eq_false_iff_not, MAX_SPA_MESSAGE_SIZE] at h1 h2
  apply sat_bind _ (copyField_sat _ _ (by omega)); rintro f rfl
  apply sat_bind _ (decodeField_sat _ _ (by simp; omega)); intro u hu
  apply sat_guard; intro h3
  apply sat_pure
  refine ⟨next_le ndx (by omega), u, ?_, ?_, rfl⟩
  · simp only [FKO_COMMAND_MSG] at h3
    split at h3 <;> simp_all
  · have := fieldLen_le (E.drop ndx)
    simp only [List.length_take] at hu; omega

theorem parse_nat_msg_sat : Sat (parse_nat_msg buf ndx c) fun x =>
    x.1 ≤ E.length + 1 ∧
    ((isNatType c.message_type = true ∧ ∃ m, validate_nat_access_msg m = true ∧ m.length ≤ 192 ∧
      x.2 = { c with nat_access := some m }) ∨
     (isNatType c.message_type = false ∧ x.2 = c)) := by
  unfold parse_nat_msg
  cases ht : isNatType c.message_type with
  | false => exact sat_ok ⟨hn, Or.inr ⟨rfl, rfl⟩⟩
  | true =>
    rw [if_pos rfl, readStr_good hg ndx hn]
    apply sat_guard; intro h1
    apply sat_guard; intro h2
    simp only [decide_eq_false_iff_not, MAX_SPA_MESSAGE_SIZE] at h1 h2
    apply sat_bind _ (copyField_sat _ _ (by omega)); rintro f rfl
    apply sat_bind _ (decodeField_sat _ _ (by simp; omega)); intro u hu
    apply sat_guard; intro h3
    apply sat_pure
    refine ⟨next_le ndx (by omega), Or.inl ⟨rfl, u, by simpa using h3, ?_, rfl⟩⟩
    have := fieldLen_le (E.drop ndx)
    simp only [List.length_take] at hu; omega

theorem parse_server_auth_sat : Sat (parse_server_auth buf ndx c) fun x =>
    x.1 ≤ E.length + 1 ∧
    (x.2 = c ∨ ∃ a, a.length ≤ 192 ∧ x.2 = { c with server_auth := some a }) := by
  unfold parse_server_auth
  rw [readStr_good hg ndx hn]
  simp only [bind_ok]
  by_cases hpos : (E.drop ndx).length > 0
  · rw [if_pos hpos]
    apply sat_guard; intro h1
    simp only [decide_eq_false_iff_not, MAX_SPA_MESSAGE_SIZE] at h1
    have hle := fieldLen_le (E.drop ndx)
    cases isTimeoutType c.message_type with
    | true =>
      rw [if_pos rfl]
      by_cases hc : (strchr (E.drop ndx) 58).isSome = true
      · rw [if_pos hc]
        apply sat_guard; intro h2
        simp only [decide_eq_false_iff_not, MAX_SPA_MESSAGE_SIZE] at h2
        apply sat_bind _ (copyField_sat _ _ (by omega)); rintro f rfl
        apply sat_bind _ (decodeField_sat _ _ (by simp; omega)); intro u hu
        apply sat_pure
        refine ⟨?_, Or.inr ⟨u, ?_, rfl⟩⟩
        · simp only [List.length_drop] at hle hpos; omega
        · simp only [List.length_take] at hu; omega
      · rw [if_neg hc]
        exact sat_pure ⟨hn, Or.inl rfl⟩
    | false =>
      rw [if_neg (by simp)]
      apply sat_bind _ (copyField_sat _ _ (by omega)); rintro f rfl
      apply sat_bind _ (decodeField_sat _ _ (by simp)); intro u hu
      apply sat_pure
      exact ⟨hn, Or.inr ⟨u, by simp only [List.length_take] at hu; omega, rfl⟩⟩
  · rw [if_neg hpos]
    exact sat_pure ⟨hn, Or.inl rfl⟩

theorem parse_client_timeout_sat : Sat (parse_client_timeout buf ndx c) fun x =>
    x.1 ≤ E.length + 1 ∧
    ((isTimeoutType c.message_type = true ∧ ∃ t, t ≤ 65536 ∧ x.2 = { c with client_timeout := t }) ∨
     (isTimeoutType c.message_type = false ∧ x.2 = c)) := by
  unfold parse_client_timeout
  cases ht : isTimeoutType c.message_type with
  | false => exact sat_ok ⟨hn, Or.inr ⟨rfl, rfl⟩⟩
  | true =>
    rw [if_pos rfl, readStr_good hg ndx hn]
    apply sat_guard; intro h1
    apply sat_guard; intro h2
    apply sat_guard; intro h3
    apply sat_guard; intro h4
    apply sat_pure
    have h4' : (strtol_wrapper (E.drop ndx) 0 65536).2 = true := by simpa using h4
    have := wrapper_range _ _ _ h4'
    exact ⟨hn, Or.inl ⟨rfl, _, by omega, rfl⟩⟩

end parsers

end Fwknop
