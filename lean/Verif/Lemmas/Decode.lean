import Verif.Lemmas.Spa
import Verif.Spec.Spa

/-!
# The decoder as a whole
-/

namespace Fwknop
open Fwknop.Base64 Fwknop.Spec Fwknop.Res

/-! ## Comparison of digests -/

theorem cmpCounts_cons (x y : Nat) (a b : Str) (n : Nat) (g bd : Int) :
    cmpCounts (x :: a) (y :: b) (n + 1) g bd =
      if x = y then cmpCounts a b n (g + 1) bd else cmpCounts a b n g (bd + 1) := rfl

theorem cmpCounts_spec (n : Nat) (a b : Str) (g bd : Int) (ha : n ≤ a.length) (hb : n ≤ b.length) :
    ∃ k : Nat, (cmpCounts a b n g bd).1 = g + k ∧ (cmpCounts a b n g bd).2 = bd + (n - k : Nat) ∧
      k ≤ n ∧ (k = n ↔ a.take n = b.take n) := by
  induction n generalizing a b g bd with
  | zero => exact ⟨0, by simp [cmpCounts]⟩
  | succ n ih =>
    cases a with
    | nil => simp at ha
    | cons x a =>
      cases b with
      | nil => simp at hb
      | cons y b =>
        simp only [List.length_cons, Nat.add_le_add_iff_right] at ha hb
        rw [cmpCounts_cons]
        simp only [List.take_succ_cons, List.cons.injEq]
        by_cases h : x = y
        · rw [if_pos h]
          obtain ⟨k, h1, h2, h3, h4⟩ := ih a b (g + 1) bd ha hb
          refine ⟨k + 1, by rw [h1]; push_cast; omega, by rw [h2]; congr 2; omega, by omega, ?_⟩
          rw [← h4]; simp [h]
        · rw [if_neg h]
          obtain ⟨k, h1, h2, h3, h4⟩ := ih a b g (bd + 1) ha hb
          refine ⟨k, h1, by rw [h2]; omega, by omega, ?_⟩
          simp [h]; omega

theorem constant_runtime_cmp_iff (a b : Str) (n : Nat) (ha : n ≤ a.length) (hb : n ≤ b.length) :
    constant_runtime_cmp a b n = 0 ↔ a.take n = b.take n := by
  obtain ⟨k, h1, h2, h3, h4⟩ := cmpCounts_spec n a b 0 0 ha hb
  unfold constant_runtime_cmp
  simp only [h1, h2]
  rw [← h4]
  by_cases h : k = n
  · simp [h]
  · rw [if_neg (by omega)]; simp [h]; omega

theorem cmp_eq_zero {a b : Str} {n : Nat} (ha : a.length = n) (hb : b.length = n) :
    constant_runtime_cmp a b n = 0 ↔ a = b := by
  rw [constant_runtime_cmp_iff a b n (by omega) (by omega)]
  rw [List.take_of_length_le (by omega), List.take_of_length_le (by omega)]

theorem b64DigestLen_eq (t : Int) : b64DigestLen t = (4 * digestLen t + 2) / 3 := by
  unfold b64DigestLen digestLen
  repeat' split
  all_goals first | rfl | omega

theorem digest_base64_eq {H : Hash} (hH : H.Lawful) (t : Int) (m : Str) :
    digest_base64 H t m = b64NoPad (H t m) := strip_encode _ (hH.bytes t m)

theorem digest_base64_length {H : Hash} (hH : H.Lawful) (t : Int) (m : Str) :
    (digest_base64 H t m).length = b64DigestLen t := by
  rw [digest_base64_eq hH, b64NoPad_length, hH.len, b64DigestLen_eq]

theorem b64NoPad_no {s : Str} (hs : IsBytes s) : 58 ∉ b64NoPad s ∧ 0 ∉ b64NoPad s := by
  have h := b64NoPad_chars s hs
  constructor <;> (intro hc; have := h _ hc; simp only [IsB64Char] at this; omega)

theorem digest_base64_chars {H : Hash} (hH : H.Lawful) (t : Int) (m : Str) :
    58 ∉ digest_base64 H t m ∧ 0 ∉ digest_base64 H t m := by
  rw [digest_base64_eq hH]; exact b64NoPad_no (hH.bytes t m)

theorem digestTypeOfLen_some {n : Nat} {t : Int} (h : digestTypeOfLen n = some t) :
    n = b64DigestLen t ∧ 1 ≤ t ∧ t ≤ 5 ∧ 22 ≤ n ∧ n ≤ 86 := by
  unfold digestTypeOfLen at h
  repeat' split at h
  all_goals (try (simp only [Option.some.injEq] at h; subst h; subst n; decide))
  simp at h

/-- What `verify_digest` establishes. -/
theorem verify_digest_some {H : Hash} (hH : H.Lawful) {dig : Str} {t : Int} {data : Str}
    {dt : Int} (hlen : dig.length = b64DigestLen t)
    (h : verify_digest H dig dig.length t data = some dt) :
    dig = digest_base64 H dt data ∧ (dt = t ∨ (t = 3 ∧ dt = 6) ∨ (t = 5 ∧ dt = 7)) := by
  have hl := fun t => digest_base64_length hH t data
  unfold verify_digest at h
  simp only [FKO_DIGEST_SHA256, FKO_DIGEST_SHA3_256, FKO_DIGEST_SHA512, FKO_DIGEST_SHA3_512] at h
  by_cases h0 : constant_runtime_cmp dig (digest_base64 H t data) dig.length = 0
  · rw [if_neg (by simp [h0])] at h
    simp only [Option.some.injEq] at h
    subst h
    exact ⟨(cmp_eq_zero rfl (by rw [hl, hlen])).mp h0, Or.inl rfl⟩
  · rw [if_pos h0] at h
    by_cases h3 : t = 3
    · subst h3
      rw [if_pos rfl] at h
      by_cases h6 : constant_runtime_cmp dig (digest_base64 H 6 data) dig.length = 0
      · rw [if_neg (by simp [h6])] at h
        simp only [Option.some.injEq] at h
        subst h
        exact ⟨(cmp_eq_zero rfl (by rw [hl, hlen]; rfl)).mp h6, Or.inr (Or.inl ⟨rfl, rfl⟩)⟩
      · rw [if_pos h6] at h; simp at h
    · rw [if_neg h3] at h
      by_cases h5 : t = 5
      · subst h5
        rw [if_pos rfl] at h
        by_cases h6 : constant_runtime_cmp dig (digest_base64 H 7 data) dig.length = 0
        · rw [if_neg (by simp [h6])] at h
          simp only [Option.some.injEq] at h
          subst h
          exact ⟨(cmp_eq_zero rfl (by rw [hl, hlen]; rfl)).mp h6, Or.inr (Or.inr ⟨rfl, rfl⟩)⟩
        · rw [if_pos h6] at h; simp at h
      · rw [if_neg h5] at h; simp at h

/-- A right digest is accepted. -/
theorem verify_digest_ok {H : Hash} (hH : H.Lawful) (t : Int) (ht : 1 ≤ t ∧ t ≤ 7) (data : Str) :
    ∃ t0 dt, digestTypeOfLen (digest_base64 H t data).length = some t0 ∧
      verify_digest H (digest_base64 H t data) (digest_base64 H t data).length t0 data
        = some dt := by
  have hl := fun t => digest_base64_length hH t data
  have cases7 : t = 1 ∨ t = 2 ∨ t = 3 ∨ t = 4 ∨ t = 5 ∨ t = 6 ∨ t = 7 := by omega
  have same : ∀ n, n = (digest_base64 H t data).length →
      constant_runtime_cmp (digest_base64 H t data) (digest_base64 H t data) n = 0 :=
    fun n hn => (cmp_eq_zero hn.symm hn.symm).mpr rfl
  have direct : ∀ t0, t0 = t → verify_digest H (digest_base64 H t data)
      (digest_base64 H t data).length t0 data = some t0 := by
    rintro t0 rfl
    unfold verify_digest
    rw [if_neg (by simp [same _ rfl])]
  rcases cases7 with h | h | h | h | h | h | h <;> subst h
  · exact ⟨1, 1, by rw [hl]; decide, direct _ rfl⟩
  · exact ⟨2, 2, by rw [hl]; decide, direct _ rfl⟩
  · exact ⟨3, 3, by rw [hl]; decide, direct _ rfl⟩
  · exact ⟨4, 4, by rw [hl]; decide, direct _ rfl⟩
  · exact ⟨5, 5, by rw [hl]; decide, direct _ rfl⟩
  · by_cases h0 : constant_runtime_cmp (digest_base64 H 6 data) (digest_base64 H 3 data)
        (digest_base64 H 6 data).length = 0
    · refine ⟨3, 3, by rw [hl]; decide, ?_⟩
      unfold verify_digest; rw [if_neg (by simp [h0])]
    · refine ⟨3, 6, by rw [hl]; decide, ?_⟩
      unfold verify_digest
      rw [if_pos h0, if_pos rfl, if_neg (by simp [same _ rfl])]
  · by_cases h0 : constant_runtime_cmp (digest_base64 H 7 data) (digest_base64 H 5 data)
        (digest_base64 H 7 data).length = 0
    · refine ⟨5, 5, by rw [hl]; decide, ?_⟩
      unfold verify_digest; rw [if_neg (by simp [h0])]
    · refine ⟨5, 7, by rw [hl]; decide, ?_⟩
      unfold verify_digest
      rw [if_pos h0, if_neg (by decide), if_pos rfl, if_neg (by simp [same _ rfl])]

/-! ## Cutting the digest off -/

theorem zeroRange_chop (E D rest : Str) :
    ∃ tl, zeroRange (E ++ 58 :: D ++ 0 :: rest) E.length D.length
      = E ++ List.replicate D.length 0 ++ tl ∧
      (zeroRange (E ++ 58 :: D ++ 0 :: rest) E.length D.length).length
        = (E ++ 58 :: D ++ 0 :: rest).length := by
  refine ⟨(E ++ 58 :: D ++ 0 :: rest).drop (E.length + D.length), ?_, ?_⟩
  · unfold zeroRange
    congr 2
    rw [List.append_assoc]
    simp
  · unfold zeroRange
    simp; omega

theorem good_chop (E D rest : Str) (hE : 0 ∉ E) (hD : 2 ≤ D.length) :
    Good (zeroRange (E ++ 58 :: D ++ 0 :: rest) E.length D.length) E := by
  obtain ⟨tl, h, _⟩ := zeroRange_chop E D rest
  obtain ⟨n, hn⟩ : ∃ n, D.length = n + 2 := ⟨D.length - 2, by omega⟩
  refine ⟨List.replicate n 0 ++ tl, ?_, hE⟩
  rw [h, hn]
  simp [List.replicate_succ]

/-! ## Postcondition of the parsers together -/

/-- What decoding guarantees about the fields, starting from context `c0`. -/
def FieldsOk (E : Str) (c0 c : Ctx) : Prop :=
  (∃ r, c.rand_val = some r ∧ r.length = 16 ∧ (∀ ch ∈ r, ch ∈ E) ∧ 58 ∉ r) ∧
  (∃ u, c.username = some u ∧ validate_username u = true ∧ u.length ≤ 48) ∧
  (0 ≤ c.timestamp ∧ c.timestamp < 2 ^ 31) ∧
  (∃ v, c.version = some v ∧ 1 ≤ v.length ∧ v.length ≤ 8 ∧ (∀ ch ∈ v, ch ∈ E) ∧ 58 ∉ v) ∧
  (0 ≤ c.message_type ∧ c.message_type ≤ 6) ∧
  (∃ m, c.message = some m ∧ (if c.message_type = 0 then validate_cmd_msg m = true
      else validate_access_msg m = true) ∧ m.length ≤ 192) ∧
  (if isNatType c.message_type then
    ∃ n, c.nat_access = some n ∧ validate_nat_access_msg n = true ∧ n.length ≤ 192
    else c.nat_access = c0.nat_access) ∧
  (c.server_auth = c0.server_auth ∨ ∃ a, c.server_auth = some a ∧ a.length ≤ 192) ∧
  (if isTimeoutType c.message_type then c.client_timeout ≤ 65536
    else c.client_timeout = c0.client_timeout) ∧
  c.digest = c0.digest ∧ c.digest_type = c0.digest_type ∧ c.encoded_msg = c0.encoded_msg ∧
  c.encoded_msg_len = c0.encoded_msg_len

theorem parseFields_sat {buf E : Str} (hg : Good buf E) (c : Ctx) :
    Sat (parseFields buf c) (FieldsOk E c) := by
  unfold parseFields
  apply sat_bind _ (parse_rand_val_sat hg 0 (by omega) c)
  rintro ⟨n1, c1⟩ ⟨hn1, r, hr1, hr2, hr3, hc1⟩
  apply sat_bind _ (parse_username_sat hg n1 hn1 c1)
  rintro ⟨n2, c2⟩ ⟨hn2, u, hu1, hu2, hc2⟩
  apply sat_bind _ (parse_timestamp_sat hg n2 hn2 c2)
  rintro ⟨n3, c3⟩ ⟨hn3, t, ht1, ht2, hc3⟩
  apply sat_bind _ (parse_version_sat hg n3 hn3 c3)
  rintro ⟨n4, c4⟩ ⟨hn4, v, hv1, hv2, hv3, hv4, hc4⟩
  apply sat_bind _ (parse_msg_type_sat hg n4 hn4 c4)
  rintro ⟨n5, c5⟩ ⟨hn5, mt, hm1, hm2, hc5⟩
  apply sat_bind _ (parse_msg_sat hg n5 hn5 c5)
  rintro ⟨n6, c6⟩ ⟨hn6, m, hmm, hml, hc6⟩
  apply sat_bind _ (parse_nat_msg_sat hg n6 hn6 c6)
  rintro ⟨n7, c7⟩ ⟨hn7, hnat⟩
  apply sat_bind _ (parse_server_auth_sat hg n7 hn7 c7)
  rintro ⟨n8, c8⟩ ⟨hn8, hauth⟩
  apply sat_bind _ (parse_client_timeout_sat hg n8 hn8 c8)
  rintro ⟨n9, c9⟩ ⟨hn9, hto⟩
  apply sat_pure
  simp only at *
  subst hc1 hc2 hc3 hc4 hc5 hc6
  rcases hnat with ⟨hnt, n, hnv, hnl, rfl⟩ | ⟨hnt, rfl⟩ <;>
  rcases hauth with rfl | ⟨a, hal, rfl⟩ <;>
  rcases hto with ⟨htt, to, hto1, rfl⟩ | ⟨htt, rfl⟩ <;>
  (unfold FieldsOk
   simp only at hmm hnt htt ⊢
   refine ⟨⟨r, rfl, hr1, hr2, hr3⟩, ⟨u, rfl, hu1, hu2⟩, ⟨ht1, ht2⟩, ⟨v, rfl, hv1, hv2, hv3, hv4⟩,
     ⟨hm1, hm2⟩, ⟨m, rfl, hmm, hml⟩, ?_⟩
   simp [*])

/-- The decoder on a buffer that holds a terminated text: no undefined behaviour, and what a
successful decoding means. -/
theorem decode_sat {H : Hash} (hH : H.Lawful) (c : Ctx) (text rest : Str)
    (hbuf : c.encoded_msg = some (text ++ 0 :: rest)) (h0 : 0 ∉ text)
    (hlen : (text.length : Int) ≤ c.encoded_msg_len)
    (hlen2 : c.encoded_msg_len < (text ++ 0 :: rest).length) :
    Sat (fko_decode_spa_data H c) fun c' =>
      ∃ E D fill, text = E ++ 58 :: D ∧ 58 ∉ D ∧
        (∀ ch ∈ text.take 1500, isPrint ch = true) ∧
        36 ≤ c.encoded_msg_len ∧ c.encoded_msg_len < 1500 ∧
        (fill.length : Int) = c.encoded_msg_len - text.length ∧
        D = digest_base64 H c'.digest_type (E ++ fill) ∧
        1 ≤ c'.digest_type ∧ c'.digest_type ≤ 7 ∧ c'.digest = some D ∧
        c'.encoded_msg_len = E.length + fill.length ∧
        FieldsOk E c { c' with digest := c.digest, digest_type := c.digest_type,
                               encoded_msg := c.encoded_msg,
                               encoded_msg_len := c.encoded_msg_len } := by
  unfold fko_decode_spa_data
  rw [hbuf]
  simp only
  apply sat_guard; intro h1
  have hread : readStr (text ++ 0 :: rest) 0 = .ok text := by
    have := cstrAt_eq [] text rest h0
    simp only [List.nil_append, List.length_nil] at this
    unfold readStr; rw [this]
  rw [hread]
  simp only [bind_ok]
  apply sat_guard; intro h2
  apply sat_guard; intro h3
  have h3 : ¬ numFields 11 text < 6 := by simpa using h3
  obtain ⟨E, D, htext, hlast, hEl⟩ := lastField_colon 11 text (by omega)
  have hE0 : 0 ∉ E := fun h => h0 (by rw [htext]; simp [h])
  have hD0 : 0 ∉ D := fun h => h0 (by rw [htext]; simp [h])
  have hbe : text ++ 0 :: rest = (E ++ [58]) ++ D ++ 0 :: rest := by rw [htext]; simp
  have hread2 : readStr (text ++ 0 :: rest) (E.length + 1) = .ok D := by
    have := cstrAt_eq (E ++ [58]) D rest hD0
    rw [← hbe] at this
    simp only [List.length_append, List.length_cons, List.length_nil] at this
    unfold readStr; rw [this]
  simp only [MAX_SPA_FIELDS, hlast, hread2, bind_ok]
  cases hdt : digestTypeOfLen (min D.length 87) with
  | none => exact sat_err
  | some dtype =>
    have ⟨hd1, hd2, hd3, hd4, hd5⟩ := digestTypeOfLen_some hdt
    have hmin : min D.length 87 = D.length := by omega
    rw [hmin] at hd1 hd4 hd5
    simp only [hmin]
    apply sat_guard; intro h4
    have htl : text.length = E.length + 1 + D.length := by rw [htext]; simp; omega
    have hbl : (text ++ 0 :: rest).length = E.length + 1 + D.length + 1 + rest.length := by
      simp [htl]; omega
    apply sat_mem
    · simp only [hbl, decide_eq_false_iff_not]; omega
    have e1 : E.length + 1 - 1 = E.length := by omega
    rw [e1]
    have hb2 : text ++ 0 :: rest = E ++ 58 :: D ++ 0 :: rest := by rw [htext]
    rw [hb2]
    have hgood := good_chop E D rest hE0 (by omega)
    obtain ⟨tl, hz, hzl⟩ := zeroRange_chop E D rest
    have hzl : (zeroRange (E ++ 58 :: D ++ 0 :: rest) E.length D.length).length
        = E.length + 1 + D.length + 1 + rest.length := by rw [hzl, ← hb2, hbl]
    rw [hbl] at hlen2
    apply sat_mem
    · simp only [hzl, decide_eq_false_iff_not]; omega
    generalize hbz : zeroRange (E ++ 58 :: D ++ 0 :: rest) E.length D.length = buf' at *
    cases hv : verify_digest H D D.length dtype
        (buf'.take (c.encoded_msg_len - (D.length + 1)).toNat) with
    | none => exact sat_err
    | some dt =>
      have ⟨hv1, hv2⟩ := verify_digest_some hH hd1 hv
      apply (parseFields_sat hgood _).mono
      intro c' hf
      have hf' := hf
      obtain ⟨-, -, -, -, -, -, -, -, -, f1, f2, f3, f4⟩ := hf'
      simp only at f1 f2 f3 f4
      obtain ⟨rest', hb', _⟩ := hgood
      refine ⟨E, D, (0 :: 0 :: rest').take (c.encoded_msg_len - (D.length + 1) - E.length).toNat,
        htext, ?_, ?_, ?_, ?_, ?_, ?_, ?_, ?_, f1, ?_, ?_⟩
      · rw [hv1]; exact (digest_base64_chars hH _ _).1
      · simpa [List.all_eq_true] using h2
      · simp [is_valid_encoded_msg_len, MIN_SPA_ENCODED_MSG_SIZE] at h1; omega
      · simp [is_valid_encoded_msg_len, MIN_SPA_ENCODED_MSG_SIZE] at h1; omega
      · have : (E ++ 0 :: 0 :: rest').length = E.length + 1 + D.length + 1 + rest.length := by
          rw [← hb', hzl]
        simp only [List.length_append, List.length_cons] at this
        simp only [List.length_take, List.length_cons]
        omega
      · rw [f2]
        have : E ++ (0 :: 0 :: rest').take (c.encoded_msg_len - (D.length + 1) - E.length).toNat
            = buf'.take (c.encoded_msg_len - (D.length + 1)).toNat := by
          rw [hb', List.take_append]
          congr 1
          · rw [List.take_of_length_le]; omega
          · congr 1; omega
        rw [this]; exact hv1
      · rw [f2]; omega
      · rw [f2]; omega
      · rw [f4]
        have : (E ++ 0 :: 0 :: rest').length = E.length + 1 + D.length + 1 + rest.length := by
          rw [← hb', hzl]
        simp only [List.length_append, List.length_cons] at this
        simp only [List.length_take, List.length_cons]
        omega
      · obtain ⟨g1, g2, g3, g4, g5, g6, g7, g8, g9, -⟩ := hf
        exact ⟨g1, g2, g3, g4, g5, g6, g7, g8, g9, rfl, rfl, by rw [hbuf, hb2], rfl⟩

end Fwknop
