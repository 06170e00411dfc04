import Verif.Lemmas.RoundTrip

/-!
# The encoder writes the documented text
-/

namespace Fwknop
open Fwknop.Base64 Fwknop.Spec Fwknop.Res

theorem strlcat_eq (dst src : Str) (h : dst.length + src.length ≤ 1023) :
    strlcat dst src 1024 = dst ++ src := by
  unfold strlcat
  rw [if_neg (by omega), List.take_of_length_le (by omega)]

theorem append_b64_eq (t s : Str) (hs : IsBytes s) (h : s.length < 1500)
    (hl : t.length + (b64NoPad s).length ≤ 1023) : append_b64 t s = some (t ++ b64NoPad s) := by
  unfold append_b64
  simp only [MAX_SPA_ENCODED_MSG_SIZE, FKO_ENCODE_TMP_BUF_SIZE]
  rw [if_neg (by omega), strip_encode s hs, strlcat_eq _ _ hl]

theorem appendOpt_eq (t : Str) (o : Option Str) (hs : ∀ a, o = some a → IsBytes a ∧ a.length < 1500)
    (hl : t.length + (optField o).length ≤ 1023) : appendOpt t o = some (t ++ optField o) := by
  cases o with
  | none => simp [appendOpt, optField]
  | some a =>
    obtain ⟨h1, h2⟩ := hs a rfl
    simp only [optField, List.length_cons] at hl
    simp only [appendOpt, FKO_ENCODE_TMP_BUF_SIZE]
    rw [strlcat_eq _ _ (by simp; omega), append_b64_eq _ _ h1 h2 (by simp; omega)]
    simp [optField]

section wf
variable {r : Request} (hr : r.WellFormed)
include hr

theorem nat_len : (optField r.nat).length ≤ 257 := by
  cases hn : r.nat with
  | none => simp [optField]
  | some n =>
    have : HasNat r.type := by
      by_cases h : HasNat r.type
      · exact h
      · rw [hr.nat_none h] at hn; cases hn
    obtain ⟨m, hm, _, _, hml⟩ := hr.nat_some this
    rw [hm] at hn; cases hn
    simp only [optField, List.length_cons, b64NoPad_length]; omega

theorem auth_len : (optField r.auth).length ≤ 86 := by
  cases hn : r.auth with
  | none => simp [optField]
  | some n =>
    have := (hr.auth_ok n hn).2.2
    simp only [optField, List.length_cons, b64NoPad_length]; omega

theorem timeout_le : r.timeout ≤ 65536 := by
  by_cases h : HasTimeout r.type
  · exact (hr.timeout_some h).2
  · rw [hr.timeout_none h]; omega

theorem encodeText_wire :
    encodeText r.rand r.user r.ts r.version r.type r.msg r.nat r.auth r.timeout = some r.wire := by
  have h1 := hr.rand_len
  have h2 := hr.user_len
  have h3 : (decStr r.ts).length ≤ 10 :=
    decStr_length_le _ 10 (by decide) (by have := hr.ts_lt; omega)
  have h4 := hr.version_len.2
  have h5 : (decStr r.type).length ≤ 1 :=
    decStr_length_le _ 1 (by decide) (by have := hr.type_le; omega)
  have h6 := hr.msg_len
  have h7 := nat_len hr
  have h8 := auth_len hr
  have h9 : (decStr r.timeout).length ≤ 5 :=
    decStr_length_le _ 5 (by decide) (by have := timeout_le hr; omega)
  have hu : (b64NoPad r.user).length ≤ 64 := by rw [b64NoPad_length]; omega
  have hm : (b64NoPad r.msg).length ≤ 256 := by rw [b64NoPad_length]; omega
  have ets : ((r.ts : Int) % 2 ^ 32).toNat = r.ts := by have := hr.ts_lt; omega
  unfold encodeText
  simp only [FKO_ENCODE_TMP_BUF_SIZE, strlcpy, ets, decStrInt_nat]
  rw [List.take_of_length_le (by omega), strlcat_eq _ _ (by simp; omega),
    append_b64_eq _ _ (isText_bytes (userChar_text hr.user_chars)) (by omega) (by simp; omega)]
  simp only
  rw [strlcat_eq (_ ++ b64NoPad r.user) _ (by simp; omega)]
  rw [strlcat_eq _ r.version (by simp; omega)]
  rw [strlcat_eq (_ ++ r.version) _ (by simp; omega)]
  rw [append_b64_eq _ _ (isText_bytes hr.msg_text) (by omega) (by simp; omega)]
  simp only
  rw [appendOpt_eq _ r.nat (fun a ha => ⟨isText_bytes (wf_nat_text hr a ha), by
      rw [ha] at h7; simp only [optField, List.length_cons, b64NoPad_length] at h7; omega⟩)
      (by simp; omega)]
  simp only
  rw [appendOpt_eq _ r.auth (fun a ha => ⟨isText_bytes (wf_auth_text hr a ha), by
      rw [ha] at h8; simp only [optField, List.length_cons, b64NoPad_length] at h8; omega⟩)
      (by simp; omega)]
  simp only
  rw [wire_eq]
  unfold wireTail
  by_cases hT : HasTimeout r.type
  · have := hr.timeout_some hT
    rw [if_pos ⟨by omega, by simp only [HasTimeout] at hT; simp only [FKO_COMMAND_MSG]; omega⟩,
      strlcat_eq _ _ (by simp; omega), if_neg (by omega)]
    simp
  · rw [if_neg (by rw [hr.timeout_none hT]; simp), if_pos (hr.timeout_none hT)]
    simp

theorem timeoutType_coherent : timeoutType r.type r.timeout = r.type := by
  unfold timeoutType
  simp only [FKO_ACCESS_MSG, FKO_NAT_ACCESS_MSG, FKO_LOCAL_NAT_ACCESS_MSG,
    FKO_CLIENT_TIMEOUT_ACCESS_MSG, FKO_CLIENT_TIMEOUT_NAT_ACCESS_MSG,
    FKO_CLIENT_TIMEOUT_LOCAL_NAT_ACCESS_MSG]
  by_cases hT : HasTimeout r.type
  · have := hr.timeout_some hT
    simp only [HasTimeout] at hT
    rw [if_pos (by omega), if_neg (by omega), if_neg (by omega), if_neg (by omega)]
  · rw [if_neg (by rw [hr.timeout_none hT]; omega)]
    simp only [HasTimeout] at hT
    rw [if_neg (by omega), if_neg (by omega), if_neg (by omega)]

theorem wire_length : 36 ≤ r.wire.length ∧ r.wire.length ≤ 1023 ∧ r.wire.length + 87 < 1500 := by
  have h1 := hr.rand_len
  have h2 := hr.user_len
  have h3 : (decStr r.ts).length ≤ 10 :=
    decStr_length_le _ 10 (by decide) (by have := hr.ts_lt; omega)
  have h4 := hr.version_len
  have h5 : (decStr r.type).length ≤ 1 :=
    decStr_length_le _ 1 (by decide) (by have := hr.type_le; omega)
  have h6 := hr.msg_len
  have h7 := nat_len hr
  have h8 := auth_len hr
  have h9 : (decStr r.timeout).length ≤ 5 :=
    decStr_length_le _ 5 (by decide) (by have := timeout_le hr; omega)
  have hu : (b64NoPad r.user).length ≤ 64 := by rw [b64NoPad_length]; omega
  have hm : (b64NoPad r.msg).length ≤ 256 := by rw [b64NoPad_length]; omega
  have k3 : 1 ≤ (decStr r.ts).length := List.length_pos_iff.mpr (decStr_ne_nil _)
  have k5 : 1 ≤ (decStr r.type).length := List.length_pos_iff.mpr (decStr_ne_nil _)
  have ku : 2 ≤ (b64NoPad r.user).length := by
    have : 1 ≤ r.user.length := List.length_pos_iff.mpr hr.user_ne
    rw [b64NoPad_length]; omega
  have km : 10 ≤ (b64NoPad r.msg).length := by
    have hl : 9 ≤ r.msg.length := by
      have ipl : ∀ ip, IsIPv4 ip → 7 ≤ ip.length := by
        rintro ip ⟨a, b, c, d, ha, hb, hc, hd, he, _⟩
        have pa := List.length_pos_iff.mpr ha.1
        have pb := List.length_pos_iff.mpr hb.1
        have pc := List.length_pos_iff.mpr hc.1
        have pd := List.length_pos_iff.mpr hd.1
        rw [he]; simp; omega
      by_cases ht : r.type = 0
      · obtain ⟨ip, cmd, hip, hcmd, he, _⟩ := hr.msg_cmd ht
        have := ipl ip hip
        have := List.length_pos_iff.mpr hcmd
        rw [he]; simp; omega
      · obtain ⟨ip, sp, sps, hip, hsp, _, he, _⟩ := hr.msg_access ht
        have := ipl ip hip
        obtain ⟨p, ds, hp, hs, hd, _⟩ := hsp
        have : 5 ≤ sp.length := by rcases hp with h | h <;> rw [hs, h] <;> simp <;> omega
        rw [he]; simp; omega
    rw [b64NoPad_length]; omega
  rw [wire_eq]
  unfold wireTail
  have ht : (if r.timeout = 0 then ([] : Str) else 58 :: decStr r.timeout).length ≤ 6 := by
    split
    · simp
    · simp; omega
  simp only [List.length_append, List.length_cons]
  omega

/-- The encoder on a context that holds a well-formed request. -/
theorem encode_wire (H : Hash) (c : Ctx) (hc : Carries c r)
    (hd : 1 ≤ c.digest_type ∧ c.digest_type ≤ 7) :
    ∃ c', fko_encode_spa_data H c = .ok (true, c') ∧ Carries c' r ∧
      c'.encoded_msg = some (r.wire ++ [0]) ∧ c'.encoded_msg_len = r.wire.length ∧
      c'.digest = some (digest_base64 H c.digest_type r.wire) ∧
      c'.digest_type = c.digest_type ∧ c'.digest_len = b64DigestLen c.digest_type ∧
      c'.encryption_type = c.encryption_type ∧ c'.encryption_mode = c.encryption_mode ∧
      c'.hmac_type = c.hmac_type ∧ c'.isModified = false := by
  obtain ⟨c1, c2, c3, c4, c5, c6, c7, c8, c9⟩ := hc
  have hwl := wire_length hr
  unfold fko_encode_spa_data
  rw [c2, c4, c6]
  simp only
  have hml : 1 ≤ r.msg.length := List.length_pos_iff.mpr (wf_msg_ne hr)
  have hvl := hr.version_len
  rw [if_neg (by
    simp only [user_valid hr, MAX_SPA_VERSION_SIZE, MAX_SPA_MESSAGE_SIZE]
    rintro (h | h | h)
    · simp at h
    · omega
    · omega)]
  rw [if_neg (by
    rw [c5, c7]
    rintro ⟨h1, h2⟩
    simp only [FKO_NAT_ACCESS_MSG] at h1
    obtain ⟨n, hn, _, hg, _⟩ := hr.nat_some (Or.inl (by omega))
    rw [hn] at h2
    obtain ⟨host, ds, he, _⟩ := hg
    have : 1 ≤ n.length := by rw [he]; simp; omega
    simp only [natLen, MAX_SPA_MESSAGE_SIZE] at h2
    omega)]
  rw [c1]
  simp only
  have hset : fko_set_spa_client_timeout c c.client_timeout =
      some (({ c with client_timeout := r.timeout, message_type := r.type } : Ctx).setFlag
        FKO_DATA_MODIFIED) := by
    unfold fko_set_spa_client_timeout
    rw [c9, c5, if_neg (by omega)]
    simp only [Int.toNat_natCast, timeoutType_coherent hr]
    simp
  rw [hset]
  simp only [Option.getD_some, Ctx.setFlag]
  rw [c3, c7, c8, encodeText_wire hr]
  simp only [MAX_SPA_ENCODED_MSG_SIZE]
  have hmin : min r.wire.length 1500 = r.wire.length := by omega
  simp only [hmin]
  have hvalid : is_valid_encoded_msg_len (r.wire.length : Int) = true := by
    simp only [is_valid_encoded_msg_len, MIN_SPA_ENCODED_MSG_SIZE]
    simp; omega
  simp only [hvalid]
  have hdig : set_digest H r.wire c.digest_type = some (digest_base64 H c.digest_type r.wire) := by
    unfold set_digest
    simp only [MAX_SPA_ENCODED_MSG_SIZE, FKO_LAST_DIGEST_TYPE]
    rw [if_neg (by omega), if_neg (by omega)]
  simp only [hdig]
  refine ⟨_, rfl, ⟨c1, c2, rfl, c4, rfl, c6, rfl, rfl, rfl⟩, rfl, rfl, rfl, rfl, rfl, rfl, rfl,
    rfl, ?_⟩
  unfold Ctx.isModified Ctx.clearModified
  simp only [FKO_SPA_DATA_MODIFIED]
  rw [Nat.and_assoc, show (65535 - (2 + 64 + 4096 + 8192)) &&& (2 + 64 + 4096 + 8192) = 0 by decide]
  simp

theorem print_wire : ∀ c ∈ r.wire, isPrint c = true := by
  have pb : ∀ s : Str, IsBytes s → ∀ c ∈ b64NoPad s, isPrint c = true := by
    intro s hs c hc
    have := b64NoPad_chars s hs c hc
    simp only [IsB64Char] at this
    simp only [isPrint, Bool.and_eq_true, decide_eq_true_eq]; omega
  have pd : ∀ n, ∀ c ∈ decStr n, isPrint c = true := by
    intro n c hc
    have := decStr_digits n c hc
    simp only [isDigit, isPrint, Bool.and_eq_true, decide_eq_true_eq] at *; omega
  have pp : ∀ s : Str, IsPlainField s → ∀ c ∈ s, isPrint c = true := by
    intro s hs c hc
    have := hs c hc
    simp only [isPrint, Bool.and_eq_true, decide_eq_true_eq]; omega
  have po : ∀ o : Option Str, (∀ a, o = some a → IsBytes a) → ∀ c ∈ optField o,
      isPrint c = true := by
    intro o ho c hc
    cases o with
    | none => simp [optField] at hc
    | some a =>
      simp only [optField, List.mem_cons] at hc
      rcases hc with rfl | hc
      · decide
      · exact pb a (ho a rfl) c hc
  intro c hc
  rw [wire_eq] at hc
  unfold wireTail at hc
  simp only [List.mem_append, List.mem_cons] at hc
  have cl : isPrint 58 = true := by decide
  rcases hc with h | h | h | h | h | h | h | h | h | h | h | h | h | h
  · exact pp _ hr.rand_chars c h
  · rw [h]; exact cl
  · exact pb _ (isText_bytes (userChar_text hr.user_chars)) c h
  · rw [h]; exact cl
  · exact pd _ c h
  · rw [h]; exact cl
  · exact pp _ hr.version_chars c h
  · rw [h]; exact cl
  · exact pd _ c h
  · rw [h]; exact cl
  · exact pb _ (isText_bytes hr.msg_text) c h
  · exact po _ (fun a ha => isText_bytes (wf_nat_text hr a ha)) c h
  · exact po _ (fun a ha => isText_bytes (wf_auth_text hr a ha)) c h
  · split at h
    · simp at h
    · simp only [List.mem_cons] at h
      rcases h with rfl | h
      · exact cl
      · exact pd _ c h

/-- The decoder on the text of a well-formed request followed by its digest. -/
theorem decode_wire {H : Hash} (hH : H.Lawful) (t : Int) (ht : 1 ≤ t ∧ t ≤ 7) (s : Ctx)
    (rest : Str)
    (hs : s.encoded_msg = some (r.wire ++ 58 :: digest_base64 H t r.wire ++ 0 :: rest))
    (hsl : s.encoded_msg_len = (r.wire ++ 58 :: digest_base64 H t r.wire).length)
    (h1 : s.nat_access = none) (h2 : s.server_auth = none) (h3 : s.client_timeout = 0) :
    ∃ s', fko_decode_spa_data H s = .ok s' ∧ Carries s' r ∧
      s'.digest = some (digest_base64 H t r.wire) := by
  have hwl := wire_length hr
  have hdl := digest_base64_length hH t r.wire
  have hdc := digest_base64_chars hH t r.wire
  have hdle : 22 ≤ b64DigestLen t ∧ b64DigestLen t ≤ 86 := by
    unfold b64DigestLen; repeat' split
    all_goals omega
  generalize hD : digest_base64 H t r.wire = D at *
  have h0 : 0 ∉ r.wire ++ 58 :: D := by
    simp only [List.mem_append, List.mem_cons, not_or]
    exact ⟨wire_no_zero hr, by decide, hdc.2⟩
  unfold fko_decode_spa_data
  rw [hs]
  simp only
  have htl : (r.wire ++ 58 :: D).length = r.wire.length + 1 + D.length := by simp; omega
  have hlen : is_valid_encoded_msg_len s.encoded_msg_len = true := by
    rw [hsl, htl]
    simp only [is_valid_encoded_msg_len, MIN_SPA_ENCODED_MSG_SIZE]
    simp; omega
  have hread : readStr (r.wire ++ 58 :: D ++ 0 :: rest) 0 = .ok (r.wire ++ 58 :: D) := by
    have := cstrAt_eq [] (r.wire ++ 58 :: D) rest h0
    simp only [List.nil_append, List.length_nil] at this
    unfold readStr; rw [this]
  rw [hlen, hread]
  have hprint : ((r.wire ++ 58 :: D).take MAX_SPA_ENCODED_MSG_SIZE).all isPrint = true := by
    rw [List.all_eq_true]
    intro c hc
    have hc := List.mem_of_mem_take hc
    simp only [List.mem_append, List.mem_cons] at hc
    rcases hc with h | h | h
    · exact print_wire hr c h
    · rw [h]; decide
    · rw [← hD, digest_base64_eq hH] at h
      have := b64NoPad_chars _ (hH.bytes t r.wire) c h
      simp only [IsB64Char] at this
      simp only [isPrint, Bool.and_eq_true, decide_eq_true_eq]; omega
  have hcount := wire_count hr
  have hcount2 := wire_count_ge (r := r)
  have hnf : numFields (MAX_SPA_FIELDS + 2) (r.wire ++ 58 :: D) = r.wire.count 58 + 1 := by
    rw [numFields_eq, List.count_append, List.count_cons, List.count_eq_zero.mpr hdc.1]
    simp [MAX_SPA_FIELDS]; omega
  have hlf : lastField (MAX_SPA_FIELDS + 2) (r.wire ++ 58 :: D) = r.wire.length + 1 :=
    lastField_eq _ _ _ hdc.1 (by simp only [MAX_SPA_FIELDS]; omega)
  have hread2 : readStr (r.wire ++ 58 :: D ++ 0 :: rest) (r.wire.length + 1) = .ok D := by
    have := cstrAt_eq (r.wire ++ [58]) D rest hdc.2
    simp only [List.length_append, List.length_cons, List.length_nil] at this
    have e : r.wire ++ 58 :: D ++ 0 :: rest = r.wire ++ [58] ++ D ++ 0 :: rest := by simp
    unfold readStr; rw [e, this]
  have hmin : min D.length 87 = D.length := by omega
  obtain ⟨t0, dt, hty, hvf⟩ := verify_digest_ok hH t ht r.wire
  rw [hD] at hty hvf
  simp only [Bool.not_true, guard_false, bind_ok, hprint, hnf, hlf, hread2, hmin, hty,
    MIN_SPA_FIELDS]
  rw [decide_eq_false (by omega), decide_eq_false (by rw [hsl, htl]; omega)]
  simp only [guard_false, bind_ok]
  rw [decide_eq_false (by
    have : (r.wire ++ 58 :: D ++ 0 :: rest).length = r.wire.length + 1 + D.length + 1 + rest.length := by
      simp; omega
    rw [this]; omega)]
  simp only [mem_false, bind_ok, Nat.add_sub_cancel]
  have hgood := good_chop r.wire D rest (wire_no_zero hr) (by omega)
  obtain ⟨tl, hz, hzl⟩ := zeroRange_chop r.wire D rest
  have e1 : s.encoded_msg_len - (D.length + 1) = r.wire.length := by rw [hsl, htl]; omega
  have htake : (zeroRange (r.wire ++ 58 :: D ++ 0 :: rest) r.wire.length D.length).take
      r.wire.length = r.wire := by rw [hz]; simp
  rw [decide_eq_false (by
    rw [e1, hzl]
    have : (r.wire ++ 58 :: D ++ 0 :: rest).length = r.wire.length + 1 + D.length + 1 + rest.length := by
      simp; omega
    rw [this]; omega)]
  simp only [mem_false, bind_ok, e1, Int.toNat_natCast, htake, hvf]
  exact ⟨_, parse_wire hr hgood _ h1 h2 h3, ⟨rfl, rfl, rfl, rfl, rfl, rfl, rfl, rfl, rfl⟩, rfl⟩

end wf

end Fwknop
