import Verif.Spec.KeyWipe
import Verif.Lemmas.ClientText
import Verif.Lemmas.Safe
import Verif.Lemmas.Post
import Verif.Lemmas.CmdCycle

/-!
# C133: the client's keys are erased when it ends
-/

namespace Fwknop.Props
open Fwknop Spec Res

theorem keyLine_for {server line k : Str} (h : keyFileLine server line = .ok (some k)) : LineFor server line ∧ 0 ∉ k ∧ k.length ≤ MAX_KEY_LEN := by
  unfold keyFileLine at h
  simp only at h
  split at h
  · cases h
  obtain ⟨u, hu, h⟩ := Res.bind_eq_ok h
  split at h
  · cases h
  rename_i hp
  simp at hp
  obtain ⟨r, hr⟩ := (hasPrefix_iff _ _).1 hp
  split at h
  · rename_i rest hd
    obtain ⟨v, hv, h⟩ := Res.bind_eq_ok h
    cases h
    have hv := Res.mem_inv hv
    simp at hv
    have h1 : cstr line = (cstr line).takeWhile isKeySep ++ (server ++ 58 :: rest) := by
      have := (List.takeWhile_append_dropWhile (p := isKeySep) (l := cstr line)).symm
      rw [hr] at hd this
      simp at hd
      rw [hd] at this
      exact this
    have h2 : line = cstr line ++ line.dropWhile (· ≠ 0) := (List.takeWhile_append_dropWhile (p := fun c => decide (c ≠ 0)) (l := line)).symm
    refine ⟨⟨(cstr line).takeWhile isKeySep, rest ++ line.dropWhile (· ≠ 0), ?_, ?_⟩, ?_, ?_⟩
    · intro c hc
      have := List.all_eq_true.1 (List.all_takeWhile (p := isKeySep) (l := cstr line)) c hc
      simpa [isKeySep, or_assoc] using this
    · conv => lhs; rw [h2, h1]
      simp
    · intro h0
      have h3 : 0 ∈ rest := (List.dropWhile_suffix _).subset ((List.takeWhile_prefix _).subset h0)
      exact cstr_no_nul line (by rw [h1]; simp [h3])
    · simpa [MAX_KEY_LEN] using hv
  · cases h

/-- Lines for other servers leave the array as it is. -/
theorem keyFileBuf_others {server : Str} : ∀ {ls : List Str} {buf b : Str}, (∀ l ∈ ls, ¬ LineFor server l) → keyFileBuf server ls buf = .ok b → b = buf
  | [], _, _, _, h => by cases h; rfl
  | l :: ls, buf, b, hn, h => by
    unfold keyFileBuf at h
    obtain ⟨k, hk, h⟩ := Res.bind_eq_ok h
    cases k with
    | none => exact keyFileBuf_others (fun m hm => hn m (by simp [hm])) h
    | some k => exact absurd (keyLine_for hk).1 (hn l (by simp))

theorem keyFileBuf_one {server : Str} : ∀ {ls : List Str} {b : Str}, OneLineFor server ls → keyFileBuf server ls emptyKey = .ok b →
    b = emptyKey ∨ ∃ k, 0 ∉ k ∧ k.length ≤ MAX_KEY_LEN ∧ b = putKey k emptyKey
  | [], _, _, h => by cases h; exact .inl rfl
  | l :: ls, b, ho, h => by
    unfold keyFileBuf at h
    obtain ⟨k, hk, h⟩ := Res.bind_eq_ok h
    obtain ⟨h1, h2⟩ := List.pairwise_cons.1 ho
    cases k with
    | none => exact keyFileBuf_one h2 h
    | some k =>
      obtain ⟨e1, e2, e3⟩ := keyLine_for hk
      exact .inr ⟨k, e2, e3, keyFileBuf_others (fun m hm hf => h1 m hm ⟨e1, hf⟩) h⟩

theorem erased_put {k : Str} (h : k.length ≤ MAX_KEY_LEN) : ∃ b, zeroBuf (putKey k emptyKey) k.length = .ok b ∧ Erased b ∧ b.length = MAX_KEY_LEN + 1 := by
  simp only [MAX_KEY_LEN] at h ⊢
  unfold zeroBuf
  have hl : (putKey k emptyKey).length = 129 := by simp [putKey, emptyKey, MAX_KEY_LEN]; omega
  by_cases h0 : k = []
  · subst h0
    refine ⟨_, rfl, ?_, hl⟩
    intro c hc
    simp [putKey, emptyKey] at hc
    omega
  · have := List.length_pos_iff.2 h0
    rw [if_neg (by omega), if_neg (by rw [hl]; simp; omega)]
    refine ⟨_, rfl, ?_, ?_⟩
    · intro c hc
      simp [putKey, emptyKey] at hc
      omega
    · simp [hl]; omega

theorem strlcpy_short (k : Str) : (strlcpy k (MAX_KEY_LEN + 1)).length ≤ MAX_KEY_LEN := by
  simp [strlcpy, MAX_KEY_LEN]
  omega

theorem zeroBuf_empty (n : Int) (h : n ≤ MAX_KEY_LEN) : ∃ b, zeroBuf emptyKey n = .ok b ∧ Erased b ∧ b.length = MAX_KEY_LEN + 1 := by
  simp only [MAX_KEY_LEN] at h ⊢
  unfold zeroBuf
  split
  · exact ⟨_, rfl, by intro c hc; simp [emptyKey] at hc; omega, by simp [emptyKey, MAX_KEY_LEN]⟩
  · rw [if_neg (by simp [emptyKey, MAX_KEY_LEN]; omega)]
    refine ⟨_, rfl, ?_, by simp [emptyKey, MAX_KEY_LEN]; omega⟩
    intro c hc
    simp [emptyKey] at hc
    omega

/-- **C133** (partial: the key file has at most one line for the server, and what base64 decodes to is no longer than a key may be): however the client
got its key, and whether or not it goes on with it, when it ends no byte of the key is left in the array. -/
theorem C133_erased_partial (hmac : Bool) (k : KeyFrom) (h : Sane k) {b : Str} (hb : keyAtExit hmac k = .ok b) : Erased b ∧ b.length = MAX_KEY_LEN + 1 := by
  have put : ∀ {k : Str}, k.length ≤ MAX_KEY_LEN → zeroBuf (putKey k emptyKey) k.length = .ok b → Erased b ∧ b.length = MAX_KEY_LEN + 1 := by
    intro k hk e
    obtain ⟨c, hc, h1⟩ := erased_put hk
    rw [hc] at e
    cases e
    exact h1
  have empty : ∀ {n : Int}, n ≤ MAX_KEY_LEN → zeroBuf emptyKey n = .ok b → Erased b ∧ b.length = MAX_KEY_LEN + 1 := by
    intro n hn e
    obtain ⟨c, hc, h1⟩ := zeroBuf_empty n hn
    rw [hc] at e
    cases e
    exact h1
  unfold keyAtExit at hb
  obtain ⟨r, hr, hb⟩ := Res.bind_eq_ok hb
  cases k with
  | given k => cases hr; exact put (strlcpy_short k) hb
  | nothing => cases hr; exact empty (by decide) hb
  | typed k =>
    cases k with
    | none => cases hr; exact empty (by decide) hb
    | some k => cases hr; exact put (strlcpy_short k) hb
  | base64 k =>
    cases k with
    | none => cases hr; exact empty (by decide) hb
    | some k =>
      have hl : k.length ≤ 128 := h
      have hr : r = (k ++ emptyKey.drop k.length, (k.length : Int), true) ∨ r = (emptyKey, (k.length : Int), false) := by
        cases hmac <;> simp only [fillKey, Bool.false_eq_true, if_false, if_true] at hr <;> split at hr <;> cases hr
        all_goals first | exact .inl rfl | exact .inr rfl
      rcases hr with rfl | rfl
      · by_cases h0 : k = []
        · subst h0
          exact empty (n := 0) (by decide) hb
        · have := List.length_pos_iff.2 h0
          simp only [zeroBuf] at hb
          rw [if_neg (by omega), if_neg (by simp [emptyKey])] at hb
          cases hb
          constructor
          · intro c hc
            simp [emptyKey] at hc
            omega
          · simp [emptyKey, MAX_KEY_LEN]; omega
      · exact empty (by simp [MAX_KEY_LEN]; omega) hb
  | file server ls =>
    cases ls with
    | none => cases hr; exact empty (by decide) hb
    | some ls =>
      simp only [fillKey] at hr
      obtain ⟨c, hc, hr⟩ := Res.bind_eq_ok hr
      rcases keyFileBuf_one h hc with rfl | ⟨k, k1, k2, rfl⟩
      · rw [if_pos (by rfl)] at hr
        cases hr
        exact empty (by decide) hb
      · cases k with
        | nil =>
          rw [if_pos (by rfl)] at hr
          cases hr
          exact put (k := []) (by simp) hb
        | cons x k =>
          have hx : x ≠ 0 := fun e => k1 (by simp [e])
          rw [if_neg (by simpa [putKey] using hx)] at hr
          cases hr
          have e : cstr (putKey (x :: k) emptyKey) = x :: k := by
            unfold cstr putKey
            rw [List.takeWhile_append_of_pos (by intro c hc; simp; intro e; exact k1 (e ▸ hc))]
            simp
          rw [e] at hb
          exact put k2 hb

set_option maxRecDepth 4000 in
/-- A key file with lines for two servers. -/
example : Sane (.file b!"10.0.0.1" (some [b!"10.0.0.2: other\n", b!"10.0.0.1: secret\n"])) ∧
    fillKey false (.file b!"10.0.0.1" (some [b!"10.0.0.2: other\n", b!"10.0.0.1: secret\n"])) = .ok (b!"secret" ++ List.replicate 123 0, 6, true) := by
  constructor
  · have : ¬ LineFor b!"10.0.0.1" b!"10.0.0.2: other\n" := by
      rintro ⟨sp, rest, hs, e⟩
      cases sp with
      | nil => simp at e
      | cons c sp =>
        have := hs c (by simp)
        simp at e
        omega
    simp [Sane, OneLineFor, this]
  · decide

set_option maxRecDepth 4000 in
/-- **C133 is false** for a key file with two lines for the server: the end of the first key stays. -/
theorem C133_false_two_lines : ∃ b, keyAtExit false (.file b!"h" (some [b!"h: first-secret\n", b!"h: two\n"])) = .ok b ∧ b.drop 4 = b!"t-secret" ++ List.replicate 117 0 :=
  ⟨_, rfl, by decide⟩

set_option maxRecDepth 4000 in
/-- **C133 is false** too if the last line for the server has no key: the client takes no key from the file, and erases none. -/
theorem C133_false_empty_line : ∃ b, keyAtExit false (.file b!"h" (some [b!"h: first-secret\n", b!"h:\n"])) = .ok b ∧ b.drop 1 = b!"irst-secret" ++ List.replicate 117 0 :=
  ⟨_, rfl, by decide⟩

/-- A base64 key that is refused because it is too long is erased all the same: zeros are written behind the array. -/
theorem C133_false_overrun (hmac : Bool) (k : Str) (h1 : 129 < k.length) (h2 : k.length ≤ 1500) : keyAtExit hmac (.base64 (some k)) = .ub := by
  have h3 : ¬ (if hmac = true then k.length ≤ MAX_KEY_LEN else 0 < k.length ∧ k.length < MAX_KEY_LEN) := by
    cases hmac <;> simp [MAX_KEY_LEN] <;> omega
  unfold keyAtExit fillKey
  simp only [h3, if_false]
  show zeroBuf emptyKey k.length = .ub
  unfold zeroBuf
  rw [if_neg (by omega), if_pos (by simp [emptyKey, MAX_KEY_LEN]; omega)]

/-- 180 characters of base64 are allowed, so 135 bytes can come of them. -/
example : keyAtExit false (.base64 (some (List.replicate 135 7))) = .ub := C133_false_overrun _ _ (by simp) (by simp)

end Fwknop.Props
