import Verif.Model.HttpClient
import Verif.Spec.Http
import Verif.Lemmas.Server
import Verif.Lemmas.Access

/-!
# Lemmas: requests over HTTP
-/

namespace Fwknop

open Spec Res

/-! ## Searching -/

theorem findSuffix_some {p : Str → Bool} {s : Str} {n : Nat} (h : findSuffix p s = some n) :
    n ≤ s.length ∧ p (s.drop n) = true ∧ ∀ i < n, p (s.drop i) = false := by
  induction s generalizing n with
  | nil =>
    unfold findSuffix at h
    split at h
    · cases h
      refine ⟨Nat.le_refl _, by assumption, fun i hi => absurd hi (Nat.not_lt_zero _)⟩
    · cases h
  | cons c cs ih =>
    unfold findSuffix at h
    split at h
    · cases h
      refine ⟨Nat.zero_le _, by assumption, fun i hi => absurd hi (Nat.not_lt_zero _)⟩
    · rename_i hc
      obtain ⟨m, hm, rfl⟩ := Option.map_eq_some_iff.1 h
      obtain ⟨h1, h2, h3⟩ := ih hm
      refine ⟨by simp only [List.length_cons]; omega, h2, fun i hi => ?_⟩
      cases i with
      | zero => simpa using hc
      | succ i => exact h3 i (by omega)

theorem findSuffix_none {p : Str → Bool} {s : Str} (h : findSuffix p s = none) (i : Nat) (hi : i ≤ s.length) :
    p (s.drop i) = false := by
  induction s generalizing i with
  | nil =>
    unfold findSuffix at h
    split at h
    · cases h
    · rename_i hc; simpa using hc
  | cons c cs ih =>
    unfold findSuffix at h
    split at h
    · cases h
    · rename_i hc
      cases i with
      | zero => simpa using hc
      | succ i =>
        simp only [List.length_cons] at hi
        exact ih (Option.map_eq_none_iff.1 h) i (by omega)

theorem findSuffix_unique {p : Str → Bool} {s : Str} {n : Nat} (hn : n ≤ s.length) (h1 : p (s.drop n) = true)
    (h2 : ∀ i < n, p (s.drop i) = false) : findSuffix p s = some n := by
  cases h : findSuffix p s with
  | none => rw [findSuffix_none h n hn] at h1; cases h1
  | some m =>
    obtain ⟨_, h4, h5⟩ := findSuffix_some h
    rcases Nat.lt_trichotomy m n with hl | hl | hl
    · rw [h2 m hl] at h4; cases h4
    · rw [hl]
    · rw [h5 n hl] at h1; cases h1

/-! ## The text in the buffer -/

theorem cstr_append {s : Str} (h : 0 ∉ s) (rest : Str) : cstr (s ++ 0 :: rest) = s := by
  unfold cstr
  rw [List.takeWhile_append_of_pos]
  · simp
  · intro c hc
    have : c ≠ 0 := fun h0 => h (h0 ▸ hc)
    simpa using this

theorem cstr_append_le {s : Str} (h : 0 ∉ s) (rest : Str) : cstr (s ++ rest) = s ++ cstr rest := by
  unfold cstr
  rw [List.takeWhile_append_of_pos]
  intro c hc
  have : c ≠ 0 := fun h0 => h (h0 ▸ hc)
  simpa using this

/-! ## Characters of the data -/

theorem urlSafe_eq (t : Str) : urlSafe t = t.map urlChar := rfl

theorem httpChar_urlChar {c : Nat} (h : IsB64Char c) : httpChar (urlChar c) = c := by
  unfold IsB64Char at h
  unfold httpChar urlChar
  split
  · rename_i h1; subst h1; decide
  · split
    · rename_i h1; subst h1; decide
    · rw [if_neg (by omega), if_neg (by omega)]

theorem urlChar_spec {c : Nat} (h : IsB64Char c) : 45 ≤ urlChar c ∧ urlChar c ≠ 58 ∧ urlChar c ≠ 0 := by
  unfold IsB64Char at h
  unfold urlChar
  split
  · omega
  · split <;> omega

theorem not_space {c : Nat} (h : IsB64Char c) : isSpace (urlChar c) = false := by
  have := urlChar_spec h
  unfold isSpace
  simp only [Bool.or_eq_false_iff, decide_eq_false_iff_not, Bool.and_eq_false_iff]
  omega

/-! ## The conversion loop -/

theorem httpLoop_eq (t : Str) (ht : ∀ c ∈ t, IsB64Char c) (b : Nat) (hb : isSpace b = true) (rest : Str) (n : Nat)
    (hn : t.length < n) :
    httpLoop n (t.map urlChar ++ b :: rest) = (t ++ 0 :: rest, t.length) := by
  induction t generalizing n with
  | nil =>
    obtain ⟨m, rfl⟩ : ∃ m, n = m + 1 := ⟨n - 1, by simp only [List.length_nil] at hn; omega⟩
    simp [httpLoop, hb]
  | cons c cs ih =>
    obtain ⟨m, rfl⟩ : ∃ m, n = m + 1 := ⟨n - 1, by simp only [List.length_cons] at hn; omega⟩
    have hc := ht c (List.mem_cons_self ..)
    have := ih (fun x hx => ht x (List.mem_cons_of_mem _ hx)) m (by simp only [List.length_cons] at hn; omega)
    simp only [List.map_cons, List.cons_append, httpLoop, not_space hc, Bool.false_eq_true, if_false, this,
      httpChar_urlChar hc, List.length_cons]

theorem shift_eq (t r : Str) (len : Nat) (ht : 0 ∉ t) (hl : t.length + 2 ≤ len) :
    ∃ r', shiftRequest (b!"GET /" ++ t ++ 32 :: r) len = t ++ 32 :: r' := by
  have e : cstr (b!"GET /" ++ t ++ 32 :: r) = b!"GET /" ++ t ++ 32 :: cstr r := by
    rw [show b!"GET /" ++ t ++ 32 :: r = (b!"GET /" ++ t ++ [32]) ++ r by simp, cstr_append_le]
    · simp
    · simp [ht]
  unfold shiftRequest
  rw [e]
  have h2 : ((b!"GET /" ++ t ++ 32 :: cstr r).drop 5).take (len - 1) =
      t ++ 32 :: (cstr r).take (len - 2 - t.length) := by
    rw [show b!"GET /" ++ t ++ 32 :: cstr r = b!"GET /" ++ (t ++ 32 :: cstr r) by simp, List.drop_left' (show (b!"GET /").length = 5 from rfl),
      List.take_append, List.take_of_length_le (by omega)]
    obtain ⟨m, hm⟩ : ∃ m, len - 1 - t.length = m + 1 := ⟨len - 2 - t.length, by omega⟩
    rw [hm, List.take_succ_cons, show m = len - 2 - t.length by omega]
  simp only [h2]
  exact ⟨_, by rw [List.append_assoc, List.cons_append]⟩

/-! ## The X-Forwarded-For header -/

theorem xffStore_buf {buf : Str} {p i : Nat} {x : Str × Str} (h : xffStore buf p i = .ok x) : x.1 = buf := by
  unfold xffStore at h
  split at h
  · cases h
  · split at h
    · cases h; rfl
    · obtain ⟨_, _, h⟩ := bind_eq_ok h
      cases h; rfl

theorem xffValue_keeps {pre r : Str} {p : Nat} {x : Str × Str} (hp : pre.length ≤ p)
    (h : xffValue (pre ++ r) p = .ok x) : ∃ r', x.1 = pre ++ r' := by
  unfold xffValue at h
  simp only at h
  split at h
  · rw [xffStore_buf h]
    rw [List.set_append_right _ _ (by omega)]
    exact ⟨_, rfl⟩
  · exact ⟨_, xffStore_buf h⟩

theorem lower_colon {c : Nat} (h : toLower c = 58) : c = 58 := by
  unfold toLower at h
  split at h
  · rename_i hc
    simp only [Bool.and_eq_true, decide_eq_true_eq] at hc
    omega
  · exact h

theorem xffHeader_keeps {pre r : Str} {x : Str × Str} (hc : 58 ∉ pre)
    (h : xffHeader (pre ++ r) = .ok x) : ∃ r', x.1 = pre ++ r' := by
  unfold xffHeader at h
  split at h
  · cases h; exact ⟨_, rfl⟩
  · rename_i off hf
    refine xffValue_keeps ?_ h
    obtain ⟨h1, h2, _⟩ := findSuffix_some hf
    -- the colon of the header is in the text, and not in `pre`
    have h3 : (b!"X-Forwarded-For: ").map toLower <+: ((cstr (pre ++ r)).drop off).map toLower := by
      simpa [hasPrefixI] using h2
    have h4 : ((cstr (pre ++ r)).drop off)[15]? = some 58 := by
      obtain ⟨z, hz⟩ := h3
      have : (((cstr (pre ++ r)).drop off).map toLower)[15]? = some 58 := by
        rw [← hz]; rfl
      rw [List.getElem?_map] at this
      obtain ⟨c, hc1, hc2⟩ := Option.map_eq_some_iff.1 this
      rw [hc1, lower_colon hc2]
    rw [List.getElem?_drop] at h4
    have h5 : (pre ++ r)[off + 15]? = some 58 := by
      have hpf : cstr (pre ++ r) <+: pre ++ r := List.takeWhile_prefix _
      obtain ⟨z, hz⟩ := hpf
      rw [← hz, List.getElem?_append_left]
      · exact h4
      · exact (List.getElem?_eq_some_iff.1 h4).1
    rcases Nat.lt_or_ge (off + 15) pre.length with hl | hl
    · rw [List.getElem?_append_left hl] at h5
      exact absurd (List.mem_of_getElem? h5) hc
    · omega

theorem isSpace_iff (c : Nat) : isSpace c = true ↔ IsBlank c := by
  unfold isSpace IsBlank
  simp only [Bool.or_eq_true, decide_eq_true_eq, Bool.and_eq_true]

theorem hasPrefixI_xff (s : Str) :
    hasPrefixI b!"X-Forwarded-For: " s = true ↔ b!"x-forwarded-for: " <+: s.map lower := by
  unfold hasPrefixI
  rw [List.isPrefixOf_iff_prefix, lower_eq]
  exact Iff.rfl

theorem xff_found {text before after : Str} (h : FirstForwarded text before after) :
    findSuffix (hasPrefixI b!"X-Forwarded-For: ") text = some before.length ∧
    ∃ name, name.length = 17 ∧ text = before ++ name ++ after := by
  obtain ⟨⟨name, hn, rfl⟩, h2⟩ := h
  have hl : name.length = 17 := by
    have := congrArg List.length hn
    rw [List.length_map] at this
    exact this
  refine ⟨findSuffix_unique ?_ ?_ ?_, name, hl, rfl⟩
  · simp only [List.length_append]; omega
  · rw [hasPrefixI_xff, List.append_assoc, List.drop_left' rfl, List.map_append, hn]
    exact List.prefix_append _ _
  · intro i hi
    have := h2 i hi
    rw [← hasPrefixI_xff] at this
    simpa using this

/-- The header's value up to a blank. -/
theorem xffHeader_value {text before v after junk : Str} {b : Nat} (h0 : 0 ∉ text)
    (hf : FirstForwarded text before (v ++ b :: after)) (hb : IsBlank b) (hv : ∀ c ∈ v, ¬ IsBlank c) :
    ∃ buf, xffHeader (text ++ 0 :: junk) = (if is_valid_ipv4_addr v v.length = true then
      (if v.length ≥ 16 then .ub else .ok (buf, v)) else .ok (buf, [])) := by
  obtain ⟨h1, name, hn, rfl⟩ := xff_found hf
  unfold xffHeader
  rw [cstr_append h0, h1]
  have hd : (before ++ name ++ (v ++ b :: after) ++ 0 :: junk).drop (before.length + 17) =
      (v ++ b :: after) ++ 0 :: junk := by
    rw [List.append_assoc]
    exact List.drop_left' (by rw [List.length_append, hn])
  have h0' : 0 ∉ v ++ b :: after := fun h => h0 (List.mem_append_right _ h)
  have hb' : isSpace b = true := (isSpace_iff b).2 hb
  have htw : (v ++ b :: after).takeWhile (fun c => !isSpace c) = v := by
    rw [List.takeWhile_append_of_pos]
    · simp [hb']
    · intro c hc
      have := hv c hc
      rw [← isSpace_iff] at this
      simpa using this
  simp only [xffValue]
  rw [hd, cstr_append h0', htw, if_pos (by simp only [List.length_append, List.length_cons]; omega)]
  have hs : (before ++ name ++ (v ++ b :: after) ++ 0 :: junk).set (before.length + 17 + v.length) 0 =
      (before ++ name) ++ v ++ 0 :: (after ++ 0 :: junk) := by
    rw [show before ++ name ++ (v ++ b :: after) ++ 0 :: junk =
      (before ++ name ++ v) ++ b :: (after ++ 0 :: junk) by simp]
    rw [List.set_append_right _ _ (by simp only [List.length_append]; omega)]
    rw [show before.length + 17 + v.length - (before ++ name ++ v).length = 0 by
      simp only [List.length_append]; omega]
    rfl
  rw [hs]
  have hc := cstrAt_eq (before ++ name) v (after ++ 0 :: junk) (fun h => h0' (List.mem_append_left _ h))
  rw [List.length_append, hn] at hc
  unfold xffStore
  rw [hc]
  refine ⟨(before ++ name) ++ v ++ 0 :: (after ++ 0 :: junk), ?_⟩
  simp only
  cases hq : is_valid_ipv4_addr v v.length with
  | false => rfl
  | true =>
    simp only [Bool.not_true, Bool.false_eq_true, if_false, if_true]
    by_cases hl : v.length ≥ 16
    · rw [if_pos hl]
      have : (v.length + 1 ≠ 0 ∧ min v.length (v.length + 1 - 1) + 1 > MAX_IPV4_STR_LEN) := by
        simp only [MAX_IPV4_STR_LEN]; omega
      rw [show Res.mem (decide _) = .ub from by rw [decide_eq_true this]; rfl]
      rfl
    · rw [if_neg hl]
      have : ¬ (v.length + 1 ≠ 0 ∧ min v.length (v.length + 1 - 1) + 1 > MAX_IPV4_STR_LEN) := by
        simp only [MAX_IPV4_STR_LEN]; omega
      rw [Res.mem_of_not this]
      simp

/-- Without the header. -/
theorem xffHeader_absent {text junk : Str} (h0 : 0 ∉ text)
    (hf : ∀ i ≤ text.length, ¬ b!"x-forwarded-for: " <+: (text.drop i).map lower) :
    xffHeader (text ++ 0 :: junk) = .ok (text ++ 0 :: junk, []) := by
  unfold xffHeader
  rw [cstr_append h0]
  cases h : findSuffix (hasPrefixI b!"X-Forwarded-For: ") text with
  | none => rfl
  | some n =>
    obtain ⟨h1, h2, _⟩ := findSuffix_some h
    exact absurd ((hasPrefixI_xff _).1 h2) (hf n h1)

/-! ## The whole request -/

theorem b64_no {t : Str} (ht : ∀ c ∈ t, IsB64Char c) (c : Nat) (hc : c < 45 ∨ c = 58) : c ∉ t.map urlChar := by
  intro hm
  obtain ⟨a, ha, rfl⟩ := List.mem_map.1 hm
  have := urlChar_spec (ht a ha)
  omega

/-- The buffer after the search for the header still starts with the request line. -/
theorem forwarded_keeps {conf : Conf} {t r : Str} {y : Str × Str} (ht : ∀ c ∈ t, IsB64Char c)
    (hy : (if conf.xff = true then xffHeader (b!"GET /" ++ t.map urlChar ++ 32 :: r)
      else Res.ok (b!"GET /" ++ t.map urlChar ++ 32 :: r, [])) = .ok y) :
    ∃ r', y.1 = b!"GET /" ++ t.map urlChar ++ 32 :: r' := by
  split at hy
  · rw [show b!"GET /" ++ t.map urlChar ++ 32 :: r = (b!"GET /" ++ t.map urlChar ++ [32]) ++ r by simp] at hy
    have hc : 58 ∉ b!"GET /" ++ t.map urlChar ++ [32] := by
      have := b64_no ht 58 (Or.inr rfl)
      simp only [List.mem_append, List.mem_singleton, not_or]
      exact ⟨⟨by decide, this⟩, by decide⟩
    obtain ⟨r', hr'⟩ := xffHeader_keeps hc hy
    exact ⟨r', by rw [hr']; simp⟩
  · cases hy; exact ⟨r, rfl⟩

/-- Whatever the server takes from a request for the data is the data. -/
theorem httpRequest_text {conf : Conf} {t r : Str} {len : Nat} {x : Str × Str} (ht : ∀ c ∈ t, IsB64Char c)
    (hl : t.length + 6 ≤ len)
    (h : httpRequest conf (b!"GET /" ++ t.map urlChar ++ 32 :: r) len = .ok x) : cstr x.1 = t := by
  unfold httpRequest at h
  obtain ⟨_, _, h⟩ := bind_eq_ok h
  obtain ⟨y, hy, h⟩ := bind_eq_ok h
  obtain ⟨r', hr'⟩ := forwarded_keeps ht hy
  obtain ⟨q, hq⟩ := shift_eq (t.map urlChar) r' len (b64_no ht 0 (by omega)) (by rw [List.length_map]; omega)
  rw [hr', hq, httpLoop_eq t ht 32 (by decide) q _ (by omega)] at h
  obtain ⟨_, _, h⟩ := bind_eq_ok h
  obtain ⟨_, _, h⟩ := bind_eq_ok h
  cases h
  refine cstr_append ?_ _
  intro h0
  have := ht 0 h0
  unfold IsB64Char at this
  omega

/-- If the search for the header succeeds the request is accepted. -/
theorem httpRequest_ok {conf : Conf} {t r : Str} {len : Nat} (ht : ∀ c ∈ t, IsB64Char c)
    (hl : t.length + 6 ≤ len) (hm : 140 ≤ t.length) {y : Str × Str}
    (hy : (if conf.xff = true then xffHeader (b!"GET /" ++ t.map urlChar ++ 32 :: r)
      else Res.ok (b!"GET /" ++ t.map urlChar ++ 32 :: r, [])) = .ok y)
    (ha : conf.need_agent = true → ∃ a b, cstr r = a ++ b!"User-Agent: Fwknop" ++ b) :
    ∃ b, httpRequest conf (b!"GET /" ++ t.map urlChar ++ 32 :: r) len = .ok (t ++ 0 :: b, y.2) := by
  have hg : (conf.need_agent && (findSuffix (hasPrefix b!"User-Agent: Fwknop")
      (cstr (b!"GET /" ++ t.map urlChar ++ 32 :: r))).isNone) = false := by
    cases hn : conf.need_agent with
    | false => rfl
    | true =>
      obtain ⟨a, b, hab⟩ := ha hn
      rw [Bool.true_and]
      cases hf : findSuffix (hasPrefix b!"User-Agent: Fwknop") (cstr (b!"GET /" ++ t.map urlChar ++ 32 :: r)) with
      | some n => rfl
      | none =>
        exfalso
        have e : cstr (b!"GET /" ++ t.map urlChar ++ 32 :: r) =
            (b!"GET /" ++ t.map urlChar ++ [32] ++ a) ++ (b!"User-Agent: Fwknop" ++ b) := by
          rw [show b!"GET /" ++ t.map urlChar ++ 32 :: r = (b!"GET /" ++ t.map urlChar ++ [32]) ++ r by simp,
            cstr_append_le, hab]
          · simp only [List.append_assoc]
          · have := b64_no ht 0 (by omega)
            simp only [List.mem_append, List.mem_singleton, not_or]
            exact ⟨⟨by decide, this⟩, by decide⟩
        rw [e] at hf
        have := findSuffix_none hf (b!"GET /" ++ t.map urlChar ++ [32] ++ a).length
          (by simp only [List.length_append]; omega)
        rw [List.drop_left' rfl] at this
        have hp : hasPrefix b!"User-Agent: Fwknop" (b!"User-Agent: Fwknop" ++ b) = true := by
          unfold hasPrefix
          exact List.isPrefixOf_iff_prefix.2 (List.prefix_append _ _)
        rw [hp] at this
        cases this
  obtain ⟨r', hr'⟩ := forwarded_keeps ht hy
  obtain ⟨q, hq⟩ := shift_eq (t.map urlChar) r' len (b64_no ht 0 (by omega)) (by rw [List.length_map]; omega)
  unfold httpRequest
  rw [hg, hy]
  simp only [Res.guard_false, Res.bind_ok]
  rw [hr']
  rw [hq, httpLoop_eq t ht 32 (by decide) q _ (by omega)]
  have h1 : decide (t.length < MIN_SPA_DATA_SIZE) = false := by
    simp only [MIN_SPA_DATA_SIZE, decide_eq_false_iff_not]; omega
  have h2 : Base64.is_base64 ((t ++ 0 :: q).take t.length) = true := by
    rw [List.take_left' rfl]; exact is_base64_of ht
  simp only [h1, h2, Bool.not_true, Res.guard_false, Res.bind_ok]
  exact ⟨q, rfl⟩

end Fwknop
