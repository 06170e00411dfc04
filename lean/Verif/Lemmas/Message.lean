import Verif.Model.Message
import Verif.Lemmas.CLib
import Verif.Spec.Message

namespace Fwknop
open Fwknop.Spec

theorem isDigit_iff (c : Nat) : isDigit c = true ↔ IsDigitChar c := by
  simp [isDigit, IsDigitChar]

theorem number_eq (b : Nat) (ds : Str) : number b ds = digitsVal b ds := by
  induction ds with
  | nil => simp [number, digitsVal]
  | cons d ds ih => rw [number, digitsVal_cons, ih]

/-! ## Ports -/

theorem portLoop_spec (s acc : Str) (hacc : acc.length ≤ 5) :
    portLoop s acc = if (∀ c ∈ s.takeWhile (· ≠ 44), isDigit c = true) ∧
        acc.length + (s.takeWhile (· ≠ 44)).length ≤ 5
      then some (acc ++ s.takeWhile (· ≠ 44)) else none := by
  induction s generalizing acc with
  | nil => simp [portLoop, hacc]
  | cons c cs ih =>
    unfold portLoop
    by_cases h44 : c = 44
    · subst h44; simp [hacc]
    · rw [if_neg h44]
      have ht : (c :: cs).takeWhile (· ≠ 44) = c :: cs.takeWhile (· ≠ 44) := by
        simp [h44]
      rw [ht]
      by_cases hd : isDigit c = true
      · by_cases hl : acc.length + 1 > MAX_PORT_STR_LEN
        · rw [if_pos (by simp [hl])]
          simp only [MAX_PORT_STR_LEN] at hl
          rw [if_neg]
          simp only [List.length_cons]; omega
        · rw [if_neg (by simp [hd, hl])]
          simp only [MAX_PORT_STR_LEN] at hl
          rw [ih _ (by simp; omega)]
          simp only [List.length_append, List.length_cons, List.length_nil, List.mem_cons,
            List.append_assoc, List.cons_append, List.nil_append, forall_eq_or_imp, hd, true_and]
          congr 1
          simp only [eq_iff_iff, and_congr_right_iff]; omega
      · rw [if_pos (by simp [hd])]
        rw [if_neg]
        intro h
        exact hd (h.1 c (by simp))

/-- `have_port` on a string of any kind. -/
theorem have_port_iff (s : Str) :
    have_port s = true ↔ s.length < 256 ∧
      ∃ digits, digits = s.takeWhile (· ≠ 44) ∧ 1 ≤ digits.length ∧ digits.length ≤ 5 ∧
        (∀ c ∈ digits, IsDigitChar c) ∧ 1 ≤ number 10 digits ∧ number 10 digits ≤ 65535 := by
  unfold have_port
  simp only [MAX_SPA_MESSAGE_SIZE]
  by_cases hl : s.length < 256
  · rw [if_neg (by omega)]
    cases s with
    | nil => simp
    | cons c cs =>
      simp only
      by_cases hd : isDigit c = true
      · rw [if_neg (by simp [hd]), portLoop_spec _ _ (by simp)]
        have h44 : c ≠ 44 := by
          simp [isDigit] at hd; omega
        have ht : (c :: cs).takeWhile (· ≠ 44) = c :: cs.takeWhile (· ≠ 44) := by
          simp [h44]
        rw [ht]
        generalize hp : c :: cs.takeWhile (· ≠ 44) = p
        have hp1 : 1 ≤ p.length := by subst hp; simp
        have hpne : p ≠ [] := by subst hp; simp
        by_cases hc : (∀ c ∈ p, isDigit c = true) ∧ ([] : Str).length + p.length ≤ 5
        · rw [if_pos hc]
          simp only [List.nil_append]
          have hlt := digitsVal_lt p hc.1
          have hle : 10 ^ p.length ≤ 10 ^ 5 := Nat.pow_le_pow_right (by decide) (by simpa using hc.2)
          rw [strtol_wrapper_digits p hc.1 hpne (by omega)]
          simp only [MAX_PORT, decide_eq_true_eq, exists_eq_left, number_eq]
          have hdig : ∀ c ∈ p, IsDigitChar c := fun c hm => (isDigit_iff c).1 (hc.1 c hm)
          have h5 : p.length ≤ 5 := by simpa using hc.2
          constructor
          · intro h; exact ⟨hl, hp1, h5, hdig, by omega, by omega⟩
          · intro h; omega
        · rw [if_neg hc]
          simp only [exists_eq_left, Bool.false_eq_true, false_iff]
          intro h
          exact hc ⟨fun c hm => (isDigit_iff c).2 (h.2.2.2.1 c hm), by simpa using h.2.2.1⟩
      · rw [if_pos (by simp [hd])]
        simp only [Bool.false_eq_true, false_iff]
        rintro ⟨_, p, rfl, h1, _, h3, _⟩
        by_cases h44 : c = 44
        · subst h44; simp at h1
        · exact hd ((isDigit_iff c).2 (h3 c (by simp [h44])))
  · rw [if_pos (by omega)]
    simp; omega

/-! ## proto/port -/

theorem digits_no_comma (ds : Str) (h : ∀ c ∈ ds, IsDigitChar c) : 44 ∉ ds := by
  intro hm; have := h _ hm; simp [IsDigitChar] at this

theorem digits_no_slash (ds : Str) (h : ∀ c ∈ ds, IsDigitChar c) : 47 ∉ ds := by
  intro hm; have := h _ hm; simp [IsDigitChar] at this

/-- The accepted specs, for any text with whatever follows. -/
theorem validate_spec_iff (s : Str) :
    validate_proto_port_spec s = true ↔ s.length < 256 ∧ IsProtoPort (s.takeWhile (· ≠ 44)) := by
  unfold validate_proto_port_spec
  simp only [MAX_SPA_MESSAGE_SIZE, MAX_PROTO_STR_LEN]
  by_cases hl : s.length < 256
  · rw [if_neg (by omega)]
    constructor
    · intro h
      split at h
      · simp at h
      · rename_i hpre
        split at h
        · simp at h
        · rename_i i hi
          split at h
          · simp at h
          · rename_i hi4
            obtain ⟨p, t, hs, hp, hip⟩ := strchr_some _ _ _ hi
            have hdrop : s.drop (i + 1) = t := by
              rw [hs, hip, List.drop_append]
              simp
            rw [hdrop, have_port_iff] at h
            obtain ⟨_, ds, hds, h1, h2, h3, h4⟩ := h
            -- the protocol
            have hp3 : p.length ≤ 3 := by omega
            have hproto : p = b!"tcp" ∨ p = b!"udp" := by
              rw [hs] at hpre
              match p, hp3 with
              | [], _ => simp [hasPrefix, List.isPrefixOf] at hpre
              | [a], _ => simp [hasPrefix, List.isPrefixOf] at hpre
              | [a, b], _ => simp [hasPrefix, List.isPrefixOf] at hpre
              | [a, b, c], _ =>
                simp [hasPrefix, List.isPrefixOf] at hpre
                simp
                omega
            refine ⟨hl, p, ds, hproto, ?_, h1, h2, h3, h4⟩
            have hc : 44 ∉ p := by rcases hproto with h | h <;> subst h <;> simp
            rw [hs, List.takeWhile_append_of_pos]
            · simp [hds]
            · intro x hx
              have : x ≠ 44 := fun e => hc (e ▸ hx)
              simpa using this
    · rintro ⟨_, p, ds, hproto, heq, h1, h2, h3, h4, h5⟩
      have hcs : 44 ∉ p ++ 47 :: ds := by
        have := digits_no_comma ds h3
        rcases hproto with h | h <;> subst h <;> simp [this]
      -- s is the spec, possibly followed by a comma and more
      have hs : ∃ r, s = p ++ 47 :: (ds ++ r) ∧ (r = [] ∨ ∃ r', r = 44 :: r') := by
        rcases split_first s 44 with hn | ⟨q, t, hs, hq⟩
        · rw [takeWhile_ne_self _ _ hn] at heq
          exact ⟨[], by simp [heq], .inl rfl⟩
        · rw [hs, takeWhile_ne_split _ _ _ hq] at heq
          exact ⟨44 :: t, by rw [hs, heq]; simp, .inr ⟨t, rfl⟩⟩
      obtain ⟨r, hs, hr⟩ := hs
      have hp47 : 47 ∉ p := by rcases hproto with h | h <;> subst h <;> simp
      have hpl : p.length = 3 := by rcases hproto with h | h <;> subst h <;> rfl
      rw [if_neg]
      · rw [hs, strchr_split _ _ _ hp47]
        simp only
        rw [if_neg (by omega)]
        have hdrop : (p ++ 47 :: (ds ++ r)).drop (p.length + 1) = ds ++ r := by
          rw [List.drop_append]; simp
        rw [hdrop, have_port_iff]
        refine ⟨?_, ds, ?_, h1, h2, h3, h4, h5⟩
        · rw [hs] at hl; simp at hl ⊢; omega
        · have hd44 := digits_no_comma ds h3
          rcases hr with h | ⟨r', h⟩
          · subst h; simp only [List.append_nil]; exact (takeWhile_ne_self _ _ hd44).symm
          · subst h; exact (takeWhile_ne_split _ _ _ hd44).symm
      · rw [hs]
        rcases hproto with h | h <;> subst h <;> simp [hasPrefix, List.isPrefixOf]
  · rw [if_pos (by omega)]
    simp; omega

end Fwknop
