import Verif.Lemmas.Inet

/-! # Message grammars -/

namespace Fwknop
open Fwknop.Spec

/-- The text of the parts, each preceded by a comma. -/
def commaJoin (parts : List Str) : Str := (parts.map (44 :: ·)).flatten

theorem split_commas (s : Str) : ∃ h parts, s = h ++ commaJoin parts ∧ 44 ∉ h ∧
    ∀ p ∈ parts, 44 ∉ p := by
  induction s with
  | nil => exact ⟨[], [], by simp [commaJoin], by simp, by simp⟩
  | cons x s ih =>
    obtain ⟨h, parts, hs, hh, hp⟩ := ih
    by_cases hx : x = 44
    · refine ⟨[], h :: parts, by simp [commaJoin, hx, hs], by simp, ?_⟩
      intro p hm
      rcases List.mem_cons.1 hm with e | e
      · subst e; exact hh
      · exact hp p e
    · refine ⟨x :: h, parts, by simp [hs], ?_, hp⟩
      intro hm
      rcases List.mem_cons.1 hm with e | e
      · exact hx e.symm
      · exact hh e

theorem commaSuffixes_append (h s : Str) (hh : 44 ∉ h) : commaSuffixes (h ++ s) = commaSuffixes s := by
  induction h with
  | nil => rfl
  | cons x h ih =>
    have hx : x ≠ 44 := fun e => hh (by simp [e])
    simp [commaSuffixes, hx, ih (fun hm => hh (by simp [hm]))]

theorem takeWhile_commaJoin (h : Str) (parts : List Str) (hh : 44 ∉ h) :
    (h ++ commaJoin parts).takeWhile (· ≠ 44) = h := by
  cases parts with
  | nil => simp only [commaJoin, List.map_nil, List.flatten_nil, List.append_nil]
           exact takeWhile_ne_self _ _ hh
  | cons p ps =>
    simp only [commaJoin, List.map_cons, List.flatten_cons, List.cons_append]
    exact takeWhile_ne_split _ _ _ hh

theorem suffixes_valid (parts : List Str) (hp : ∀ p ∈ parts, 44 ∉ p)
    (hl : (commaJoin parts).length ≤ 256) :
    (commaSuffixes (commaJoin parts)).all validate_proto_port_spec = true ↔
      ∀ p ∈ parts, IsProtoPort p := by
  induction parts with
  | nil => simp [commaJoin, commaSuffixes]
  | cons p ps ih =>
    have hp44 : 44 ∉ p := hp p (by simp)
    have e : commaJoin (p :: ps) = 44 :: (p ++ commaJoin ps) := by simp [commaJoin]
    have hl' : (p ++ commaJoin ps).length < 256 := by rw [e] at hl; simp at hl ⊢; omega
    have hl2 : (commaJoin ps).length ≤ 256 := by
      simp at hl'; omega
    rw [e, commaSuffixes, if_pos rfl, commaSuffixes_append _ _ hp44, List.all_cons,
      Bool.and_eq_true, validate_spec_iff, takeWhile_commaJoin p ps hp44,
      ih (fun q hq => hp q (by simp [hq])) hl2]
    constructor
    · rintro ⟨⟨_, h1⟩, h2⟩ q hq
      rcases List.mem_cons.1 hq with h | h
      · subst h; exact h1
      · exact h2 q h
    · intro h
      exact ⟨⟨hl', h p (by simp)⟩, fun q hq => h q (by simp [hq])⟩

theorem protoPort_no_comma (s : Str) (h : IsProtoPort s) : 44 ∉ s := by
  obtain ⟨p, ds, hproto, heq, h1, h2, h3, _⟩ := h
  have := digits_no_comma ds h3
  rcases hproto with h | h <;> subst h <;> simp [heq, this]

theorem protoPort_not_empty (s : Str) (h : IsProtoPort s) : s ≠ [] := by
  obtain ⟨p, ds, hproto, heq, _⟩ := h
  simp [heq]

theorem validate_access_iff (s : Str) : validate_access_msg s = true ↔ IsAccessMsg s := by
  obtain ⟨h, parts, hs, hh, hp⟩ := split_commas s
  unfold validate_access_msg
  simp only [MAX_SPA_MESSAGE_SIZE]
  by_cases hl : s.length < 256
  · rw [if_neg (by omega)]
    have htw : s.takeWhile (· ≠ 44) = h := by rw [hs]; exact takeWhile_commaJoin h parts hh
    have hip : have_allow_ip s = true ↔ IsIPv4 h := by rw [have_allow_ip_iff, htw]
    constructor
    · intro hv
      split at hv
      · simp at hv
      · rename_i hi
        simp at hi
        have hi' := hip.1 hi
        split at hv
        · simp at hv
        · rename_i i hidx
          split at hv
          · simp at hv
          · rw [hs, commaSuffixes_append _ _ hh, suffixes_valid parts hp] at hv
            · cases parts with
              | nil =>
                rw [hs] at hidx
                simp only [commaJoin, List.map_nil, List.flatten_nil, List.append_nil] at hidx
                rw [strchr_none _ _ hh] at hidx; simp at hidx
              | cons p ps =>
                exact ⟨h, p, ps, hi', hv p (by simp), fun x hx => hv x (by simp [hx]), hs, hl⟩
            · rw [hs] at hl; simp at hl; omega
    · rintro ⟨ip, spec, specs, h1, h2, h3, h4, _⟩
      have hspecs : ∀ p ∈ spec :: specs, IsProtoPort p := by
        intro p hm
        rcases List.mem_cons.1 hm with e | e
        · subst e; exact h2
        · exact h3 p e
      have h4' : s = ip ++ commaJoin (spec :: specs) := h4
      have hipc := ipv4_no_comma ip h1
      have : s.takeWhile (· ≠ 44) = ip := by rw [h4']; exact takeWhile_commaJoin ip _ hipc
      rw [if_neg (by rw [(hip.2 (by rw [← htw, this]; exact h1))]; simp)]
      have hidx : strchr s 44 = some ip.length := by
        rw [h4']
        have : commaJoin (spec :: specs) = 44 :: (spec ++ commaJoin specs) := by simp [commaJoin]
        rw [this]; exact strchr_split _ _ _ hipc
      rw [hidx]
      have hne : 1 ≤ spec.length := by
        have := protoPort_not_empty spec h2
        cases spec <;> simp_all
      have hlen : s.length = ip.length + (spec.length + (commaJoin specs).length + 1) := by
        rw [h4']; simp [commaJoin]
      simp only
      rw [if_neg (by omega), h4', commaSuffixes_append _ _ hipc,
        suffixes_valid _ (fun p hm => protoPort_no_comma p (hspecs p hm)) (by
          rw [h4'] at hl; simp only [List.length_append] at hl; omega)]
      exact hspecs
  · rw [if_pos (by omega)]
    simp
    rintro ⟨_, _, _, _, _, _, _, h⟩
    exact hl h

theorem validate_cmd_iff (s : Str) : validate_cmd_msg s = true ↔ IsCommandMsg s := by
  unfold validate_cmd_msg
  simp only [MAX_SPA_CMD_LEN]
  by_cases hl : s.length < 1400
  · rw [if_neg (by omega)]
    rcases split_first s 44 with hn | ⟨p, t, hs, hp⟩
    · rw [strchr_none _ _ hn]
      constructor
      · intro h; split at h <;> simp at h
      · rintro ⟨ip, cmd, _, _, h, _⟩
        exact absurd (by simp [h]) hn
    · have hip : have_allow_ip s = true ↔ IsIPv4 p := by
        rw [have_allow_ip_iff, hs, takeWhile_ne_split _ _ _ hp]
      have hidx : strchr s 44 = some p.length := by rw [hs]; exact strchr_split _ _ _ hp
      rw [hidx]
      have hlen : s.length = p.length + (t.length + 1) := by rw [hs]; simp
      constructor
      · intro h
        split at h
        · simp at h
        · rename_i hi
          simp at hi
          simp only at h
          split at h
          · simp at h
          · refine ⟨p, t, hip.1 hi, ?_, hs, hl⟩
            intro e; subst e; simp at hlen; omega
      · rintro ⟨ip, cmd, h1, h2, h3, _⟩
        have hu := split_unique (hs.symm.trans h3) hp (ipv4_no_comma ip h1)
        rw [if_neg (by rw [hip.2 (hu.1 ▸ h1)]; simp)]
        simp only
        have : 1 ≤ t.length := by
          rw [hu.2]; cases cmd <;> simp_all
        rw [if_neg (by omega)]
  · rw [if_pos (by omega)]
    simp
    rintro ⟨_, _, _, _, _, h⟩
    exact hl h

/-! ## NAT targets -/

theorem takeWhile_length_lt (s : Str) (f : Nat → Bool) (n : Nat) (hn : n ≤ s.length) :
    ¬ ((s.takeWhile f).length < n) ↔ ∀ c ∈ s.take n, f c = true := by
  induction n generalizing s with
  | zero => simp
  | succ n ih =>
    cases s with
    | nil => simp at hn
    | cons x s =>
      simp only [List.takeWhile_cons, List.take_succ_cons, List.mem_cons, forall_eq_or_imp]
      by_cases hx : f x = true
      · rw [if_pos hx]
        simp only [List.length_cons, hx, true_and]
        rw [← ih s (by simpa using hn)]
        omega
      · rw [if_neg hx]; simp [hx]

theorem strcspn_comma (p t : Str) (hp : 44 ∉ p) : strcspn (p ++ 44 :: t) [44] = p.length := by
  unfold strcspn
  rw [takeWhile_stop p t _ 44 _ (by decide)]
  intro x hx
  have : x ≠ 44 := fun e => hp (e ▸ hx)
  simp [this]

theorem countP_eq_zero_of (s : Str) (m : Nat) (h : m ∉ s) : s.countP (· = m) = 0 := by
  rw [List.countP_eq_zero]; intro x hx; simp; intro e; exact h (e ▸ hx)

theorem validate_nat_iff (s : Str) :
    validate_nat_access_msg s = true ↔ IsNatTarget s ∧ s.length < 256 := by
  unfold validate_nat_access_msg
  simp only [MAX_SPA_MESSAGE_SIZE, count_characters, MAX_HOSTNAME_LEN]
  by_cases hl : s.length < 256
  · have hmin : min s.length 256 = s.length := by omega
    simp only [hmin, List.take_length]
    rw [if_neg (by omega)]
    rcases split_first s 44 with hn | ⟨p, t, hs, hp⟩
    · rw [if_pos (by rw [countP_eq_zero_of _ _ hn]; decide)]
      simp
      rintro ⟨h, ds, he, _⟩
      exact absurd (by simp [he]) hn
    · have hcnt : s.countP (· = 44) = 1 + t.countP (· = 44) := by
        rw [hs, List.countP_append, countP_eq_zero_of _ _ hp, List.countP_cons]; simp; omega
      have hlen : s.length = p.length + (t.length + 1) := by rw [hs]; simp
      have hcs : strcspn s [44] = p.length := by rw [hs]; exact strcspn_comma p t hp
      have hbad : ¬ (strcspn s b!" /?\"'\\" < p.length) ↔ ∀ c ∈ p, c ∉ b!" /?\"'\\" := by
        unfold strcspn
        rw [takeWhile_length_lt _ _ _ (by omega)]
        have : s.take p.length = p := by rw [hs]; simp
        rw [this]
        simp
      have hidx : strchr s 44 = some p.length := by rw [hs]; exact strchr_split _ _ _ hp
      have hdrop : s.drop (p.length + 1) = t := by
        rw [hs, List.drop_append]; simp
      rw [hidx, hcs]
      simp only [hdrop]
      constructor
      · intro h
        split at h
        · simp at h
        · rename_i hc1
          split at h
          · simp at h
          · rename_i hhl
            split at h
            · simp at h
            · rename_i hb
              split at h
              · simp at h
              · split at h
                · simp at h
                · rename_i hport
                  simp at hport
                  have ht0 : t.countP (· = 44) = 0 := by omega
                  have ht44 := by
                    have := List.countP_eq_zero.1 ht0
                    exact (fun hm => by have := this 44 hm; simp at this : (44 : Nat) ∉ t)
                  obtain ⟨_, ds, hds, hr⟩ := (have_port_iff t).1 hport
                  rw [takeWhile_ne_self _ _ ht44] at hds
                  subst hds
                  refine ⟨⟨p, ds, hs, by omega, ?_, hr⟩, hl⟩
                  intro c hc
                  have h1 := (hbad.1 hb) c hc
                  have h2 : c ≠ 44 := fun e => hp (e ▸ hc)
                  simp at h1 ⊢
                  omega
      · rintro ⟨⟨host, ds, he, h1, h2, h3⟩, _⟩
        have hh44 : 44 ∉ host := fun hm => by have := h2 _ hm; simp at this
        obtain ⟨rfl, rfl⟩ := split_unique (hs.symm.trans he) hp hh44
        have ht44 := digits_no_comma t h3.2.2.1
        have hc1 : s.countP (· = 44) = 1 := by rw [hcnt, countP_eq_zero_of _ _ ht44]
        rw [if_neg (by simp only [hc1]; decide), if_neg (by omega), if_neg, if_neg (by omega), if_neg, if_neg]
        · have : s.getD (s.length - 1) 0 = t.getD (t.length - 1) 0 := by
            rw [hs]
            simp only [List.getD_eq_getElem?_getD]
            rw [List.getElem?_append_right (by simp)]
            have : (p ++ 44 :: t).length - 1 - p.length = (t.length - 1) + 1 := by
              simp; omega
            rw [this, List.getElem?_cons_succ]
          rw [this]
          intro e
          apply ht44
          rw [List.getD_eq_getElem?_getD, List.getElem?_eq_getElem (by omega)] at e
          simp at e
          rw [← e]; exact List.getElem_mem _
        · have : have_port t = true := by
            rw [have_port_iff]
            exact ⟨by omega, t, (takeWhile_ne_self _ _ ht44).symm, h3⟩
          simp [this]
        · rw [hbad]
          intro c hc
          have := h2 c hc
          simp at this ⊢
          omega
  · rw [if_pos (by omega)]
    simp; intro _; omega

theorem badUserChar_iff (c : Nat) : badUserChar c = false ↔ IsUserChar c := by
  by_cases hlo : c ≤ 126
  · have : ∀ c : Fin 127, badUserChar c = false ↔
        (32 ≤ c.val ∧ c.val ≤ 126 ∧ c.val ∉ b!"\"/\\[]:;|=,+*?<>") := by decide +kernel
    exact this ⟨c, by omega⟩
  · simp only [badUserChar, isAlnum, isAlpha, isDigit, IsUserChar]
    simp; omega

theorem validate_username_iff (u : Str) :
    validate_username u = true ↔ u ≠ [] ∧ ∀ c ∈ u.take 64, IsUserChar c := by
  unfold validate_username
  simp only [MAX_SPA_USERNAME_SIZE]
  cases u with
  | nil => simp
  | cons x u =>
    rw [if_neg (by simp)]
    simp only [List.all_eq_true, Bool.not_eq_true', badUserChar_iff]
    simp

end Fwknop
