import Verif.Model.Passwd
import Verif.Spec.Passwd

/-!
# Lemmas: keys that are typed in
-/

namespace Fwknop

open Spec Res

theorem set_take {l : Str} {n c : Nat} (h : n < l.length) : (l.set n c).take (n + 1) = l.take n ++ [c] := by
  rw [List.take_add_one, List.take_set_of_le (Nat.le_refl n), List.getElem?_set_self h]
  rfl

/-- The array always has the line in front. -/
theorem pwLoop_run (keys : List Nat) : ∀ (s : PwSt) (line rest : List Nat), s.password.length = PW_BUFSIZE → s.ptr = line.length →
    s.password.take s.ptr = line → (∀ k ∈ keys, k ≠ 10 ∧ k ≠ 3) → (∀ m, ((keys.take m).foldl editKey line).length ≤ 127) →
    ∃ s', pwLoop (keys ++ rest) s = pwLoop rest s' ∧ s'.password.length = PW_BUFSIZE ∧ s'.ptr = (keys.foldl editKey line).length ∧
      s'.password.take s'.ptr = keys.foldl editKey line := by
  induction keys with
  | nil => intro s line rest hl hp ht _ _; exact ⟨s, rfl, hl, hp, ht⟩
  | cons k ks ih =>
    intro s line rest hl hp ht hk hm
    have hk0 := hk k List.mem_cons_self
    have hk' : ∀ k ∈ ks, k ≠ 10 ∧ k ≠ 3 := fun x hx => hk x (List.mem_cons_of_mem _ hx)
    have hm' : ∀ m, ((ks.take m).foldl editKey (editKey line k)).length ≤ 127 := fun m => hm (m + 1)
    rw [List.cons_append, pwLoop, if_neg (by rintro (h | h); exact hk0.1 h; exact hk0.2 h), List.foldl_cons]
    by_cases h8 : k = 8
    · subst h8
      rw [if_pos rfl]
      have he : editKey line 8 = line.dropLast := rfl
      rw [he] at hm' ⊢
      by_cases h0 : s.ptr = 0
      · rw [if_neg (by simpa using h0)]
        have : line = [] := List.eq_nil_of_length_eq_zero (by omega)
        subst this
        exact ih s _ rest hl hp ht hk' hm'
      · rw [if_pos h0]
        refine ih ⟨s.password, s.ptr - 1⟩ _ rest hl ?_ ?_ hk' hm'
        · simp [List.length_dropLast, hp]
        · have hle : s.ptr ≤ s.password.length := by
            have := congrArg List.length ht
            rw [List.length_take] at this
            omega
          rw [← ht, List.dropLast_eq_take, List.take_take, List.length_take,
            show min (min s.ptr s.password.length - 1) s.ptr = s.ptr - 1 from by omega]
    · rw [if_neg h8]
      by_cases h21 : k = 21
      · subst h21
        rw [if_pos rfl]
        exact ih ⟨s.password, 0⟩ [] rest hl rfl (by simp) hk' hm'
      · rw [if_neg h21]
        have he : editKey line k = line ++ [k] := by unfold editKey; rw [if_neg h8, if_neg h21]
        rw [he] at hm' ⊢
        have h1 := hm' 0
        simp only [List.take_zero, List.foldl_nil, List.length_append, List.length_cons, List.length_nil] at h1
        have hlt : s.ptr < s.password.length := by rw [hl]; show s.ptr < 128; omega
        rw [if_pos (show s.ptr < 128 - 1 by omega), show Res.mem (decide (s.ptr ≥ s.password.length)) = .ok () from by
          rw [decide_eq_false (by omega)]; rfl, bind_ok]
        refine ih _ _ rest ?_ ?_ ?_ hk' hm'
        · simpa using hl
        · simp [hp]
        · show (s.password.set s.ptr k).take (s.ptr + 1) = _
          rw [set_take hlt, ht]

/-- Whatever is typed, the place stays in the array. -/
theorem pwLoop_total : ∀ (stream : List Nat) (s : PwSt), s.password.length = PW_BUFSIZE → s.ptr ≤ 127 →
    ∃ s' e r, pwLoop stream s = .ok (s', e, r) ∧ s'.password.length = PW_BUFSIZE ∧ s'.ptr ≤ 127
  | [], s, hl, hp => ⟨s, none, [], rfl, hl, hp⟩
  | c :: cs, s, hl, hp => by
    rw [pwLoop]
    split
    · exact ⟨s, some c, cs, rfl, hl, hp⟩
    · split
      · split
        · exact pwLoop_total cs ⟨s.password, s.ptr - 1⟩ hl (by show s.ptr - 1 ≤ 127; omega)
        · exact pwLoop_total cs s hl hp
      · split
        · exact pwLoop_total cs ⟨s.password, 0⟩ hl (Nat.zero_le _)
        · split
          · rename_i hlt
            have hlt : s.ptr < 127 := hlt
            rw [show Res.mem (decide (s.ptr ≥ s.password.length)) = .ok () from by
              rw [decide_eq_false (by rw [hl]; show ¬ s.ptr ≥ 128; omega)]; rfl, bind_ok]
            exact pwLoop_total cs ⟨s.password.set s.ptr c, s.ptr + 1⟩ (by simpa using hl) (by show s.ptr + 1 ≤ 127; omega)
          · exact pwLoop_total cs s hl hp

/-- The text in front of a NUL. -/
theorem takeWhile_atNul : ∀ (a b : List Nat), (a ++ 0 :: b).takeWhile (· ≠ 0) = a.takeWhile (· ≠ 0)
  | [], _ => rfl
  | x :: a, b => by
    simp only [List.cons_append, List.takeWhile_cons, takeWhile_atNul a b]

/-- What follows the loop. -/
theorem read_end {password stream rest : List Nat} {s : PwSt} {e : Option Nat} (h : pwLoop stream ⟨password, 0⟩ = .ok (s, e, rest))
    (hl : s.password.length = PW_BUFSIZE) (hp : s.ptr ≤ 127) : ∃ p, p.length = PW_BUFSIZE ∧
    read_passwd_from_stream password stream =
      .ok (((s.password.take (if e = some PW_BREAK_CHAR then 0 else s.ptr))).takeWhile (· ≠ 0), p, rest) := by
  unfold read_passwd_from_stream
  rw [h, bind_ok]
  dsimp only
  generalize hn : (if e = some PW_BREAK_CHAR then 0 else s.ptr) = n
  have hn' : n < 128 := by rw [← hn]; split <;> omega
  have hnl : n < s.password.length := by rw [hl]; exact hn'
  have h0 : 0 ∈ s.password.set n 0 := List.mem_set hnl 0
  rw [show Res.mem (decide (n ≥ s.password.length)) = .ok () from by rw [decide_eq_false (by omega)]; rfl, bind_ok,
    show Res.mem (decide (0 ∉ s.password.set n 0)) = .ok () from by rw [decide_eq_false (not_not_intro h0)]; rfl, bind_ok]
  refine ⟨s.password.set n 0, by simpa using hl, ?_⟩
  have : s.password.set n 0 = s.password.take n ++ 0 :: s.password.drop (n + 1) := by
    rw [List.set_eq_take_append_cons_drop, if_pos hnl]
  rw [this]
  refine congrArg Res.ok (Prod.ext ?_ rfl)
  exact takeWhile_atNul _ _

theorem takeWhile_noNul : ∀ {l : List Nat}, (∀ c ∈ l, decide (c ≠ 0) = true) → l.takeWhile (· ≠ 0) = l
  | [], _ => rfl
  | c :: l, h => by
    rw [List.takeWhile_cons, if_pos (h c List.mem_cons_self), takeWhile_noNul fun x hx => h x (List.mem_cons_of_mem _ hx)]

theorem typed_short {ks : List Nat} (hn : NeverLonger 127 ks) : (edited ks).length ≤ MAX_KEY_LEN := by
  have := hn ks.length
  rw [List.take_length] at this
  exact Nat.le_trans this (by decide)

theorem typedKey_short {k : Str} (h : k.length ≤ MAX_KEY_LEN) : typedKey (some k) = .ok k := by
  unfold typedKey
  rw [show Res.ofOpt (some k) = .ok k from rfl, bind_ok, show strlcpy k (MAX_KEY_LEN + 1) = k from
    List.take_of_length_le (by omega)]
  rfl

/-- The encryption key of a client that asks for it. -/
theorem getKey_typed {E : CliEnv} {o : CliOpts} {k : Str} (ha : asksKey o = true) (hp : E.passwd = some k) (hl : k.length ≤ MAX_KEY_LEN) :
    getKey E o = .ok k := by
  unfold asksKey at ha
  simp only [Bool.and_eq_true, Bool.or_eq_true, Bool.not_eq_true', decide_eq_true_eq] at ha
  obtain ⟨⟨⟨h1, h2⟩, h3⟩, h4⟩ := ha
  unfold getKey
  rw [h1, h2, if_neg (by decide), if_neg (by decide), if_neg (by simp [h3]), hp]
  rcases h4 with h4 | ⟨⟨h5, h6⟩, h7⟩
  · rw [h4, if_neg (by decide)]
    exact typedKey_short hl
  · have : gpgKey E o = .ok k := by
      unfold gpgKey
      rw [if_neg (by simp [h5, h6, h7]), hp]
      exact typedKey_short hl
    rw [this, typedKey_short hl, ite_self]

theorem asksHmac_is {o : CliOpts} (ha : asksHmac o = true) (E : CliEnv) : getHmacKey E o = (do
    let k ← typedKey E.hmacPasswd
    return some k) := by
  unfold asksHmac at ha
  simp only [Bool.and_eq_true, Bool.not_eq_true', decide_eq_true_eq] at ha
  obtain ⟨⟨⟨h1, h2⟩, h3⟩, h4⟩ := ha
  unfold getHmacKey
  rw [h1, h2, h3, if_neg (by decide), if_neg (by decide), if_pos rfl, if_neg (by simp [h4])]

theorem getHmac_typed {E : CliEnv} {o : CliOpts} {k : Str} (ha : asksHmac o = true) (hp : E.hmacPasswd = some k)
    (hl : k.length ≤ MAX_KEY_LEN) : getHmacKey E o = .ok (some k) := by
  rw [asksHmac_is ha, hp, typedKey_short hl]
  rfl

theorem getHmac_none {E : CliEnv} {o : CliOpts} (ha : asksHmac o = true) (hp : E.hmacPasswd = none) : getHmacKey E o = .err := by
  rw [asksHmac_is ha, hp]
  rfl

end Fwknop
