import Verif.Model.Proc
import Verif.Spec.Proc
import Verif.Lemmas.Replay
import Verif.Lemmas.AccessLine
import Verif.Lemmas.Http

namespace Fwknop

open Spec

/-! ## Lines of the pipe -/

theorem fgetsOne_snd_shorter (n : Nat) (s : Str) (h : s ≠ []) : (fgetsOne (n + 1) s).2.length < s.length := by
  have h1 := congrArg List.length (fgetsOne_split (n + 1) s)
  rw [List.length_append] at h1
  have h2 := List.length_pos_iff.mpr (fgetsOne_fst_ne_nil n s h)
  omega

theorem outLines_flatten : ∀ (f : Nat) (s : Str), s.length < f → (outLines f s).flatten = s
  | 0, s, h => by omega
  | f + 1, [], _ => rfl
  | f + 1, c :: cs, h => by
    rw [outLines]
    rw [List.flatten_cons, outLines_flatten f _ (by
      have := fgetsOne_snd_shorter 254 (c :: cs) (by simp)
      have : (fgetsOne (IO_READ_BUF_LEN - 1) (c :: cs)).2.length < (c :: cs).length := this
      omega)]
    exact fgetsOne_split _ _

theorem outLines_chunk : ∀ (f : Nat) (s : Str), ∀ l ∈ outLines f s, l ≠ [] ∧ l.length ≤ 255 ∧ ∀ c ∈ l, c ∈ s
  | 0, s => by intro l h; cases h
  | f + 1, [] => by intro l h; cases h
  | f + 1, c :: cs => by
    intro l h
    rw [outLines] at h
    have hs := fgetsOne_split (IO_READ_BUF_LEN - 1) (c :: cs)
    rcases List.mem_cons.mp h with rfl | h
    · exact ⟨fgetsOne_fst_ne_nil 254 _ (by simp), fgetsOne_length 255 _, fun x hx => hs ▸ List.mem_append_left _ hx⟩
    · obtain ⟨h1, h2, h3⟩ := outLines_chunk f _ l h
      exact ⟨h1, h2, fun x hx => hs ▸ List.mem_append_right _ (h3 x hx)⟩

theorem outLines_text : ∀ (ls : List Str) (f : Nat), ShortLines ls → (linesText ls).length < f →
    outLines f (linesText ls) = ls.map (· ++ [10])
  | [], f, _, h => by
    cases f with
    | zero => exact absurd h (Nat.not_lt_zero _)
    | succ f => rfl
  | l :: ls, f, hl, h => by
    cases f with
    | zero => exact absurd h (Nat.not_lt_zero _)
    | succ f =>
      obtain ⟨h1, h2, h3⟩ := hl l List.mem_cons_self
      have ht : linesText (l :: ls) = l ++ 10 :: linesText ls := by simp [linesText]
      rw [ht] at h ⊢
      have hone := fgetsOne_line 255 l (linesText ls) h1 (by omega)
      cases hx : l ++ 10 :: linesText ls with
      | nil => simp at hx
      | cons c cs =>
        rw [outLines]
        rw [← hx, show IO_READ_BUF_LEN - 1 = 255 from rfl, hone, List.map_cons]
        dsimp only
        rw [outLines_text ls f (fun x hx => hl x (List.mem_cons_of_mem _ hx)) (by
          rw [List.length_append, List.length_cons] at h; omega)]

/-! ## Filling the buffer -/

theorem strlcat_room {a b : Str} {n : Nat} (h : a.length ≤ n) : strlcat a b (n + 1) = (a ++ b).take n := by
  unfold strlcat
  rw [if_neg (by omega), Nat.add_sub_cancel, List.take_append, List.take_of_length_le h]

/-- The loop that fills a buffer with room for `n` characters. -/
theorem extLoop_fill {a : ExtArgs} {n : Nat} (ha : a.so_buf = some (n + 1)) (hg : a.getline = false) (hs : a.search = none) :
    ∀ (ls : List Str) (buf : Str) (k : Nat), (∀ l ∈ ls, l ≠ [] ∧ 0 ∉ l) → buf.length < n ∨ (buf = [] ∧ n = 0) →
      (extLoop a ls buf k).1 = (buf ++ ls.flatten).take n ∧
        ((extLoop a ls buf k).2.2.2 = true ↔ ls = [] ∨ (buf ++ ls.flatten).length < n)
  | [], buf, k, _, hb => by
    refine ⟨?_, by simp [extLoop]⟩
    rw [extLoop, List.flatten_nil, List.append_nil]
    refine (List.take_of_length_le (show buf.length ≤ n from ?_)).symm
    rcases hb with hb | ⟨rfl, rfl⟩
    · omega
    · exact Nat.le_refl _
  | l :: ls, buf, k, hl, hb => by
    obtain ⟨h1, h2⟩ := hl l List.mem_cons_self
    have hb' : buf.length ≤ n := by
      rcases hb with hb | ⟨rfl, rfl⟩
      · omega
      · exact Nat.le_refl _
    have hc : copy_or_search a l buf = ((buf ++ l).take n, false, decide (((buf ++ l).take n).length ≥ n)) := by
      unfold copy_or_search
      rw [ha, hs, hg, takeWhile_ne_self _ _ h2]
      dsimp only
      rw [if_neg (by decide), strlcat_room hb', Nat.add_sub_cancel]
    rw [extLoop, hc]
    dsimp only
    by_cases hn : ((buf ++ l).take n).length ≥ n
    · rw [if_pos (decide_eq_true hn)]
      dsimp only
      have hlen : n ≤ (buf ++ l).length := by
        rw [List.length_take] at hn
        omega
      refine ⟨?_, ?_⟩
      · rw [List.flatten_cons, ← List.append_assoc, List.take_append_of_le_length hlen]
      · constructor
        · exact nofun
        · rintro (h | h)
          · cases h
          · rw [List.flatten_cons, ← List.append_assoc, List.length_append] at h
            omega
    · rw [if_neg (by simpa using hn)]
      have hlen : (buf ++ l).length < n := by
        rw [List.length_take] at hn
        omega
      rw [List.take_of_length_le (Nat.le_of_lt hlen)]
      obtain ⟨i1, i2⟩ := extLoop_fill ha hg hs ls (buf ++ l) (k + 1) (fun x hx => hl x (List.mem_cons_of_mem _ hx)) (Or.inl hlen)
      rw [List.append_assoc] at i1 i2
      refine ⟨by rw [List.flatten_cons]; exact i1, i2.trans ?_⟩
      rw [List.flatten_cons]
      constructor
      · rintro (rfl | h)
        · exact Or.inr (by simpa using hlen)
        · exact Or.inr h
      · rintro (h | h)
        · cases h
        · exact Or.inr h

/-- Whatever the program prints, the text in the buffer fits. -/
theorem extLoop_fits {a : ExtArgs} {n : Nat} (ha : a.so_buf = some (n + 1)) :
    ∀ (ls : List Str) (buf : Str) (k : Nat), buf.length ≤ n → (extLoop a ls buf k).1.length ≤ n
  | [], buf, k, hb => hb
  | l :: ls, buf, k, hb => by
    have hc : (copy_or_search a l buf).1.length ≤ n := by
      unfold copy_or_search
      rw [ha]
      dsimp only
      generalize l.takeWhile _ = l'
      have h1 : (strlcpy l' (n + 1)).length ≤ n := by
        unfold strlcpy
        exact List.length_take_le ..
      have h2 : (strlcat buf l' (n + 1)).length ≤ n := by
        rw [strlcat_room hb]
        exact List.length_take_le ..
      cases a.getline <;> cases a.search <;> dsimp only
      · exact h2
      · split <;> exact h2
      · exact h1
      · split <;> exact h1
    rw [extLoop]
    split
    · exact hc
    · exact extLoop_fits ha ls _ _ hc

theorem extLoop_null {a : ExtArgs} (ha : a.so_buf = none) :
    ∀ (ls : List Str) (buf : Str) (k : Nat), (extLoop a ls buf k).1 = buf
  | [], buf, k => rfl
  | l :: ls, buf, k => by
    have hc : (copy_or_search a l buf).1 = buf := by
      unfold copy_or_search
      rw [ha]
      dsimp only
      split
      · rfl
      · split <;> rfl
    rw [extLoop]
    split
    · exact hc
    · rw [extLoop_null ha ls _ _, hc]

/-! ## Looking for a text -/

theorem strIn_iff (s t : Str) : strIn s t = true ↔ t <:+: s := by
  unfold strIn
  constructor
  · intro h
    obtain ⟨i, hi⟩ := Option.isSome_iff_exists.mp h
    obtain ⟨-, h2, -⟩ := findSuffix_some hi
    obtain ⟨r, hr⟩ := List.isPrefixOf_iff_prefix.mp h2
    exact ⟨s.take i, r, by rw [List.append_assoc, hr, List.take_append_drop]⟩
  · rintro ⟨x, y, rfl⟩
    cases hf : findSuffix (hasPrefix t) (x ++ t ++ y) with
    | some i => rfl
    | none =>
      have := findSuffix_none hf x.length (by simp)
      rw [List.append_assoc, List.drop_left' rfl] at this
      exact absurd (List.isPrefixOf_iff_prefix.mpr (List.prefix_append t y)) (by rw [show t.isPrefixOf (t ++ y) = hasPrefix t (t ++ y) from rfl, this]; decide)

theorem infix_line {t l : Str} (ht : 10 ∉ t) : t <:+: l ++ [10] ↔ t <:+: l := by
  constructor
  · rintro ⟨x, y, h⟩
    rcases List.eq_nil_or_concat y with rfl | ⟨y', c, rfl⟩
    · rcases List.eq_nil_or_concat t with rfl | ⟨t', c, rfl⟩
      · exact List.nil_infix
      · rw [List.append_nil, List.concat_eq_append, ← List.append_assoc] at h
        have := (List.append_inj' h rfl).2
        cases this
        exact absurd (by simp) ht
    · rw [List.concat_eq_append, ← List.append_assoc] at h
      exact ⟨x, y', (List.append_inj' h rfl).1⟩
  · rintro ⟨x, y, rfl⟩
    exact ⟨x, y ++ [10], by simp⟩

theorem lineWith_iff {t l : Str} (ht : 10 ∉ t) (hl : 10 ∉ l ∧ 0 ∉ l) :
    (!isEmptyLine ((l ++ [10]).headD 0) && strIn (l ++ [10]) t) = true ↔ LineWith t l := by
  rw [Bool.and_eq_true, strIn_iff, infix_line ht]
  unfold LineWith
  rw [and_comm]
  refine and_congr_right fun _ => ?_
  cases l with
  | nil => simp [isEmptyLine]
  | cons c l =>
    have h1 : c ≠ 10 := fun h => hl.1 (h ▸ List.mem_cons_self)
    have h2 : c ≠ 0 := fun h => hl.2 (h ▸ List.mem_cons_self)
    simp [isEmptyLine, h1, h2, and_assoc]

/-- The loop that looks for a text. -/
theorem extLoop_search {a : ExtArgs} {t : Str} (hs : a.search = some t) (ht : 10 ∉ t) (ha : a.so_buf = none ∨ a.getline = true) :
    ∀ (ls : List Str) (buf : Str) (k : Nat), ShortLines ls →
      (((extLoop a (ls.map (· ++ [10])) buf k).2.2.1 = false ∧ (extLoop a (ls.map (· ++ [10])) buf k).2.2.2 = true ∧ ∀ l ∈ ls, ¬ LineWith t l) ∨
      ∃ before l after, ls = before ++ l :: after ∧ LineWith t l ∧ (∀ x ∈ before, ¬ LineWith t x) ∧
        (extLoop a (ls.map (· ++ [10])) buf k).2 = (k + before.length + 1, true, false) ∧
        ∀ n, a.so_buf = some n → (extLoop a (ls.map (· ++ [10])) buf k).1 = strlcpy (l ++ [10]) n)
  | [], buf, k, _ => Or.inl ⟨rfl, rfl, by simp⟩
  | l :: ls, buf, k, hl => by
    have hl0 := hl l List.mem_cons_self
    have hcut : (l ++ [10]).takeWhile (· ≠ 0) = l ++ [10] := takeWhile_ne_self _ _ (by simp [hl0.2.1])
    rw [List.map_cons, extLoop]
    by_cases hw : LineWith t l
    · have hc : copy_or_search a (l ++ [10]) buf = ((match a.so_buf with | none => buf | some n => strlcpy (l ++ [10]) n), true, true) := by
        unfold copy_or_search
        rw [hs, hcut]
        dsimp only
        rw [if_pos ((lineWith_iff ht ⟨hl0.1, hl0.2.1⟩).mpr hw)]
        cases hb : a.so_buf with
        | none => rfl
        | some n =>
          rw [hb] at ha
          rcases ha with ha | ha
          · cases ha
          · rw [ha]; rfl
      rw [hc]
      refine Or.inr ⟨[], l, ls, rfl, hw, by simp, by simp, ?_⟩
      intro n hn
      simp [hn]
    · have hc : ∃ buf', copy_or_search a (l ++ [10]) buf = (buf', false, false) := by
        unfold copy_or_search
        rw [hs, hcut]
        dsimp only
        rw [if_neg (fun h => hw ((lineWith_iff ht ⟨hl0.1, hl0.2.1⟩).mp h))]
        cases hb : a.so_buf with
        | none => exact ⟨_, rfl⟩
        | some n =>
          rw [hb] at ha
          rcases ha with ha | ha
          · cases ha
          · rw [ha]; exact ⟨_, rfl⟩
      obtain ⟨buf', hc⟩ := hc
      rw [hc]
      dsimp only
      rw [if_neg (by decide)]
      rcases extLoop_search hs ht ha ls buf' (k + 1) (fun x hx => hl x (List.mem_cons_of_mem _ hx)) with ⟨h1, h2, h3⟩ | ⟨before, l', after, rfl, h1, h2, h3, h4⟩
      · exact Or.inl ⟨h1, h2, fun x hx => by
          rcases List.mem_cons.mp hx with rfl | hx
          · exact hw
          · exact h3 x hx⟩
      · refine Or.inr ⟨l :: before, l', after, rfl, h1, fun x hx => ?_, ?_, h4⟩
        · rcases List.mem_cons.mp hx with rfl | hx
          · exact hw
          · exact h2 x hx
        · rw [h3, List.length_cons]
          congr 1
          omega

/-! ## Whole lines -/

theorem truncate_kept (out : Str) (n : Nat) : Kept out n (truncate_partial_line (out.take n)) := by
  unfold truncate_partial_line
  by_cases h : 10 ∈ out.take n
  · rw [if_pos (by simpa using h)]
    generalize ht : out.take n = t at h
    have hsplit : ∃ p q, t = p ++ 10 :: q ∧ 10 ∉ q ∧ (t.reverse.dropWhile (· ≠ 10)).reverse = p ++ [10] := by
      have hr : ∃ a b, t.reverse = a ++ 10 :: b ∧ 10 ∉ a := by
        have : 10 ∈ t.reverse := List.mem_reverse.mpr h
        exact List.eq_append_cons_of_mem this
      obtain ⟨a, b, hab, hna⟩ := hr
      refine ⟨b.reverse, a.reverse, ?_, by simpa using hna, ?_⟩
      · have := congrArg List.reverse hab
        simpa using this
      · rw [hab, List.dropWhile_append_of_pos (show ∀ x ∈ a, decide (x ≠ 10) = true from fun x hx => decide_eq_true fun h : x = 10 => hna (h ▸ hx)), List.dropWhile_cons_of_neg (by decide)]
        simp
    obtain ⟨p, q, hpq, hq, he⟩ := hsplit
    rw [he]
    have hpre : t <+: out := ht ▸ List.take_prefix _ _
    have hpt : p ++ [10] <+: t := ⟨q, by rw [hpq]; simp⟩
    have hlen : t.length ≤ n := by rw [← ht]; exact List.length_take_le ..
    refine ⟨hpt.trans hpre, Nat.le_trans hpt.length_le hlen, fun _ => ⟨by simp, fun b hb hbn hbl => ?_⟩, fun hno => absurd (ht ▸ h) hno⟩
    have hbt : b <+: t := by
      rw [← ht]
      exact List.prefix_take_iff.mpr ⟨hb, hbn⟩
    by_cases hle : b.length ≤ (p ++ [10]).length
    · exact hle
    · exfalso
      obtain ⟨r, hr⟩ := List.prefix_of_prefix_length_le hpt hbt (by omega)
      have hrne : r ≠ [] := by
        rintro rfl
        rw [List.append_nil] at hr
        rw [← hr] at hle
        omega
      rw [← hr, List.getLast?_append, List.getLast?_eq_some_getLast hrne] at hbl
      have hin : 10 ∈ r := by
        have := List.getLast_mem hrne
        have he : r.getLast hrne = 10 := by simpa using hbl
        exact he ▸ this
      obtain ⟨r', hr'⟩ := hbt
      rw [← hr, hpq] at hr'
      have : r ++ r' = q := by simpa using hr'
      exact hq (this ▸ List.mem_append_left _ hin)
  · rw [if_neg (by simpa using h)]
    exact ⟨List.take_prefix _ _, List.length_take_le .., fun h' => absurd h' h, fun _ => rfl⟩

end Fwknop
