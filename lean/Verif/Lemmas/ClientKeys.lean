import Verif.Spec.Client
import Verif.Lemmas.ClientText
import Verif.Lemmas.AccessIncl
import Verif.Lemmas.CmdCycle
import Verif.Lemmas.AccessConf
import Verif.Props.Base64

/-!
# The keys of the client
-/

namespace Fwknop
open Spec Res

theorem isKeySep_iff (c : Nat) : isKeySep c = true ↔ IsKeySep c := by
  unfold isKeySep IsKeySep
  simp [or_assoc]

theorem dropWhile_pre {p : Nat → Bool} : ∀ (a b : Str), (∀ c ∈ a, p c = true) → (∀ c, b.head? = some c → p c = false) →
    (a ++ b).dropWhile p = b
  | [], b, _, hb => by
    cases b with
    | nil => rfl
    | cons x b => rw [List.nil_append, List.dropWhile_cons, hb x rfl]; rfl
  | x :: a, b, ha, hb => by
    rw [List.cons_append, List.dropWhile_cons, ha x (by simp)]
    exact dropWhile_pre a b (fun c hc => ha c (List.mem_cons_of_mem _ hc)) hb

theorem takeWhile_ten {k : Str} (h : 10 ∉ k) : (k ++ [10]).takeWhile (fun x => decide (x ≠ 10)) = k := by
  induction k with
  | nil => rfl
  | cons y k ih =>
    simp only [List.mem_cons, not_or] at h
    rw [List.cons_append, List.takeWhile_cons, if_pos (by simpa using fun e => h.1 e.symm), ih h.2]

/-- What a name at the start of a line may be. -/
structure KeyName (server : Str) : Prop where
  text : IsText server
  ne : server ≠ []
  head : ∀ c, server.head? = some c → ¬ IsKeySep c ∧ c ≠ 35 ∧ c ≠ 59 ∧ c ≠ 10 ∧ c ≠ 13

/-- A line of text with its newline in the array. -/
theorem keyFileLine_cases {server l : Str} {r : Option Str} (hs : KeyName server) (hl : IsText l) (h10 : 10 ∉ l)
    (h : keyFileLine server (l ++ [10]) = .ok r) :
    (∀ k, KeyLine server l k → r = some k) ∧ ((¬ ∃ k, KeyLine server l k) → r = none) := by
  have hc : cstr (l ++ [10]) = l ++ [10] := by
    unfold cstr
    refine takeWhile_of_all ?_
    intro c hc
    rcases List.mem_append.1 hc with h | h
    · have := (hl c h).1
      simpa using Nat.pos_iff_ne_zero.1 this
    · simp at h; subst h; rfl
  unfold keyFileLine at h
  simp only [hc] at h
  have hsplit : ∀ x : Str, x.takeWhile isKeySep ++ x.dropWhile isKeySep = x := fun x => List.takeWhile_append_dropWhile
  have hsep : ∀ x : Str, ∀ c ∈ x.takeWhile isKeySep, IsKeySep c := fun x c hc =>
    (isKeySep_iff c).1 (List.all_eq_true.1 List.all_takeWhile c hc)
  have hds : ∀ x : Str, ∀ c, (x.dropWhile isKeySep).head? = some c → ¬ IsKeySep c := by
    intro x c hc hn
    have := List.head?_dropWhile_not isKeySep x
    rw [hc] at this
    have h2 : isKeySep c = false := this
    rw [(isKeySep_iff c).2 hn] at h2
    cases h2
  have fwd : ∀ k, KeyLine server l k → r = some k := by
    rintro k ⟨pre, gap, he, hp, hg, hk⟩
    obtain ⟨s0, st, rfl⟩ := List.exists_cons_of_ne_nil hs.ne
    have hh := hs.head s0 rfl
    have h0 := (hs.text s0 (by simp)).1
    have hd : (l ++ [10]).dropWhile isKeySep = s0 :: st ++ 58 :: (gap ++ k) ++ [10] := by
      rw [he, List.append_assoc]
      refine dropWhile_pre _ _ (fun c hc => (isKeySep_iff c).2 (hp c hc)) ?_
      intro c hc
      simp at hc
      subst hc
      cases hq : isKeySep s0
      · rfl
      · exact absurd ((isKeySep_iff _).1 hq) hh.1
    rw [hd] at h
    have hem : isEmptyLine ((s0 :: st ++ 58 :: (gap ++ k) ++ [10]).headD 0) = false := by
      simp [isEmptyLine]
      omega
    rw [hem] at h
    simp only [Bool.false_eq_true, if_false] at h
    obtain ⟨_, -, h⟩ := Res.bind_eq_ok h
    have hpre : hasPrefix (s0 :: st) (s0 :: st ++ 58 :: (gap ++ k) ++ [10]) = true :=
      (hasPrefix_iff _ _).2 ⟨_, by rw [List.append_assoc]⟩
    rw [hpre] at h
    have hdrop : (s0 :: st ++ 58 :: (gap ++ k) ++ [10]).drop (s0 :: st).length = 58 :: (gap ++ k ++ [10]) := by
      rw [List.append_assoc, List.drop_left]; simp
    rw [hdrop] at h
    simp only [Bool.not_true, Bool.false_eq_true, if_false] at h
    have hkk : ((gap ++ k ++ [10]).dropWhile isKeySep).takeWhile (fun x => decide (x ≠ 10)) = k := by
      rw [List.append_assoc, dropWhile_pre gap _ (fun c hc => (isKeySep_iff c).2 (hg c hc))]
      · have hk10 : 10 ∉ k := fun hm => h10 (by rw [he]; simp [hm])
        exact takeWhile_ten hk10
      · intro c hc
        cases k with
        | nil => simp at hc; subst hc; rfl
        | cons y k =>
          simp at hc; subst hc
          cases hq : isKeySep y
          · rfl
          · exact absurd ((isKeySep_iff _).1 hq) (hk _ rfl)
    rw [hkk] at h
    obtain ⟨_, -, h⟩ := Res.bind_eq_ok h
    cases h
    rfl
  refine ⟨fwd, fun hn => ?_⟩
  split at h
  · cases h; rfl
  obtain ⟨_, -, h⟩ := Res.bind_eq_ok h
  split at h
  · cases h; rfl
  · rename_i hpf
    simp only [Bool.not_eq_true, Bool.not_eq_false'] at hpf
    obtain ⟨q, hq⟩ := (hasPrefix_iff _ _).1 hpf
    rw [hq, List.drop_left] at h
    split at h
    · rename_i rest
      exfalso
      apply hn
      have hall : l ++ [10] = (l ++ [10]).takeWhile isKeySep ++ (server ++ 58 :: rest) := by
        rw [← hq, hsplit]
      rcases List.eq_nil_or_concat rest with hr | ⟨body, e, hr⟩
      · exfalso
        subst hr
        have := congrArg List.getLast? hall
        rw [List.getLast?_append, List.getLast?_append, List.getLast?_append] at this
        simp at this
      · rw [List.concat_eq_append] at hr
        subst hr
        have hall' : l ++ [10] = ((l ++ [10]).takeWhile isKeySep ++ (server ++ 58 :: body)) ++ [e] := by
          rw [List.append_assoc, List.append_assoc, List.cons_append]; exact hall
        obtain ⟨hl2, -⟩ := List.append_inj' hall' rfl
        refine ⟨body.dropWhile isKeySep, (l ++ [10]).takeWhile isKeySep, body.takeWhile isKeySep, ?_, hsep _, hsep _, hds _⟩
        rw [hsplit]
        exact hl2
    · cases h; rfl

theorem keyFileLoop_last {server : Str} (hs : KeyName server) :
    ∀ (ls : List Str) (k0 k : Str), (∀ l ∈ ls, IsText l ∧ 10 ∉ l) →
      keyFileLoop server (ls.map fun l => l ++ [10]) k0 = .ok k →
      (∀ l ∈ ls, ¬ ∃ k, KeyLine server l k) → k = k0 := by
  intro ls
  induction ls with
  | nil => intro k0 k _ h _; cases h; rfl
  | cons l ls ih =>
    intro k0 k ht h hn
    rw [List.map_cons] at h
    unfold keyFileLoop at h
    obtain ⟨r, h1, h2⟩ := Res.bind_eq_ok h
    have := (keyFileLine_cases hs (ht l (by simp)).1 (ht l (by simp)).2 h1).2 (hn l (by simp))
    subst this
    exact ih k0 k (fun l hl => ht l (List.mem_cons_of_mem _ hl)) h2 (fun l hl => hn l (List.mem_cons_of_mem _ hl))

theorem keyFileLoop_found {server : Str} (hs : KeyName server) {before after : List Str} {line key : Str}
    (ht : ∀ l ∈ before ++ line :: after, IsText l ∧ 10 ∉ l) {k0 k : Str}
    (h : keyFileLoop server ((before ++ line :: after).map fun l => l ++ [10]) k0 = .ok k)
    (hk : KeyLine server line key) (hn : ∀ l ∈ after, ¬ ∃ k, KeyLine server l k) : k = key := by
  induction before generalizing k0 with
  | nil =>
    rw [List.nil_append, List.map_cons] at h
    unfold keyFileLoop at h
    obtain ⟨r, h1, h2⟩ := Res.bind_eq_ok h
    have hl := ht line (by simp)
    have := (keyFileLine_cases hs hl.1 hl.2 h1).1 key hk
    subst this
    exact keyFileLoop_last hs after _ k (fun l hl => ht l (by simp [hl])) h2 hn
  | cons b bs ih =>
    rw [List.cons_append, List.map_cons] at h
    unfold keyFileLoop at h
    obtain ⟨r, h1, h2⟩ := Res.bind_eq_ok h
    exact ih (fun l hl => ht l (by rw [List.cons_append]; exact List.mem_cons_of_mem _ hl)) h2

theorem get_key_file_ok {E : CliEnv} {server name k : Str} (hs : KeyName server)
    (h : get_key_file E server name = .ok k) :
    ∃ content, E.file name = some content ∧ k ≠ [] ∧
      ∀ ls key, content = fileOf ls → (∀ l ∈ ls, IsText l ∧ 10 ∉ l ∧ l.length ≤ 1022) → FileKey server ls key → k = key := by
  unfold get_key_file at h
  obtain ⟨content, h1, h⟩ := Res.bind_eq_ok h
  obtain ⟨k', h2, h⟩ := Res.bind_eq_ok h
  obtain ⟨_, h3, h⟩ := Res.bind_eq_ok h
  have h3 := guard_inv h3
  cases h
  refine ⟨content, ofOpt_ok h1, by simpa using h3, ?_⟩
  rintro ls key rfl hls ⟨before, line, after, rfl, hk, hn⟩
  unfold fileOf at h2
  rw [fgetsLines_flatten _ _ (fun l hl => (hls l hl).2) (Nat.le_refl _)] at h2
  exact keyFileLoop_found hs (fun l hl => ⟨(hls l hl).1, (hls l hl).2.1⟩) h2 hk hn

theorem decodeKey_b64 {b k : Str} (h : decodeKey (b64 b) = .ok k) (hb : ∀ c ∈ b, c < 256) : k = b := by
  unfold decodeKey at h
  obtain ⟨k', h1, h⟩ := Res.bind_eq_ok h
  obtain ⟨_, -, h⟩ := Res.bind_eq_ok h
  cases h
  have h1 := ofOpt_ok h1
  have h2 : Base64.b64_decode (b64 b) = some b := by
    rw [← Base64.b64_encode_eq b hb]
    exact Props.C01_base64_roundtrip b hb
  rw [h2] at h1
  cases h1
  rfl

theorem typedKey_ok {p : Option Str} {k : Str} (h : typedKey p = .ok k) : ∃ pw, p = some pw ∧ k = pw.take 128 := by
  unfold typedKey at h
  obtain ⟨pw, h1, h⟩ := Res.bind_eq_ok h
  cases h
  exact ⟨pw, ofOpt_ok h1, rfl⟩

end Fwknop
