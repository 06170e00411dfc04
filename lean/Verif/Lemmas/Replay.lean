import Verif.Model.Replay
import Verif.Lemmas.CLib
import Verif.Lemmas.Decode

/-! # Lemmas about the replay cache -/

namespace Fwknop

/-! ## Lines -/

/-- A file that is empty or ends with a newline. -/
def EndsLine (f : Str) : Prop := f = [] ∨ ∃ g, f = g ++ [10]

theorem endsLine_tail {a b : Str} (h : EndsLine (a ++ b)) : EndsLine b := by
  rcases h with h | ⟨g, h⟩
  · exact .inl (List.append_eq_nil_iff.1 h).2
  · rcases List.eq_nil_or_concat b with hb | ⟨b', x, hb⟩
    · exact .inl hb
    · right
      subst hb
      rw [List.concat_eq_append, ← List.append_assoc] at h
      have := List.append_inj' h (by simp)
      rw [List.concat_eq_append]
      exact ⟨b', by rw [this.2]⟩

theorem endsLine_append {a b : Str} (h : EndsLine b) (hb : b ≠ []) : EndsLine (a ++ b) := by
  rcases h with h | ⟨g, h⟩
  · exact absurd h hb
  · exact .inr ⟨a ++ g, by rw [h, List.append_assoc]⟩

theorem fgetsOne_split : ∀ (n : Nat) (s : Str), (fgetsOne n s).1 ++ (fgetsOne n s).2 = s := by
  intro n
  induction n with
  | zero => intro s; simp [fgetsOne]
  | succ n ih =>
    intro s
    cases s with
    | nil => rfl
    | cons c cs =>
      rw [fgetsOne]
      split
      · rfl
      · simp [ih cs]

theorem fgetsOne_append : ∀ (n : Nat) (f l : Str), f ≠ [] → EndsLine f →
    fgetsOne n (f ++ l) = ((fgetsOne n f).1, (fgetsOne n f).2 ++ l) := by
  intro n
  induction n with
  | zero => intro f l _ _; simp [fgetsOne]
  | succ n ih =>
    intro f l hf he
    cases f with
    | nil => exact absurd rfl hf
    | cons c cs =>
      rw [List.cons_append, fgetsOne, fgetsOne]
      by_cases hc : c = 10
      · rw [if_pos hc, if_pos hc]
      · rw [if_neg hc, if_neg hc]
        have hcs : cs ≠ [] := by
          rintro rfl
          rcases he with h | ⟨g, h⟩
          · simp at h
          · cases g with
            | nil => simp at h; exact hc h
            | cons _ _ => simp at h
        have he' : EndsLine cs := endsLine_tail (a := [c]) he
        rw [ih cs l hcs he']

theorem fgetsOne_fst_ne_nil (n : Nat) (s : Str) (h : s ≠ []) : (fgetsOne (n + 1) s).1 ≠ [] := by
  cases s with
  | nil => exact absurd rfl h
  | cons c cs =>
    rw [fgetsOne]
    split <;> simp

theorem fgetsOne_snd_lt (s : Str) (h : s ≠ []) : (fgetsOne 1023 s).2.length < s.length := by
  have h1 := congrArg List.length (fgetsOne_split 1023 s)
  have h2 : 0 < (fgetsOne 1023 s).1.length := List.length_pos_iff.2 (fgetsOne_fst_ne_nil 1022 s h)
  rw [List.length_append] at h1
  omega

theorem fgetsLines_cons (f : Nat) (s : Str) (h : s ≠ []) :
    fgetsLines (f + 1) s = (fgetsOne 1023 s).1 :: fgetsLines f (fgetsOne 1023 s).2 := by
  cases s with
  | nil => exact absurd rfl h
  | cons c cs => rfl

theorem fgetsLines_nil (f : Nat) : fgetsLines f [] = [] := by
  cases f <;> rfl

/-- More fuel than needed changes nothing. -/
theorem fgetsLines_fuel : ∀ (n : Nat) (s : Str) (f g : Nat), s.length ≤ n → s.length < f → s.length < g →
    fgetsLines f s = fgetsLines g s := by
  intro n
  induction n with
  | zero =>
    intro s f g hs _ _
    have : s = [] := List.eq_nil_of_length_eq_zero (by omega)
    subst this
    rw [fgetsLines_nil, fgetsLines_nil]
  | succ n ih =>
    intro s f g hs hf hg
    by_cases h : s = []
    · subst h; rw [fgetsLines_nil, fgetsLines_nil]
    · cases f with
      | zero => omega
      | succ f =>
        cases g with
        | zero => omega
        | succ g =>
          have hlt := fgetsOne_snd_lt s h
          rw [fgetsLines_cons f s h, fgetsLines_cons g s h,
            ih (fgetsOne 1023 s).2 f g (by omega) (by omega) (by omega)]

/-- The lines of a file. -/
def linesOf (s : Str) : List Str := fgetsLines (s.length + 1) s

theorem linesOf_cons (s : Str) (h : s ≠ []) :
    linesOf s = (fgetsOne 1023 s).1 :: linesOf (fgetsOne 1023 s).2 := by
  unfold linesOf
  have hlt := fgetsOne_snd_lt s h
  rw [fgetsLines_cons _ s h]
  congr 1
  exact fgetsLines_fuel _ _ _ _ (Nat.le_refl _) (by omega) (by omega)

theorem linesOf_append : ∀ (n : Nat) (f l : Str), f.length ≤ n → EndsLine f →
    linesOf (f ++ l) = linesOf f ++ linesOf l := by
  intro n
  induction n with
  | zero =>
    intro f l hf _
    have : f = [] := List.eq_nil_of_length_eq_zero (by omega)
    subst this; rfl
  | succ n ih =>
    intro f l hf he
    by_cases h : f = []
    · subst h; rfl
    · have hlt := fgetsOne_snd_lt f h
      rw [linesOf_cons (f ++ l) (by simp [h]), fgetsOne_append 1023 f l h he, linesOf_cons f h]
      simp only [List.cons_append]
      have he' : EndsLine (fgetsOne 1023 f).2 :=
        endsLine_tail (a := (fgetsOne 1023 f).1) (by rw [fgetsOne_split]; exact he)
      rw [ih (fgetsOne 1023 f).2 l (by omega) he']

theorem fgetsOne_line : ∀ (n : Nat) (l rest : Str), 10 ∉ l → l.length < n →
    fgetsOne n (l ++ 10 :: rest) = (l ++ [10], rest) := by
  intro n
  induction n with
  | zero => intro l rest _ h; omega
  | succ n ih =>
    intro l rest h hl
    cases l with
    | nil => rfl
    | cons c cs =>
      have hc : c ≠ 10 := by intro e; subst e; exact h (by simp)
      rw [List.cons_append, fgetsOne, if_neg hc,
        ih cs rest (fun h' => h (by simp [h'])) (by simp at hl; omega)]
      rfl

theorem linesOf_line (l : Str) (h : 10 ∉ l) (hl : l.length < 1023) : linesOf (l ++ [10]) = [l ++ [10]] := by
  rw [linesOf_cons _ (by simp), fgetsOne_line 1023 l [] h hl]
  rfl

theorem cacheOf_append (f l : Str) (he : EndsLine f) : cacheOf (f ++ l) = cacheOf l ++ cacheOf f := by
  have : ∀ s, cacheOf s = ((linesOf s).filterMap lineDigest).reverse := fun _ => rfl
  rw [this, this, this, linesOf_append _ f l (Nat.le_refl _) he, List.filterMap_append, List.reverse_append]

/-! ## One line -/

theorem digit_not_space {c : Nat} (h : isDigit c = true) : isSpace c = false := by
  simp [isDigit, isSpace] at *; omega

theorem scanStr_tok (w : Nat) (t rest : Str) (ht : t ≠ []) (hw : t.length ≤ w)
    (hs : ∀ c ∈ t, isSpace c = false) (pre : Str) (hpre : ∀ c ∈ pre, isSpace c = true) :
    scanStr w (pre ++ (t ++ 32 :: rest)) = some (t, 32 :: rest) := by
  have h1 : (pre ++ (t ++ 32 :: rest)).dropWhile isSpace = t ++ 32 :: rest := by
    rw [List.dropWhile_append_of_pos hpre]
    cases t with
    | nil => exact absurd rfl ht
    | cons c cs => rw [List.cons_append, List.dropWhile_cons, hs c (by simp)]; rfl
  have h2 : (t ++ 32 :: rest).takeWhile (fun c => !isSpace c) = t := by
    rw [List.takeWhile_append_of_pos (by intro c hc; simp [hs c hc])]
    simp [isSpace]
  unfold scanStr
  simp only [h1, h2]
  rw [List.take_of_length_le hw, if_neg ht, List.drop_left]

theorem scanNum_tok (n : Nat) (c : Nat) (rest : Str) (hc : isDigit c = false) (pre : Str)
    (hpre : ∀ c ∈ pre, isSpace c = true) :
    scanNum (pre ++ (decStr n ++ c :: rest)) = some (c :: rest) := by
  have hd := decStr_digits n
  have hne := decStr_ne_nil n
  have h1 : (pre ++ (decStr n ++ c :: rest)).dropWhile isSpace = decStr n ++ c :: rest := by
    rw [List.dropWhile_append_of_pos hpre]
    cases hx : decStr n with
    | nil => exact absurd hx hne
    | cons d ds =>
      rw [List.cons_append, List.dropWhile_cons, digit_not_space (hd d (by rw [hx]; simp))]; rfl
  have h2 : splitSign (decStr n ++ c :: rest) = (false, decStr n ++ c :: rest) := by
    cases hx : decStr n with
    | nil => exact absurd hx hne
    | cons d ds =>
      have := hd d (by rw [hx]; simp)
      rw [List.cons_append]
      unfold splitSign
      split
      · rename_i heq; injection heq with h1 _; subst h1; simp [isDigit] at this
      · rename_i heq; injection heq with h1 _; subst h1; simp [isDigit] at this
      · rfl
  have h3 : (decStr n ++ c :: rest).takeWhile isDigit = decStr n := by
    rw [List.takeWhile_append_of_pos hd]
    simp [hc]
  unfold scanNum
  simp only [h1, h2, h3]
  rw [if_neg hne, List.drop_left]

theorem scanNum_int (z : Int) (pre : Str) (hpre : ∀ c ∈ pre, isSpace c = true) :
    ∃ r, scanNum (pre ++ (decStrInt z ++ [10])) = some r := by
  unfold decStrInt
  split
  · have hd := decStr_digits z.natAbs
    refine ⟨[10], ?_⟩
    unfold scanNum
    have h1 : (pre ++ (45 :: decStr z.natAbs ++ [10])).dropWhile isSpace = 45 :: (decStr z.natAbs ++ [10]) := by
      rw [List.dropWhile_append_of_pos hpre]; rfl
    have h2 : splitSign (45 :: (decStr z.natAbs ++ [10])) = (true, decStr z.natAbs ++ [10]) := rfl
    have h3 : (decStr z.natAbs ++ [10]).takeWhile isDigit = decStr z.natAbs := by
      rw [List.takeWhile_append_of_pos hd]
      simp [isDigit]
    simp only [h1, h2, h3]
    rw [if_neg (decStr_ne_nil _), List.drop_left]
  · exact ⟨_, scanNum_tok _ 10 [] (by decide) pre hpre⟩

theorem splitDots_nodot (s : Str) (h : 46 ∉ s) (rest : Str) :
    splitDots (s ++ 46 :: rest) = (s, (splitDots rest).1 :: (splitDots rest).2) := by
  induction s with
  | nil => rw [List.nil_append, splitDots]; simp
  | cons c cs ih =>
    have hc : c ≠ 46 := by intro e; subst e; exact h (by simp)
    rw [List.cons_append, splitDots]
    simp only [ih (fun h' => h (by simp [h'])), if_neg hc]

theorem splitDots_last (s : Str) (h : 46 ∉ s) : splitDots s = (s, []) := by
  induction s with
  | nil => rfl
  | cons c cs ih =>
    have hc : c ≠ 46 := by intro e; subst e; exact h (by simp)
    rw [splitDots]
    simp only [ih (fun h' => h (by simp [h'])), if_neg hc]

theorem dot_notin (n : Nat) : 46 ∉ decStr n := by
  intro h
  have := decStr_digits n 46 h
  simp [isDigit] at this

theorem decStr_head (n : Nat) (h : (decStr n).length > 1) : (decStr n).headD 0 ≠ 48 := by
  induction n using Nat.strongRecOn with
  | ind n ih =>
    by_cases h10 : n < 10
    · rw [decStr_lt n h10] at h; simp at h
    · rw [decStr_ge n (by omega)]
      by_cases h100 : n / 10 < 10
      · rw [decStr_lt _ h100]
        simp only [List.cons_append, List.headD_cons]
        omega
      · have hne := decStr_ne_nil (n / 10)
        cases hx : decStr (n / 10) with
        | nil => exact absurd hx hne
        | cons d ds =>
          have := ih (n / 10) (by omega) (by
            rw [decStr_ge _ (by omega)]; rw [List.length_append]
            have := List.length_pos_iff.2 (decStr_ne_nil (n / 10 / 10))
            simp; omega)
          rw [hx] at this
          simpa using this

theorem pton_octet (n : Nat) (h : n < 256) : ptonOctet (decStr n) = true := by
  unfold ptonOctet
  have h1 : decStr n ≠ [] := decStr_ne_nil n
  have h2 : (decStr n).all isDigit = true := by
    rw [List.all_eq_true]; exact decStr_digits n
  have h3 : digitsVal 10 (decStr n) ≤ 255 := by rw [decStr_val]; omega
  have h4 : ((decStr n).length > 1 && decide ((decStr n).headD 0 = 48)) = false := by
    by_cases hl : (decStr n).length > 1
    · rw [decide_eq_false (decStr_head n hl), Bool.and_false]
    · simp [hl]
  rw [h2, h4]
  simp [h1, h3]

theorem pton_ntop (v : Nat) : inet_pton (inet_ntop v) = true := by
  unfold inet_pton inet_ntop
  rw [splitDots_nodot _ (dot_notin _), splitDots_nodot _ (dot_notin _), splitDots_nodot _ (dot_notin _),
    splitDots_last _ (dot_notin _)]
  simp only
  rw [pton_octet _ (by omega), pton_octet _ (by omega), pton_octet _ (by omega), pton_octet _ (by omega)]
  rfl

theorem ntop_chars (v : Nat) : ∀ c ∈ inet_ntop v, isDigit c = true ∨ c = 46 := by
  intro c hc
  unfold inet_ntop at hc
  simp only [List.mem_append, List.mem_cons] at hc
  rcases hc with h | h | h | h | h | h | h
  · exact .inl (decStr_digits _ c h)
  · exact .inr h
  · exact .inl (decStr_digits _ c h)
  · exact .inr h
  · exact .inl (decStr_digits _ c h)
  · exact .inr h
  · exact .inl (decStr_digits _ c h)

theorem ntop_length (v : Nat) : (inet_ntop v).length ≤ 15 := by
  unfold inet_ntop
  have h : ∀ n, (decStr (n % 256)).length ≤ 3 := fun n => decStr_length_le _ 3 (by omega) (by omega)
  have h1 := h (v / 2 ^ 24)
  have h2 := h (v / 2 ^ 16)
  have h3 := h (v / 2 ^ 8)
  have h4 := h v
  simp only [List.length_append, List.length_cons]
  omega

theorem ntop_ne_nil (v : Nat) : inet_ntop v ≠ [] := by
  unfold inet_ntop
  simp

theorem ntop_no_space (v : Nat) : ∀ c ∈ inet_ntop v, isSpace c = false := by
  intro c hc
  rcases ntop_chars v c hc with h | h
  · exact digit_not_space h
  · subst h; decide

/-- What a digest text may look like: at most 64 printing characters, not starting a comment. -/
structure DigestText (d : Str) : Prop where
  ne : d ≠ []
  len : d.length ≤ 64
  chars : ∀ c ∈ d, isSpace c = false ∧ c ≠ 0
  head : d.headD 0 ≠ 35 ∧ d.headD 0 ≠ 59

theorem toInt32_len (z : Int) : (decStrInt (toInt32 z)).length ≤ 11 := by
  unfold decStrInt
  have hb : (toInt32 z).natAbs ≤ 2 ^ 31 := by unfold toInt32; omega
  have := decStr_length_le (toInt32 z).natAbs 10 (by omega) (by omega)
  split <;> simp <;> omega

theorem decInt_no (z : Int) : ∀ c ∈ decStrInt z, isDigit c = true ∨ c = 45 := by
  intro c hc
  unfold decStrInt at hc
  split at hc
  · rcases List.mem_cons.1 hc with h | h
    · exact .inr h
    · exact .inl (decStr_digits _ c h)
  · exact .inl (decStr_digits _ c hc)

/-- The line without its newline. -/
def lineBody (i : ReplayInfo) (d : Str) : Str :=
  d ++ 32 :: (decStr i.proto ++ 32 :: (inet_ntop i.src_ip ++ 32 :: (decStr i.src_port ++ 32 ::
    (inet_ntop i.dst_ip ++ 32 :: (decStr i.dst_port ++ 32 :: decStrInt (toInt32 i.created))))))

theorem replayLine_eq (i : ReplayInfo) (d : Str) : replayLine i d = lineBody i d ++ [10] := by
  unfold replayLine lineBody
  simp

/-- Fields in the ranges of their C types. -/
structure ReplayInfo.Ok (i : ReplayInfo) : Prop where
  proto : i.proto < 256
  src : i.src_port < 65536
  dst : i.dst_port < 65536

theorem lineBody_chars (i : ReplayInfo) (d : Str) (hd : DigestText d) :
    ∀ c ∈ lineBody i d, c ≠ 10 ∧ c ≠ 0 := by
  have hdig : ∀ c, isDigit c = true → c ≠ 10 ∧ c ≠ 0 := by
    intro c h; simp [isDigit] at h; omega
  have hip : ∀ v, ∀ c ∈ inet_ntop v, c ≠ 10 ∧ c ≠ 0 := by
    intro v c h
    rcases ntop_chars v c h with h | h
    · exact hdig c h
    · omega
  intro c hc
  unfold lineBody at hc
  simp only [List.mem_append, List.mem_cons] at hc
  rcases hc with h | h | h | h | h | h | h | h | h | h | h | h | h
  · have := hd.chars c h
    refine ⟨?_, this.2⟩
    intro e; subst e; simp [isSpace] at this
  all_goals first
    | omega
    | exact hdig c (decStr_digits _ c h)
    | exact hip _ c h
    | (rcases decInt_no _ c h with h | h
       · exact hdig c h
       · omega)

theorem lineBody_length (i : ReplayInfo) (d : Str) (hd : DigestText d) (hi : i.Ok) :
    (lineBody i d).length < 1023 := by
  unfold lineBody
  have h1 := hd.len
  have h2 := decStr_length_le i.proto 3 (by omega) (by have := hi.proto; omega)
  have h3 := decStr_length_le i.src_port 5 (by omega) (by have := hi.src; omega)
  have h4 := decStr_length_le i.dst_port 5 (by omega) (by have := hi.dst; omega)
  have h5 := ntop_length i.src_ip
  have h6 := ntop_length i.dst_ip
  have h7 := toInt32_len i.created
  simp only [List.length_append, List.length_cons]
  omega

/-- The line written for a digest is read back as that digest. -/
theorem lineDigest_line (i : ReplayInfo) (d : Str) (hd : DigestText d) :
    lineDigest (replayLine i d) = some d := by
  have hhead : (replayLine i d).headD 0 = d.headD 0 := by
    unfold replayLine
    have := hd.ne
    cases d with
    | nil => exact absurd rfl this
    | cons _ _ => rfl
  have hne : isEmptyLine (d.headD 0) = false := by
    have h0 := hd.ne
    cases d with
    | nil => exact absurd rfl h0
    | cons c cs =>
      have h1 := hd.chars c (by simp)
      have h2 := hd.head
      simp [isEmptyLine, isSpace] at *
      omega
  have hstr : (replayLine i d).takeWhile (· ≠ 0) = replayLine i d := by
    rw [replayLine_eq]
    refine takeWhile_all _ ?_
    intro c hc
    simp only [List.mem_append, List.mem_singleton] at hc
    rcases hc with h | h
    · simpa using (lineBody_chars i d hd c h).2
    · subst h; decide
  obtain ⟨r, hr⟩ := scanNum_int (toInt32 i.created) [32] (by decide)
  have sp : ∀ c ∈ [32], isSpace c = true := by decide
  have hscan : scanEntry (replayLine i d) = some (d, inet_ntop i.src_ip, inet_ntop i.dst_ip) := by
    unfold scanEntry replayLine
    have e1 := scanStr_tok MAX_DIGEST_SIZE d (decStr i.proto ++ 32 :: (inet_ntop i.src_ip ++ 32 :: (decStr i.src_port ++ 32 ::
      (inet_ntop i.dst_ip ++ 32 :: (decStr i.dst_port ++ 32 :: (decStrInt (toInt32 i.created) ++ [10]))))))
      hd.ne hd.len (fun c hc => (hd.chars c hc).1) [] (by simp)
    rw [List.nil_append] at e1
    rw [e1]
    simp only [Option.bind_eq_bind, Option.bind_some]
    have e2 := scanNum_tok i.proto 32 (inet_ntop i.src_ip ++ 32 :: (decStr i.src_port ++ 32 ::
      (inet_ntop i.dst_ip ++ 32 :: (decStr i.dst_port ++ 32 :: (decStrInt (toInt32 i.created) ++ [10])))))
      (by decide) [32] sp
    rw [List.singleton_append] at e2
    rw [e2]
    simp only [Option.bind_some]
    have e3 := scanStr_tok 16 (inet_ntop i.src_ip) (decStr i.src_port ++ 32 ::
      (inet_ntop i.dst_ip ++ 32 :: (decStr i.dst_port ++ 32 :: (decStrInt (toInt32 i.created) ++ [10]))))
      (ntop_ne_nil _) (by have := ntop_length i.src_ip; omega) (ntop_no_space _) [32] sp
    rw [List.singleton_append] at e3
    rw [e3]
    simp only [Option.bind_some]
    have e4 := scanNum_tok i.src_port 32
      (inet_ntop i.dst_ip ++ 32 :: (decStr i.dst_port ++ 32 :: (decStrInt (toInt32 i.created) ++ [10])))
      (by decide) [32] sp
    rw [List.singleton_append] at e4
    rw [e4]
    simp only [Option.bind_some]
    have e5 := scanStr_tok 16 (inet_ntop i.dst_ip) (decStr i.dst_port ++ 32 :: (decStrInt (toInt32 i.created) ++ [10]))
      (ntop_ne_nil _) (by have := ntop_length i.dst_ip; omega) (ntop_no_space _) [32] sp
    rw [List.singleton_append] at e5
    rw [e5]
    simp only [Option.bind_some]
    have e6 := scanNum_tok i.dst_port 32 (decStrInt (toInt32 i.created) ++ [10]) (by decide) [32] sp
    rw [List.singleton_append] at e6
    rw [e6]
    simp only [Option.bind_some]
    rw [List.singleton_append] at hr
    rw [hr]
    rfl
  unfold lineDigest
  rw [hhead, hne, hstr, hscan]
  simp only [Bool.false_eq_true, if_false, pton_ntop, Bool.and_self, if_true]

theorem cacheOf_line (i : ReplayInfo) (d : Str) (hd : DigestText d) (hi : i.Ok) :
    cacheOf (replayLine i d) = [d] := by
  have : cacheOf (replayLine i d) = ((linesOf (replayLine i d)).filterMap lineDigest).reverse := rfl
  rw [this]
  have hl : linesOf (replayLine i d) = [replayLine i d] := by
    rw [replayLine_eq]
    exact linesOf_line _ (fun h => (lineBody_chars i d hd 10 h).1 rfl) (lineBody_length i d hd hi)
  rw [hl, List.filterMap_cons, lineDigest_line i d hd]
  rfl

theorem endsLine_line (f : Str) (i : ReplayInfo) (d : Str) : EndsLine (f ++ replayLine i d) :=
  .inr ⟨f ++ lineBody i d, by rw [replayLine_eq, List.append_assoc]⟩

theorem cmp_self (d : Str) : constant_runtime_cmp d d d.length = 0 := by
  rw [constant_runtime_cmp_iff d d _ (Nat.le_refl _) (Nat.le_refl _)]

theorem is_replay_of_mem {cache : List Str} {d : Str} (h : d ∈ cache) : is_replay cache d = true := by
  unfold is_replay
  rw [List.any_eq_true]
  exact ⟨d, h, by simp [cmp_self]⟩

end Fwknop
