import Verif.Lemmas.Message

/-! # `inet_aton` on dotted quads -/

namespace Fwknop
open Fwknop.Spec

theorem takeWhile_stop (p t : Str) (f : Nat → Bool) (c : Nat) (h : ∀ x ∈ p, f x = true)
    (hc : f c = false) : (p ++ c :: t).takeWhile f = p := by
  induction p with
  | nil => simp [hc]
  | cons x p ih =>
    simp only [List.cons_append, List.takeWhile_cons]
    rw [h x (by simp), if_pos rfl, ih (fun y hy => h y (by simp [hy]))]

theorem takeWhile_split (p : Str) (f : Nat → Bool) :
    (∀ x ∈ p, f x = true) ∨ ∃ q c t, p = q ++ c :: t ∧ (∀ x ∈ q, f x = true) ∧ f c = false := by
  induction p with
  | nil => simp
  | cons x p ih =>
    by_cases hx : f x = true
    · rcases ih with h | ⟨q, c, t, hp, hq, hc⟩
      · left; simp [hx]; exact h
      · right
        refine ⟨x :: q, c, t, by simp [hp], ?_, hc⟩
        simp [hx]; exact hq
    · exact .inr ⟨[], x, p, by simp, by simp, by simpa using hx⟩

/-- The end of a part: the end of the text or a dot. -/
def PartEnd (r : Str) : Prop := r = [] ∨ ∃ r', r = 46 :: r'

/-- Without the bound on the value. -/
def OctetShape (p : Str) : Prop :=
  p ≠ [] ∧ ((p.head? ≠ some 48 ∧ (∀ c ∈ p, IsDigitChar c)) ∨
    (p.head? = some 48 ∧ (∀ c ∈ p, 48 ≤ c ∧ c ≤ 55)))

theorem isOctet_iff (p : Str) : IsOctet p ↔ OctetShape p ∧ octetVal p ≤ 255 := by
  unfold IsOctet OctetShape octetVal
  by_cases h : p.head? = some 48 <;> simp [h, and_assoc]

def isOct (c : Nat) : Bool := 48 ≤ c && c ≤ 55

theorem strtoul0_oct (p r : Str) (hp : p.head? = some 48)
    (hd : ∀ c ∈ p, isDigit c = true) (hr : PartEnd r) :
    strtoul0 (p ++ r) = (digitsVal 8 ((p ++ r).takeWhile isOct),
      (p ++ r).drop ((p ++ r).takeWhile isOct).length) := by
  cases p with
  | nil => simp at hp
  | cons a p =>
    simp at hp; subst hp
    match p, r, hr with
    | [], [], _ => rfl
    | [], [x], hr =>  rfl
    | [], x :: d :: t, hr =>
      rcases hr with h | ⟨r', h⟩
      · simp at h
      · simp at h; obtain ⟨rfl, _⟩ := h
        simp only [List.cons_append, List.nil_append, strtoul0]
        rw [if_neg (by simp)]; rfl
    | [x], [], _ => rfl
    | [x], d :: t, hr =>
      have hx := hd x (by simp)
      simp only [List.cons_append, List.nil_append, strtoul0]
      rw [if_neg]; · rfl
      · simp [isDigit] at hx; omega
    | x :: d :: t, r, hr =>
      have hx := hd x (by simp)
      simp only [List.cons_append, strtoul0]
      rw [if_neg]; · rfl
      · simp [isDigit] at hx; omega

theorem strtoul0_dec (p r : Str) (hp : p.head? ≠ some 48) (hne : p ≠ []) :
    strtoul0 (p ++ r) = (digitsVal 10 ((p ++ r).takeWhile isDigit),
      (p ++ r).drop ((p ++ r).takeWhile isDigit).length) := by
  cases p with
  | nil => simp at hne
  | cons a p =>
    simp at hp
    unfold strtoul0
    split
    · rename_i h; simp at h; exact absurd h.1 hp
    · rename_i h; simp at h; exact absurd h.1 hp
    · rfl

/-- A part of the right shape is read completely. -/
theorem strtoul0_shape (p r : Str) (hp : OctetShape p) (hr : PartEnd r) :
    strtoul0 (p ++ r) = (octetVal p, r) := by
  obtain ⟨hne, h⟩ := hp
  rcases h with ⟨hh, hd⟩ | ⟨hh, hd⟩
  · rw [strtoul0_dec p r hh hne]
    have hd' : ∀ x ∈ p, isDigit x = true := fun x hx => (isDigit_iff x).2 (hd x hx)
    have ht : (p ++ r).takeWhile isDigit = p := by
      rcases hr with h | ⟨r', h⟩
      · subst h; rw [List.append_nil]; exact takeWhile_all _ hd'
      · subst h; exact takeWhile_stop _ _ _ _ hd' (by decide)
    rw [ht]; simp [octetVal, hh, number_eq]
  · have hd' : ∀ x ∈ p, isDigit x = true := fun x hx => by
      have := hd x hx; simp [isDigit]; omega
    rw [strtoul0_oct p r hh hd' hr]
    have hd'' : ∀ x ∈ p, isOct x = true := fun x hx => by
      have := hd x hx; simp [isOct]; omega
    have ht : (p ++ r).takeWhile isOct = p := by
      rcases hr with h | ⟨r', h⟩
      · subst h; rw [List.append_nil]; exact takeWhile_all _ hd''
      · subst h; exact takeWhile_stop _ _ _ _ hd'' (by decide)
    rw [ht]; simp [octetVal, hh, number_eq]

/-- A part of the wrong shape leaves a digit unread. -/
theorem strtoul0_noshape (p r : Str) (hne : p ≠ []) (hd : ∀ c ∈ p, isDigit c = true)
    (hp : ¬ OctetShape p) (hr : PartEnd r) :
    ∃ v c t, strtoul0 (p ++ r) = (v, c :: t) ∧ isDigit c = true := by
  have hh : p.head? = some 48 := by
    by_cases hh : p.head? = some 48
    · exact hh
    · exact absurd ⟨hne, .inl ⟨hh, fun c hc => (isDigit_iff c).1 (hd c hc)⟩⟩ hp
  rcases takeWhile_split p isOct with h | ⟨q, c, t, hq, hqo, hc⟩
  · exact absurd ⟨hne, .inr ⟨hh, fun c hc => by have := h c hc; simpa [isOct] using this⟩⟩ hp
  · rw [strtoul0_oct p r hh hd hr]
    have ht : (p ++ r).takeWhile isOct = q := by
      rw [hq, List.append_assoc]; exact takeWhile_stop _ _ _ _ hqo hc
    rw [ht]
    have hcd : isDigit c = true := hd c (by simp [hq])
    refine ⟨digitsVal 8 q, c, t ++ r, ?_, hcd⟩
    simp [hq]

theorem atonLoop_nil (f n acc : Nat) (r : Str) (hr : PartEnd r) :
    inetAtonLoop f n acc r = none := by
  rcases hr with h | ⟨r', h⟩ <;> subst h <;> cases f <;> simp [inetAtonLoop, isDigit]

theorem octetVal_pos_lt (p : Str) : 0 ≤ octetVal p := Nat.zero_le _

theorem head_digit (p : Str) (hne : p ≠ []) (hd : ∀ c ∈ p, isDigit c = true) :
    ∃ a t, p = a :: t ∧ isDigit a = true := by
  cases p with
  | nil => simp at hne
  | cons a t => exact ⟨a, t, rfl, hd a (by simp)⟩

theorem shape_digits (p : Str) (h : OctetShape p) : ∀ c ∈ p, isDigit c = true := by
  intro c hc
  rcases h.2 with ⟨_, h⟩ | ⟨_, h⟩
  · exact (isDigit_iff c).2 (h c hc)
  · have := h c hc; simp [isDigit]; omega

theorem atonLoop_bad (f n acc : Nat) (p r : Str) (hd : ∀ c ∈ p, isDigit c = true)
    (hp : ¬ OctetShape p) (hr : PartEnd r) : inetAtonLoop f n acc (p ++ r) = none := by
  by_cases hne : p = []
  · subst hne; exact atonLoop_nil _ _ _ _ hr
  · obtain ⟨v, c, t, h, hc⟩ := strtoul0_noshape p r hne hd hp hr
    obtain ⟨a, q, ha, hda⟩ := head_digit p hne hd
    have hpr : p ++ r = a :: (q ++ r) := by rw [ha]; rfl
    cases f with
    | zero => rfl
    | succ f =>
      unfold inetAtonLoop
      rw [h, hpr]
      simp only [hda, Bool.not_true, Bool.false_eq_true, if_false]
      split
      · rfl
      · have h46 : c ≠ 46 := by intro e; subst e; simp [isDigit] at hc
        split
        · rename_i heq; simp at heq; exact absurd heq.1 h46
        · rw [if_neg]
          simp [aton_end]
          intro hs
          simp [isSpace] at hs; simp [isDigit] at hc; omega

theorem atonLoop_dot (f n acc : Nat) (p r : Str) (hp : OctetShape p) :
    inetAtonLoop (f + 1) n acc (p ++ 46 :: r) =
      if n < 3 ∧ octetVal p ≤ 255 then
        inetAtonLoop f (n + 1) (acc + octetVal p * 2 ^ (8 * (3 - n))) r else none := by
  obtain ⟨a, q, ha, hda⟩ := head_digit p hp.1 (shape_digits p hp)
  have hpr : p ++ 46 :: r = a :: (q ++ 46 :: r) := by rw [ha]; rfl
  conv => lhs; unfold inetAtonLoop
  rw [strtoul0_shape p _ hp (.inr ⟨r, rfl⟩), hpr]
  simp only [hda, Bool.not_true, Bool.false_eq_true, if_false]
  by_cases h : n < 3 ∧ octetVal p ≤ 255
  · rw [if_neg (by omega), if_neg (by omega), if_pos h]
  · rw [if_neg h]
    split
    · rfl
    · rw [if_pos (by omega)]

theorem atonLoop_last (f n acc : Nat) (p : Str) (hp : OctetShape p) :
    inetAtonLoop (f + 1) n acc p =
      if octetVal p ≤ 0xffffffff ∧ octetVal p ≤ 2 ^ (8 * (4 - n)) - 1 then
        some (acc + octetVal p) else none := by
  obtain ⟨a, q, ha, hda⟩ := head_digit p hp.1 (shape_digits p hp)
  have h := strtoul0_shape p [] hp (.inl rfl)
  rw [List.append_nil] at h
  unfold inetAtonLoop
  rw [h]
  subst ha
  simp only [hda, Bool.not_true, Bool.false_eq_true, if_false, aton_end, true_and]
  by_cases h : octetVal (a :: q) > 0xffffffff
  · rw [if_pos h, if_neg (by omega)]
  · rw [if_neg h]
    by_cases h2 : octetVal (a :: q) ≤ 2 ^ (8 * (4 - n)) - 1
    · rw [if_pos h2, if_pos ⟨by omega, h2⟩]
    · rw [if_neg h2, if_neg (by omega)]

/-- A dotted quad is accepted exactly when its four parts are octets, and denotes the
big-endian number of the four values. -/
theorem inet_aton_quad (a b c d : Str) (ha : ∀ x ∈ a, isDigit x = true)
    (hb : ∀ x ∈ b, isDigit x = true) (hc : ∀ x ∈ c, isDigit x = true)
    (hd : ∀ x ∈ d, isDigit x = true) (v : Nat) :
    inet_aton (a ++ 46 :: (b ++ 46 :: (c ++ 46 :: d))) = some v ↔
      IsOctet a ∧ IsOctet b ∧ IsOctet c ∧ IsOctet d ∧
      v = ((octetVal a * 256 + octetVal b) * 256 + octetVal c) * 256 + octetVal d := by
  unfold inet_aton
  by_cases sa : OctetShape a
  case neg =>
    rw [atonLoop_bad _ _ _ _ _ ha sa (.inr ⟨_, rfl⟩)]
    simp; intro h; exact absurd ((isOctet_iff a).1 h).1 sa
  rw [atonLoop_dot _ _ _ _ _ sa]
  by_cases va : octetVal a ≤ 255
  case neg =>
    rw [if_neg (by omega)]; simp; intro h; exact absurd ((isOctet_iff a).1 h).2 va
  rw [if_pos ⟨by decide, va⟩]
  by_cases sb : OctetShape b
  case neg =>
    rw [atonLoop_bad _ _ _ _ _ hb sb (.inr ⟨_, rfl⟩)]
    simp; intro _ h; exact absurd ((isOctet_iff b).1 h).1 sb
  rw [atonLoop_dot _ _ _ _ _ sb]
  by_cases vb : octetVal b ≤ 255
  case neg =>
    rw [if_neg (by omega)]; simp; intro _ h; exact absurd ((isOctet_iff b).1 h).2 vb
  rw [if_pos ⟨by decide, vb⟩]
  by_cases sc : OctetShape c
  case neg =>
    rw [atonLoop_bad _ _ _ _ _ hc sc (.inr ⟨_, rfl⟩)]
    simp; intro _ _ h; exact absurd ((isOctet_iff c).1 h).1 sc
  rw [atonLoop_dot _ _ _ _ _ sc]
  by_cases vc : octetVal c ≤ 255
  case neg =>
    rw [if_neg (by omega)]; simp; intro _ _ h; exact absurd ((isOctet_iff c).1 h).2 vc
  rw [if_pos ⟨by decide, vc⟩]
  by_cases sd : OctetShape d
  case neg =>
    have := atonLoop_bad (0 + 1 + 1) (0 + 1 + 1 + 1) (0 + octetVal a * 2 ^ (8 * (3 - 0)) +
        octetVal b * 2 ^ (8 * (3 - (0 + 1))) + octetVal c * 2 ^ (8 * (3 - (0 + 1 + 1)))) d [] hd sd
        (.inl rfl)
    rw [List.append_nil] at this
    rw [this]
    simp; intro _ _ _ h; exact absurd ((isOctet_iff d).1 h).1 sd
  rw [atonLoop_last _ _ _ _ sd]
  simp only [isOctet_iff, sa, sb, sc, sd, va, vb, vc, true_and]
  by_cases vd : octetVal d ≤ 255
  · rw [if_pos ⟨by omega, by simpa using vd⟩]
    simp only [Option.some.injEq, vd, true_and]
    omega
  · rw [if_neg (by simp; omega)]
    simp [vd]

/-! ## `is_valid_ipv4_addr` -/

theorem ipv4Loop_spec (s : Str) (k : Nat) :
    ipv4Loop s s.length k = if ∀ c ∈ s, c = 46 ∨ isDigit c = true
      then some (k + s.countP (· = 46)) else none := by
  induction s generalizing k with
  | nil => simp [ipv4Loop]
  | cons c cs ih =>
    simp only [List.length_cons, ipv4Loop, ih]
    by_cases h : c = 46
    · subst h
      simp
      congr 2
      omega
    · rw [if_neg h]
      by_cases hd : isDigit c = true
      · simp [hd, h]
      · simp [hd, h]

theorem countP_zero_notMem (s : Str) (m : Nat) (h : s.countP (· = m) = 0) : m ∉ s := by
  intro hm
  have := (List.countP_eq_zero.1 h) m hm
  simp at this

theorem split_dot (s : Str) (n : Nat) (h : s.countP (· = 46) = n + 1) :
    ∃ p t, s = p ++ 46 :: t ∧ 46 ∉ p ∧ t.countP (· = 46) = n := by
  rcases split_first s 46 with hn | ⟨p, t, hs, hp⟩
  · exfalso
    have : s.countP (· = 46) = 0 := by
      rw [List.countP_eq_zero]; intro x hx; simp; intro e; exact hn (e ▸ hx)
    omega
  · refine ⟨p, t, hs, hp, ?_⟩
    have h0 : p.countP (· = 46) = 0 := by
      rw [List.countP_eq_zero]; intro x hx; simp; intro e; exact hp (e ▸ hx)
    rw [hs, List.countP_append, h0, List.countP_cons] at h
    simp at h
    simpa using h

theorem octet_no_dot (p : Str) (h : IsOctet p) : 46 ∉ p := by
  intro hm
  have := shape_digits p ((isOctet_iff p).1 h).1 _ hm
  simp [isDigit] at this

theorem octet_no_comma (p : Str) (h : IsOctet p) : 44 ∉ p := by
  intro hm
  have := shape_digits p ((isOctet_iff p).1 h).1 _ hm
  simp [isDigit] at this

theorem octet_len (p : Str) (h : IsOctet p) : 1 ≤ p.length := by
  have := h.1; cases p <;> simp_all

theorem valid_ipv4_iff (s : Str) (hl : s.length ≤ 15) :
    is_valid_ipv4_addr s s.length = true ↔ IsIPv4 s := by
  unfold is_valid_ipv4_addr
  rw [ipv4Loop_spec]
  simp only [MAX_IPV4_STR_LEN, MIN_IPV4_STR_LEN, List.take_length]
  constructor
  · intro h
    split at h
    · simp at h
    · split at h
      · simp at h
      · rename_i dots hd
        split at h
        · simp at h
        · rename_i h3
          split at hd
          case isFalse => simp at hd
          rename_i hall
          simp only [Option.some.injEq, Nat.zero_add] at hd
          have hc : s.countP (· = 46) = 2 + 1 := by omega
          obtain ⟨a, t, hs, ha, ht⟩ := split_dot s _ hc
          obtain ⟨b, t2, hs2, hb, ht2⟩ := split_dot t _ ht
          obtain ⟨c, d, hs3, hcc, ht3⟩ := split_dot t2 _ ht2
          have hdd : 46 ∉ d := countP_zero_notMem d 46 ht3
          have hs' : s = a ++ 46 :: (b ++ 46 :: (c ++ 46 :: d)) := by rw [hs, hs2, hs3]
          have dig : ∀ x ∈ s, x ≠ 46 → isDigit x = true := fun x hx hne => by
            rcases hall x hx with h | h
            · exact absurd h hne
            · exact h
          rw [hs'] at h
          obtain ⟨v, hv⟩ := Option.isSome_iff_exists.1 h
          rw [inet_aton_quad] at hv
          · exact ⟨a, b, c, d, hv.1, hv.2.1, hv.2.2.1, hv.2.2.2.1, hs', hl⟩
          · intro x hx; exact dig x (by simp [hs', hx]) (fun e => ha (e ▸ hx))
          · intro x hx; exact dig x (by simp [hs', hx]) (fun e => hb (e ▸ hx))
          · intro x hx; exact dig x (by simp [hs', hx]) (fun e => hcc (e ▸ hx))
          · intro x hx; exact dig x (by simp [hs', hx]) (fun e => hdd (e ▸ hx))
  · rintro ⟨a, b, c, d, ha, hb, hc, hd, hs, _⟩
    have la := octet_len a ha
    have lb := octet_len b hb
    have lc := octet_len c hc
    have ld := octet_len d hd
    have hlen : 7 ≤ s.length := by rw [hs]; simp; omega
    have da := shape_digits a ((isOctet_iff a).1 ha).1
    have db := shape_digits b ((isOctet_iff b).1 hb).1
    have dc := shape_digits c ((isOctet_iff c).1 hc).1
    have dd := shape_digits d ((isOctet_iff d).1 hd).1
    have cnt : ∀ p : Str, 46 ∉ p → p.countP (· = 46) = 0 := by
      intro p hp; rw [List.countP_eq_zero]; intro x hx; simp; intro e; exact hp (e ▸ hx)
    rw [if_neg (by simp; omega), if_pos]
    · have h3 : s.countP (· = 46) = 3 := by
        rw [hs]
        simp only [List.countP_append, List.countP_cons, cnt a (octet_no_dot a ha),
          cnt b (octet_no_dot b hb), cnt c (octet_no_dot c hc), cnt d (octet_no_dot d hd)]
        simp
      simp only [h3]
      rw [if_neg (by decide), Option.isSome_iff_exists]
      refine ⟨((octetVal a * 256 + octetVal b) * 256 + octetVal c) * 256 + octetVal d, ?_⟩
      rw [hs, inet_aton_quad _ _ _ _ da db dc dd]
      exact ⟨ha, hb, hc, hd, rfl⟩
    · intro x hx
      rw [hs] at hx
      simp only [List.mem_append, List.mem_cons] at hx
      rcases hx with h | h | h | h | h | h | h
      · exact .inr (da x h)
      · exact .inl h
      · exact .inr (db x h)
      · exact .inl h
      · exact .inr (dc x h)
      · exact .inl h
      · exact .inr (dd x h)

/-! ## `have_allow_ip` -/

theorem allowIpLoop_spec (s acc : Str) :
    allowIpLoop s acc =
      if (∀ c ∈ s.takeWhile (· ≠ 44), c = 46 ∨ isDigit c = true) ∧
        (s.takeWhile (· ≠ 44) = [] ∨ acc.length + (s.takeWhile (· ≠ 44)).length < 16)
      then some (acc ++ s.takeWhile (· ≠ 44)) else none := by
  induction s generalizing acc with
  | nil => simp [allowIpLoop]
  | cons c cs ih =>
    unfold allowIpLoop
    by_cases h44 : c = 44
    · subst h44; simp
    · rw [if_neg h44]
      have ht : (c :: cs).takeWhile (· ≠ 44) = c :: cs.takeWhile (· ≠ 44) := by
        simp [h44]
      rw [ht]
      simp only [ih, MAX_IPV4_STR_LEN]
      generalize cs.takeWhile (· ≠ 44) = w
      simp only [List.length_append, List.length_cons, List.length_nil, List.mem_cons,
        forall_eq_or_imp, List.append_assoc, List.cons_append, List.nil_append, reduceCtorEq,
        false_or]
      by_cases hl : acc.length + (0 + 1) ≥ 16
      · rw [if_pos hl, if_neg (by omega)]
      · rw [if_neg hl]
        have hw : (w = [] ∨ acc.length + (0 + 1) + w.length < 16) ↔
            acc.length + (w.length + 1) < 16 := by
          constructor
          · rintro (h | h)
            · subst h; simp; omega
            · omega
          · intro h; right; omega
        simp only [hw]
        by_cases h46 : c = 46
        · simp [h46]
        · by_cases hd : isDigit c = true
          · simp [h46, hd]
          · simp [h46, hd]

theorem ipv4_chars (s : Str) (h : IsIPv4 s) : ∀ x ∈ s, x = 46 ∨ isDigit x = true := by
  obtain ⟨a, b, c, d, ha, hb, hc, hd, hs, _⟩ := h
  have da := shape_digits a ((isOctet_iff a).1 ha).1
  have db := shape_digits b ((isOctet_iff b).1 hb).1
  have dc := shape_digits c ((isOctet_iff c).1 hc).1
  have dd := shape_digits d ((isOctet_iff d).1 hd).1
  intro x hx
  rw [hs] at hx
  simp only [List.mem_append, List.mem_cons] at hx
  rcases hx with h | h | h | h | h | h | h
  · exact .inr (da x h)
  · exact .inl h
  · exact .inr (db x h)
  · exact .inl h
  · exact .inr (dc x h)
  · exact .inl h
  · exact .inr (dd x h)

theorem ipv4_no_comma (s : Str) (h : IsIPv4 s) : 44 ∉ s := by
  intro hm
  rcases ipv4_chars s h _ hm with h | h <;> simp [isDigit] at h

theorem have_allow_ip_iff (s : Str) :
    have_allow_ip s = true ↔ IsIPv4 (s.takeWhile (· ≠ 44)) := by
  unfold have_allow_ip
  rw [allowIpLoop_spec]
  generalize hw : s.takeWhile (· ≠ 44) = w
  constructor
  · intro h
    split at h
    · simp at h
    · rename_i ip hip
      split at hip
      case isFalse => simp at hip
      rename_i hc
      simp at hip; subst hip
      refine (valid_ipv4_iff w ?_).1 h
      rcases hc.2 with h | h
      · simp [h]
      · simp at h; omega
  · intro h
    have hl : w.length ≤ 15 := by
      obtain ⟨a, b, c, d, ha, hb, hc, hd, hs, hl⟩ := h; exact hl
    rw [if_pos ⟨ipv4_chars w h, .inr (by simp; omega)⟩]
    simp only [List.nil_append]
    exact (valid_ipv4_iff w hl).2 h

end Fwknop
