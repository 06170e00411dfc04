import Verif.Model.Access
import Verif.Spec.Access
import Verif.Lemmas.Inet

/-! # Lemmas about access lists -/

namespace Fwknop

open Fwknop.Spec

theorem lower_eq : Spec.lower = toLower := by
  funext c
  unfold Spec.lower toLower
  by_cases h : 65 ≤ c ∧ c ≤ 90 <;> simp [h]

theorem isBlank_iff (c : Nat) : IsBlank c ↔ isSpace c = true := by
  simp [IsBlank, isSpace]

theorem isDigitChar_iff (c : Nat) : IsDigitChar c ↔ isDigit c = true := by
  simp [IsDigitChar, isDigit]

/-- Two lists related element by element. -/
inductive All2 {α β : Type} (R : α → β → Prop) : List α → List β → Prop
  | nil : All2 R [] []
  | cons {a b l l'} : R a b → All2 R l l' → All2 R (a :: l) (b :: l')

theorem sum_zero (l : List Nat) (h : ∀ x ∈ l, x = 0) : l.sum = 0 := by
  induction l with
  | nil => rfl
  | cons x l ih =>
    rw [List.sum_cons, h x (by simp), ih fun y hy => h y (by simp [hy])]

/-! ## Addresses -/

theorem octet_digits {p : Str} (h : IsOctet p) : ∀ c ∈ p, isDigit c = true :=
  shape_digits p ((isOctet_iff p).1 h).1

theorem aton_addr {s : Str} {v : Nat} (h : IsAddr s v) : inet_aton s = some v := by
  obtain ⟨a, b, c, d, ha, hb, hc, hd, rfl, -, rfl⟩ := h
  rw [inet_aton_quad a b c d (octet_digits ha) (octet_digits hb) (octet_digits hc) (octet_digits hd)]
  exact ⟨ha, hb, hc, hd, by omega⟩

theorem addr_lt {s : Str} {v : Nat} (h : IsAddr s v) : v < 2 ^ 32 := by
  obtain ⟨a, b, c, d, ha, hb, hc, hd, -, -, rfl⟩ := h
  have h1 := ((isOctet_iff a).1 ha).2
  have h2 := ((isOctet_iff b).1 hb).2
  have h3 := ((isOctet_iff c).1 hc).2
  have h4 := ((isOctet_iff d).1 hd).2
  omega

theorem addr_len {s : Str} {v : Nat} (h : IsAddr s v) : 7 ≤ s.length ∧ s.length ≤ 15 := by
  obtain ⟨a, b, c, d, ha, hb, hc, hd, rfl, hl, -⟩ := h
  have h1 := octet_len a ha
  have h2 := octet_len b hb
  have h3 := octet_len c hc
  have h4 := octet_len d hd
  refine ⟨?_, hl⟩
  simp only [List.length_append, List.length_cons]
  omega

theorem addr_ipv4 {s : Str} {v : Nat} (h : IsAddr s v) : IsIPv4 s := by
  obtain ⟨a, b, c, d, ha, hb, hc, hd, rfl, hl, -⟩ := h
  exact ⟨a, b, c, d, ha, hb, hc, hd, rfl, hl⟩

theorem addr_chars {s : Str} {v : Nat} (h : IsAddr s v) : ∀ x ∈ s, x = 46 ∨ isDigit x = true :=
  ipv4_chars s (addr_ipv4 h)

theorem addr_no {s : Str} {v : Nat} (h : IsAddr s v) {x : Nat} (h1 : x ≠ 46) (h2 : isDigit x = false) :
    x ∉ s := fun hx => by
  rcases addr_chars h x hx with e | e
  · exact h1 e
  · rw [h2] at e; cases e

/-- The first character of an address is a digit. -/
theorem addr_head {s : Str} {v : Nat} (h : IsAddr s v) : ∃ c t, s = c :: t ∧ isDigit c = true := by
  obtain ⟨a, b, c, d, ha, hb, hc, hd, rfl, hl, -⟩ := h
  cases a with
  | nil => exact absurd rfl ha.1
  | cons x a => exact ⟨x, _, rfl, octet_digits ha x (by simp)⟩

theorem strcaseeq_iff (a b : Str) : strcaseeq a b = true ↔ a.map toLower = b.map toLower := by
  simp [strcaseeq]

theorem toLower_digit {c : Nat} (h : isDigit c = true) : toLower c = c := by
  simp only [isDigit, Bool.and_eq_true, decide_eq_true_eq] at h
  unfold toLower
  rw [if_neg]
  simp; omega

theorem not_any {c : Nat} (t : Str) (h : isDigit c = true) : strcaseeq (c :: t) b!"ANY" = false := by
  rw [Bool.eq_false_iff, Ne, strcaseeq_iff]
  intro e
  rw [List.map_cons] at e
  have := (List.cons.inj e).1
  rw [toLower_digit h] at this
  rw [this] at h
  revert h; decide

/-! ## Masks -/

theorem testBit_ones32 (i : Nat) : Nat.testBit 0xFFFFFFFF i = decide (i < 32) := by
  rw [show (0xFFFFFFFF : Nat) = 2 ^ 32 - 1 from rfl, Nat.testBit_two_pow_sub_one]

/-- Masking with the upper `32 - k` bits. -/
theorem and_upper {x k : Nat} (hx : x < 2 ^ 32) :
    x &&& ((0xFFFFFFFF <<< k) % 2 ^ 32) = x / 2 ^ k * 2 ^ k := by
  apply Nat.eq_of_testBit_eq
  intro i
  have hs : x / 2 ^ k * 2 ^ k = (x >>> k) <<< k := by rw [Nat.shiftLeft_eq, Nat.shiftRight_eq_div_pow]
  rw [hs, Nat.testBit_and, Nat.testBit_mod_two_pow, Nat.testBit_shiftLeft, Nat.testBit_shiftLeft,
    Nat.testBit_shiftRight, testBit_ones32]
  by_cases h32 : i < 32
  · by_cases hk : i ≥ k
    · have : k + (i - k) = i := by omega
      simp [h32, hk, this, show i - k < 32 by omega]
    · simp [hk]
  · have : x.testBit i = false := Nat.testBit_lt_two_pow (Nat.lt_of_lt_of_le hx (Nat.pow_le_pow_right (by decide) (by omega)))
    by_cases hk : i ≥ k
    · have e : k + (i - k) = i := by omega
      simp [this, e]
    · simp [this, hk]

theorem and_ones32 {x : Nat} (hx : x < 2 ^ 32) : x &&& 0xFFFFFFFF = x := by
  rw [show (0xFFFFFFFF : Nat) = 2 ^ 32 - 1 from rfl, Nat.and_two_pow_sub_one_eq_mod, Nat.mod_eq_of_lt hx]

theorem and_and_self (v m : Nat) : v &&& m &&& m = v &&& m := by
  rw [Nat.and_assoc, Nat.and_self]

theorem masked_iff (x v w : Nat) : x &&& w = v &&& w ↔ ∀ i, w.testBit i → x.testBit i = v.testBit i := by
  constructor
  · intro h i hi
    have := congrArg (Nat.testBit · i) h
    simpa [Nat.testBit_and, hi] using this
  · intro h
    apply Nat.eq_of_testBit_eq
    intro i
    rw [Nat.testBit_and, Nat.testBit_and]
    cases hw : w.testBit i with
    | false => simp
    | true => rw [h i hw]

/-! ## Entries -/

/-- An entry matches an address. -/
def AddrEnt.has (e : AddrEnt) (x : Nat) : Prop := x &&& e.mask = e.maddr &&& e.mask

theorem compare_addr_iff (l : List AddrEnt) (x : Nat) :
    compare_addr_list l x = true ↔ ∃ e ∈ l, e.has x := by
  induction l with
  | nil => simp [compare_addr_list]
  | cons e l ih =>
    unfold compare_addr_list
    by_cases h : x &&& e.mask = e.maddr &&& e.mask
    · rw [if_pos h]
      simp only [true_iff]
      exact ⟨e, by simp, h⟩
    · rw [if_neg h, ih]
      constructor
      · rintro ⟨e', he, h'⟩; exact ⟨e', by simp [he], h'⟩
      · rintro ⟨e', he, h'⟩
        rcases List.mem_cons.1 he with rfl | he
        · exact absurd h' h
        · exact ⟨e', he, h'⟩

theorem map_lower_len {s t : Str} (h : s.map Spec.lower = t) : s.length = t.length := by
  have := congrArg List.length h
  simpa using this

/-- Every network text yields an entry that matches exactly its addresses. -/
theorem add_int_ent_network {s : Str} {A : Nat → Prop} (h : Network s A) :
    ∃ e, add_int_ent s = some e ∧ ∀ x < 2 ^ 32, e.has x ↔ A x := by
  cases h with
  | any _ h =>
    refine ⟨⟨0, 0⟩, ?_, fun x _ => by simp [AddrEnt.has]⟩
    unfold add_int_ent
    rw [if_pos]
    rw [strcaseeq_iff, ← lower_eq, h]
    decide
  | host _ v h =>
    obtain ⟨c, t, hct, hc⟩ := addr_head h
    have hl := addr_len h
    refine ⟨⟨v, 0xFFFFFFFF⟩, ?_, fun x hx => ?_⟩
    · unfold add_int_ent
      rw [if_neg (by rw [hct, not_any t hc]; decide)]
      have : splitEnt s = some (s, 32, true) := by
        unfold splitEnt
        rw [strchr_none s 47 (addr_no h (by decide) (by decide))]
        simp only [MAX_IPV4_STR_LEN]
        rw [if_neg (by omega)]
      rw [this]
      simp only [aton_addr h]
      rw [show maskBits 32 true = 0xFFFFFFFF from rfl, and_ones32 (addr_lt h)]
    · unfold AddrEnt.has
      simp only
      rw [and_ones32 hx, and_ones32 (addr_lt h)]
  | cidr ip ds v h hd hne hl2 h1 h32 =>
    obtain ⟨c, t, hct, hc⟩ := addr_head h
    have hl := addr_len h
    have hdd : ∀ c ∈ ds, isDigit c = true := fun c hc => (isDigitChar_iff c).1 (hd c hc)
    have hpos : 0 < ds.length := List.length_pos_iff.2 hne
    rw [number_eq] at *
    have hm : parseMask ds = some (digitsVal 10 ds, true) := by
      unfold parseMask
      rw [if_neg (by omega), if_pos hpos]
      have := strtol_wrapper_digits ds hdd hne (by omega) 1 32
      rw [this]
      have e : decide ((1 : Int) ≤ (digitsVal 10 ds : Nat) ∧ ((32 : Int) < 0 ∨ ((digitsVal 10 ds : Nat) : Int) ≤ 32)) = true := by
        simp; omega
      simp only [e, if_true, Int.toNat_natCast]
    generalize digitsVal 10 ds = n at *
    have hn32 : ∀ x < 2 ^ 32, x &&& maskBits n true = x / 2 ^ (32 - n) * 2 ^ (32 - n) := by
      intro x hx
      unfold maskBits
      by_cases e : n = 32
      · subst e
        rw [if_pos rfl, and_ones32 hx]; simp
      · rw [if_neg e, if_pos ⟨rfl, by omega, by omega⟩, and_upper hx]
    refine ⟨⟨v &&& maskBits n true, maskBits n true⟩, ?_, fun x hx => ?_⟩
    · unfold add_int_ent
      rw [if_neg (by rw [hct, List.cons_append, not_any _ hc]; decide)]
      have : splitEnt (ip ++ 47 :: ds) = some (ip, n, true) := by
        unfold splitEnt
        rw [strchr_split ip ds 47 (addr_no h (by decide) (by decide))]
        simp only [MAX_IPV4_STR_LEN]
        rw [if_neg (by omega)]
        have e1 : (ip ++ 47 :: ds).drop (ip.length + 1) = ds := by simp
        have e2 : (ip ++ 47 :: ds).take ip.length = ip := by simp
        rw [e1, e2, hm]; rfl
      rw [this]
      simp only [aton_addr h]
    · unfold AddrEnt.has
      simp only
      rw [and_and_self, hn32 x hx, hn32 v (addr_lt h)]
      constructor
      · intro e
        exact Nat.eq_of_mul_eq_mul_right (Nat.pow_pos (by decide)) e
      · intro e; rw [e]
  | masked ip m v w h hw hne =>
    obtain ⟨c, t, hct, hc⟩ := addr_head h
    have hl := addr_len h
    have hlm := addr_len hw
    refine ⟨⟨v &&& w, w⟩, ?_, fun x hx => ?_⟩
    · unfold add_int_ent
      rw [if_neg (by rw [hct, List.cons_append, not_any _ hc]; decide)]
      have hm : parseMask m = some (w, false) := by
        unfold parseMask
        rw [if_pos (by omega), if_pos (by simp only [MIN_IPV4_STR_LEN, MAX_IPV4_STR_LEN]; omega),
          aton_addr hw]; rfl
      have : splitEnt (ip ++ 47 :: m) = some (ip, w, false) := by
        unfold splitEnt
        rw [strchr_split ip m 47 (addr_no h (by decide) (by decide))]
        simp only [MAX_IPV4_STR_LEN]
        rw [if_neg (by omega)]
        have e1 : (ip ++ 47 :: m).drop (ip.length + 1) = m := by simp
        have e2 : (ip ++ 47 :: m).take ip.length = ip := by simp
        rw [e1, e2, hm]; rfl
      rw [this]
      simp only [aton_addr h]
      have e : maskBits w false = w := by
        unfold maskBits
        rw [if_neg hne, if_neg (by simp)]
      rw [e]
    · unfold AddrEnt.has
      simp only
      rw [and_and_self]
      exact masked_iff x v w

theorem network_len {s : Str} {A : Nat → Prop} (h : Network s A) : s.length ≤ 31 := by
  cases h with
  | any _ h => have := map_lower_len h; simp at this; omega
  | host _ v h => have := addr_len h; omega
  | cidr ip ds v h hd hne hl2 h1 h32 => have := addr_len h; simp; omega
  | masked ip m v w h hw hne =>
    have := addr_len h
    have := addr_len hw
    simp; omega

/-! ## Lists separated by commas -/

theorem commaJoin_cons (x : Str) (r : List Str) (hr : r ≠ []) :
    commaJoin (x :: r) = x ++ 44 :: commaJoin r := by
  cases r with
  | nil => exact absurd rfl hr
  | cons y r => rfl

theorem expandLoop_noComma {α : Type} (add : Str → Option α) (s cur : Str) (h : 44 ∉ s) :
    expandLoop add s cur = (do
      let e ← listItem (cur ++ s)
      let x ← add e
      return [x]) := by
  induction s generalizing cur with
  | nil => rw [List.append_nil]; rfl
  | cons c s ih =>
    unfold expandLoop
    rw [if_neg (fun e => h (by simp [e])), ih _ (fun hc => h (by simp [hc]))]
    simp

theorem expandLoop_comma {α : Type} (add : Str → Option α) (s t cur : Str) (h : 44 ∉ s) :
    expandLoop add (s ++ 44 :: t) cur = (do
      let e ← listItem (cur ++ s)
      let x ← add e
      let rest ← expandLoop add t []
      return x :: rest) := by
  induction s generalizing cur with
  | nil =>
    rw [List.append_nil]
    show expandLoop add (44 :: t) cur = _
    conv => lhs; unfold expandLoop
    rw [if_pos rfl]
  | cons c s ih =>
    rw [List.cons_append]
    conv => lhs; unfold expandLoop
    rw [if_neg (fun e => h (by simp [e])), ih _ (fun hc => h (by simp [hc]))]
    simp

theorem dropWhile_blank (ws s : Str) (h : ∀ c ∈ ws, isSpace c = true)
    (hs : ∀ c t, s = c :: t → isSpace c = false) : (ws ++ s).dropWhile isSpace = s := by
  induction ws with
  | nil =>
    cases s with
    | nil => rfl
    | cons c t => simp [hs c t rfl]
  | cons x ws ih =>
    rw [List.cons_append, List.dropWhile_cons, if_pos (h x (by simp))]
    exact ih (fun c hc => h c (by simp [hc]))

/-- Expanding a list of items, each preceded by white space. -/
theorem expand_items {α : Type} (add : Str → Option α) {β : Type} (items : List (Str × Str × β))
    (R : β → α → Prop) (hne : items ≠ [])
    (h : ∀ i ∈ items, (∀ c ∈ i.1, isSpace c = true) ∧ 44 ∉ i.2.1 ∧ i.2.1.length ≤ 31 ∧
      (∀ c t, i.2.1 = c :: t → isSpace c = false) ∧ ∃ a, add i.2.1 = some a ∧ R i.2.2 a) :
    ∃ l, expandLoop add (commaJoin (items.map fun i => i.1 ++ i.2.1)) [] = some l ∧
      All2 (fun i a => R i.2.2 a) items l := by
  induction items with
  | nil => exact absurd rfl hne
  | cons i items ih =>
    obtain ⟨hb, hc, hl, hh, a, ha, hR⟩ := h i (by simp)
    have hbc : (44 : Nat) ∉ i.1 ++ i.2.1 := by
      intro hx
      rcases List.mem_append.1 hx with hx | hx
      · have := hb 44 hx; revert this; decide
      · exact hc hx
    have hli : listItem (i.1 ++ i.2.1) = some i.2.1 := by
      unfold listItem
      rw [dropWhile_blank _ _ hb hh]
      simp only [ACCESS_BUF_LEN]
      rw [if_neg (by omega)]
    by_cases he : items = []
    · subst he
      refine ⟨[a], ?_, .cons hR .nil⟩
      show expandLoop add (i.1 ++ i.2.1) [] = _
      rw [expandLoop_noComma add _ _ hbc]
      simp only [List.nil_append, hli]
      show (add i.2.1).bind _ = _
      rw [ha]; rfl
    · obtain ⟨l, hl', hf⟩ := ih he (fun j hj => h j (by simp [hj]))
      refine ⟨a :: l, ?_, .cons hR hf⟩
      rw [List.map_cons, commaJoin_cons _ _ (by simpa using he), expandLoop_comma add _ _ _ hbc]
      simp only [List.nil_append, hli, hl']
      show (add i.2.1).bind _ = _
      rw [ha]; rfl

theorem network_noComma {s : Str} {A : Nat → Prop} (h : Network s A) : 44 ∉ s := by
  cases h with
  | any _ h =>
    intro hx
    have : toLower 44 ∈ s.map Spec.lower := by
      rw [lower_eq]; exact List.mem_map_of_mem hx
    rw [h] at this
    revert this; decide
  | host _ v h => exact addr_no h (by decide) (by decide)
  | cidr ip ds v h hd hne hl2 h1 h32 =>
    intro hx
    rcases List.mem_append.1 hx with hx | hx
    · exact addr_no h (by decide) (by decide) hx
    · rcases List.mem_cons.1 hx with hx | hx
      · revert hx; decide
      · have := hd _ hx; revert this; unfold IsDigitChar; omega
  | masked ip m v w h hw hne =>
    intro hx
    rcases List.mem_append.1 hx with hx | hx
    · exact addr_no h (by decide) (by decide) hx
    · rcases List.mem_cons.1 hx with hx | hx
      · revert hx; decide
      · exact addr_no hw (by decide) (by decide) hx

theorem network_head {s : Str} {A : Nat → Prop} (h : Network s A) :
    ∀ c t, s = c :: t → isSpace c = false := by
  have key : ∀ (ip r : Str) (v : Nat), IsAddr ip v → ∀ c t, ip ++ r = c :: t → isSpace c = false := by
    intro ip r v h c t e
    obtain ⟨d, u, rfl, hd⟩ := addr_head h
    rw [List.cons_append] at e
    rw [← (List.cons.inj e).1]
    exact isDigit_not_space d hd
  cases h with
  | any _ h =>
    rintro c t rfl
    rw [List.map_cons] at h
    have hc := (List.cons.inj h).1
    cases hs : isSpace c with
    | false => rfl
    | true =>
      rw [lower_eq] at hc
      simp only [isSpace, Bool.or_eq_true, decide_eq_true_eq, Bool.and_eq_true] at hs
      unfold toLower at hc
      split at hc <;> simp_all <;> omega
  | host _ v h =>
    intro c t e
    exact key s [] v h c t (by simpa using e)
  | cidr ip ds v h hd hne hl2 h1 h32 => exact key ip _ v h
  | masked ip m v w h hw hne => exact key ip _ v h

theorem forall2_exists_left {α β : Type} {R : α → β → Prop} {l : List α} {l' : List β}
    (h : All2 R l l') : ∀ a ∈ l, ∃ b ∈ l', R a b := by
  induction h with
  | nil => intro a ha; cases ha
  | cons hr _ ih =>
    intro a ha
    rcases List.mem_cons.1 ha with rfl | ha
    · exact ⟨_, by simp, hr⟩
    · obtain ⟨b, hb, h⟩ := ih a ha
      exact ⟨b, by simp [hb], h⟩

theorem forall2_exists_right {α β : Type} {R : α → β → Prop} {l : List α} {l' : List β}
    (h : All2 R l l') : ∀ b ∈ l', ∃ a ∈ l, R a b := by
  induction h with
  | nil => intro a ha; cases ha
  | cons hr _ ih =>
    intro a ha
    rcases List.mem_cons.1 ha with rfl | ha
    · exact ⟨_, by simp, hr⟩
    · obtain ⟨b, hb, h⟩ := ih a ha
      exact ⟨b, by simp [hb], h⟩

theorem networks_expand {s : Str} {A : Nat → Prop} (h : Networks s A) :
    ∃ l, expand_acc_int_list s = some l ∧ ∀ x < 2 ^ 32, compare_addr_list l x = true ↔ A x := by
  obtain ⟨items, hne, hi, rfl, rfl⟩ := h
  obtain ⟨l, hl, hf⟩ := expand_items add_int_ent items
    (fun A e => ∀ x < 2 ^ 32, AddrEnt.has e x ↔ A x) hne (fun i h => by
      obtain ⟨hb, hn⟩ := hi i h
      exact ⟨fun c hc => (isBlank_iff c).1 (hb c hc), network_noComma hn, network_len hn,
        network_head hn, add_int_ent_network hn⟩)
  refine ⟨l, hl, fun x hx => ?_⟩
  rw [compare_addr_iff]
  constructor
  · rintro ⟨e, he, hh⟩
    obtain ⟨i, hi, hr⟩ := forall2_exists_right hf e he
    exact ⟨i, hi, (hr x hx).1 hh⟩
  · rintro ⟨i, hi, hh⟩
    obtain ⟨e, he, hr⟩ := forall2_exists_left hf i hi
    exact ⟨e, he, (hr x hx).2 hh⟩

/-! ## Ports -/

theorem protoPort_parse {s : Str} {p q : Nat} (h : ProtoPort s p q) :
    parse_proto_and_port s = some ⟨p, q⟩ := by
  obtain ⟨name, ds, rfl, hname, hne, hd, hv, hq, hl⟩ := h
  have hdd : ∀ c ∈ ds, isDigit c = true := fun c hc => (isDigitChar_iff c).1 (hd c hc)
  have hn : 47 ∉ name := by
    intro hx
    have : toLower 47 ∈ name.map Spec.lower := by
      rw [lower_eq]; exact List.mem_map_of_mem hx
    rcases hname with ⟨e, -⟩ | ⟨e, -⟩ <;> rw [e] at this <;> revert this <;> decide
  unfold parse_proto_and_port
  rw [strchr_split name ds 47 hn]
  simp only [ACCESS_BUF_LEN]
  simp only [List.length_append, List.length_cons] at hl
  rw [if_neg (by omega)]
  have e1 : (name ++ 47 :: ds).drop (name.length + 1) = ds := by simp
  have e2 : (name ++ 47 :: ds).take name.length = name := by simp
  rw [number_eq] at hv
  rw [e1, e2, strtol_wrapper_digits ds hdd hne (by omega), hv]
  have e : decide ((0 : Int) ≤ (q : Nat) ∧ (MAX_PORT < 0 ∨ ((q : Nat) : Int) ≤ MAX_PORT)) = true := by
    simp only [MAX_PORT]; simp; omega
  simp only [e, if_true]
  rw [lower_eq] at hname
  unfold protoOf
  rcases hname with ⟨e, rfl⟩ | ⟨e, rfl⟩
  · rw [if_pos ((strcaseeq_iff _ _).2 (by rw [e]; decide))]; rfl
  · have : strcaseeq name b!"tcp" = false := by
      rw [Bool.eq_false_iff, Ne, strcaseeq_iff, e]; decide
    rw [if_neg (by rw [this]; decide), if_pos ((strcaseeq_iff _ _).2 (by rw [e]; decide))]; rfl

theorem protoPort_noComma {s : Str} {p q : Nat} (h : ProtoPort s p q) : 44 ∉ s := by
  obtain ⟨name, ds, rfl, hname, hne, hd, hv, hq, hl⟩ := h
  intro hx
  rcases List.mem_append.1 hx with hx | hx
  · have : toLower 44 ∈ name.map Spec.lower := by
      rw [lower_eq]; exact List.mem_map_of_mem hx
    rcases hname with ⟨e, -⟩ | ⟨e, -⟩ <;> rw [e] at this <;> revert this <;> decide
  · rcases List.mem_cons.1 hx with hx | hx
    · revert hx; decide
    · have := hd _ hx; revert this; unfold IsDigitChar; omega

theorem protoPort_head {s : Str} {p q : Nat} (h : ProtoPort s p q) :
    ∀ c t, s = c :: t → isSpace c = false := by
  obtain ⟨name, ds, rfl, hname, hne, hd, hv, hq, hl⟩ := h
  intro c t e
  rw [lower_eq] at hname
  cases name with
  | nil => rcases hname with ⟨e, -⟩ | ⟨e, -⟩ <;> cases e
  | cons x name =>
    rw [List.cons_append] at e
    rw [← (List.cons.inj e).1]
    have hc : toLower x = 116 ∨ toLower x = 117 := by
      rcases hname with ⟨e, -⟩ | ⟨e, -⟩
      · exact .inl (List.cons.inj e).1
      · exact .inr (List.cons.inj e).1
    cases hs : isSpace x with
    | false => rfl
    | true =>
      simp only [isSpace, Bool.or_eq_true, decide_eq_true_eq, Bool.and_eq_true] at hs
      unfold toLower at hc
      split at hc <;> simp_all <;> omega

/-- A pair as an entry. -/
def toEnt (p : Nat × Nat) : PortEnt := ⟨p.1, p.2⟩

theorem toEnt_inj {p q : Nat × Nat} (h : toEnt p = toEnt q) : p = q := by
  unfold toEnt at h
  injection h with h1 h2
  exact Prod.ext h1 (by omega)

theorem forall2_map {α β : Type} {f : α → β} {l : List α} {l' : List β}
    (h : All2 (fun a b => f a = b) l l') : l' = l.map f := by
  induction h with
  | nil => rfl
  | cons h _ ih => rw [List.map_cons, h, ih]

theorem protoPorts_expand {s : Str} {ps : List (Nat × Nat)} (h : ProtoPorts s ps) :
    expand_acc_port_list s = some (ps.map toEnt) := by
  obtain ⟨items, hne, hi, rfl, rfl⟩ := h
  obtain ⟨l, hl, hf⟩ := expand_items parse_proto_and_port items
    (fun p e => toEnt p = e) hne (fun i h => by
      obtain ⟨hb, hn⟩ := hi i h
      refine ⟨fun c hc => (isBlank_iff c).1 (hb c hc), protoPort_noComma hn, ?_,
        protoPort_head hn, _, protoPort_parse hn, rfl⟩
      obtain ⟨_, _, _, _, _, _, _, _, hl⟩ := hn
      exact hl)
  have hm := forall2_map (f := fun i : Str × Str × (Nat × Nat) => toEnt i.2.2) hf
  unfold expand_acc_port_list
  rw [hl, hm, List.map_map]; rfl

theorem request_noComma (s cur : Str) (ctr : Nat) (h : 44 ∉ s) :
    requestPorts s cur ctr =
      if ctr + s.length ≥ ACCESS_BUF_LEN ∨ (cur ++ s).length + 1 ≥ ACCESS_BUF_LEN then none
      else (parse_proto_and_port (cur ++ s)).map fun p => [p] := by
  induction s generalizing cur ctr with
  | nil => simp only [List.append_nil, List.length_nil, Nat.add_zero]; rfl
  | cons c s ih =>
    unfold requestPorts
    rw [if_neg (fun e => h (by simp [e])), ih _ _ (fun hc => h (by simp [hc]))]
    simp only [List.append_assoc, List.singleton_append, List.length_cons]
    rw [show ctr + 1 + s.length = ctr + (s.length + 1) by omega]

theorem request_comma (s t cur : Str) (ctr : Nat) (h : 44 ∉ s) :
    requestPorts (s ++ 44 :: t) cur ctr =
      if ctr + s.length ≥ ACCESS_BUF_LEN ∨ (cur ++ s).length + 1 ≥ ACCESS_BUF_LEN then none
      else match parse_proto_and_port (cur ++ s) with
        | none => none
        | some p => (requestPorts t [] 1).map fun ps => p :: ps := by
  induction s generalizing cur ctr with
  | nil =>
    simp only [List.append_nil, List.length_nil, Nat.add_zero]
    show requestPorts (44 :: t) cur ctr = _
    conv => lhs; unfold requestPorts
    rw [if_pos rfl]
    rfl
  | cons c s ih =>
    rw [List.cons_append]
    conv => lhs; unfold requestPorts
    rw [if_neg (fun e => h (by simp [e])), ih _ _ (fun hc => h (by simp [hc]))]
    simp only [List.append_assoc, List.singleton_append, List.length_cons]
    rw [show ctr + 1 + s.length = ctr + (s.length + 1) by omega]

theorem request_items (items : List (Str × (Nat × Nat))) (hne : items ≠ [])
    (hi : ∀ i ∈ items, ProtoPort i.1 i.2.1 i.2.2) (ctr : Nat) (hc : ctr ≤ 1) :
    requestPorts (commaJoin (items.map fun i => i.1)) [] ctr
      = some (items.map fun i => toEnt i.2) := by
  induction items generalizing ctr with
  | nil => exact absurd rfl hne
  | cons i items ih =>
    have hp := hi i (by simp)
    have hl : i.1.length ≤ 31 := by obtain ⟨_, _, _, _, _, _, _, _, hl⟩ := hp; exact hl
    by_cases he : items = []
    · subst he
      show requestPorts i.1 [] ctr = _
      rw [request_noComma _ _ _ (protoPort_noComma hp)]
      simp only [ACCESS_BUF_LEN, List.nil_append]
      rw [if_neg (by omega), protoPort_parse hp]; rfl
    · rw [List.map_cons, commaJoin_cons _ _ (by simpa using he), request_comma _ _ _ _ (protoPort_noComma hp)]
      simp only [ACCESS_BUF_LEN, List.nil_append]
      rw [if_neg (by omega), protoPort_parse hp]
      simp only
      rw [ih he (fun j hj => hi j (by simp [hj])) 1 (by omega)]; rfl

theorem request_parse {s : Str} {ps : List (Nat × Nat)} (h : RequestPorts s ps) :
    requestPorts s [] 0 = some (ps.map toEnt) ∧ ps ≠ [] := by
  obtain ⟨items, hne, hi, rfl, rfl⟩ := h
  refine ⟨?_, by simpa using hne⟩
  rw [request_items items hne hi 0 (by omega), List.map_map]; rfl

theorem countPort_eq (p : PortEnt) (l : List PortEnt) : countPort p l = l.count p := by
  induction l with
  | nil => rfl
  | cons q l ih =>
    unfold countPort
    rw [List.count_cons, ih]
    by_cases h : p = q
    · subst h; simp
    · have h1 : ¬ (p.proto = q.proto ∧ p.port = q.port) := by
        rintro ⟨h1, h2⟩
        apply h
        cases p; cases q; simp_all
      rw [if_neg h1, if_neg (by simpa using fun e => h e.symm)]
      rfl

theorem countAll_eq (ps ac : List PortEnt) :
    countAll ps ac = ((ps.map fun p => ac.count p).sum, ps.length) := by
  induction ps with
  | nil => rfl
  | cons p ps ih =>
    unfold countAll
    rw [ih, countPort_eq]
    simp only [List.map_cons, List.sum_cons, List.length_cons]
    rw [Nat.add_comm]

theorem compare_all_iff (ps ac : List PortEnt) :
    compare_port_list_all ps ac = true ↔ (ps.map fun p => ac.count p).sum = ps.length := by
  unfold compare_port_list_all
  rw [countAll_eq]
  simp only [decide_eq_true_eq]
  exact eq_comm

theorem compare_any_iff (ps ac : List PortEnt) (hne : ps ≠ []) :
    compare_port_list_any ps ac = true ↔ ∃ p ∈ ps, p ∈ ac := by
  unfold compare_port_list_any
  have h1 : (ps.any fun p => decide (countPort p ac ≠ 0)) = true ↔ ∃ p ∈ ps, p ∈ ac := by
    simp only [List.any_eq_true, countPort_eq, decide_eq_true_eq]
    constructor
    · rintro ⟨p, hp, h⟩; exact ⟨p, hp, List.count_pos_iff.1 (by omega)⟩
    · rintro ⟨p, hp, h⟩; exact ⟨p, hp, by have := List.count_pos_iff.2 h; omega⟩
  by_cases h : ∃ p ∈ ps, p ∈ ac
  · rw [if_pos (h1.2 h)]; simp [h]
  · rw [if_neg (fun e => h (h1.1 e)), compare_all_iff]
    have h0 : (ps.map fun p => ac.count p).sum = 0 := by
      apply sum_zero
      intro x hx
      obtain ⟨p, hp, rfl⟩ := List.mem_map.1 hx
      exact List.count_eq_zero.2 (fun hm => h ⟨p, hp, hm⟩)
    rw [h0]
    have := List.length_pos_iff.2 hne
    constructor
    · intro e; omega
    · intro e; exact absurd e h

theorem sum_count_nodup (ps ac : List PortEnt) (hn : ac.Nodup) :
    (ps.map fun p => ac.count p).sum ≤ ps.length ∧
    ((ps.map fun p => ac.count p).sum = ps.length ↔ ∀ p ∈ ps, p ∈ ac) := by
  induction ps with
  | nil => simp
  | cons p ps ih =>
    obtain ⟨ih1, ih2⟩ := ih
    have hc : ac.count p ≤ 1 := List.nodup_iff_count.1 hn p
    simp only [List.map_cons, List.sum_cons, List.length_cons]
    refine ⟨by omega, ?_⟩
    constructor
    · intro h x hx
      have : ac.count p = 1 := by omega
      rcases List.mem_cons.1 hx with rfl | hx
      · exact List.count_pos_iff.1 (by omega)
      · exact ih2.1 (by omega) x hx
    · intro h
      have h1 := List.count_pos_iff.2 (h p (by simp))
      have h2 := ih2.2 (fun x hx => h x (by simp [hx]))
      omega

end Fwknop
