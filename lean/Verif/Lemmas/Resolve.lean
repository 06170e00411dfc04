import Verif.Model.Resolve
import Verif.Spec.Resolve
import Verif.Lemmas.Http
import Verif.Lemmas.RoundTrip
import Verif.Lemmas.Extcmd
import Verif.Lemmas.Passwd

/-!
# Lemmas: the client's own address by HTTP
-/

namespace Fwknop

open Spec Res

/-! ## Receiving -/

/-- The array with some bytes in front. -/
def padded (d : Str) : Str := d ++ List.replicate (HTTP_MAX_RESPONSE_LEN - d.length) 0

/-- What is kept of what arrives. -/
def keptBytes : List Str → Str → Str
  | [], d => d
  | c :: cs, d => if c = [] then d else if d.length + c.length ≥ HTTP_MAX_RESPONSE_LEN then d else keptBytes cs (d ++ c)

theorem keptBytes_lt : ∀ (cs : List Str) (d : Str), d.length < HTTP_MAX_RESPONSE_LEN → (keptBytes cs d).length < HTTP_MAX_RESPONSE_LEN
  | [], _, h => h
  | c :: cs, d, h => by
    unfold keptBytes
    split
    · exact h
    · split
      · exact h
      · rename_i h2
        exact keptBytes_lt cs _ (by rw [List.length_append]; omega)

theorem recvLoop_is : ∀ (cs : List Str) (d : Str), d.length < HTTP_MAX_RESPONSE_LEN →
    recvLoop cs (padded d) d.length = .ok (padded (keptBytes cs d))
  | [], _, _ => rfl
  | c :: cs, d, h => by
    unfold recvLoop keptBytes
    by_cases h1 : c = []
    · rw [if_pos h1, if_pos h1]
    · rw [if_neg h1, if_neg h1]
      by_cases h2 : d.length + c.length ≥ HTTP_MAX_RESPONSE_LEN
      · rw [if_pos h2, if_pos h2]
      · rw [if_neg h2, if_neg h2]
        have hl : (padded d).length = 2000 := by
          unfold padded
          rw [List.length_append, List.length_replicate]
          show d.length + (2000 - d.length) = 2000
          have : d.length < 2000 := h
          omega
        have h2' : ¬ d.length + c.length ≥ 2000 := h2
        rw [show decide (d.length + c.length > (padded d).length) = false from decide_eq_false (by omega), mem_false, bind_ok]
        have hp : (padded d).take d.length ++ c ++ (padded d).drop (d.length + c.length) = padded (d ++ c) := by
          unfold padded
          rw [List.take_left', List.drop_append, List.drop_eq_nil_of_le (by omega), List.nil_append, List.drop_replicate,
            List.length_append]
          · congr 2
            omega
          · rfl
        rw [hp, ← List.length_append]
        exact recvLoop_is cs _ (by rw [List.length_append]; omega)

theorem keptBytes_all : ∀ (cs : List Str) (d : Str), [] ∉ cs → d.length + cs.flatten.length < HTTP_MAX_RESPONSE_LEN →
    keptBytes cs d = d ++ cs.flatten
  | [], d, _, _ => by simp [keptBytes]
  | c :: cs, d, h1, h2 => by
    rw [List.flatten_cons, List.length_append] at h2
    unfold keptBytes
    rw [if_neg fun h => h1 (by rw [h]; exact List.mem_cons_self), if_neg (by omega),
      keptBytes_all cs (d ++ c) (fun h => h1 (List.mem_cons_of_mem _ h)) (by rw [List.length_append]; omega),
      List.flatten_cons, List.append_assoc]

/-! ## The address in a buffer -/

/-- A character of an address. -/
def ipChar (c : Nat) : Bool := isDigit c || c = 46

theorem ipChar_iff (c : Nat) : ipChar c = true ↔ IpChar c := by
  unfold ipChar IpChar
  rw [Bool.or_eq_true, isDigit_iff, decide_eq_true_eq]

theorem ipChar_zero : ipChar 0 = false := by decide

theorem walkIp_is (buf : Str) (ndx : Nat) : ∀ (fuel i : Nat), 0 ∈ buf.drop (ndx + i) →
    walkIp buf ndx fuel i = .ok (i + min fuel ((buf.drop (ndx + i)).takeWhile ipChar).length)
  | 0, i, _ => by simp [walkIp]
  | fuel + 1, i, h => by
    have hlt : ndx + i < buf.length := by
      rcases Nat.lt_or_ge (ndx + i) buf.length with h' | h'
      · exact h'
      · rw [List.drop_eq_nil_of_le h'] at h; cases h
    have hd : buf.drop (ndx + i) = buf.getD (ndx + i) 0 :: buf.drop (ndx + i + 1) := by
      rw [List.drop_eq_getElem_cons hlt, List.getD_eq_getElem?_getD, List.getElem?_eq_getElem hlt]
      rfl
    rw [walkIp, show decide (ndx + i ≥ buf.length) = false from decide_eq_false (by omega), mem_false, bind_ok]
    generalize hc : buf.getD (ndx + i) 0 = c at *
    have hcond : (!isDigit c && decide (c ≠ 46)) = !ipChar c := by
      unfold ipChar
      simp
    rw [hcond, hd, List.takeWhile_cons]
    cases hi : ipChar c with
    | false => simp [pure_eq]
    | true =>
      simp only [Bool.not_true, Bool.false_eq_true, if_false, if_true, List.length_cons]
      rw [hd] at h
      have h' : 0 ∈ buf.drop (ndx + (i + 1)) := by
        rcases List.mem_cons.mp h with h | h
        · rw [← h, ipChar_zero] at hi; cases hi
        · exact h
      rw [walkIp_is buf ndx fuel (i + 1) h', show ndx + (i + 1) = ndx + i + 1 from rfl]
      congr 1
      omega

/-- The text of the address. -/
def ipText (t : Str) : Str := (t.takeWhile ipChar).take MAX_IPV4_STR_LEN

/-- What is made of it. -/
def ipFound (t : Str) : Option Str := if saneIp (ipText t) then some ((ipText t).take 15) else none

theorem ipAt_is {buf : Str} {ndx : Nat} (h : 0 ∈ buf.drop ndx) : ipAt buf ndx = .ok (ipFound (buf.drop ndx)) := by
  unfold ipAt
  rw [walkIp_is buf ndx _ 0 h, bind_ok, Nat.zero_add, Nat.add_zero]
  generalize hi : min MAX_IPV4_STR_LEN ((buf.drop ndx).takeWhile ipChar).length = i
  generalize ht : buf.drop ndx = t at *
  have hlen : (t.takeWhile ipChar).length < t.length := by
    rcases Nat.lt_or_ge (t.takeWhile ipChar).length t.length with h' | h'
    · exact h'
    · have hpre := List.takeWhile_prefix ipChar (l := t)
      have : t.takeWhile ipChar = t := hpre.eq_of_length (Nat.le_antisymm hpre.length_le h')
      rw [← this] at h
      have := List.all_eq_true.mp List.all_takeWhile _ h
      rw [ipChar_zero] at this
      cases this
  have hit : i < t.length := by omega
  have htl : t.length = buf.length - ndx := by rw [← ht, List.length_drop]
  rw [show decide (ndx + i ≥ buf.length) = false from decide_eq_false (by omega), mem_false, bind_ok]
  have hs : ((buf.set (ndx + i) 0).drop ndx).takeWhile (· ≠ 0) = ipText t := by
    rw [List.drop_set, if_neg (by omega), Nat.add_sub_cancel_left, ht,
      List.set_eq_take_append_cons_drop, if_pos hit, takeWhile_atNul]
    have hpre : t.take i = ipText t := by
      unfold ipText
      have : t.takeWhile ipChar = t.take (t.takeWhile ipChar).length :=
        (List.prefix_iff_eq_take.mp (List.takeWhile_prefix ipChar))
      rw [this, List.take_take, ← hi]
    rw [hpre]
    refine takeWhile_noNul fun c hc => ?_
    have : ipChar c = true := List.all_eq_true.mp List.all_takeWhile _ (List.mem_of_mem_take hc)
    refine decide_eq_true fun h0 => ?_
    rw [h0, ipChar_zero] at this
    cases this
  rw [hs]
  rfl

/-- What is made of the bytes that are kept. -/
def answerFound (d : Str) : Option Str :=
  match findSuffix (hasPrefix b!"\r\n\r\n") (d.takeWhile (· ≠ 0)) with
  | none => none
  | some n => ipFound (d.drop (n + 4))

theorem takeWhile_pad : ∀ (p : Nat → Bool) (d : Str) (k : Nat), p 0 = false → (d ++ List.replicate k 0).takeWhile p = d.takeWhile p := by
  intro p d k hp
  induction d with
  | nil => cases k <;> simp [List.replicate_succ, hp]
  | cons c d ih => simp only [List.cons_append, List.takeWhile_cons, ih]

theorem readAnswer_is (cs : List Str) : readAnswer cs = .ok (answerFound (keptBytes cs [])) := by
  unfold readAnswer
  have h := keptBytes_lt cs [] (by decide)
  have h0 := recvLoop_is cs [] (by decide)
  rw [show padded [] = List.replicate HTTP_MAX_RESPONSE_LEN 0 from rfl, List.length_nil] at h0
  rw [h0, bind_ok]
  generalize keptBytes cs [] = d at *
  have hd : d.length < 2000 := h
  have hset : (padded d).set (HTTP_MAX_RESPONSE_LEN - 1) 0 = padded d := by
    unfold padded
    rw [List.set_append_right _ _ (show d.length ≤ HTTP_MAX_RESPONSE_LEN - 1 by show d.length ≤ 1999; omega), List.set_replicate_self]
  dsimp only
  rw [hset]
  have htw : (padded d).takeWhile (· ≠ 0) = d.takeWhile (· ≠ 0) := takeWhile_pad _ _ _ (by decide)
  rw [htw]
  unfold answerFound
  cases hf : findSuffix (hasPrefix b!"\r\n\r\n") (d.takeWhile (· ≠ 0)) with
  | none => rfl
  | some n =>
    dsimp only
    obtain ⟨h1, h2, _⟩ := findSuffix_some hf
    have h4 : n + 4 ≤ d.length := by
      have hp : b!"\r\n\r\n" <+: (d.takeWhile (· ≠ 0)).drop n := List.isPrefixOf_iff_prefix.mp h2
      have hl := hp.length_le
      have hl2 := (List.takeWhile_prefix (l := d) (· ≠ 0)).length_le
      rw [List.length_drop] at hl
      have : (b!"\r\n\r\n" : Str).length = 4 := rfl
      omega
    have hdrop : (padded d).drop (n + 4) = d.drop (n + 4) ++ List.replicate (2000 - d.length) 0 := by
      unfold padded
      rw [List.drop_append_of_le_length h4]
    have hz : 0 ∈ (padded d).drop (n + 4) := by
      rw [hdrop]
      exact List.mem_append_right _ (List.mem_replicate.mpr ⟨by omega, rfl⟩)
    rw [ipAt_is hz, hdrop]
    unfold ipFound ipText
    rw [takeWhile_pad _ _ _ ipChar_zero]

/-! ## The numbers -/

theorem ip_scan {s : Str} (h : ∀ c ∈ s, ipChar c = true) : s.dropWhile isSpace = s ∧ splitSign s = (false, s) := by
  cases s with
  | nil => exact ⟨rfl, rfl⟩
  | cons c s =>
    have hc := h c List.mem_cons_self
    have hc' : (48 ≤ c ∧ c ≤ 57) ∨ c = 46 := by
      unfold ipChar isDigit at hc
      simpa using hc
    constructor
    · rw [List.dropWhile_cons, if_neg]
      unfold isSpace
      simp
      omega
    · unfold splitSign
      split
      · rename_i heq; simp at heq; omega
      · rename_i heq; simp at heq; omega
      · rfl

theorem scanU_is {s : Str} (h : ∀ c ∈ s, ipChar c = true) : scanU s =
    if s.takeWhile isDigit = [] then none
    else some (toInt32 ((digitsVal 10 (s.takeWhile isDigit) : Nat) : Int), s.drop (s.takeWhile isDigit).length) := by
  unfold scanU
  obtain ⟨h1, h2⟩ := ip_scan h
  simp only [h1, h2, Bool.false_eq_true, if_false]

theorem scanU_digits {ds rest : Str} (hne : ds ≠ []) (hd : ∀ c ∈ ds, isDigit c = true) (hr : ∀ c ∈ rest, ipChar c = true)
    (hh : ∀ c, rest.head? = some c → isDigit c = false) : scanU (ds ++ rest) = some (toInt32 ((digitsVal 10 ds : Nat) : Int), rest) := by
  have htw : (ds ++ rest).takeWhile isDigit = ds := by
    rw [List.takeWhile_append_of_pos hd]
    cases rest with
    | nil => simp
    | cons c r => rw [List.takeWhile_cons, hh c rfl]; simp
  rw [scanU_is, htw, if_neg hne, List.drop_left']
  · rfl
  · intro c hc
    rcases List.mem_append.mp hc with hc | hc
    · unfold ipChar; rw [hd c hc]; rfl
    · exact hr c hc

theorem scanU_inv {s r : Str} {v : Int} (h : ∀ c ∈ s, ipChar c = true) (hs : scanU s = some (v, r)) :
    ∃ ds, s = ds ++ r ∧ ds ≠ [] ∧ (∀ c ∈ ds, isDigit c = true) ∧ (∀ c, r.head? = some c → isDigit c = false) ∧
      v = toInt32 ((digitsVal 10 ds : Nat) : Int) := by
  rw [scanU_is h] at hs
  split at hs
  · cases hs
  · rename_i hne
    obtain ⟨rfl, rfl⟩ := Prod.mk.inj (Option.some.inj hs)
    have hpre := List.takeWhile_prefix isDigit (l := s)
    refine ⟨s.takeWhile isDigit, ?_, hne, fun c hc => List.all_eq_true.mp List.all_takeWhile _ hc, ?_, rfl⟩
    · conv => lhs; rw [← List.take_append_drop (s.takeWhile isDigit).length s]
      rw [← List.prefix_iff_eq_take.mp hpre]
    · intro c hc
      have hdw : s.drop (s.takeWhile isDigit).length = s.dropWhile isDigit := by
        have h0 : (s.takeWhile isDigit ++ s.dropWhile isDigit).drop (s.takeWhile isDigit).length = s.dropWhile isDigit :=
          List.drop_left' rfl
        rwa [List.takeWhile_append_dropWhile] at h0
      rw [hdw] at hc
      cases hx : s.dropWhile isDigit with
      | nil => rw [hx] at hc; cases hc
      | cons y l =>
        rw [hx] at hc
        cases hc
        have := List.head?_dropWhile_not isDigit s
        rw [hx] at this
        simpa using this

theorem octet_mod {n : Nat} (h : isOctet (toInt32 ((n : Nat) : Int)) = true) : n % 2 ^ 32 ≤ 255 := by
  unfold isOctet at h
  simp only [Bool.and_eq_true, decide_eq_true_eq] at h
  unfold toInt32 at h
  omega

theorem octet_of {n : Nat} (h : n ≤ 255) : isOctet (toInt32 ((n : Nat) : Int)) = true := by
  rw [toInt32_id _ (by omega) (by omega)]
  unfold isOctet
  simp only [Bool.and_eq_true, decide_eq_true_eq]
  omega

theorem scanDot_inv {s r : Str} (h : scanDot s = some r) : s = 46 :: r := by
  unfold scanDot at h
  split at h
  · cases h; rfl
  · cases h

/-- What `sscanf` and the bounds let through. -/
theorem saneIp_inv {s : Str} (h : ∀ c ∈ s, ipChar c = true) (hs : saneIp s = true) :
    ∃ d1 d2 d3 d4 rest, s = d1 ++ 46 :: (d2 ++ 46 :: (d3 ++ 46 :: (d4 ++ rest))) ∧
      (∀ d ∈ [d1, d2, d3, d4], d ≠ [] ∧ (∀ c ∈ d, isDigit c = true) ∧ digitsVal 10 d % 2 ^ 32 ≤ 255) ∧
      (rest = [] ∨ ∃ t, rest = 46 :: t) := by
  unfold saneIp at hs
  cases h1 : scanU s with
  | none => rw [h1] at hs; cases hs
  | some a =>
    obtain ⟨v1, r1⟩ := a
    rw [h1] at hs
    simp only [Bind.bind, Option.bind] at hs
    cases h2 : scanDot r1 with
    | none => rw [h2] at hs; cases hs
    | some r1' =>
      rw [h2] at hs
      dsimp only at hs
      cases h3 : scanU r1' with
      | none => rw [h3] at hs; cases hs
      | some b =>
        obtain ⟨v2, r2⟩ := b
        rw [h3] at hs
        dsimp only at hs
        cases h4 : scanDot r2 with
        | none => rw [h4] at hs; cases hs
        | some r2' =>
          rw [h4] at hs
          dsimp only at hs
          cases h5 : scanU r2' with
          | none => rw [h5] at hs; cases hs
          | some c =>
            obtain ⟨v3, r3⟩ := c
            rw [h5] at hs
            dsimp only at hs
            cases h6 : scanDot r3 with
            | none => rw [h6] at hs; cases hs
            | some r3' =>
              rw [h6] at hs
              dsimp only at hs
              cases h7 : scanU r3' with
              | none => rw [h7] at hs; cases hs
              | some d =>
                obtain ⟨v4, r4⟩ := d
                rw [h7] at hs
                simp only [Pure.pure, Option.getD_some, Bool.and_eq_true] at hs
                obtain ⟨⟨⟨o1, o2⟩, o3⟩, o4⟩ := hs
                obtain ⟨d1, e1, n1, g1, -, w1⟩ := scanU_inv h h1
                rw [e1, scanDot_inv h2] at h ⊢
                have H1 : ∀ c ∈ r1', ipChar c = true := fun c hc => h c (List.mem_append_right _ (List.mem_cons_of_mem _ hc))
                obtain ⟨d2, e2, n2, g2, -, w2⟩ := scanU_inv H1 h3
                rw [e2, scanDot_inv h4] at H1 ⊢
                have H2 : ∀ c ∈ r2', ipChar c = true := fun c hc => H1 c (List.mem_append_right _ (List.mem_cons_of_mem _ hc))
                obtain ⟨d3, e3, n3, g3, -, w3⟩ := scanU_inv H2 h5
                rw [e3, scanDot_inv h6] at H2 ⊢
                have H3 : ∀ c ∈ r3', ipChar c = true := fun c hc => H2 c (List.mem_append_right _ (List.mem_cons_of_mem _ hc))
                obtain ⟨d4, e4, n4, g4, g5, w4⟩ := scanU_inv H3 h7
                rw [e4] at H3 ⊢
                refine ⟨d1, d2, d3, d4, r4, rfl, ?_, ?_⟩
                · intro d hd
                  simp only [List.mem_cons, List.not_mem_nil, or_false] at hd
                  rcases hd with rfl | rfl | rfl | rfl
                  · exact ⟨n1, g1, octet_mod (w1 ▸ o1)⟩
                  · exact ⟨n2, g2, octet_mod (w2 ▸ o2)⟩
                  · exact ⟨n3, g3, octet_mod (w3 ▸ o3)⟩
                  · exact ⟨n4, g4, octet_mod (w4 ▸ o4)⟩
                · cases r4 with
                  | nil => exact Or.inl rfl
                  | cons c t =>
                    right
                    have := H3 c (List.mem_append_right _ List.mem_cons_self)
                    unfold ipChar at this
                    rw [g5 c rfl] at this
                    simp only [Bool.false_or, decide_eq_true_eq] at this
                    exact ⟨t, by rw [this]⟩

theorem saneIp_dotted {a b c d : Nat} (ha : a ≤ 255) (hb : b ≤ 255) (hc : c ≤ 255) (hd : d ≤ 255) :
    saneIp (dotted a b c d) = true := by
  unfold dotted
  simp only [← decStr_decimal]
  have hi : ∀ n, ∀ c ∈ decStr n, ipChar c = true := fun n c h => by unfold ipChar; rw [decStr_digits n c h]; rfl
  have h4 : ∀ x ∈ decStr d, ipChar x = true := hi d
  have h3 : ∀ x ∈ 46 :: decStr d, ipChar x = true := fun x hx => by
    rcases List.mem_cons.mp hx with rfl | hx
    · decide
    · exact h4 x hx
  have ext : ∀ n (l : Str), (∀ x ∈ l, ipChar x = true) → ∀ x ∈ 46 :: (decStr n ++ l), ipChar x = true := by
    intro n l hl x hx
    rcases List.mem_cons.mp hx with rfl | hx
    · decide
    · rcases List.mem_append.mp hx with hx | hx
      · exact hi n x hx
      · exact hl x hx
  have h2 := ext c _ h3
  have h1 := ext b _ h2
  have hdot : ∀ (l : Str) (c : Nat), (46 :: l : Str).head? = some c → isDigit c = false := by
    intro l c h; cases h; decide
  have e1 := scanU_digits (decStr_ne_nil a) (decStr_digits a) h1 (hdot _)
  have e2 := scanU_digits (decStr_ne_nil b) (decStr_digits b) h2 (hdot _)
  have e3 := scanU_digits (decStr_ne_nil c) (decStr_digits c) h3 (hdot _)
  have e4 := scanU_digits (rest := []) (decStr_ne_nil d) (decStr_digits d) (by simp) (by simp)
  rw [List.append_nil] at e4
  have go : ∀ {s r1 r2 r3 r4 : Str} {v1 v2 v3 v4 : Int}, scanU s = some (v1, 46 :: r1) → scanU r1 = some (v2, 46 :: r2) →
      scanU r2 = some (v3, 46 :: r3) → scanU r3 = some (v4, r4) →
      saneIp s = (isOctet v1 && isOctet v2 && isOctet v3 && isOctet v4) := by
    intro s r1 r2 r3 r4 v1 v2 v3 v4 h1 h2 h3 h4
    unfold saneIp
    simp only [h1, h2, h3, h4, Bind.bind, Option.bind, scanDot, Pure.pure, Option.getD_some]
  rw [go e1 e2 e3 e4, decStr_val, decStr_val, decStr_val, decStr_val, octet_of ha, octet_of hb, octet_of hc, octet_of hd]
  rfl

theorem dotted_chars (a b c d : Nat) : ∀ x ∈ dotted a b c d, IpChar x := by
  unfold dotted
  simp only [← decStr_decimal]
  intro x hx
  have hi : ∀ n, x ∈ decStr n → IpChar x := fun n h => Or.inl ((isDigit_iff x).mp (decStr_digits n x h))
  simp only [List.mem_append, List.mem_cons] at hx
  rcases hx with h | h | h | h | h | h | h <;> first | exact hi _ h | exact Or.inr h

theorem dotted_short {a b c d : Nat} (ha : a ≤ 255) (hb : b ≤ 255) (hc : c ≤ 255) (hd : d ≤ 255) : (dotted a b c d).length ≤ 15 := by
  unfold dotted
  simp only [← decStr_decimal, List.length_append, List.length_cons]
  have := decStr_length_le a 3 (by decide) (by omega)
  have := decStr_length_le b 3 (by decide) (by omega)
  have := decStr_length_le c 3 (by decide) (by omega)
  have := decStr_length_le d 3 (by decide) (by omega)
  omega

theorem ipFound_dotted {a b c d : Nat} (ha : a ≤ 255) (hb : b ≤ 255) (hc : c ≤ 255) (hd : d ≤ 255) {tail : Str}
    (ht : ∀ c, tail.head? = some c → ¬ IpChar c) : ipFound (dotted a b c d ++ tail) = some (dotted a b c d) := by
  have htw : (dotted a b c d ++ tail).takeWhile ipChar = dotted a b c d := by
    rw [List.takeWhile_append_of_pos fun x hx => (ipChar_iff x).mpr (dotted_chars _ _ _ _ x hx)]
    cases tail with
    | nil => simp
    | cons x t =>
      rw [List.takeWhile_cons, if_neg fun h => ht x rfl ((ipChar_iff x).mp h), List.append_nil]
  have hs := dotted_short ha hb hc hd
  unfold ipFound ipText
  rw [htw, List.take_of_length_le (show _ ≤ 16 by omega), if_pos (saneIp_dotted ha hb hc hd), List.take_of_length_le hs]

/-- What can be found at all. -/
theorem ipFound_inv {t ip : Str} (h : ipFound t = some ip) :
    ∃ d1 d2 d3 d4 rest, d1 ++ 46 :: (d2 ++ 46 :: (d3 ++ 46 :: (d4 ++ rest))) <+: t ∧
      ip = (d1 ++ 46 :: (d2 ++ 46 :: (d3 ++ 46 :: (d4 ++ rest)))).take 15 ∧
      (∀ d ∈ [d1, d2, d3, d4], d ≠ [] ∧ (∀ c ∈ d, isDigit c = true) ∧ digitsVal 10 d % 2 ^ 32 ≤ 255) ∧
      (rest = [] ∨ ∃ t, rest = 46 :: t) ∧ (∀ c ∈ ip, ipChar c = true) := by
  unfold ipFound at h
  have hall : ∀ c ∈ ipText t, ipChar c = true := fun c hc =>
    List.all_eq_true.mp List.all_takeWhile _ (List.mem_of_mem_take hc)
  split at h
  · rename_i hs
    obtain ⟨d1, d2, d3, d4, rest, he, hd, hr⟩ := saneIp_inv hall hs
    cases h
    refine ⟨d1, d2, d3, d4, rest, ?_, by rw [he], hd, hr, fun c hc => hall c (List.mem_of_mem_take hc)⟩
    rw [← he]
    exact (List.take_prefix _ _).trans (List.takeWhile_prefix _)
  · cases h

/-! ## URLs -/

theorem toLower_spec (c : Nat) : (if 65 ≤ c ∧ c ≤ 90 then c + 32 else c) = toLower c := by
  unfold toLower
  simp

theorem hasPrefixI_split {lit s : Str} (h : hasPrefixI lit s = true) : ∃ a b, s = a ++ b ∧ a.map toLower = lit.map toLower := by
  unfold hasPrefixI at h
  obtain ⟨w, hw⟩ := List.isPrefixOf_iff_prefix.mp h
  refine ⟨s.take lit.length, s.drop lit.length, (List.take_append_drop ..).symm, ?_⟩
  rw [List.map_take, ← hw, List.take_left' (by simp)]

theorem hasPrefixI_of {lit a b : Str} (h : a.map toLower = lit.map toLower) : hasPrefixI lit (a ++ b) = true := by
  unfold hasPrefixI
  rw [List.map_append, h]
  exact List.isPrefixOf_iff_prefix.mpr (List.prefix_append _ _)

/-- Neither scheme is in front of a text in which a colon is not followed by a slash. -/
theorem no_scheme {s x : Str} (hx : x.map toLower = b!"http" ∨ x.map toLower = b!"https") {y : Str} (he : s = x ++ 58 :: 47 :: y)
    {host p q : Str} {port : Nat} (hp : UrlPort p port) (hq : q = [] ∨ ∃ r, q = 47 :: r) (hh : 58 ∉ host)
    (hs : s = host ++ (p ++ q)) : False := by
  have hx58 : ∀ c ∈ x, c ≠ 58 ∧ c ≠ 47 := by
    intro c hc
    have hm : toLower c ∈ x.map toLower := List.mem_map_of_mem hc
    have key : ∀ d ∈ (b!"https" : Str), d ≠ 58 ∧ d ≠ 47 := by decide
    have key' : ∀ d ∈ (b!"http" : Str), d ≠ 58 ∧ d ≠ 47 := by decide
    have hl : toLower c ≠ 58 ∧ toLower c ≠ 47 := by
      rcases hx with h | h <;> rw [h] at hm
      · exact key' _ hm
      · exact key _ hm
    constructor
    · rintro rfl; exact hl.1 rfl
    · rintro rfl; exact hl.2 rfl
  have h58 : 58 ∉ x := fun h => (hx58 58 h).1 rfl
  cases hp with
  | default =>
    rw [List.nil_append] at hs
    rcases hq with rfl | ⟨r, rfl⟩
    · rw [List.append_nil] at hs
      subst hs
      exact hh (he ▸ List.mem_append_right _ List.mem_cons_self)
    · have h1 := strchr_split x (47 :: y) 58 h58
      rw [← he, hs] at h1
      have : x.length > host.length := by
        rcases Nat.lt_or_ge host.length x.length with h | h
        · exact h
        · exfalso
          obtain ⟨-, h3⟩ := strchr_some _ _ _ h1
          have h4 : (host ++ 47 :: r)[x.length]? = some 58 := by
            rw [← hs, he]; simp
          rcases Nat.lt_or_eq_of_le h with h | h
          · rw [List.getElem?_append_left h] at h4
            exact hh (List.mem_of_getElem? h4)
          · rw [h, List.getElem?_append_right (Nat.le_refl _)] at h4
            simp at h4
      have h5 : (x ++ 58 :: 47 :: y)[host.length]? = some 47 := by
        rw [← he, hs]; simp
      rw [List.getElem?_append_left this] at h5
      exact (hx58 47 (List.mem_of_getElem? h5)).2 rfl
  | given =>
    rw [he, List.cons_append] at hs
    obtain ⟨-, h2⟩ := split_unique hs h58 hh
    rw [← decStr_decimal] at h2
    cases hd : decStr port with
    | nil => exact decStr_ne_nil _ hd
    | cons c ds =>
      rw [hd] at h2
      have hc := decStr_digits port c (by rw [hd]; exact List.mem_cons_self)
      cases h2
      exact absurd hc (by decide)

theorem urlRest_is {scheme host p q : Str} {port : Nat} (hs : IsScheme scheme) (hp : UrlPort p port)
    (hq : q = [] ∨ ∃ r, q = 47 :: r) (hh : 58 ∉ host) : urlRest (scheme ++ (host ++ (p ++ q))) = host ++ (p ++ q) := by
  unfold urlRest
  rcases hs with rfl | ⟨t, ht, hs⟩
  · rw [List.nil_append, if_neg, if_neg]
    · intro h
      obtain ⟨a, b, hab, ha⟩ := hasPrefixI_split h
      have : ∃ x, a = x ++ [58, 47, 47] ∧ x.map toLower = b!"http" := by
        refine ⟨a.take 4, ?_, by rw [List.map_take, ha]; rfl⟩
        have hl : a.length = 7 := by have := congrArg List.length ha; simpa using this
        match a, hl with
        | [a0, a1, a2, a3, a4, a5, a6], _ =>
          simp only [List.map_cons, List.map_nil, List.cons.injEq, and_true] at ha
          obtain ⟨-, -, -, -, h4, h5, h6⟩ := ha
          have k : ∀ c d, toLower c = d → d = 58 ∨ d = 47 → c = d := by
            intro c d h hd
            unfold toLower at h
            split at h
            · rename_i hc; simp at hc; omega
            · exact h
          rw [k a4 58 h4 (by simp), k a5 47 h5 (by simp), k a6 47 h6 (by simp)]
          rfl
      obtain ⟨x, rfl, hx⟩ := this
      exact no_scheme (Or.inl hx) (y := 47 :: b) (by simpa using hab) hp hq hh rfl
    · intro h
      obtain ⟨a, b, hab, ha⟩ := hasPrefixI_split h
      have : ∃ x, a = x ++ [58, 47, 47] ∧ x.map toLower = b!"https" := by
        refine ⟨a.take 5, ?_, by rw [List.map_take, ha]; rfl⟩
        have hl : a.length = 8 := by have := congrArg List.length ha; simpa using this
        match a, hl with
        | [a0, a1, a2, a3, a3', a4, a5, a6], _ =>
          simp only [List.map_cons, List.map_nil, List.cons.injEq, and_true] at ha
          obtain ⟨-, -, -, -, -, h4, h5, h6⟩ := ha
          have k : ∀ c d, toLower c = d → d = 58 ∨ d = 47 → c = d := by
            intro c d h hd
            unfold toLower at h
            split at h
            · rename_i hc; simp at hc; omega
            · exact h
          rw [k a4 58 h4 (by simp), k a5 47 h5 (by simp), k a6 47 h6 (by simp)]
          rfl
      obtain ⟨x, rfl, hx⟩ := this
      exact no_scheme (Or.inr hx) (y := 47 :: b) (by simpa using hab) hp hq hh rfl
  · rw [List.map_congr_left (fun c _ => toLower_spec c)] at ht
    have hl : scheme.length = t.length := by rw [← ht, List.length_map]
    rcases hs with rfl | rfl
    · rw [if_neg, if_pos (hasPrefixI_of (by rw [ht]; rfl)), List.drop_left' (show scheme.length = 7 from hl)]
      intro h
      unfold hasPrefixI at h
      rw [List.map_append, ht] at h
      revert h
      simp [toLower]
    · rw [if_pos (hasPrefixI_of (by rw [ht]; rfl)), List.drop_left' (show scheme.length = 8 from hl)]

theorem strtol_wrapper_port {n : Nat} {rest : Str} (h : 1 ≤ n ∧ n ≤ 65535) (hr : ∀ c, rest.head? = some c → isDigit c = false) :
    strtol_wrapper (decStr n ++ rest) 1 65535 = ((n : Int), true) := by
  have h1 := strtol_numeral [] [] (decStr n) rest (by simp) (Or.inl rfl) (decStr_digits n) hr (decStr_ne_nil n)
  rw [if_neg (by decide), decStr_val] at h1
  have h2 : strtol (decStr n ++ rest) = ((n : Int), false) := by
    have h3 : ([] : Str) ++ [] ++ decStr n ++ rest = decStr n ++ rest := rfl
    rw [h3] at h1
    rw [h1]
    unfold clampLong
    rw [if_neg (by simp only [LONG_MAX]; omega), if_neg (by simp only [LONG_MIN]; omega)]
  unfold strtol_wrapper
  rw [h2]
  simp only [toInt32_id (n : Int) (by omega) (by omega), Prod.mk.injEq, true_and]
  simp
  omega

/-- The port that the client takes from a URL, and the characters it leaves out. -/
theorem urlPort_is {host p q : Str} {port : Nat} (hp : UrlPort p port) (hq : q = [] ∨ ∃ r, q = 47 :: r) (hh : 58 ∉ host)
    (hc : p = [] → 58 ∉ q) (hb : 1 ≤ port ∧ port ≤ 65535) :
    urlPort (host ++ (p ++ q)) = .ok ((decimal port).take 4, if p = [] then 0 else ((decimal port).take 4).length + 1) := by
  unfold urlPort
  cases hp with
  | default =>
    rw [strchr_none _ _ (by
      intro h
      rcases List.mem_append.mp h with h | h
      · exact hh h
      · exact hc rfl h)]
    rfl
  | given =>
    rw [List.cons_append, strchr_split _ _ _ hh]
    dsimp only
    rw [show (host ++ 58 :: (decimal port ++ q)).drop (host.length + 1) = decimal port ++ q from by
      rw [List.drop_append, List.drop_eq_nil_of_le (Nat.le_succ _), List.nil_append, Nat.add_sub_cancel_left]; rfl,
      ← decStr_decimal, strtol_wrapper_port hb (by
        rcases hq with rfl | ⟨r, rfl⟩
        · simp
        · intro c h; cases h; decide)]
    rw [if_neg (by simp)]
    rfl

theorem noSlash_keep {s : Str} (h : s.getLast? ≠ some 47) : noSlash s = s := by unfold noSlash; rw [if_neg h]

theorem noSlash_drop (s : Str) : noSlash (s ++ [47]) = s := by unfold noSlash; rw [if_pos (by simp), List.dropLast_concat]

/-- `parse_url` on a URL with or without a slash at its end. -/
theorem parse_url_is {scheme host p q path : Str} {port : Nat} (hs : IsScheme scheme) (hp : UrlPort p port) (hq : UrlPath q path)
    (hh : 58 ∉ host ∧ 47 ∉ host) (hc : p = [] → 58 ∉ q) (hb : 1 ≤ port ∧ port ≤ 65535) (hlen : host.length ≤ 255 ∧ (10000 ≤ port → host.length ≤ 254))
    (hpl : path.length ≤ 1024) (hlast : q.getLast? ≠ some 47) (hne : host ≠ []) (e : Str) (he : e = [] ∨ e = [47]) :
    parse_url (scheme ++ (host ++ (p ++ (q ++ e)))) =
      .ok (⟨(decimal port).take 4, host ++ p.take (p.length - (if p = [] then 0 else ((decimal port).take 4).length + 1)), path⟩,
        scheme ++ (host ++ (p ++ q))) := by
  have hq0 : q = [] ∨ ∃ r, q = 47 :: r := by
    cases hq with
    | default => exact Or.inl rfl
    | given r => exact Or.inr ⟨r, rfl⟩
  have hqe : q ++ e = [] ∨ ∃ r, q ++ e = 47 :: r := by
    rcases hq0 with rfl | ⟨r, rfl⟩
    · rcases he with rfl | rfl
      · exact Or.inl rfl
      · exact Or.inr ⟨[], rfl⟩
    · exact Or.inr ⟨r ++ e, rfl⟩
  have hce : p = [] → 58 ∉ q ++ e := by
    intro h0 h
    rcases List.mem_append.mp h with h | h
    · exact hc h0 h
    · rcases he with rfl | rfl
      · cases h
      · simp at h
  have h47 : 47 ∉ host ++ p := by
    intro h
    rcases List.mem_append.mp h with h | h
    · exact hh.2 h
    · cases hp with
      | default => cases h
      | given =>
        rcases List.mem_cons.mp h with h | h
        · cases h
        · rw [← decStr_decimal] at h
          have := decStr_digits _ _ h
          revert this
          decide
  have hgl : (host ++ (p ++ q)).getLast? ≠ some 47 := by
    intro h
    rw [← List.append_assoc, List.getLast?_append] at h
    cases hx : q.getLast? with
    | none =>
      rw [hx] at h
      exact h47 (List.mem_of_getLast? (by simpa using h))
    | some c =>
      rw [hx] at h
      exact hlast (by rw [hx]; simpa using h)
  have hgl' : (scheme ++ (host ++ (p ++ q))).getLast? ≠ some 47 := by
    intro h
    rw [List.getLast?_append] at h
    cases hx : (host ++ (p ++ q)).getLast? with
    | none =>
      rw [List.getLast?_eq_none_iff] at hx
      exact hne (List.append_eq_nil_iff.mp hx).1
    | some c =>
      rw [hx] at h
      exact hgl (by rw [hx]; simpa using h)
  have hn1 : noSlash (host ++ (p ++ (q ++ e))) = host ++ (p ++ q) := by
    rcases he with rfl | rfl
    · rw [List.append_nil]; exact noSlash_keep hgl
    · rw [show host ++ (p ++ (q ++ [47])) = (host ++ (p ++ q)) ++ [47] by simp]; exact noSlash_drop _
  have hn2 : noSlash (scheme ++ (host ++ (p ++ (q ++ e)))) = scheme ++ (host ++ (p ++ q)) := by
    rcases he with rfl | rfl
    · rw [List.append_nil]; exact noSlash_keep hgl'
    · rw [show scheme ++ (host ++ (p ++ (q ++ [47]))) = (scheme ++ (host ++ (p ++ q))) ++ [47] by simp]; exact noSlash_drop _
  unfold parse_url
  rw [urlRest_is hs hp hqe hh.1, urlPort_is hp hqe hh.1 hce hb, bind_ok, hn1, hn2]
  rw [show decide (scheme ++ (host ++ (p ++ (q ++ e))) = []) = false from decide_eq_false (by
    intro h
    exact hne (List.append_eq_nil_iff.mp (List.append_eq_nil_iff.mp h).2).1), mem_false, bind_ok]
  dsimp only
  generalize hoff : (if p = [] then 0 else ((decimal port).take 4).length + 1) = off
  have hoffle : off ≤ p.length := by
    rw [← hoff]
    cases hp with
    | default => exact Nat.le_refl _
    | given =>
      rw [if_neg (by simp), List.length_cons, List.length_take]
      omega
  have hplen : host.length + p.length ≤ off + 255 := by
    rw [← hoff]
    cases hp with
    | default => rw [if_pos rfl, List.length_nil]; omega
    | given =>
      rw [if_neg (by simp), List.length_cons, List.length_take]
      have h5 : (decimal port).length ≤ 5 := by
        rw [← decStr_decimal]
        exact decStr_length_le _ 5 (by decide) (by omega)
      have h4 : port < 10000 → (decimal port).length ≤ 4 := by
        intro h
        rw [← decStr_decimal]
        exact decStr_length_le _ 4 (by decide) (by omega)
      omega
  have hstr : strchr (host ++ (p ++ q)) 47 = if q = [] then none else some (host ++ p).length := by
    rcases hq0 with rfl | ⟨r, rfl⟩
    · rw [if_pos rfl, List.append_nil]; exact strchr_none _ _ h47
    · rw [if_neg (by simp), ← List.append_assoc]; exact strchr_split _ _ _ h47
  have hgetD : (strchr (host ++ (p ++ q)) 47).getD (host ++ (p ++ q)).length = host.length + p.length := by
    rw [hstr]
    rcases hq0 with rfl | ⟨r, rfl⟩
    · simp
    · rw [if_neg (by simp)]; simp
  rw [hgetD, show decide (((host.length + p.length : Nat) : Int) + 1 - (off : Int) > ((MAX_URL_HOST_LEN : Nat) : Int)) = false from
    decide_eq_false (by show ¬ _ > (256 : Int); omega), guard_false, bind_ok]
  have hcopy : strlcpyInt (host ++ (p ++ q)) (((host.length + p.length : Nat) : Int) + 1 - (off : Int)) (MAX_URL_HOST_LEN + 1) =
      .ok (host ++ p.take (p.length - off)) := by
    unfold strlcpyInt
    rw [if_neg (by omega), if_neg (by omega)]
    have hnat : (((host.length + p.length : Nat) : Int) + 1 - (off : Int)).toNat - 1 = host.length + (p.length - off) := by omega
    have hmin : min (host ++ (p ++ q)).length (host.length + (p.length - off)) = host.length + (p.length - off) := by
      simp only [List.length_append]; omega
    rw [hnat, hmin]
    dsimp only
    rw [show decide (host.length + (p.length - off) + 1 > MAX_URL_HOST_LEN + 1) = false from
      decide_eq_false (by show ¬ _ > 257; omega), mem_false, bind_ok, List.take_length_add_append,
      List.take_append_of_le_length (by omega)]
    rfl
  rw [hcopy, bind_ok, hstr]
  cases hq with
  | default => rfl
  | given r =>
    rw [if_neg (by simp)]
    dsimp only
    rw [← List.append_assoc, List.drop_left' rfl,
      show decide ((47 :: r : Str).length > MAX_URL_PATH_LEN) = false from decide_eq_false (by show ¬ _ > 1024; omega), guard_false, bind_ok]
    rfl

end Fwknop
