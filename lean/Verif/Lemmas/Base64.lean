import Verif.Model.Base64
import Verif.Spec.Base64

namespace Fwknop.Base64
open Fwknop.Spec

theorem alphabet_eq : ∀ k, k < 64 → alphabet.getD k 0 = b64Char k := by decide +kernel

theorem charVal_b64Char : ∀ k, k < 64 → charVal (b64Char k) = some k := by decide +kernel

theorem b64Char_ne : ∀ k, k < 64 → b64Char k ≠ 0 ∧ b64Char k ≠ 61 ∧ b64Char k ≠ 58 := by
  decide +kernel

theorem b64Char_isB64 (k : Nat) (h : k < 64) : IsB64Char (b64Char k) := by
  unfold b64Char IsB64Char; repeat' split
  all_goals omega

theorem emitChar_eq (bits s : Nat) (hs : s ≤ 14) :
    emitChar bits s = b64Char ((bits * 64 / 2 ^ s) % 64) := by
  unfold emitChar
  have h63 : (0x3f : Nat) = 2 ^ 6 - 1 := by decide
  rw [h63, Nat.and_two_pow_sub_one_eq_mod, Nat.shiftRight_eq_div_pow, Nat.shiftLeft_eq]
  rw [alphabet_eq _ (Nat.mod_lt _ (by decide))]
  congr 1
  have : s = 0 ∨ s = 1 ∨ s = 2 ∨ s = 3 ∨ s = 4 ∨ s = 5 ∨ s = 6 ∨ s = 7 ∨ s = 8 ∨ s = 9 ∨ s = 10
    ∨ s = 11 ∨ s = 12 ∨ s = 13 ∨ s = 14 := by omega
  rcases this with h|h|h|h|h|h|h|h|h|h|h|h|h|h|h <;> subst h <;> simp only [Nat.reducePow] <;> omega

theorem encodeDo_mid (bits s : Nat) (h : 6 < s) (h2 : s ≤ 12) :
    encodeDo bits false s s = ([emitChar bits s], s - 6) := by
  obtain ⟨f, rfl⟩ : ∃ f, s = f + 1 := ⟨s - 1, by omega⟩
  simp [encodeDo]; omega

theorem encodeDo_mid14 (bits : Nat) :
    encodeDo bits false 14 14 = ([emitChar bits 14, emitChar bits 8], 2) := by
  simp [encodeDo]

theorem encodeDo_last8 (bits : Nat) :
    encodeDo bits true 8 8 = ([emitChar bits 8, emitChar bits 2], 0) := by
  simp [encodeDo]

theorem encodeDo_last10 (bits : Nat) :
    encodeDo bits true 10 10 = ([emitChar bits 10, emitChar bits 4], 0) := by
  simp [encodeDo]

theorem encodeDo_last12 (bits : Nat) :
    encodeDo bits true 12 12 = ([emitChar bits 12, emitChar bits 6], 0) := by
  simp [encodeDo]

theorem encodeDo_last14 (bits : Nat) :
    encodeDo bits true 14 14 = ([emitChar bits 14, emitChar bits 8, emitChar bits 2], 0) := by
  simp [encodeDo]

theorem encodeDo_8 (bits : Nat) :
    encodeDo bits false 8 8 = ([emitChar bits 8], 2) := encodeDo_mid _ _ (by omega) (by omega)
theorem encodeDo_10 (bits : Nat) :
    encodeDo bits false 10 10 = ([emitChar bits 10], 4) := encodeDo_mid _ _ (by omega) (by omega)
theorem encodeDo_12 (bits : Nat) :
    encodeDo bits false 12 12 = ([emitChar bits 12], 6) := encodeDo_mid _ _ (by omega) (by omega)

theorem emit_congr {a b s : Nat} (hs : s ≤ 14) (h : a * 64 / 2 ^ s % 64 = b) :
    emitChar a s = b64Char b := by
  rw [emitChar_eq _ _ hs, h]

/-- A pending sixth of a group is written first when more input follows. -/
theorem encodeLoop_six (x : Nat) (xs : Str) (bits : Nat) (hx : x < 256) :
    encodeLoop (x :: xs) bits 6 = b64Char (bits % 64) :: encodeLoop (x :: xs) bits 0 := by
  have e14 : emitChar (((bits <<< 8) + x) % 2 ^ 32) 14 = b64Char (bits % 64) := by
    apply emit_congr (by omega); simp only [Nat.shiftLeft_eq]; omega
  cases xs with
  | nil => simp [encodeLoop, encodeDo_last14, encodeDo_last8, e14]
  | cons y ys => simp [encodeLoop, encodeDo_mid14, encodeDo_8, e14]

theorem encodeLoop_spec (s : Str) (bits : Nat) (hs : IsBytes s) :
    encodeLoop s bits 0 = b64NoPad s := by
  induction s using b64NoPad.induct generalizing bits with
  | case1 a b c r ih =>
    have ha : a < 256 := hs a (by simp)
    have hb : b < 256 := hs b (by simp)
    have hc : c < 256 := hs c (by simp)
    have hr : IsBytes r := fun x hx => hs x (by simp [hx])
    rw [b64NoPad]
    simp only [encodeLoop, List.isEmpty_cons, encodeDo_8, encodeDo_10, Nat.zero_add,
      Nat.reduceAdd, List.cons_append, List.nil_append]
    cases r with
    | nil =>
      simp only [List.isEmpty_nil, encodeDo_last12, encodeLoop, List.append_nil, b64NoPad,
        List.cons.injEq, and_true]
      refine ⟨emit_congr (by omega) ?_, emit_congr (by omega) ?_, emit_congr (by omega) ?_,
        emit_congr (by omega) ?_⟩ <;> simp only [Nat.shiftLeft_eq] <;> omega
    | cons x xs =>
      have hx : x < 256 := hr x (by simp)
      simp only [List.isEmpty_cons, encodeDo_12, List.cons_append, List.nil_append]
      rw [encodeLoop_six x xs _ hx, ih _ hr]
      simp only [List.cons.injEq, and_true]
      refine ⟨emit_congr (by omega) ?_, emit_congr (by omega) ?_, emit_congr (by omega) ?_,
        ?_⟩ 
      · simp only [Nat.shiftLeft_eq]; omega
      · simp only [Nat.shiftLeft_eq]; omega
      · simp only [Nat.shiftLeft_eq]; omega
      · congr 1; simp only [Nat.shiftLeft_eq]; omega
  | case2 a b =>
    have ha : a < 256 := hs a (by simp)
    have hb : b < 256 := hs b (by simp)
    simp only [encodeLoop, List.isEmpty_cons, List.isEmpty_nil, encodeDo_8, encodeDo_last10,
      Nat.zero_add, Nat.reduceAdd, List.cons_append, List.nil_append, b64NoPad, List.append_nil,
      List.cons.injEq, and_true]
    refine ⟨emit_congr (by omega) ?_, emit_congr (by omega) ?_, emit_congr (by omega) ?_⟩ <;>
      simp only [Nat.shiftLeft_eq] <;> omega
  | case3 a =>
    have ha : a < 256 := hs a (by simp)
    simp only [encodeLoop, List.isEmpty_nil, encodeDo_last8, Nat.zero_add, b64NoPad,
      List.append_nil, List.cons.injEq, and_true]
    refine ⟨emit_congr (by omega) ?_, emit_congr (by omega) ?_⟩ <;>
      simp only [Nat.shiftLeft_eq] <;> omega
  | case4 => simp [encodeLoop, b64NoPad]

theorem b64NoPad_length (s : Str) : (b64NoPad s).length = (4 * s.length + 2) / 3 := by
  induction s using b64NoPad.induct <;> simp_all [b64NoPad] <;> omega

theorem padEq_b64NoPad (s : Str) : padEq (b64NoPad s) = b64 s := by
  have key : ∀ s : Str, b64 s = b64NoPad s ++ List.replicate ((3 - s.length % 3) % 3) 61 := by
    intro s
    induction s using b64NoPad.induct with
    | case1 a b c r ih =>
      simp only [b64, b64NoPad, ih, List.cons_append, List.length_cons]
      have : (3 - (r.length + 1 + 1 + 1) % 3) % 3 = (3 - r.length % 3) % 3 := by omega
      rw [this]
    | case2 a b => simp [b64, b64NoPad]
    | case3 a => simp [b64, b64NoPad, List.replicate]
    | case4 => simp [b64, b64NoPad]
  rw [key, padEq, b64NoPad_length]
  have h3 : (3 : Nat) = 2 ^ 2 - 1 := by decide
  congr 2
  rw [show ∀ x : Nat, x &&& 3 = x % 4 from fun x => by
        rw [h3, Nat.and_two_pow_sub_one_eq_mod]]
  rw [show ∀ x : Nat, x &&& 3 = x % 4 from fun x => by
        rw [h3, Nat.and_two_pow_sub_one_eq_mod]]
  obtain ⟨q, r, hr, hq⟩ : ∃ q r, r < 3 ∧ s.length = 3 * q + r :=
    ⟨s.length / 3, s.length % 3, Nat.mod_lt _ (by decide), by omega⟩
  rw [hq]
  have : r = 0 ∨ r = 1 ∨ r = 2 := by omega
  rcases this with h|h|h <;> subst h <;> omega

theorem b64_encode_eq (s : Str) (hs : IsBytes s) : b64_encode s = b64 s := by
  rw [b64_encode, encodeLoop_spec s 0 hs, padEq_b64NoPad]

theorem b64NoPad_chars (s : Str) (hs : IsBytes s) : ∀ c ∈ b64NoPad s, IsB64Char c := by
  induction s using b64NoPad.induct with
  | case1 a b c r ih =>
    have ha : a < 256 := hs a (by simp)
    have hb : b < 256 := hs b (by simp)
    have hc : c < 256 := hs c (by simp)
    have hr : IsBytes r := fun x hx => hs x (by simp [hx])
    intro x hx
    simp only [b64NoPad, List.mem_cons] at hx
    rcases hx with h|h|h|h|h
    · exact h ▸ b64Char_isB64 _ (by omega)
    · exact h ▸ b64Char_isB64 _ (by omega)
    · exact h ▸ b64Char_isB64 _ (by omega)
    · exact h ▸ b64Char_isB64 _ (by omega)
    · exact ih hr x h
  | case2 a b =>
    have ha : a < 256 := hs a (by simp)
    have hb : b < 256 := hs b (by simp)
    intro x hx
    simp only [b64NoPad, List.mem_cons, List.not_mem_nil, or_false] at hx
    rcases hx with h|h|h <;> exact h ▸ b64Char_isB64 _ (by omega)
  | case3 a =>
    have ha : a < 256 := hs a (by simp)
    intro x hx
    simp only [b64NoPad, List.mem_cons, List.not_mem_nil, or_false] at hx
    rcases hx with h|h <;> exact h ▸ b64Char_isB64 _ (by omega)
  | case4 => simp [b64NoPad]

theorem b64_eq_noPad (s : Str) :
    b64 s = b64NoPad s ++ List.replicate ((3 - s.length % 3) % 3) 61 := by
  induction s using b64NoPad.induct with
  | case1 a b c r ih =>
    simp only [b64, b64NoPad, ih, List.cons_append, List.length_cons]
    have : (3 - (r.length + 1 + 1 + 1) % 3) % 3 = (3 - r.length % 3) % 3 := by omega
    rw [this]
  | case2 a b => simp [b64, b64NoPad]
  | case3 a => simp [b64, b64NoPad, List.replicate]
  | case4 => simp [b64, b64NoPad]

theorem strip_encode (s : Str) (hs : IsBytes s) : strip_b64_eq (b64_encode s) = b64NoPad s := by
  rw [b64_encode_eq s hs, b64_eq_noPad, strip_b64_eq]
  rw [List.takeWhile_append_of_pos]
  · have : (3 - s.length % 3) % 3 = 0 ∨ (3 - s.length % 3) % 3 = 1 ∨ (3 - s.length % 3) % 3 = 2 := by
      omega
    rcases this with h|h|h <;> rw [h] <;> simp [List.replicate]
  · intro c hc
    have := b64NoPad_chars s hs c hc
    simp only [IsB64Char] at this
    have h61 : c ≠ 61 := by omega
    simpa using h61

theorem and3 (x : Nat) : x &&& 3 = x % 4 := by
  rw [show (3 : Nat) = 2 ^ 2 - 1 from rfl, Nat.and_two_pow_sub_one_eq_mod]

/-- One character of the decoding loop. -/
theorem decodeLoop_char (k : Nat) (hk : k < 64) (cs : Str) (i v : Nat) :
    decodeLoop (b64Char k :: cs) i v =
      (decodeLoop cs (i + 1) ((v * 64 + k) % 2 ^ 32)).map fun out =>
        if i % 4 = 0 then out
        else (((v * 64 + k) % 2 ^ 32) / 2 ^ (6 - 2 * (i % 4))) % 256 :: out := by
  have hne := b64Char_ne k hk
  rw [decodeLoop, if_neg (by simp [hne.1, hne.2.1]), charVal_b64Char k hk]
  simp only [Nat.shiftLeft_eq, Nat.shiftRight_eq_div_pow, and3, Nat.reducePow]
  cases decodeLoop cs (i + 1) ((v * 64 + k) % 4294967296) <;> simp
  split <;> rfl

theorem decodeLoop_spec (s tl : Str) (i v : Nat) (hs : IsBytes s) (hi : i % 4 = 0)
    (htl : ∀ i v, decodeLoop tl i v = some []) :
    decodeLoop (b64NoPad s ++ tl) i v = some s := by
  induction s using b64NoPad.induct generalizing i v with
  | case1 a b c r ih =>
    have ha : a < 256 := hs a (by simp)
    have hb : b < 256 := hs b (by simp)
    have hc : c < 256 := hs c (by simp)
    have hr : IsBytes r := fun x hx => hs x (by simp [hx])
    simp only [b64NoPad, List.cons_append]
    rw [decodeLoop_char _ (by omega), decodeLoop_char _ (by omega), decodeLoop_char _ (by omega),
      decodeLoop_char _ (by omega), ih _ _ hr (by omega)]
    have h1 : (i + 1) % 4 = 1 := by omega
    have h2 : (i + 1 + 1) % 4 = 2 := by omega
    have h3 : (i + 1 + 1 + 1) % 4 = 3 := by omega
    simp only [hi, h1, h2, h3, Option.map_some, Nat.reduceMul, Nat.reduceSub, Nat.reducePow,
      if_true, Nat.one_ne_zero, if_false, show ¬ (2:Nat) = 0 from by decide, show ¬ (3:Nat) = 0 from by decide, Option.some.injEq, List.cons.injEq,
      and_true]
    refine ⟨?_, ?_, ?_⟩ <;> omega
  | case2 a b =>
    have ha : a < 256 := hs a (by simp)
    have hb : b < 256 := hs b (by simp)
    simp only [b64NoPad, List.cons_append, List.nil_append]
    rw [decodeLoop_char _ (by omega), decodeLoop_char _ (by omega), decodeLoop_char _ (by omega),
      htl]
    have h1 : (i + 1) % 4 = 1 := by omega
    have h2 : (i + 1 + 1) % 4 = 2 := by omega
    simp only [hi, h1, h2, Option.map_some, Nat.reduceMul, Nat.reduceSub, Nat.reducePow,
      if_true, Nat.one_ne_zero, if_false, show ¬ (2:Nat) = 0 from by decide, Option.some.injEq, List.cons.injEq,
      and_true]
    refine ⟨?_, ?_⟩ <;> omega
  | case3 a =>
    have ha : a < 256 := hs a (by simp)
    simp only [b64NoPad, List.cons_append, List.nil_append]
    rw [decodeLoop_char _ (by omega), decodeLoop_char _ (by omega), htl]
    have h1 : (i + 1) % 4 = 1 := by omega
    simp only [hi, h1, Option.map_some, Nat.reduceMul, Nat.reduceSub, Nat.reducePow,
      if_true, Nat.one_ne_zero, if_false, Option.some.injEq, List.cons.injEq,
      and_true]
    omega
  | case4 => simpa [b64NoPad] using htl i v

theorem decodeLoop_eq_tail (n : Nat) (i v : Nat) :
    decodeLoop (List.replicate n 61) i v = some [] := by
  cases n <;> simp [decodeLoop, List.replicate]

/-- The decoder never writes more than three bytes per four characters. -/
theorem decodeLoop_length (s : Str) : ∀ (i v : Nat) (out : Str), decodeLoop s i v = some out →
    4 * out.length ≤ 3 * s.length + ((4 - i % 4) % 4) := by
  induction s with
  | nil => intro i v out h; simp [decodeLoop] at h; subst h; simp
  | cons c cs ih =>
    intro i v out h
    rw [decodeLoop] at h
    split at h
    · simp at h; subst h; simp
    · split at h
      · simp at h
      · rename_i x hx
        simp only at h
        split at h
        · simp at h
        · rename_i o ho
          have := ih _ _ _ ho
          rw [and3] at h
          split at h
          · simp at h; subst h; simp; omega
          · simp at h; subst h; simp; omega

/-- Decoding a sequence of alphabet characters. -/
theorem decodeLoop_vals (vs tl : Str) (i v : Nat) (hs : ∀ x ∈ vs, x < 64) (hi : i % 4 = 0)
    (htl : ∀ i v, decodeLoop tl i v = some []) :
    decodeLoop (vs.map b64Char ++ tl) i v = some (b64Bytes vs) := by
  induction vs using b64Bytes.induct generalizing i v with
  | case1 a b c d r ih =>
    have ha : a < 64 := hs a (by simp)
    have hb : b < 64 := hs b (by simp)
    have hc : c < 64 := hs c (by simp)
    have hd : d < 64 := hs d (by simp)
    have hr : ∀ x ∈ r, x < 64 := fun x hx => hs x (by simp [hx])
    simp only [b64Bytes, List.map_cons, List.cons_append]
    rw [decodeLoop_char _ ha, decodeLoop_char _ hb, decodeLoop_char _ hc,
      decodeLoop_char _ hd, ih _ _ hr (by omega)]
    have h1 : (i + 1) % 4 = 1 := by omega
    have h2 : (i + 1 + 1) % 4 = 2 := by omega
    have h3 : (i + 1 + 1 + 1) % 4 = 3 := by omega
    simp only [hi, h1, h2, h3, Option.map_some, Nat.reduceMul, Nat.reduceSub, Nat.reducePow,
      if_true, Nat.one_ne_zero, if_false, show ¬ (2:Nat) = 0 from by decide, show ¬ (3:Nat) = 0 from by decide, Option.some.injEq, List.cons.injEq,
      and_true]
    refine ⟨?_, ?_, ?_⟩ <;> omega
  | case2 a b c =>
    have ha : a < 64 := hs a (by simp)
    have hb : b < 64 := hs b (by simp)
    have hc : c < 64 := hs c (by simp)
    simp only [b64Bytes, List.map_cons, List.map_nil, List.cons_append, List.nil_append]
    rw [decodeLoop_char _ ha, decodeLoop_char _ hb, decodeLoop_char _ hc, htl]
    have h1 : (i + 1) % 4 = 1 := by omega
    have h2 : (i + 1 + 1) % 4 = 2 := by omega
    simp only [hi, h1, h2, Option.map_some, Nat.reduceMul, Nat.reduceSub, Nat.reducePow,
      if_true, Nat.one_ne_zero, if_false, show ¬ (2:Nat) = 0 from by decide, Option.some.injEq, List.cons.injEq,
      and_true]
    refine ⟨?_, ?_⟩ <;> omega
  | case3 a b =>
    have ha : a < 64 := hs a (by simp)
    have hb : b < 64 := hs b (by simp)
    simp only [b64Bytes, List.map_cons, List.map_nil, List.cons_append, List.nil_append]
    rw [decodeLoop_char _ ha, decodeLoop_char _ hb, htl]
    have h1 : (i + 1) % 4 = 1 := by omega
    simp only [hi, h1, Option.map_some, Nat.reduceMul, Nat.reduceSub, Nat.reducePow,
      if_true, Nat.one_ne_zero, if_false, Option.some.injEq, List.cons.injEq,
      and_true]
    omega
  | case4 a =>
    have ha : a < 64 := hs a (by simp)
    simp only [b64Bytes, List.map_cons, List.map_nil, List.cons_append, List.nil_append]
    rw [decodeLoop_char _ ha, htl]
    simp [hi]
  | case5 => simpa [b64Bytes] using htl i v

theorem charVal_none {c : Nat} (h : ¬ IsB64Char c) : charVal c = none := by
  have hall : ∀ c < 128, (∃ k, k < 64 ∧ b64Char k = c) ∨ charVal c = none := by decide +kernel
  by_cases hc : c < 128
  · rcases hall c hc with ⟨k, hk, e⟩ | h'
    · exact absurd (e ▸ b64Char_isB64 k hk) h
    · exact h'
  · unfold charVal
    rw [if_neg (by omega), List.getElem?_eq_none (by simp [map2]; omega)]

theorem b64Char_surj {c : Nat} (h : IsB64Char c) : ∃ k, k < 64 ∧ b64Char k = c := by
  have hall : ∀ c < 123, IsB64Char c → ∃ k, k < 64 ∧ b64Char k = c := by
    unfold IsB64Char; decide +kernel
  exact hall c (by unfold IsB64Char at h; omega) h

theorem vals_of_chars (s : Str) (h : ∀ c ∈ s, IsB64Char c) :
    ∃ vs : Str, (∀ x ∈ vs, x < 64) ∧ vs.map b64Char = s := by
  induction s with
  | nil => exact ⟨[], by simp, rfl⟩
  | cons c s ih =>
    obtain ⟨vs, h1, h2⟩ := ih (fun x hx => h x (by simp [hx]))
    obtain ⟨k, hk, e⟩ := b64Char_surj (h c (by simp))
    exact ⟨k :: vs, by simpa using ⟨hk, h1⟩, by simp [e, h2]⟩

/-- A foreign character before the end of the text makes decoding fail. -/
theorem decodeLoop_bad (p : Str) (c : Nat) (t : Str) (i v : Nat) (hp : ∀ x ∈ p, x ≠ 0 ∧ x ≠ 61)
    (hc : ¬ IsB64Char c) (hc0 : c ≠ 0) (hc1 : c ≠ 61) : decodeLoop (p ++ c :: t) i v = none := by
  induction p generalizing i v with
  | nil =>
    rw [List.nil_append, decodeLoop, if_neg (by simp [hc0, hc1]), charVal_none hc]
  | cons x p ih =>
    have hx := hp x (by simp)
    rw [List.cons_append, decodeLoop, if_neg (by simp [hx.1, hx.2])]
    cases charVal x with
    | none => rfl
    | some y => simp only; rw [ih _ _ (fun z hz => hp z (by simp [hz]))]

end Fwknop.Base64
