import Verif.Lemmas.Keccak

/-!
# The sponge of lib/sha3.c is that of FIPS 202
-/

namespace Fwknop.Sha3

open Spec

attribute [local irreducible] KeccakF1600_StatePermute keccakP

theorem xor_byte {a b : Nat} (ha : a < 256) (hb : b < 256) : a ^^^ b < 256 :=
  Nat.xor_lt_two_pow (n := 8) ha hb

theorem zip_bytes {a b : Str} (ha : IsBytes a) (hb : IsBytes b) : IsBytes (List.zipWith (· ^^^ ·) a b) := by
  intro c hc
  rw [List.zipWith_eq_zipWith_take_min] at hc
  rw [← List.map_uncurry_zip_eq_zipWith] at hc
  obtain ⟨⟨x, y⟩, hm, rfl⟩ := List.mem_map.mp hc
  have := List.of_mem_zip hm
  exact xor_byte (ha x (List.mem_of_mem_take this.1)) (hb y (List.mem_of_mem_take this.2))

theorem xorBytes_bytes {s x : Str} (hs : IsBytes s) (hx : IsBytes x) : IsBytes (xorBytes s x) :=
  isB_append (zip_bytes hs hx) (isB_drop hs _)

theorem xorBytes_length {s x : Str} (h : x.length ≤ s.length) : (xorBytes s x).length = s.length := by
  simp only [xorBytes, List.length_append, List.length_zipWith, List.length_drop]
  omega

/-- Exclusive or with a shorter string is exclusive or with it followed by zeros. -/
theorem xorBytes_get (s x : Str) (i : Nat) :
    (xorBytes s x)[i]? = (s[i]?).map fun c => c ^^^ x.getD i 0 := by
  unfold xorBytes
  by_cases hs : i < s.length
  · by_cases hx : i < x.length
    · rw [List.getElem?_append_left (by simp; omega), List.getElem?_zipWith]
      simp [List.getElem?_eq_getElem hs, List.getElem?_eq_getElem hx]
    · by_cases hle : x.length ≤ s.length
      · rw [List.getElem?_append_right (by simp; omega), List.getElem?_drop]
        simp only [List.length_zipWith]
        rw [show x.length + (i - min s.length x.length) = i by omega]
        simp [List.getElem?_eq_getElem hs, List.getD_eq_getElem?_getD, List.getElem?_eq_none (Nat.le_of_not_lt hx)]
      · omega
  · rw [List.getElem?_eq_none (by simp; omega), List.getElem?_eq_none (by omega)]
    rfl

theorem zip_pad {s b : Str} {r : Nat} (hs : s.length = 200) (hb : b.length = r) (hr : r ≤ 200) :
    List.zipWith (· ^^^ ·) s (b ++ List.replicate (200 - r) 0) = xorBytes s b := by
  apply List.ext_getElem?
  intro i
  rw [xorBytes_get, List.getElem?_zipWith]
  by_cases hi : i < 200
  · have e : (b ++ List.replicate (200 - r) 0)[i]? = some (b.getD i 0) := by
      by_cases hb' : i < b.length
      · rw [List.getElem?_append_left hb', List.getD_eq_getElem?_getD, List.getElem?_eq_getElem hb']
        rfl
      · rw [List.getElem?_append_right (by omega), List.getD_eq_getElem?_getD,
          List.getElem?_eq_none (Nat.le_of_not_lt hb'), List.getElem?_replicate, if_pos (by omega)]
        rfl
    rw [e, List.getElem?_eq_getElem (by omega)]
    rfl
  · rw [List.getElem?_eq_none (by omega)]
    rfl

theorem absorb1 {s b : Str} {r : Nat} (hs : s.length = 200) (hB : IsBytes s) (hb : b.length = r) (hr : r ≤ 200)
    (hbb : IsBytes b) : keccakAbsorb r s b = KeccakF1600_StatePermute (xorBytes s b) ∧
      (keccakAbsorb r s b).length = 200 ∧ IsBytes (keccakAbsorb r s b) := by
  unfold keccakAbsorb
  rw [zip_pad hs hb hr]
  have := permute_eq (s := xorBytes s b) (by rw [xorBytes_length (by omega), hs]) (xorBytes_bytes hB hbb)
  exact ⟨this.1.symm, this.2⟩

theorem Res_mem_ok {p : Prop} [Decidable p] (h : ¬ p) : Res.mem p = .ok () := Res.mem_of_not h

/-- The absorbing loop from any state: what it leaves is the state after the complete blocks, with
the rest of the input added to it. -/
theorem absorb_eq {r : Nat} (hr0 : 0 < r) (hr : r ≤ 200) (fuel : Nat) (s m : Str) (k : Nat)
    (hf : m.length < fuel) (hs : s.length = 200) (hB : IsBytes s) (hm : IsBytes m) (hk : m = [] → k = 0) :
    absorb r fuel s m k = .ok (xorBytes (absorbed (keccakAbsorb r) r s m) (tailOf r m), m.length % r) ∧
      (absorbed (keccakAbsorb r) r s m).length = 200 ∧ IsBytes (absorbed (keccakAbsorb r) r s m) := by
  induction fuel generalizing s m k with
  | zero => omega
  | succ fuel ih =>
    by_cases h0 : m.length > 0
    · by_cases hlt : m.length < r
      · have hn : min m.length r = m.length := by omega
        have hmod : m.length % r = m.length := Nat.mod_eq_of_lt hlt
        have ht : tailOf r m = m := by
          unfold tailOf
          rw [Nat.div_eq_of_lt hlt]
          simp
        have ha : absorbed (keccakAbsorb r) r s m = s := by
          unfold absorbed
          rw [Nat.div_eq_of_lt hlt]
          rfl
        rw [ht, ha]
        refine ⟨?_, hs, hB⟩
        unfold absorb
        rw [if_pos h0]
        simp only [hn]
        rw [Res_mem_ok (by omega), Res.bind_ok, if_neg (by omega), List.take_length, List.drop_length, hmod]
        cases fuel with
        | zero => omega
        | succ fuel => rfl
      · have hn : min m.length r = r := by omega
        have hbl : (m.take r).length = r := by rw [List.length_take]; omega
        obtain ⟨h1, h2, h3⟩ := absorb1 hs hB hbl hr (isB_take hm _)
        have hi := ih (keccakAbsorb r s (m.take r)) (m.drop r) 0 (by rw [List.length_drop]; omega) h2 h3
          (isB_drop hm _) (fun _ => rfl)
        have hd : m.length / r = (m.length - r) / r + 1 := by
          rw [← Nat.add_div_right _ hr0, Nat.sub_add_cancel (by omega)]
        have ha : absorbed (keccakAbsorb r) r s m = absorbed (keccakAbsorb r) r (keccakAbsorb r s (m.take r)) (m.drop r) := by
          unfold absorbed
          rw [hd, List.length_drop]
          rfl
        have ht : tailOf r m = tailOf r (m.drop r) := by
          unfold tailOf
          rw [List.drop_drop, List.length_drop, hd, Nat.add_mul, Nat.one_mul, Nat.add_comm]
        have hmod : m.length % r = (m.drop r).length % r := by
          rw [List.length_drop, ← Nat.mod_eq_sub_mod (by omega)]
        rw [ha, ht, hmod]
        refine ⟨?_, hi.2⟩
        unfold absorb
        rw [if_pos h0]
        simp only [hn]
        rw [Res_mem_ok (by omega), Res.bind_ok, if_pos True.intro, ← h1]
        exact hi.1
    · have hnil : m = [] := List.eq_nil_of_length_eq_zero (by omega)
      subst hnil
      rw [hk rfl, absorbed_nil, tailOf_nil]
      refine ⟨?_, hs, hB⟩
      unfold absorb
      rw [if_neg h0]
      simp [xorBytes]

theorem xorAt_eq {s : Str} {i : Nat} (v : Nat) (h : i < s.length) :
    xorAt s i v = .ok (s.set i (s.getD i 0 ^^^ v)) := by
  unfold xorAt
  rw [Res_mem_ok (by omega), Res.bind_ok]
  rfl

/-- The padding, added to the state. -/
theorem finish_eq {r : Nat} {S t : Str} (hr : 2 ≤ r) (hr2 : r ≤ 200) (hS : S.length = 200) (hB : IsBytes S)
    (ht : t.length < r) (htb : IsBytes t) :
    finish r 0x06 (xorBytes S t) t.length = .ok (keccakAbsorb r S
      (t ++ if r - t.length = 1 then [0x86] else 0x06 :: (List.replicate (r - t.length - 2) 0 ++ [0x80]))) := by
  have hpl : (if r - t.length = 1 then [0x86] else 0x06 :: (List.replicate (r - t.length - 2) 0 ++ [0x80])).length =
      r - t.length := by
    split
    · simp; omega
    · simp; omega
  have hpb : IsBytes (if r - t.length = 1 then [0x86] else 0x06 :: (List.replicate (r - t.length - 2) 0 ++ [0x80])) := by
    split
    · intro c hc; simp at hc; omega
    · intro c hc
      simp only [List.mem_cons, List.mem_append, List.mem_replicate, List.not_mem_nil, or_false] at hc
      rcases hc with h | ⟨_, h⟩ | h <;> omega
  have hbl : (t ++ if r - t.length = 1 then [0x86] else 0x06 :: (List.replicate (r - t.length - 2) 0 ++ [0x80])).length = r := by
    rw [List.length_append, hpl]; omega
  have hxl : (xorBytes S t).length = 200 := by rw [xorBytes_length (by omega), hS]
  rw [(absorb1 hS hB hbl hr2 (isB_append htb hpb)).1]
  unfold finish
  rw [xorAt_eq _ (by omega), Res.bind_ok]
  have hz : ¬ ((0x06 : Nat) &&& 0x80 ≠ 0 ∧ t.length = r - 1) := by
    rintro ⟨h, _⟩
    exact h (by decide)
  simp only [if_neg hz]
  rw [xorAt_eq _ (by rw [List.length_set, hxl]; omega), Res.bind_ok]
  show Res.ok _ = Res.ok _
  congr 2
  apply List.ext_getElem?
  intro i
  have hg : ∀ j, (xorBytes S t).getD j 0 = if j < 200 then S.getD j 0 ^^^ t.getD j 0 else 0 := by
    intro j
    rw [List.getD_eq_getElem?_getD, xorBytes_get]
    by_cases hj : j < 200
    · rw [if_pos hj, List.getElem?_eq_getElem (by omega), List.getD_eq_getElem?_getD (l := S), List.getElem?_eq_getElem (by omega)]
      rfl
    · rw [if_neg hj, List.getElem?_eq_none (by omega)]
      rfl
  by_cases hi : i < 200
  · have hti : t.getD t.length 0 = 0 := by simp
    have hSi : S[i]? = some (S.getD i 0) := by
      rw [List.getD_eq_getElem?_getD, List.getElem?_eq_getElem (by omega)]; rfl
    rw [xorBytes_get S (t ++ _), List.getElem?_set, List.getElem?_set, xorBytes_get, hSi, List.length_set, hxl]
    simp only [Option.map_some]
    have hget : ∀ j, (t ++ if r - t.length = 1 then [0x86] else 0x06 :: (List.replicate (r - t.length - 2) 0 ++ [0x80])).getD j 0 =
        (if j < t.length then t.getD j 0 else 0) ^^^ (if j = t.length then 0x06 else 0) ^^^ (if j = r - 1 then 0x80 else 0) := by
      intro j
      rw [List.getD_eq_getElem?_getD]
      by_cases hjt : j < t.length
      · rw [List.getElem?_append_left hjt, if_pos hjt, if_neg (by omega), if_neg (by omega), List.getD_eq_getElem?_getD]
        simp
      · rw [List.getElem?_append_right (by omega), if_neg hjt]
        by_cases hq : r - t.length = 1
        · rw [if_pos hq]
          by_cases hj : j = t.length
          · subst hj
            rw [if_pos rfl, if_pos (by omega)]
            simp
          · rw [if_neg hj, if_neg (by omega), List.getElem?_eq_none (by simp; omega)]
            rfl
        · rw [if_neg hq]
          by_cases hj : j = t.length
          · subst hj
            rw [if_pos rfl, if_neg (by omega)]
            simp
          · rw [if_neg hj]
            obtain ⟨d, rfl⟩ : ∃ d, j = t.length + 1 + d := ⟨j - t.length - 1, by omega⟩
            rw [show t.length + 1 + d - t.length = d + 1 by omega, List.getElem?_cons_succ]
            by_cases hl : d < r - t.length - 2
            · rw [List.getElem?_append_left (by simpa using hl), List.getElem?_replicate, if_pos hl, if_neg (by omega)]
              rfl
            · rw [List.getElem?_append_right (by simp; omega), List.length_replicate]
              by_cases he : t.length + 1 + d = r - 1
              · rw [if_pos he, show d - (r - t.length - 2) = 0 by omega]
                rfl
              · rw [if_neg he, List.getElem?_eq_none (by simp; omega)]
                rfl
    rw [hget]
    by_cases h1 : r - 1 = i
    · subst h1
      rw [if_pos rfl, if_pos (by omega), if_pos rfl]
      congr 1
      rw [List.getD_eq_getElem?_getD, List.getElem?_set]
      by_cases h2 : t.length = r - 1
      · rw [if_pos h2, if_pos (by omega), if_neg (by omega), if_pos h2.symm, ← h2, hg, if_pos (by omega), hti]
        simp [Nat.xor_assoc]
      · rw [if_neg h2, if_neg (by omega), if_neg (by omega), ← List.getD_eq_getElem?_getD, hg, if_pos (by omega)]
        have : t.getD (r - 1) 0 = 0 := by
          rw [List.getD_eq_getElem?_getD, List.getElem?_eq_none (by omega)]; rfl
        rw [this]
        simp
    · rw [if_neg h1, if_neg (c := i = r - 1) (by omega)]
      by_cases h2 : t.length = i
      · subst h2
        rw [if_pos rfl, if_pos (by omega), if_neg (by omega), if_pos rfl, hg, if_pos (by omega), hti]
        simp
      · rw [if_neg h2, if_neg (c := i = t.length) (by omega)]
        by_cases h3 : i < t.length
        · rw [if_pos h3]; simp
        · rw [if_neg h3]
          have : t.getD i 0 = 0 := by
            rw [List.getD_eq_getElem?_getD, List.getElem?_eq_none (by omega)]; rfl
          rw [this]
          simp
  · rw [List.getElem?_eq_none (by simp only [List.length_set]; omega),
      List.getElem?_eq_none (by rw [xorBytes_length (by omega)]; omega)]

theorem squeeze_eq {r d : Nat} {s : Str} (hd : 0 < d) (hr : d ≤ r) (hs : r ≤ s.length) :
    squeeze r (d + 1) s d = .ok (s.take d) := by
  unfold squeeze
  rw [if_pos hd]
  simp only [Nat.min_eq_left hr]
  rw [fetch_eq (by omega), Res.bind_ok, if_neg (by omega)]
  rfl

/-- The whole sponge. -/
theorem sponge_eq {r d : Nat} {m : Str} (hr : 2 ≤ r) (hr2 : r ≤ 200) (hd : 0 < d) (hdr : d ≤ r) (hm : IsBytes m)
    {rate cap : Nat} (h1 : rate + cap = 1600) (h8 : rate % 8 = 0) (hrr : rate / 8 = r) :
    Keccak rate cap m 0x06 d = .ok (Spec.sha3 r d m) := by
  have hz : IsBytes (List.replicate 200 0) := isB_replicate 200
  obtain ⟨ha, hl, hb⟩ := absorb_eq (r := r) (by omega) hr2 (m.length + 1) (List.replicate 200 0) m 0
    (by omega) (List.length_replicate ..) hz hm (fun _ => rfl)
  have hlt := Nat.mod_lt m.length (by omega : r > 0)
  have ht := tailOf_length r m
  unfold Keccak
  rw [if_neg (by omega)]
  simp only [hrr]
  rw [ha, Res.bind_ok]
  simp only
  rw [← ht, finish_eq hr hr2 hl hb (by omega) (tailOf_bytes hm), Res.bind_ok]
  rw [ht]
  have hpl : (if r - m.length % r = 1 then [0x86] else 0x06 :: (List.replicate (r - m.length % r - 2) 0 ++ [0x80])).length =
      r - m.length % r := by
    split
    · simp; omega
    · simp; omega
  have hpb : IsBytes (if r - m.length % r = 1 then [0x86] else 0x06 :: (List.replicate (r - m.length % r - 2) 0 ++ [0x80])) := by
    split
    · intro c hc; simp at hc; omega
    · intro c hc
      simp only [List.mem_cons, List.mem_append, List.mem_replicate, List.not_mem_nil, or_false] at hc
      rcases hc with h | ⟨_, h⟩ | h <;> omega
  have hfull := (absorbed_full (f := keccakAbsorb r) (B := r) (h := List.replicate 200 0) (m := m) (by omega)
    (x := if r - m.length % r = 1 then [0x86] else 0x06 :: (List.replicate (r - m.length % r - 2) 0 ++ [0x80]))
    (by rw [hpl]; omega)).1
  have hfin := absorb1 (r := r) hl hb (b := tailOf r m ++ if r - m.length % r = 1 then [0x86] else
      0x06 :: (List.replicate (r - m.length % r - 2) 0 ++ [0x80])) (by rw [List.length_append, hpl, ht]; omega) hr2
      (isB_append (tailOf_bytes hm) hpb)
  rw [squeeze_eq hd hdr (by rw [hfin.2.1]; exact hr2), ← hfull]
  rfl

theorem sha3_256_eq {m : Str} (hl : m.length < 2 ^ 32) (hm : IsBytes m) : sha3_256 m = .ok (Spec.sha3_256 m) := by
  unfold sha3_256
  rw [Nat.mod_eq_of_lt hl, List.take_length]
  exact sponge_eq (by decide) (by decide) (by decide) (by decide) hm (by decide) (by decide) (by decide)

theorem sha3_512_eq {m : Str} (hl : m.length < 2 ^ 32) (hm : IsBytes m) : sha3_512 m = .ok (Spec.sha3_512 m) := by
  unfold sha3_512
  rw [Nat.mod_eq_of_lt hl, List.take_length]
  exact sponge_eq (by decide) (by decide) (by decide) (by decide) hm (by decide) (by decide) (by decide)

end Fwknop.Sha3
