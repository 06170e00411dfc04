import Verif.Model.Aes
import Verif.Spec.Aes

/-! # The table driven cipher seen one byte at a time -/

namespace Fwknop.Aes

open Fwknop.Spec.Aes (xt gmul S State)

/-- Byte `r` of a word. -/
def byte (r w : Nat) : Nat := (w >>> (8 * r)) % 256

theorem byte_lt (r w : Nat) : byte r w < 256 := Nat.mod_lt _ (by decide)

theorem and_ff (x : Nat) : x &&& 0xff = x % 256 := Nat.and_two_pow_sub_one_eq_mod x 8

theorem byte_xor (r x y : Nat) : byte r (x ^^^ y) = byte r x ^^^ byte r y := by
  unfold byte
  rw [Nat.shiftRight_xor_distrib, show (256 : Nat) = 2 ^ 8 from rfl, Nat.xor_mod_two_pow]

theorem byte_or (r x y : Nat) : byte r (x ||| y) = byte r x ||| byte r y := by
  unfold byte
  rw [Nat.shiftRight_or_distrib, show (256 : Nat) = 2 ^ 8 from rfl, Nat.or_mod_two_pow]

theorem byte_and (r x y : Nat) : byte r (x &&& y) = byte r x &&& byte r y := by
  unfold byte
  rw [Nat.shiftRight_and_distrib, show (256 : Nat) = 2 ^ 8 from rfl, Nat.and_mod_two_pow]

theorem byte_eq (r w : Nat) : byte r w = w / 2 ^ (8 * r) % 256 := by
  unfold byte
  rw [Nat.shiftRight_eq_div_pow]

theorem pack4 {a b c d : Nat} (ha : a < 256) (hb : b < 256) (hc : c < 256) :
    a ||| b <<< 8 ||| c <<< 16 ||| d <<< 24 = a + 256 * b + 65536 * c + 16777216 * d := by
  have h1 : a ||| b <<< 8 = b <<< 8 + a := by
    rw [Nat.or_comm, ← Nat.shiftLeft_add_eq_or_of_lt (show a < 2 ^ 8 from ha)]
  have e1 : b <<< 8 + a = a + 256 * b := by rw [Nat.shiftLeft_eq]; omega
  have h2 : (a + 256 * b) ||| c <<< 16 = c <<< 16 + (a + 256 * b) := by
    rw [Nat.or_comm, ← Nat.shiftLeft_add_eq_or_of_lt (show a + 256 * b < 2 ^ 16 by omega)]
  have e2 : c <<< 16 + (a + 256 * b) = a + 256 * b + 65536 * c := by rw [Nat.shiftLeft_eq]; omega
  have h3 : (a + 256 * b + 65536 * c) ||| d <<< 24 = d <<< 24 + (a + 256 * b + 65536 * c) := by
    rw [Nat.or_comm, ← Nat.shiftLeft_add_eq_or_of_lt
      (show a + 256 * b + 65536 * c < 2 ^ 24 by omega)]
  rw [h1, e1, h2, e2, h3, Nat.shiftLeft_eq]; omega

theorem byte_sum {a b c d : Nat} (ha : a < 256) (hb : b < 256) (hc : c < 256) (e : Nat)
    (hd : d < 256) :
    byte 0 (a + 256 * b + 65536 * c + 16777216 * d + 4294967296 * e) = a
    ∧ byte 1 (a + 256 * b + 65536 * c + 16777216 * d + 4294967296 * e) = b
    ∧ byte 2 (a + 256 * b + 65536 * c + 16777216 * d + 4294967296 * e) = c
    ∧ byte 3 (a + 256 * b + 65536 * c + 16777216 * d + 4294967296 * e) = d := by
  simp only [byte_eq, Nat.reduceMul, Nat.reducePow]
  refine ⟨?_, ?_, ?_, ?_⟩ <;> omega

theorem byte_pack {a b c d : Nat} (ha : a < 256) (hb : b < 256) (hc : c < 256) (hd : d < 256) :
    byte 0 (a ||| b <<< 8 ||| c <<< 16 ||| d <<< 24) = a
    ∧ byte 1 (a ||| b <<< 8 ||| c <<< 16 ||| d <<< 24) = b
    ∧ byte 2 (a ||| b <<< 8 ||| c <<< 16 ||| d <<< 24) = c
    ∧ byte 3 (a ||| b <<< 8 ||| c <<< 16 ||| d <<< 24) = d := by
  rw [pack4 ha hb hc]
  exact byte_sum ha hb hc 0 hd

/-- A number as its four low bytes and the rest. -/
theorem split4 (x : Nat) : ∃ a b c d e, a < 256 ∧ b < 256 ∧ c < 256 ∧ d < 256 ∧
    x = a + 256 * b + 65536 * c + 16777216 * d + 4294967296 * e :=
  ⟨x % 256, x / 256 % 256, x / 65536 % 256, x / 16777216 % 256, x / 4294967296,
    Nat.mod_lt _ (by decide), Nat.mod_lt _ (by decide), Nat.mod_lt _ (by decide),
    Nat.mod_lt _ (by decide), by omega⟩

theorem byte_rotr (x : Nat) :
    byte 0 (ROTRBYTE x) = byte 3 x ∧ byte 1 (ROTRBYTE x) = byte 0 x
    ∧ byte 2 (ROTRBYTE x) = byte 1 x ∧ byte 3 (ROTRBYTE x) = byte 2 x := by
  obtain ⟨a, b, c, d, e, ha, hb, hc, hd, rfl⟩ := split4 x
  have hx := byte_sum ha hb hc e hd
  generalize hX : a + 256 * b + 65536 * c + 16777216 * d + 4294967296 * e = x at *
  have h : ROTRBYTE x = d + 256 * a + 65536 * b + 16777216 * c + 4294967296 * 0 := by
    unfold ROTRBYTE
    have e1 : (x <<< 8) % 2 ^ 32 = (a + 256 * b + 65536 * c) <<< 8 := by
      rw [Nat.shiftLeft_eq, Nat.shiftLeft_eq]; omega
    have e2 : x / 2 ^ 24 % 256 = d := by omega
    rw [and_ff, Nat.shiftRight_eq_div_pow, e1, e2,
      ← Nat.shiftLeft_add_eq_or_of_lt (show d < 2 ^ 8 by omega), Nat.shiftLeft_eq]
    omega
  rw [h]
  have h2 := byte_sum hd ha hb 0 hc
  rw [h2.1, h2.2.1, h2.2.2.1, h2.2.2.2, hx.1, hx.2.1, hx.2.2.1, hx.2.2.2]
  exact ⟨rfl, rfl, rfl, rfl⟩

theorem byte_rot {x : Nat} (hx : x < 2 ^ 32) :
    byte 0 (ROTBYTE x) = byte 1 x ∧ byte 1 (ROTBYTE x) = byte 2 x
    ∧ byte 2 (ROTBYTE x) = byte 3 x ∧ byte 3 (ROTBYTE x) = byte 0 x := by
  obtain ⟨a, b, c, d, e, ha, hb, hc, hd, hX⟩ := split4 x
  have he : e = 0 := by omega
  subst he
  have hb' := byte_sum ha hb hc 0 hd
  rw [← hX] at hb'
  have h : ROTBYTE x = b + 256 * c + 65536 * d + 16777216 * a + 4294967296 * 0 := by
    unfold ROTBYTE
    have e1 : x / 2 ^ 8 = b + 256 * c + 65536 * d := by omega
    have e2 : x % 256 = a := by omega
    rw [and_ff, Nat.shiftRight_eq_div_pow, e1, e2, Nat.or_comm,
      ← Nat.shiftLeft_add_eq_or_of_lt (show b + 256 * c + 65536 * d < 2 ^ 24 by omega),
      Nat.shiftLeft_eq]
    omega
  rw [h]
  have h2 := byte_sum hb hc hd 0 ha
  rw [h2.1, h2.2.1, h2.2.2.1, h2.2.2.2, hb'.1, hb'.2.1, hb'.2.2.1, hb'.2.2.2]
  exact ⟨rfl, rfl, rfl, rfl⟩

/-! ## Tables -/

theorem all_of_range {p : Nat → Bool} {n : Nat} (h : (List.range n).all p = true) :
    ∀ x < n, p x = true := fun x hx => List.all_eq_true.1 h x (List.mem_range.2 hx)

theorem sbox_S (x : Nat) (hx : x < 256) : sbox.getD x 0 = S x := by
  have := all_of_range (p := fun x => sbox.getD x 0 == S x) (n := 256) (by decide +kernel) x hx
  simpa using this

theorem sbox_lt (x : Nat) (hx : x < 256) : sbox.getD x 0 < 256 := by
  have := all_of_range (p := fun x => decide (sbox.getD x 0 < 256)) (n := 256)
    (by decide +kernel) x hx
  simpa using this

theorem isbox_lt (x : Nat) (hx : x < 256) : isbox.getD x 0 < 256 := by
  have := all_of_range (p := fun x => decide (isbox.getD x 0 < 256)) (n := 256)
    (by decide +kernel) x hx
  simpa using this

theorem isbox_sbox (x : Nat) (hx : x < 256) : isbox.getD (sbox.getD x 0) 0 = x := by
  have := all_of_range (p := fun x => isbox.getD (sbox.getD x 0) 0 == x) (n := 256)
    (by decide +kernel) x hx
  simpa using this

theorem dtbl_bytes (x : Nat) (hx : x < 256) :
    byte 0 (dtbl.getD x 0) = gmul 2 (sbox.getD x 0) ∧ byte 1 (dtbl.getD x 0) = sbox.getD x 0
    ∧ byte 2 (dtbl.getD x 0) = sbox.getD x 0 ∧ byte 3 (dtbl.getD x 0) = gmul 3 (sbox.getD x 0) := by
  have := all_of_range (p := fun x => byte 0 (dtbl.getD x 0) == gmul 2 (sbox.getD x 0)
    && byte 1 (dtbl.getD x 0) == sbox.getD x 0 && byte 2 (dtbl.getD x 0) == sbox.getD x 0
    && byte 3 (dtbl.getD x 0) == gmul 3 (sbox.getD x 0)) (n := 256) (by decide +kernel) x hx
  simpa [and_assoc] using this

theorem itbl_bytes (x : Nat) (hx : x < 256) :
    byte 0 (itbl.getD x 0) = gmul 14 (isbox.getD x 0)
    ∧ byte 1 (itbl.getD x 0) = gmul 9 (isbox.getD x 0)
    ∧ byte 2 (itbl.getD x 0) = gmul 13 (isbox.getD x 0)
    ∧ byte 3 (itbl.getD x 0) = gmul 11 (isbox.getD x 0) := by
  have := all_of_range (p := fun x => byte 0 (itbl.getD x 0) == gmul 14 (isbox.getD x 0)
    && byte 1 (itbl.getD x 0) == gmul 9 (isbox.getD x 0)
    && byte 2 (itbl.getD x 0) == gmul 13 (isbox.getD x 0)
    && byte 3 (itbl.getD x 0) == gmul 11 (isbox.getD x 0)) (n := 256) (by decide +kernel) x hx
  simpa [and_assoc] using this

theorem mul_consts (x : Nat) (hx : x < 256) :
    mul 0xe x = gmul 14 x ∧ mul 0xb x = gmul 11 x ∧ mul 0xd x = gmul 13 x ∧ mul 0x9 x = gmul 9 x := by
  have := all_of_range (p := fun x => mul 0xe x == gmul 14 x && mul 0xb x == gmul 11 x
    && mul 0xd x == gmul 13 x && mul 0x9 x == gmul 9 x) (n := 256) (by decide +kernel) x hx
  simpa [and_assoc] using this

/-! ## Arithmetic in GF(2^8) -/

theorem testBit_seven (x : Nat) (hx : x < 256) : x.testBit 7 = decide (128 ≤ x) := by
  have := all_of_range (p := fun x => x.testBit 7 == decide (128 ≤ x)) (n := 256)
    (by decide +kernel) x hx
  simpa using this

theorem xt_lt (x : Nat) (hx : x < 256) : xt x < 256 := by
  have := all_of_range (p := fun x => decide (xt x < 256)) (n := 256) (by decide +kernel) x hx
  simpa using this

theorem xtime_xt (x : Nat) (hx : x < 256) : xtime x = xt x := by
  have := all_of_range (p := fun x => xtime x == xt x) (n := 256) (by decide +kernel) x hx
  simpa using this

theorem two_mul_xor (x y : Nat) : 2 * (x ^^^ y) = (2 * x) ^^^ (2 * y) := by
  have h := Nat.shiftLeft_xor_distrib (a := x) (b := y) (i := 1)
  simp only [Nat.shiftLeft_eq, Nat.pow_one] at h
  rw [Nat.mul_comm 2, Nat.mul_comm 2, Nat.mul_comm 2]
  exact h

theorem xor_lt {x y : Nat} (hx : x < 256) (hy : y < 256) : x ^^^ y < 256 :=
  Nat.xor_lt_two_pow (n := 8) hx hy

theorem xt_xor {x y : Nat} (hx : x < 256) (hy : y < 256) : xt (x ^^^ y) = xt x ^^^ xt y := by
  have hb : (x ^^^ y).testBit 7 = (x.testBit 7 ^^ y.testBit 7) := Nat.testBit_xor ..
  rw [testBit_seven _ (xor_lt hx hy), testBit_seven x hx, testBit_seven y hy] at hb
  unfold xt
  rw [two_mul_xor]
  by_cases h1 : x < 128 <;> by_cases h2 : y < 128
  · have : x ^^^ y < 128 := by simpa [h1, h2, Nat.not_le.2 h1, Nat.not_le.2 h2] using hb
    simp [h1, h2, this]
  · have : ¬ (x ^^^ y < 128) := by simpa [h1, h2, Nat.not_le.2 h1, Nat.not_lt.1 h2] using hb
    simp [h1, h2, this, Nat.xor_assoc]
  · have : ¬ (x ^^^ y < 128) := by simpa [h1, h2, Nat.not_le.2 h2, Nat.not_lt.1 h1] using hb
    simp only [h1, h2, this, if_true, if_false]
    rw [Nat.xor_assoc, Nat.xor_assoc, Nat.xor_comm (2 * y)]
  · have : x ^^^ y < 128 := by simpa [h1, h2, Nat.not_lt.1 h1, Nat.not_lt.1 h2] using hb
    simp only [h1, h2, this, if_true, if_false]
    rw [Nat.xor_assoc (2 * x), Nat.xor_comm 0x11b, Nat.xor_assoc (2 * y), Nat.xor_self,
      Nat.xor_zero]

theorem xtPow_lt (i : Nat) {x : Nat} (hx : x < 256) : Spec.Aes.xtPow i x < 256 := by
  induction i with
  | zero => exact hx
  | succ i ih => exact xt_lt _ ih

theorem xtPow_xor (i : Nat) {x y : Nat} (hx : x < 256) (hy : y < 256) :
    Spec.Aes.xtPow i (x ^^^ y) = Spec.Aes.xtPow i x ^^^ Spec.Aes.xtPow i y := by
  induction i with
  | zero => rfl
  | succ i ih =>
    show xt _ = _
    rw [ih, xt_xor (xtPow_lt i hx) (xtPow_lt i hy)]; rfl

theorem fold_xor (c : Nat) (l : List Nat) {x y : Nat} (hx : x < 256) (hy : y < 256) :
    ∀ a b : Nat,
      l.foldl (fun acc i => if c.testBit i then acc ^^^ Spec.Aes.xtPow i (x ^^^ y) else acc) (a ^^^ b)
      = l.foldl (fun acc i => if c.testBit i then acc ^^^ Spec.Aes.xtPow i x else acc) a
        ^^^ l.foldl (fun acc i => if c.testBit i then acc ^^^ Spec.Aes.xtPow i y else acc) b := by
  induction l with
  | nil => intro a b; rfl
  | cons i l ih =>
    intro a b
    simp only [List.foldl_cons]
    by_cases h : c.testBit i
    · simp only [h, if_true]
      rw [← ih, xtPow_xor i hx hy]
      congr 1
      ac_rfl
    · simp only [h]
      exact ih a b

theorem gmul_xor (c : Nat) {x y : Nat} (hx : x < 256) (hy : y < 256) :
    gmul c (x ^^^ y) = gmul c x ^^^ gmul c y := by
  have h := fold_xor c (List.range 8) hx hy 0 0
  rw [Nat.xor_self] at h
  exact h

theorem fold_lt (c : Nat) (l : List Nat) {x : Nat} (hx : x < 256) :
    ∀ a < 256,
      l.foldl (fun acc i => if c.testBit i then acc ^^^ Spec.Aes.xtPow i x else acc) a < 256 := by
  induction l with
  | nil => intro a ha; exact ha
  | cons i l ih =>
    intro a ha
    simp only [List.foldl_cons]
    apply ih
    split
    · exact xor_lt ha (xtPow_lt i hx)
    · exact ha

theorem gmul_lt (c : Nat) {x : Nat} (hx : x < 256) : gmul c x < 256 :=
  fold_lt c (List.range 8) hx 0 (by decide)

/-- The products of the columns of the two matrices, one byte at a time. -/
theorem mix_inverse (x : Nat) (hx : x < 256) :
    gmul 14 (gmul 2 x) ^^^ gmul 11 x ^^^ gmul 13 x ^^^ gmul 9 (gmul 3 x) = x
    ∧ gmul 14 (gmul 3 x) ^^^ gmul 11 (gmul 2 x) ^^^ gmul 13 x ^^^ gmul 9 x = 0
    ∧ gmul 14 x ^^^ gmul 11 (gmul 3 x) ^^^ gmul 13 (gmul 2 x) ^^^ gmul 9 x = 0
    ∧ gmul 14 x ^^^ gmul 11 x ^^^ gmul 13 (gmul 3 x) ^^^ gmul 9 (gmul 2 x) = 0 := by
  have := all_of_range (p := fun x =>
    gmul 14 (gmul 2 x) ^^^ gmul 11 x ^^^ gmul 13 x ^^^ gmul 9 (gmul 3 x) == x
    && gmul 14 (gmul 3 x) ^^^ gmul 11 (gmul 2 x) ^^^ gmul 13 x ^^^ gmul 9 x == 0
    && gmul 14 x ^^^ gmul 11 (gmul 3 x) ^^^ gmul 13 (gmul 2 x) ^^^ gmul 9 x == 0
    && gmul 14 x ^^^ gmul 11 x ^^^ gmul 13 (gmul 3 x) ^^^ gmul 9 (gmul 2 x) == 0) (n := 256)
    (by decide +kernel) x hx
  simpa only [Bool.and_eq_true, beq_iff_eq, and_assoc] using this

/-- Multiplying a column by the one matrix and then by a row of the other. -/
theorem mix_row {a b c d : Nat} (ha : a < 256) (hb : b < 256) (hc : c < 256) (hd : d < 256) :
    gmul 14 (gmul 2 a ^^^ gmul 3 b ^^^ c ^^^ d) ^^^ gmul 11 (gmul 2 b ^^^ gmul 3 c ^^^ d ^^^ a)
      ^^^ gmul 13 (gmul 2 c ^^^ gmul 3 d ^^^ a ^^^ b)
      ^^^ gmul 9 (gmul 2 d ^^^ gmul 3 a ^^^ b ^^^ c) = a := by
  have e (k : Nat) {p q r s : Nat} (hp : p < 256) (hq : q < 256) (hr : r < 256) (hs : s < 256) :
      gmul k (gmul 2 p ^^^ gmul 3 q ^^^ r ^^^ s)
        = gmul k (gmul 2 p) ^^^ gmul k (gmul 3 q) ^^^ gmul k r ^^^ gmul k s := by
    rw [gmul_xor k (xor_lt (xor_lt (gmul_lt 2 hp) (gmul_lt 3 hq)) hr) hs,
      gmul_xor k (xor_lt (gmul_lt 2 hp) (gmul_lt 3 hq)) hr, gmul_xor k (gmul_lt 2 hp) (gmul_lt 3 hq)]
  rw [e 14 ha hb hc hd, e 11 hb hc hd ha, e 13 hc hd ha hb, e 9 hd ha hb hc]
  have h1 := (mix_inverse a ha).1
  have h2 := (mix_inverse b hb).2.1
  have h3 := (mix_inverse c hc).2.2.1
  have h4 := (mix_inverse d hd).2.2.2
  calc _ = (gmul 14 (gmul 2 a) ^^^ gmul 11 a ^^^ gmul 13 a ^^^ gmul 9 (gmul 3 a))
        ^^^ (gmul 14 (gmul 3 b) ^^^ gmul 11 (gmul 2 b) ^^^ gmul 13 b ^^^ gmul 9 b)
        ^^^ (gmul 14 c ^^^ gmul 11 (gmul 3 c) ^^^ gmul 13 (gmul 2 c) ^^^ gmul 9 c)
        ^^^ (gmul 14 d ^^^ gmul 11 d ^^^ gmul 13 (gmul 3 d) ^^^ gmul 9 (gmul 2 d)) := by ac_rfl
    _ = a := by rw [h1, h2, h3, h4]; simp

end Fwknop.Aes
