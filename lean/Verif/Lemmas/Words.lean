import Verif.Model.Words
import Verif.Spec.Digest
import Verif.Lemmas.Res

/-!
# Words in byte buffers
-/

namespace Fwknop

open Spec

theorem fromLE_eq (b : Str) : fromLE b = leNum b := by
  induction b with
  | nil => rfl
  | cons c cs ih => simp [fromLE, leNum, ih]

theorem toLE_eq (n v : Nat) : toLE n v = leBytes n v := by
  induction n generalizing v with
  | zero => rfl
  | succ n ih => simp [toLE, leBytes, ih]

@[simp] theorem leBytes_length (n v : Nat) : (leBytes n v).length = n := by
  induction n generalizing v with
  | zero => rfl
  | succ n ih => simp [leBytes, ih]

@[simp] theorem beBytes_length (n v : Nat) : (beBytes n v).length = n := by simp [beBytes]

theorem leBytes_bytes (n v : Nat) : IsBytes (leBytes n v) := by
  induction n generalizing v with
  | zero => intro c hc; simp [leBytes] at hc
  | succ n ih =>
    intro c hc
    simp only [leBytes, List.mem_cons] at hc
    cases hc with
    | inl h => omega
    | inr h => exact ih _ c h

theorem beBytes_bytes (n v : Nat) : IsBytes (beBytes n v) := by
  intro c hc
  simp only [beBytes, List.mem_reverse] at hc
  exact leBytes_bytes n v c hc

theorem leNum_leBytes (n v : Nat) : leNum (leBytes n v) = v % 256 ^ n := by
  induction n generalizing v with
  | zero => simp [leBytes, leNum, Nat.mod_one]
  | succ n ih =>
    simp only [leBytes, leNum, ih]
    rw [Nat.pow_succ, Nat.mul_comm (256 ^ n) 256, Nat.mod_mul]

theorem leBytes_leNum (b : Str) (h : IsBytes b) : leBytes b.length (leNum b) = b := by
  induction b with
  | nil => rfl
  | cons c cs ih =>
    have hc : c < 256 := h c (by simp)
    have ht : IsBytes cs := fun x hx => h x (by simp [hx])
    simp only [List.length_cons, leBytes, leNum]
    have h1 : (c + 256 * leNum cs) % 256 = c := by omega
    have h2 : (c + 256 * leNum cs) / 256 = leNum cs := by omega
    rw [h1, h2, ih ht]

theorem leBytes_mod (n v : Nat) : leBytes n (v % 256 ^ n) = leBytes n v := by
  have h := leBytes_leNum (leBytes n v) (leBytes_bytes n v)
  rw [leBytes_length, leNum_leBytes] at h
  exact h

/-! ## Byte order -/

/-- Four bytes of memory as a 32-bit word. -/
theorem leNum4 {a b c d : Nat} (ha : a < 256) (hb : b < 256) (hc : c < 256) (hd : d < 256) :
    BitVec.ofNat 32 (leNum [a, b, c, d]) =
      (BitVec.ofNat 8 d ++ BitVec.ofNat 8 c ++ BitVec.ofNat 8 b ++ BitVec.ofNat 8 a : BitVec 32) := by
  apply BitVec.eq_of_toNat_eq
  simp only [BitVec.toNat_append, BitVec.toNat_ofNat, leNum]
  rw [Nat.mod_eq_of_lt ha, Nat.mod_eq_of_lt hb, Nat.mod_eq_of_lt hc, Nat.mod_eq_of_lt hd]
  rw [← Nat.shiftLeft_add_eq_or_of_lt (by omega : c < 2 ^ 8), ← Nat.shiftLeft_add_eq_or_of_lt (by omega : b < 2 ^ 8),
    ← Nat.shiftLeft_add_eq_or_of_lt (by omega : a < 2 ^ 8)]
  simp only [Nat.shiftLeft_eq]
  omega

theorem leNum8 {a b c d e f g h : Nat} (ha : a < 256) (hb : b < 256) (hc : c < 256) (hd : d < 256)
    (he : e < 256) (hf : f < 256) (hg : g < 256) (hh : h < 256) :
    BitVec.ofNat 64 (leNum [a, b, c, d, e, f, g, h]) =
      (BitVec.ofNat 8 h ++ BitVec.ofNat 8 g ++ BitVec.ofNat 8 f ++ BitVec.ofNat 8 e ++
        BitVec.ofNat 8 d ++ BitVec.ofNat 8 c ++ BitVec.ofNat 8 b ++ BitVec.ofNat 8 a : BitVec 64) := by
  apply BitVec.eq_of_toNat_eq
  simp only [BitVec.toNat_append, BitVec.toNat_ofNat, leNum]
  rw [Nat.mod_eq_of_lt ha, Nat.mod_eq_of_lt hb, Nat.mod_eq_of_lt hc, Nat.mod_eq_of_lt hd,
    Nat.mod_eq_of_lt he, Nat.mod_eq_of_lt hf, Nat.mod_eq_of_lt hg, Nat.mod_eq_of_lt hh]
  rw [← Nat.shiftLeft_add_eq_or_of_lt (by omega : g < 2 ^ 8), ← Nat.shiftLeft_add_eq_or_of_lt (by omega : f < 2 ^ 8),
    ← Nat.shiftLeft_add_eq_or_of_lt (by omega : e < 2 ^ 8), ← Nat.shiftLeft_add_eq_or_of_lt (by omega : d < 2 ^ 8),
    ← Nat.shiftLeft_add_eq_or_of_lt (by omega : c < 2 ^ 8), ← Nat.shiftLeft_add_eq_or_of_lt (by omega : b < 2 ^ 8),
    ← Nat.shiftLeft_add_eq_or_of_lt (by omega : a < 2 ^ 8)]
  simp only [Nat.shiftLeft_eq]
  omega

theorem beNum_reverse (b : Str) : beNum b.reverse = leNum b := by
  unfold beNum
  rw [List.foldl_reverse]
  induction b with
  | nil => rfl
  | cons c cs ih =>
    simp only [List.foldr_cons, leNum]
    rw [ih]
    omega

theorem four_of_length {l : Str} (h : l.length = 4) : ∃ a b c d, l = [a, b, c, d] := by
  match l, h with
  | [a, b, c, d], _ => exact ⟨a, b, c, d, rfl⟩

theorem eight_of_length {l : Str} (h : l.length = 8) :
    ∃ a b c d e f g i, l = [a, b, c, d, e, f, g, i] := by
  match l, h with
  | [a, b, c, d, e, f, g, i], _ => exact ⟨a, b, c, d, e, f, g, i, rfl⟩

/-- An operation that reverses the bytes of a 32-bit word. -/
def Rev32 (r : BitVec 32 → BitVec 32) : Prop :=
  ∀ a b c d : BitVec 8, r (d ++ c ++ b ++ a : BitVec 32) = (a ++ b ++ c ++ d : BitVec 32)

/-- An operation that reverses the bytes of a 64-bit word. -/
def Rev64 (r : BitVec 64 → BitVec 64) : Prop :=
  ∀ a b c d e f g h : BitVec 8, r (h ++ g ++ f ++ e ++ d ++ c ++ b ++ a : BitVec 64) =
    (a ++ b ++ c ++ d ++ e ++ f ++ g ++ h : BitVec 64)

theorem Rev32.le {r : BitVec 32 → BitVec 32} (hr : Rev32 r) {l : Str} (hl : l.length = 4) (hb : IsBytes l) :
    r (BitVec.ofNat 32 (leNum l)) = BitVec.ofNat 32 (beNum l) := by
  obtain ⟨a, b, c, d, rfl⟩ := four_of_length hl
  have ha : a < 256 := hb a (by simp)
  have hb' : b < 256 := hb b (by simp)
  have hc : c < 256 := hb c (by simp)
  have hd : d < 256 := hb d (by simp)
  have e : beNum [a, b, c, d] = leNum [d, c, b, a] := (beNum_reverse [d, c, b, a])
  rw [e, leNum4 ha hb' hc hd, leNum4 hd hc hb' ha]
  exact hr _ _ _ _

theorem Rev64.le {r : BitVec 64 → BitVec 64} (hr : Rev64 r) {l : Str} (hl : l.length = 8) (hb : IsBytes l) :
    r (BitVec.ofNat 64 (leNum l)) = BitVec.ofNat 64 (beNum l) := by
  obtain ⟨a, b, c, d, e, f, g, h, rfl⟩ := eight_of_length hl
  have ha : a < 256 := hb a (by simp)
  have hb' : b < 256 := hb b (by simp)
  have hc : c < 256 := hb c (by simp)
  have hd : d < 256 := hb d (by simp)
  have he : e < 256 := hb e (by simp)
  have hf : f < 256 := hb f (by simp)
  have hg : g < 256 := hb g (by simp)
  have hh : h < 256 := hb h (by simp)
  have e' : beNum [a, b, c, d, e, f, g, h] = leNum [h, g, f, e, d, c, b, a] :=
    (beNum_reverse [h, g, f, e, d, c, b, a])
  rw [e', leNum8 ha hb' hc hd he hf hg hh, leNum8 hh hg hf he hd hc hb' ha]
  exact hr _ _ _ _ _ _ _ _

/-- Storing the reversed word of a value writes its bytes most significant first. -/
theorem Rev32.be {r : BitVec 32 → BitVec 32} (hr : Rev32 r) (v : Nat) :
    leBytes 4 (r (BitVec.ofNat 32 v)).toNat = beBytes 4 v := by
  have h := hr.le (l := leBytes 4 v) (leBytes_length 4 v) (leBytes_bytes 4 v)
  rw [leNum_leBytes] at h
  have e : BitVec.ofNat 32 (v % 256 ^ 4) = BitVec.ofNat 32 v := by
    apply BitVec.eq_of_toNat_eq; simp [BitVec.toNat_ofNat]
  rw [e] at h
  rw [h]
  have e2 : beNum (leBytes 4 v) = leNum (beBytes 4 v) := by
    have := beNum_reverse (beBytes 4 v)
    simp only [beBytes, List.reverse_reverse] at this
    exact this
  rw [e2, BitVec.toNat_ofNat]
  have e3 := leBytes_leNum (beBytes 4 v) (beBytes_bytes 4 v)
  rw [beBytes_length] at e3
  have e4 := leBytes_mod 4 (leNum (beBytes 4 v))
  rw [show (2:Nat) ^ 32 = 256 ^ 4 by decide, e4, e3]

theorem Rev64.be {r : BitVec 64 → BitVec 64} (hr : Rev64 r) (v : Nat) :
    leBytes 8 (r (BitVec.ofNat 64 v)).toNat = beBytes 8 v := by
  have h := hr.le (l := leBytes 8 v) (leBytes_length 8 v) (leBytes_bytes 8 v)
  rw [leNum_leBytes] at h
  have e : BitVec.ofNat 64 (v % 256 ^ 8) = BitVec.ofNat 64 v := by
    apply BitVec.eq_of_toNat_eq; simp [BitVec.toNat_ofNat]
  rw [e] at h
  rw [h]
  have e2 : beNum (leBytes 8 v) = leNum (beBytes 8 v) := by
    have := beNum_reverse (beBytes 8 v)
    simp only [beBytes, List.reverse_reverse] at this
    exact this
  rw [e2, BitVec.toNat_ofNat]
  have e3 := leBytes_leNum (beBytes 8 v) (beBytes_bytes 8 v)
  rw [beBytes_length] at e3
  have e4 := leBytes_mod 8 (leNum (beBytes 8 v))
  rw [show (2:Nat) ^ 64 = 256 ^ 8 by decide, e4, e3]

/-! ## Loads and stores -/

theorem storeW_length (k : Nat) (b : Str) (j : Nat) (w : BitVec (8 * k)) (h : k * j + k ≤ b.length) :
    (storeW k b j w).length = b.length := by
  simp only [storeW, toLE_eq, List.length_append, List.length_take, leBytes_length, List.length_drop]
  omega

theorem isB_append {a b : Str} (ha : IsBytes a) (hb : IsBytes b) : IsBytes (a ++ b) := by
  intro c hc
  rcases List.mem_append.1 hc with h | h
  · exact ha c h
  · exact hb c h

theorem isB_take {a : Str} (ha : IsBytes a) (n : Nat) : IsBytes (a.take n) :=
  fun c hc => ha c (List.mem_of_mem_take hc)

theorem isB_drop {a : Str} (ha : IsBytes a) (n : Nat) : IsBytes (a.drop n) :=
  fun c hc => ha c (List.mem_of_mem_drop hc)

theorem isB_replicate (n : Nat) : IsBytes (List.replicate n 0) := by
  intro c hc
  rw [List.mem_replicate] at hc
  omega

theorem storeW_bytes {k : Nat} {b : Str} {j : Nat} {w : BitVec (8 * k)} (hb : IsBytes b) :
    IsBytes (storeW k b j w) := by
  unfold storeW
  rw [toLE_eq]
  exact isB_append (isB_append (isB_take hb _) (leBytes_bytes _ _)) (isB_drop hb _)

theorem loadW_storeW_self {k : Nat} {b : Str} {j : Nat} {w : BitVec (8 * k)} (h : k * j + k ≤ b.length) :
    loadW k (storeW k b j w) j = w := by
  unfold loadW storeW
  rw [toLE_eq, fromLE_eq, List.append_assoc, List.drop_append_of_le_length (by simp; omega)]
  rw [List.drop_of_length_le (by simp; omega), List.nil_append,
    List.take_append_of_le_length (by simp)]
  rw [List.take_of_length_le (by simp), leNum_leBytes]
  apply BitVec.eq_of_toNat_eq
  have hw := w.isLt
  have e : (256 : Nat) ^ k = 2 ^ (8 * k) := by
    rw [Nat.pow_mul]
  rw [BitVec.toNat_ofNat, e, Nat.mod_mod, Nat.mod_eq_of_lt hw]

theorem loadW_storeW_ne {k : Nat} {b : Str} {j i : Nat} {w : BitVec (8 * k)} (hk : 0 < k)
    (h : k * j + k ≤ b.length) (hi : i ≠ j) :
    loadW k (storeW k b j w) i = loadW k b i := by
  have key : ((storeW k b j w).drop (k * i)).take k = (b.drop (k * i)).take k := by
    apply List.ext_getElem?
    intro n
    simp only [List.getElem?_take, List.getElem?_drop]
    by_cases hn : n < k
    · rw [if_pos hn, if_pos hn]
      unfold storeW
      rw [toLE_eq, List.append_assoc]
      rcases Nat.lt_or_gt_of_ne hi with hlt | hgt
      · have h1 : k * i + k ≤ k * j := by
          have := Nat.mul_le_mul_left k (show i + 1 ≤ j by omega)
          rw [Nat.mul_add, Nat.mul_one] at this
          exact this
        rw [List.getElem?_append_left (by simp; omega), List.getElem?_take, if_pos (by omega)]
      · have h1 : k * j + k ≤ k * i := by
          have := Nat.mul_le_mul_left k (show j + 1 ≤ i by omega)
          rw [Nat.mul_add, Nat.mul_one] at this
          exact this
        rw [List.getElem?_append_right (by simp; omega), List.getElem?_append_right (by simp; omega)]
        rw [List.getElem?_drop]
        congr 1
        simp only [List.length_take, leBytes_length]
        omega
    · rw [if_neg hn, if_neg hn]
  unfold loadW
  rw [key]

theorem put_eq {b : Str} {off : Nat} {src : Str} (h : off + src.length ≤ b.length) :
    put b off src = .ok (b.take off ++ src ++ b.drop (off + src.length)) := by
  unfold put
  rw [Res.mem_of_not (by omega)]
  rfl

theorem fetch_eq {src : Str} {n : Nat} (h : n ≤ src.length) : fetch src n = .ok (src.take n) := by
  unfold fetch
  rw [Res.mem_of_not (by omega)]
  rfl

end Fwknop
