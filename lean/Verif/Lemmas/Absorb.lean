import Verif.Lemmas.Words

/-!
# Feeding a message to an iterated hash in pieces
-/

namespace Fwknop

open Spec

variable {σ : Type} {f : σ → List Nat → σ} {B : Nat}

theorem foldBlocks_append (n : Nat) (h : σ) (p q : List Nat) (hn : n * B ≤ p.length) :
    foldBlocks f B n h (p ++ q) = foldBlocks f B n h p := by
  induction n generalizing h p with
  | zero => rfl
  | succ n ih =>
    have hB : B ≤ p.length := by
      have : (n + 1) * B = n * B + B := by rw [Nat.add_mul, Nat.one_mul]
      omega
    simp only [foldBlocks]
    rw [List.take_append_of_le_length hB, List.drop_append_of_le_length hB]
    apply ih
    have : (n + 1) * B = n * B + B := by rw [Nat.add_mul, Nat.one_mul]
    rw [List.length_drop]
    omega

theorem foldBlocks_add (n k : Nat) (h : σ) (p : List Nat) :
    foldBlocks f B (n + k) h p = foldBlocks f B k (foldBlocks f B n h p) (p.drop (n * B)) := by
  induction n generalizing h p with
  | zero => simp [foldBlocks]
  | succ n ih =>
    rw [show n + 1 + k = n + k + 1 by omega]
    simp only [foldBlocks]
    rw [ih, List.drop_drop, Nat.add_mul, Nat.one_mul, Nat.add_comm B]

/-- The bytes after the last complete block. -/
def tailOf (B : Nat) (m : List Nat) : List Nat := m.drop (m.length / B * B)

theorem tailOf_length (B : Nat) (m : List Nat) : (tailOf B m).length = m.length % B := by
  unfold tailOf
  rw [List.length_drop, Nat.mod_eq_sub_div_mul]

theorem tailOf_bytes {m : List Nat} (h : IsBytes m) : IsBytes (tailOf B m) := isB_drop h _

theorem absorbed_nil (h : σ) : absorbed f B h [] = h := by
  simp [absorbed, foldBlocks]

theorem tailOf_nil : tailOf B [] = [] := by simp [tailOf]

theorem absorbed_short {h : σ} {m d : List Nat} (hs : m.length % B + d.length < B) :
    absorbed f B h (m ++ d) = absorbed f B h m ∧ tailOf B (m ++ d) = tailOf B m ++ d := by
  have hB : 0 < B := by omega
  have e : (m ++ d).length / B = m.length / B := by
    rw [List.length_append]
    have h1 := Nat.div_add_mod m.length B
    have : m.length + d.length = B * (m.length / B) + (m.length % B + d.length) := by omega
    rw [this, Nat.mul_add_div hB, Nat.div_eq_of_lt hs, Nat.add_zero]
  have hle : m.length / B * B ≤ m.length := Nat.div_mul_le_self _ _
  constructor
  · unfold absorbed
    rw [e, foldBlocks_append _ _ _ _ hle]
  · unfold tailOf
    rw [e, List.drop_append_of_le_length hle]

theorem absorbed_full {h : σ} {m x : List Nat} (hB : 0 < B) (hx : m.length % B + x.length = B) :
    absorbed f B h (m ++ x) = f (absorbed f B h m) (tailOf B m ++ x) ∧ tailOf B (m ++ x) = [] := by
  have h1 := Nat.div_add_mod m.length B
  have el : (m ++ x).length = B * (m.length / B + 1) := by
    rw [List.length_append, Nat.mul_add, Nat.mul_one]; omega
  have e : (m ++ x).length / B = m.length / B + 1 := by
    rw [el, Nat.mul_div_cancel_left _ hB]
  have hle : m.length / B * B ≤ m.length := Nat.div_mul_le_self _ _
  constructor
  · unfold absorbed
    rw [e, foldBlocks_add, foldBlocks_append _ _ _ _ hle]
    simp only [foldBlocks]
    rw [List.drop_append_of_le_length hle, List.take_of_length_le]
    · rfl
    · rw [List.length_append, List.length_drop]
      have := Nat.mul_comm B (m.length / B)
      omega
  · unfold tailOf
    rw [e]
    apply List.drop_of_length_le
    rw [el, Nat.mul_comm]
    omega

/-! ## Padding -/

theorem pad_short {L : Nat} {len : Nat → List Nat} {h : σ} {m : List Nat} (hl : (len (8 * m.length)).length = L)
    (hm : m.length % B + 1 + L ≤ B) :
    absorbed f B h (mdPad B L len m) = f (absorbed f B h m)
      (tailOf B m ++ [0x80] ++ List.replicate (B - 1 - L - m.length % B) 0 ++ len (8 * m.length)) := by
  have hB : 0 < B := by omega
  have hz : (B - (m.length + 1 + L) % B) % B = B - 1 - L - m.length % B := by
    have e : (m.length + 1 + L) % B = (m.length % B + 1 + L) % B := by
      rw [Nat.add_assoc, Nat.add_assoc, Nat.mod_add_mod]
    rw [e]
    by_cases h1 : m.length % B + 1 + L = B
    · rw [h1, Nat.mod_self, Nat.sub_zero, Nat.mod_self]; omega
    · rw [Nat.mod_eq_of_lt (show m.length % B + 1 + L < B by omega), Nat.mod_eq_of_lt (by omega)]; omega
  unfold mdPad
  rw [hz]
  simp only [List.append_assoc]
  rw [← List.append_assoc [0x80], (absorbed_full hB _).1]
  rw [List.length_append, List.length_append, List.length_replicate, hl, List.length_cons, List.length_nil]
  omega

theorem pad_long {L : Nat} {len : Nat → List Nat} {h : σ} {m : List Nat} (hl : (len (8 * m.length)).length = L)
    (hL : 0 < B) (hLB : L ≤ B) (hm : B < m.length % B + 1 + L) :
    absorbed f B h (mdPad B L len m) = f (f (absorbed f B h m)
      (tailOf B m ++ [0x80] ++ List.replicate (B - 1 - m.length % B) 0))
      (List.replicate (B - L) 0 ++ len (8 * m.length)) := by
  have hlt := Nat.mod_lt m.length hL
  have hz : (B - (m.length + 1 + L) % B) % B = (B - 1 - m.length % B) + (B - L) := by
    have e : (m.length + 1 + L) % B = (m.length % B + 1 + L) % B := by
      rw [Nat.add_assoc, Nat.add_assoc, Nat.mod_add_mod]
    rw [e]
    by_cases h1 : m.length % B + 1 + L = 2 * B
    · rw [h1, Nat.mul_mod_left, Nat.sub_zero, Nat.mod_self]; omega
    · rw [Nat.mod_eq_sub_mod (show m.length % B + 1 + L ≥ B by omega), Nat.mod_eq_of_lt (show m.length % B + 1 + L - B < B by omega),
        Nat.mod_eq_of_lt (by omega)]
      omega
  have e1 : m.length % B + ([0x80] ++ List.replicate (B - 1 - m.length % B) 0 : List Nat).length = B := by
    rw [List.length_append, List.length_replicate, List.length_cons, List.length_nil]; omega
  have e2 : (m ++ ([0x80] ++ List.replicate (B - 1 - m.length % B) 0)).length % B +
      (List.replicate (B - L) 0 ++ len (8 * m.length)).length = B := by
    have e3 : (m ++ ([0x80] ++ List.replicate (B - 1 - m.length % B) 0)).length % B = 0 := by
      rw [List.length_append]
      have h2 := Nat.div_add_mod m.length B
      have h3 : m.length + ([0x80] ++ List.replicate (B - 1 - m.length % B) 0 : List Nat).length
          = B * (m.length / B + 1) := by rw [Nat.mul_add, Nat.mul_one]; omega
      rw [h3, Nat.mul_mod_right]
    rw [e3, List.length_append, List.length_replicate, hl]; omega
  unfold mdPad
  rw [hz, ← List.replicate_append_replicate]
  have e4 : m ++ [0x80] ++ (List.replicate (B - 1 - m.length % B) 0 ++ List.replicate (B - L) 0) ++ len (8 * m.length)
      = (m ++ ([0x80] ++ List.replicate (B - 1 - m.length % B) 0)) ++
        (List.replicate (B - L) 0 ++ len (8 * m.length)) := by
    simp only [List.append_assoc]
  rw [e4, (absorbed_full hL e2).1, (absorbed_full hL e1).1, (absorbed_full (f := f) (h := h) hL e1).2, List.nil_append, List.append_assoc]

/-! ## Copying into the buffer of a context -/

theorem put_app {x r src : Str} (h : src.length ≤ r.length) :
    put (x ++ r) x.length src = .ok (x ++ src ++ r.drop src.length) := by
  rw [put_eq (by rw [List.length_append]; omega), List.take_left, List.drop_append, List.drop_of_length_le (by omega),
    List.nil_append, Nat.add_sub_cancel_left]

theorem put_zero {b src : Str} (h : src.length ≤ b.length) : put b 0 src = .ok (src ++ b.drop src.length) := by
  have := put_app (x := []) h
  exact this

theorem put_short {b : Str} {m d : Str} (hb : b.length = B) (ht : b.take (m.length % B) = tailOf B m)
    (hd : m.length % B + d.length < B) :
    ∃ b', put b (m.length % B) d = .ok b' ∧ b'.length = B ∧
      b'.take ((m ++ d).length % B) = tailOf B (m ++ d) := by
  refine ⟨_, put_eq (by omega), ?_, ?_⟩
  · simp only [List.length_append, List.length_take, List.length_drop]; omega
  · rw [(absorbed_short (f := fun (_ : Unit) _ => ()) (h := ()) hd).2, ht]
    have e : (m ++ d).length % B = (tailOf B m ++ d).length := by
      rw [List.length_append, List.length_append, tailOf_length, Nat.add_mod, Nat.mod_eq_of_lt (show d.length < B by omega),
        Nat.mod_eq_of_lt hd]
    rw [e, List.take_left]

theorem put_full {b : Str} {m d : Str} (hb : b.length = B) (ht : b.take (m.length % B) = tailOf B m)
    (hd : m.length % B + d.length = B) :
    put b (m.length % B) d = .ok (tailOf B m ++ d) := by
  rw [put_eq (by omega), ht, List.drop_of_length_le (by omega), List.append_nil]

end Fwknop
