import Verif.Model.Md5
import Verif.Lemmas.Absorb

/-!
# MD5: the model computes the function of RFC 1321
-/

namespace Fwknop.Md5

open Spec

theorem leWord_load (b : Str) (k : Nat) : leWord 32 b k = loadW 4 b k := by
  unfold leWord loadW
  rw [fromLE_eq]

/-- The macro used by step `i`. -/
def fnOf (i : Nat) : Fn := if i < 16 then .F1 else if i < 32 then .F2 else if i < 48 then .F3 else .F4

theorem lines_eq : lines = (List.range 64).map fun i => (fnOf i, i % 4, md5K i, md5T.getD i 0, md5S i) := by
  decide +kernel

theorem f1_eq (x y z : BitVec 32) : f1 x y z = (x &&& y) ||| (~~~x &&& z) := by
  apply BitVec.eq_of_getLsbD_eq
  intro i hi
  simp only [f1, BitVec.getLsbD_xor, BitVec.getLsbD_and, BitVec.getLsbD_or, BitVec.getLsbD_not, hi]
  cases x.getLsbD i <;> cases y.getLsbD i <;> cases z.getLsbD i <;> rfl

theorem f2_eq (x y z : BitVec 32) : f1 z x y = (x &&& z) ||| (y &&& ~~~z) := by
  rw [f1_eq, BitVec.and_comm z x, BitVec.and_comm _ y]

theorem eval_eq (i : Nat) (x y z : BitVec 32) : (fnOf i).eval x y z = md5F i x y z := by
  unfold fnOf md5F
  by_cases h1 : i < 16
  · rw [if_pos h1, if_pos h1]; exact f1_eq x y z
  · rw [if_neg h1, if_neg h1]
    by_cases h2 : i < 32
    · rw [if_pos h2, if_pos h2]; exact f2_eq x y z
    · rw [if_neg h2, if_neg h2]
      by_cases h3 : i < 48
      · rw [if_pos h3, if_pos h3]; rfl
      · rw [if_neg h3, if_neg h3]; rfl

theorem rot_eq (x : BitVec 32) (s : Nat) (h : s < 32) : x.rotateLeft s = x <<< s ||| x >>> (32 - s) := by
  rw [BitVec.rotateLeft_eq_rotateLeftAux_of_lt h]
  rfl

theorem step_eq (i : Nat) (w x y z u t : BitVec 32) (hs : md5S i < 32) :
    MD5STEP (fnOf i) w x y z (u + t) (md5S i) = x + (w + md5F i x y z + u + t).rotateLeft (md5S i) := by
  unfold MD5STEP
  rw [eval_eq, rot_eq _ _ hs]
  simp only [BitVec.add_assoc]
  rw [BitVec.add_comm]

/-- The registers in the order in which step `i` of the RFC sees them. -/
def view (i : Nat) : State → Four
  | (a, b, c, d) => match i % 4 with
    | 0 => (a, b, c, d)
    | 1 => (d, a, b, c)
    | 2 => (c, d, a, b)
    | _ => (b, c, d, a)

theorem md5S_lt : ∀ i < 64, md5S i < 32 := by decide +kernel

theorem op_eq (inp : Str) (i : Nat) (hi : i < 64) (s : State) :
    md5Op (leWord 32 inp) i (view i s) =
      view (i + 1) (step inp s (fnOf i, i % 4, md5K i, md5T.getD i 0, md5S i)) := by
  obtain ⟨a, b, c, d⟩ := s
  have hs := md5S_lt i hi
  have h4 : i % 4 = 0 ∨ i % 4 = 1 ∨ i % 4 = 2 ∨ i % 4 = 3 := by omega
  rcases h4 with h | h | h | h
  · have h' : (i + 1) % 4 = 1 := by omega
    simp only [view, h, h', step, md5Op, leWord_load, step_eq i _ _ _ _ _ _ hs]
  · have h' : (i + 1) % 4 = 2 := by omega
    simp only [view, h, h', step, md5Op, leWord_load, step_eq i _ _ _ _ _ _ hs]
  · have h' : (i + 1) % 4 = 3 := by omega
    simp only [view, h, h', step, md5Op, leWord_load, step_eq i _ _ _ _ _ _ hs]
  · have h' : (i + 1) % 4 = 0 := by omega
    simp only [view, h, h', step, md5Op, leWord_load, step_eq i _ _ _ _ _ _ hs]

theorem ops_eq (inp : Str) (s : State) : ∀ n ≤ 64,
    (List.range n).foldl (fun s i => md5Op (leWord 32 inp) i s) s =
      view n ((List.range n).foldl
        (fun s i => step inp s (fnOf i, i % 4, md5K i, md5T.getD i 0, md5S i)) s) := by
  intro n
  induction n with
  | zero => intro _; rfl
  | succ n ih =>
    intro hn
    rw [List.range_succ, List.foldl_append, List.foldl_append, ih (by omega)]
    exact op_eq inp n (by omega) _

theorem transform_eq (s : State) (inp : Str) : MD5Transform s inp = md5Block s inp := by
  obtain ⟨a, b, c, d⟩ := s
  simp only [MD5Transform, md5Block]
  rw [ops_eq inp _ 64 (Nat.le_refl _), lines_eq, List.foldl_map]
  rfl

/-! ## The context -/

/-- The context after the bytes `m`. -/
structure Rep (c : Ctx) (m : Str) : Prop where
  buf : c.buf = absorbed md5Block 64 md5H0 m
  len : c.inp.length = 64
  inp : c.inp.take (m.length % 64) = tailOf 64 m
  bits0 : c.bits0 = 8 * m.length % 2 ^ 32
  bits1 : c.bits1 = 8 * m.length / 2 ^ 32 % 2 ^ 32

theorem rep_init {junk : Str} (h : junk.length = 64) : Rep (MD5Init junk) [] where
  buf := by simp [MD5Init, absorbed_nil, md5H0]
  len := h
  inp := by simp [tailOf_nil]
  bits0 := by simp [MD5Init]
  bits1 := by simp [MD5Init]

/-- Everything but the counters. -/
structure Half (c : Ctx) (m : Str) : Prop where
  buf : c.buf = absorbed md5Block 64 md5H0 m
  len : c.inp.length = 64
  inp : c.inp.take (m.length % 64) = tailOf 64 m

theorem updateLoop_half {c : Ctx} {m : Str} (h : Half c m) (hm : m.length % 64 = 0) (fuel : Nat) (d : Str)
    (hf : d.length < fuel) :
    ∃ c', updateLoop fuel c d = .ok c' ∧ Half c' (m ++ d) ∧ c'.bits0 = c.bits0 ∧ c'.bits1 = c.bits1 := by
  induction fuel generalizing c m d with
  | zero => omega
  | succ fuel ih =>
    unfold updateLoop
    by_cases hd : d.length ≥ 64
    · rw [if_pos hd, fetch_eq hd]
      have hl : (d.take 64).length = 64 := by rw [List.length_take]; omega
      have hfull : m.length % 64 + (d.take 64).length = 64 := by omega
      have hp := put_full h.len h.inp hfull
      rw [hm] at hp
      obtain ⟨ha, ht⟩ := absorbed_full (f := md5Block) (h := md5H0) (by omega) hfull
      simp only [Res.bind_ok, hp]
      have hh : Half { c with inp := tailOf 64 m ++ d.take 64, buf := MD5Transform c.buf (tailOf 64 m ++ d.take 64) }
          (m ++ d.take 64) := by
        refine ⟨?_, ?_, ?_⟩
        · rw [ha, ← h.buf, ← transform_eq]
        · rw [List.length_append, tailOf_length]; omega
        · rw [ht, List.length_append, hl]
          have : (m.length + 64) % 64 = 0 := by omega
          rw [this]; rfl
      obtain ⟨c', h1, h2, h3, h4⟩ := ih hh (by rw [List.length_append, hl]; omega) (d.drop 64)
        (by rw [List.length_drop]; omega)
      rw [List.append_assoc, List.take_append_drop] at h2
      exact ⟨c', h1, h2, h3, h4⟩
    · rw [if_neg hd]
      obtain ⟨b', h1, h2, h3⟩ := put_short h.len h.inp (show m.length % 64 + d.length < 64 by omega)
      rw [hm] at h1
      rw [h1]
      refine ⟨_, rfl, ⟨?_, h2, h3⟩, rfl, rfl⟩
      rw [(absorbed_short (f := md5Block) (h := md5H0) (show m.length % 64 + d.length < 64 by omega)).1]
      exact h.buf

theorem rep_update {c : Ctx} {m : Str} (h : Rep c m) (d : Str) :
    ∃ c', MD5Update c d = .ok c' ∧ Rep c' (m ++ d) := by
  have hb0 : (addBits c d.length).bits0 = 8 * (m ++ d).length % 2 ^ 32 := by
    simp only [addBits, h.bits0, List.length_append]
    omega
  have hb1 : (addBits c d.length).bits1 = 8 * (m ++ d).length / 2 ^ 32 % 2 ^ 32 := by
    simp only [addBits, h.bits0, h.bits1, List.length_append]
    split <;> omega
  have ht : c.bits0 / 8 % 64 = m.length % 64 := by rw [h.bits0]; omega
  have hh : Half (addBits c d.length) m := ⟨h.buf, h.len, h.inp⟩
  suffices hs : ∃ c', MD5Update c d = .ok c' ∧ Half c' (m ++ d) ∧ c'.bits0 = (addBits c d.length).bits0 ∧
      c'.bits1 = (addBits c d.length).bits1 by
    obtain ⟨c', h1, h2, h3, h4⟩ := hs
    exact ⟨c', h1, h2.buf, h2.len, h2.inp, h3.trans hb0, h4.trans hb1⟩
  simp only [MD5Update, ht]
  by_cases h0 : m.length % 64 = 0
  · rw [if_neg (by omega)]
    exact updateLoop_half hh h0 _ d (by omega)
  · rw [if_pos h0]
    by_cases h1 : d.length < 64 - m.length % 64
    · rw [if_pos h1]
      obtain ⟨b', g1, g2, g3⟩ := put_short hh.len hh.inp (show m.length % 64 + d.length < 64 by omega)
      rw [g1]
      refine ⟨_, rfl, ⟨?_, g2, g3⟩, rfl, rfl⟩
      rw [(absorbed_short (f := md5Block) (h := md5H0) (show m.length % 64 + d.length < 64 by omega)).1]
      exact h.buf
    · rw [if_neg h1, fetch_eq (by omega)]
      have hl : (d.take (64 - m.length % 64)).length = 64 - m.length % 64 := by rw [List.length_take]; omega
      have hfull : m.length % 64 + (d.take (64 - m.length % 64)).length = 64 := by omega
      have hp := put_full hh.len hh.inp hfull
      obtain ⟨ha, ht⟩ := absorbed_full (f := md5Block) (h := md5H0) (by omega) hfull
      simp only [Res.bind_ok, hp]
      have hh2 : Half { addBits c d.length with
            inp := tailOf 64 m ++ d.take (64 - m.length % 64)
            buf := MD5Transform (addBits c d.length).buf (tailOf 64 m ++ d.take (64 - m.length % 64)) }
          (m ++ d.take (64 - m.length % 64)) := by
        refine ⟨?_, ?_, ?_⟩
        · rw [ha, ← h.buf, ← transform_eq]; rfl
        · rw [List.length_append, tailOf_length]; omega
        · rw [ht, List.length_append, hl]
          have : (m.length + (64 - m.length % 64)) % 64 = 0 := by omega
          rw [this]; rfl
      obtain ⟨c', g1, g2, g3, g4⟩ := updateLoop_half hh2 (by rw [List.length_append, hl]; omega) (d.length + 1)
        (d.drop (64 - m.length % 64)) (by rw [List.length_drop]; omega)
      rw [List.append_assoc, List.take_append_drop] at g2
      exact ⟨c', g1, g2, g3, g4⟩

theorem lenBytes (n : Nat) : toLE 4 (n % 2 ^ 32) ++ toLE 4 (n / 2 ^ 32 % 2 ^ 32) = leBytes 8 n := by
  simp only [toLE, leBytes, List.cons_append, List.nil_append, List.cons.injEq, and_true]
  refine ⟨?_, ?_, ?_, ?_, ?_, ?_, ?_, ?_⟩ <;> omega

theorem out_eq (s : State) : out s = md5Out s := by
  simp only [out, md5Out, toLE_eq]

theorem final_eq {c : Ctx} {m : Str} (h : Rep c m) : MD5Final c = .ok (Spec.md5 m) := by
  have ht : c.bits0 / 8 % 64 = m.length % 64 := by rw [h.bits0]; omega
  have htl := tailOf_length 64 m
  have hlt : m.length % 64 < 64 := Nat.mod_lt _ (by omega)
  have hsplit : c.inp = tailOf 64 m ++ c.inp.drop (m.length % 64) := by
    rw [← h.inp, List.take_append_drop]
  have hdl : (c.inp.drop (m.length % 64)).length = 64 - m.length % 64 := by rw [List.length_drop, h.len]
  have hlen : (leBytes 8 (8 * m.length)).length = 8 := leBytes_length _ _
  generalize c.inp.drop (m.length % 64) = r at hsplit hdl
  have h1 : put c.inp (m.length % 64) [0x80] = .ok (tailOf 64 m ++ [0x80] ++ r.drop 1) := by
    rw [hsplit, ← htl, put_app (by simp; omega)]; rfl
  have e1 : (tailOf 64 m ++ [0x80]).length = m.length % 64 + 1 := by simp [htl]
  have hend : ∀ x y : Str, x.length = 56 → y.length = 8 →
      ∃ i, put (x ++ y) 56 (toLE 4 c.bits0) = .ok i ∧
        put i 60 (toLE 4 c.bits1) = .ok (x ++ leBytes 8 (8 * m.length)) := by
    intro x y hx hy
    have l0 : (toLE 4 c.bits0).length = 4 := by simp [toLE_eq]
    have l1 : (toLE 4 c.bits1).length = 4 := by simp [toLE_eq]
    refine ⟨_, by rw [show (56 : Nat) = x.length from hx.symm, put_app (by omega)], ?_⟩
    rw [show (60 : Nat) = (x ++ toLE 4 c.bits0).length by simp [hx, l0], put_app (by simp; omega)]
    rw [List.drop_of_length_le (by simp; omega), List.append_nil, List.append_assoc, h.bits0, h.bits1, lenBytes]
  by_cases hc : m.length % 64 < 56
  · have hp : pad c = .ok { c with
        inp := (tailOf 64 m ++ [0x80] ++ List.replicate (64 - 1 - 8 - m.length % 64) 0) ++
          r.drop (64 - 8 - m.length % 64) } := by
      simp only [pad, ht, h1, Res.bind_ok]
      rw [if_neg (by omega), ← e1, put_app (by simp; omega)]
      simp only [Res.bind_ok, Res.pure_eq, List.length_replicate, List.drop_drop]
      rw [show 64 - 1 - m.length % 64 - 8 = 64 - 1 - 8 - m.length % 64 by omega,
        show 1 + (64 - 1 - 8 - m.length % 64) = 64 - 8 - m.length % 64 by omega]
    have he := hend (tailOf 64 m ++ [0x80] ++ List.replicate (64 - 1 - 8 - m.length % 64) 0)
      (r.drop (64 - 8 - m.length % 64)) (by simp [htl]; omega) (by simp; omega)
    unfold MD5Final
    rw [hp]
    simp only [Res.bind_ok]
    obtain ⟨i1, g1, g2⟩ := he
    rw [g1]
    simp only [Res.bind_ok]
    rw [g2]
    simp only [Res.bind_ok, Res.pure_eq]
    rw [Spec.md5, pad_short hlen (by omega), ← h.buf, transform_eq, out_eq]
  · have hp : pad c = .ok { c with
        buf := MD5Transform c.buf (tailOf 64 m ++ [0x80] ++ List.replicate (64 - 1 - m.length % 64) 0)
        inp := List.replicate (64 - 8) 0 ++
          (tailOf 64 m ++ [0x80] ++ List.replicate (64 - 1 - m.length % 64) 0).drop 56 } := by
      simp only [pad, ht, h1, Res.bind_ok]
      rw [if_pos (by omega), ← e1, put_app (by simp; omega)]
      simp only [Res.bind_ok, Res.pure_eq, List.length_replicate]
      rw [List.drop_of_length_le (by simp; omega), List.append_nil]
      rw [put_eq (by simp [htl]; omega)]
      simp only [Res.bind_ok, List.take_zero, List.nil_append, List.length_replicate, Nat.zero_add]
    have he := hend (List.replicate (64 - 8) 0)
      ((tailOf 64 m ++ [0x80] ++ List.replicate (64 - 1 - m.length % 64) 0).drop 56) (by simp) (by simp [htl]; omega)
    unfold MD5Final
    rw [hp]
    simp only [Res.bind_ok]
    obtain ⟨i1, g1, g2⟩ := he
    rw [g1]
    simp only [Res.bind_ok]
    rw [g2]
    simp only [Res.bind_ok, Res.pure_eq]
    rw [Spec.md5, pad_long hlen (by omega) (by omega) (by omega), ← h.buf, transform_eq, transform_eq, out_eq]

theorem md5_eq {junk m : Str} (hj : junk.length = 64) (hm : m.length < 2 ^ 32) :
    md5 junk m = .ok (Spec.md5 m) := by
  obtain ⟨c, h1, h2⟩ := rep_update (rep_init hj) m
  unfold md5
  rw [Nat.mod_eq_of_lt hm, List.take_length, h1]
  exact final_eq h2

end Fwknop.Md5
