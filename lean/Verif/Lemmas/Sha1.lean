import Verif.Model.Sha1
import Verif.Lemmas.Absorb

/-!
# SHA-1: the model computes the function of FIPS 180-4
-/

namespace Fwknop

open Spec

theorem foldl_range_add {α : Type} (g : α → Nat → α) (a n : Nat) (s : α) :
    (List.range (a + n)).foldl g s = (List.range n).foldl (fun s t => g s (a + t)) ((List.range a).foldl g s) := by
  induction n with
  | zero => rfl
  | succ n ih =>
    rw [← Nat.add_assoc, List.range_succ, List.range_succ, List.foldl_append, List.foldl_append, ih]
    rfl

theorem foldl_range_congr {α : Type} {g h : α → Nat → α} {n : Nat} {s : α} (hg : ∀ s, ∀ t < n, g s t = h s t) :
    (List.range n).foldl g s = (List.range n).foldl h s := by
  induction n with
  | zero => rfl
  | succ n ih =>
    rw [List.range_succ, List.foldl_append, List.foldl_append, ih (fun s t ht => hg s t (by omega))]
    exact hg _ n (by omega)

theorem foldl_seg {α β : Type} (F : α → β → α) (w : List β) (x : β) (a n : Nat) (s : α) (h : a + n ≤ w.length) :
    ((w.drop a).take n).foldl F s = (List.range n).foldl (fun s i => F s (w.getD (a + i) x)) s := by
  induction n with
  | zero => simp
  | succ n ih =>
    rw [List.range_succ, List.foldl_append, ← ih (by omega), List.take_add_one, List.foldl_append]
    have hn : (w.drop a)[n]? = some (w.getD (a + n) x) := by
      rw [List.getElem?_drop, List.getD_eq_getElem?_getD, List.getElem?_eq_getElem (by omega)]
      rfl
    rw [hn]
    rfl

end Fwknop

namespace Fwknop.Sha1

open Spec

theorem rev_swap : Rev32 swap := by
  intro a b c d
  apply BitVec.eq_of_getLsbD_eq
  intro i hi
  simp only [swap, BitVec.getLsbD_or, BitVec.getLsbD_and, BitVec.getLsbD_shiftLeft, BitVec.getLsbD_ushiftRight,
    BitVec.getLsbD_append]
  iterate 32
    cases i with
    | zero => simp
    | succ i => ?_
  omega

theorem rot_eq (x : BitVec 32) (s : Nat) (h : s < 32) : x.rotateLeft s = R32 x s := by
  rw [BitVec.rotateLeft_eq_rotateLeftAux_of_lt h]
  rfl

theorem W_length (data : Str) (n : Nat) : (W data n).length = 16 + n := by
  induction n with
  | zero => simp [W]
  | succ n ih => simp [W, ih]; omega

theorem beWord_swap {b : Str} (hb : IsBytes b) {i : Nat} (hi : 4 * i + 4 ≤ b.length) :
    beWord 32 b i = swap (loadW 4 b i) := by
  have h := rev_swap.le (l := (b.drop (4 * i)).take 4) (by rw [List.length_take, List.length_drop]; omega)
    (isB_take (isB_drop hb _) _)
  unfold beWord loadW
  rw [fromLE_eq]
  exact h.symm

theorem W_eq {data : Str} (hb : IsBytes data) (hl : data.length = 64) (n : Nat) : sha1W data n = W data n := by
  induction n with
  | zero =>
    unfold sha1W W
    apply List.map_congr_left
    intro i hi
    rw [List.mem_range] at hi
    exact beWord_swap hb (by omega)
  | succ n ih =>
    simp only [sha1W, W, ih]
    rw [rot_eq _ 1 (by omega)]

theorem f1_eq (x y z : BitVec 32) : f 1 x y z = (x &&& y) ^^^ (~~~x &&& z) := by
  apply BitVec.eq_of_getLsbD_eq
  intro i hi
  simp only [f, BitVec.getLsbD_xor, BitVec.getLsbD_and, BitVec.getLsbD_or, BitVec.getLsbD_not, hi]
  cases x.getLsbD i <;> cases y.getLsbD i <;> cases z.getLsbD i <;> rfl

theorem f3_eq (x y z : BitVec 32) : f 3 x y z = (x &&& y) ^^^ (x &&& z) ^^^ (y &&& z) := by
  apply BitVec.eq_of_getLsbD_eq
  intro i hi
  simp only [f, BitVec.getLsbD_xor, BitVec.getLsbD_and, BitVec.getLsbD_or]
  cases x.getLsbD i <;> cases y.getLsbD i <;> cases z.getLsbD i <;> rfl

theorem round_eq {n t : Nat} (hf : ∀ x y z, f n x y z = sha1F t x y z) (hc : CONST n = sha1K t) (s : State)
    (w : BitVec 32) : FG n s w = sha1Round t w s := by
  obtain ⟨a, b, c, d, e⟩ := s
  simp only [FG, sha1Round, hf, hc, rot_eq _ 5 (by omega), rot_eq _ 30 (by omega)]
  rw [BitVec.add_assoc _ w, BitVec.add_comm w, ← BitVec.add_assoc]

theorem transform_eq {s : Info} (hb : IsBytes s.data) (hl : s.data.length = 64) :
    sha1_transform s = { s with digest := sha1Block s.digest s.data } := by
  have hw := W_length s.data 64
  have e : (List.range 80).foldl (fun r t => sha1Round t ((sha1W s.data 64).getD t 0) r) s.digest =
      (((W s.data 64).drop 60).take 20).foldl (FG 4) ((((W s.data 64).drop 40).take 20).foldl (FG 3)
        ((((W s.data 64).drop 20).take 20).foldl (FG 2) (((W s.data 64).take 20).foldl (FG 1) s.digest))) := by
    have e0 : (W s.data 64).take 20 = ((W s.data 64).drop 0).take 20 := by rw [List.drop_zero]
    rw [W_eq hb hl, e0]
    rw [foldl_seg _ _ 0 60 20 _ (by omega), foldl_seg _ _ 0 40 20 _ (by omega), foldl_seg _ _ 0 20 20 _ (by omega),
      foldl_seg _ _ 0 0 20 _ (by omega)]
    rw [show (80 : Nat) = 60 + 20 from rfl, foldl_range_add, show (60 : Nat) = 40 + 20 from rfl, foldl_range_add,
      show (40 : Nat) = 20 + 20 from rfl, foldl_range_add]
    have h1 : ∀ (r : State), ∀ t < 20, sha1Round t ((W s.data 64).getD t 0) r = FG 1 r ((W s.data 64).getD (0 + t) 0) := by
      intro r t ht
      rw [Nat.zero_add, round_eq (t := t)]
      · intro x y z; rw [f1_eq, sha1F, if_pos ht]
      · rw [sha1K, if_pos ht]; rfl
    have h2 : ∀ (r : State), ∀ t < 20, sha1Round (20 + t) ((W s.data 64).getD (20 + t) 0) r =
        FG 2 r ((W s.data 64).getD (20 + t) 0) := by
      intro r t ht
      rw [round_eq (t := 20 + t)]
      · intro x y z; rw [sha1F, if_neg (by omega), if_pos (by omega)]; rfl
      · rw [sha1K, if_neg (by omega), if_pos (by omega)]; rfl
    have h3 : ∀ (r : State), ∀ t < 20, sha1Round (20 + 20 + t) ((W s.data 64).getD (20 + 20 + t) 0) r =
        FG 3 r ((W s.data 64).getD (20 + 20 + t) 0) := by
      intro r t ht
      rw [round_eq (t := 20 + 20 + t)]
      · intro x y z; rw [f3_eq, sha1F, if_neg (by omega), if_neg (by omega), if_pos (by omega)]
      · rw [sha1K, if_neg (by omega), if_neg (by omega), if_pos (by omega)]; rfl
    have h4 : ∀ (r : State), ∀ t < 20, sha1Round (20 + 20 + 20 + t) ((W s.data 64).getD (20 + 20 + 20 + t) 0) r =
        FG 4 r ((W s.data 64).getD (20 + 20 + 20 + t) 0) := by
      intro r t ht
      rw [round_eq (t := 20 + 20 + 20 + t)]
      · intro x y z; rw [sha1F, if_neg (by omega), if_neg (by omega), if_neg (by omega)]; rfl
      · rw [sha1K, if_neg (by omega), if_neg (by omega), if_neg (by omega)]; rfl
    rw [foldl_range_congr h1, foldl_range_congr h2, foldl_range_congr h3, foldl_range_congr h4]
  obtain ⟨⟨a, b, c, d, f⟩, lo, hi, data, loc⟩ := s
  simp only [sha1_transform, sha1Block]
  rw [e]

/-! ## The context -/

/-- The digest and the buffer after the bytes `m`. -/
structure Half (c : Info) (m : Str) : Prop where
  digest : c.digest = absorbed sha1Block 64 sha1H0 m
  len : c.data.length = 64
  data : c.data.take (m.length % 64) = tailOf 64 m

/-- The context after the bytes `m`. -/
structure Rep (c : Info) (m : Str) : Prop extends Half c m where
  loc : c.loc = m.length % 64
  lo : c.count_lo = 8 * m.length % 2 ^ 32
  hi : c.count_hi = 8 * m.length / 2 ^ 32 % 2 ^ 32

theorem rep_init {junk : Str} (h : junk.length = 64) : Rep (sha1_init junk) [] where
  digest := by simp [sha1_init, absorbed_nil, sha1H0]
  len := h
  data := by simp [tailOf_nil]
  loc := rfl
  lo := by simp [sha1_init]
  hi := by simp [sha1_init]

theorem transform_full {c : Info} {m d : Str} (h : Half c m) (hm : IsBytes m) (hb : IsBytes d)
    (hd : m.length % 64 + d.length = 64) (l : Nat) :
    Half (sha1_transform { c with data := tailOf 64 m ++ d, loc := l }) (m ++ d) ∧
      (sha1_transform { c with data := tailOf 64 m ++ d, loc := l }).count_lo = c.count_lo ∧
      (sha1_transform { c with data := tailOf 64 m ++ d, loc := l }).count_hi = c.count_hi := by
  obtain ⟨ha, ht⟩ := absorbed_full (f := sha1Block) (h := sha1H0) (by omega) hd
  have hl : (tailOf 64 m ++ d).length = 64 := by rw [List.length_append, tailOf_length]; exact hd
  have e := transform_eq (s := { c with data := tailOf 64 m ++ d, loc := l }) (isB_append (tailOf_bytes hm) hb) hl
  rw [e]
  refine ⟨⟨?_, hl, ?_⟩, rfl, rfl⟩
  · rw [ha, ← h.digest]
  · rw [ht, List.length_append]
    have : (m.length + d.length) % 64 = 0 := by omega
    rw [this, List.take_zero]

theorem updateLoop_half {c : Info} {m : Str} (h : Half c m) (hm : m.length % 64 = 0) (hmb : IsBytes m) (fuel : Nat)
    (d : Str) (hf : d.length < fuel) (hdb : IsBytes d) :
    ∃ c', updateLoop fuel c d = .ok c' ∧ Half c' (m ++ d) ∧ c'.count_lo = c.count_lo ∧ c'.count_hi = c.count_hi ∧
      c'.loc = (m ++ d).length % 64 := by
  induction fuel generalizing c m d with
  | zero => omega
  | succ fuel ih =>
    unfold updateLoop
    by_cases hd : d.length ≥ 64
    · rw [if_pos hd, fetch_eq hd]
      have hl : (d.take 64).length = 64 := by rw [List.length_take]; omega
      have hfull : m.length % 64 + (d.take 64).length = 64 := by omega
      have hp := put_full h.len h.data hfull
      rw [hm] at hp
      simp only [Res.bind_ok, hp]
      obtain ⟨hh, e1, e2⟩ := transform_full h hmb (isB_take hdb 64) hfull c.loc
      obtain ⟨c', h1, h2, h3, h4, h5⟩ := ih hh (by rw [List.length_append, hl]; omega)
        (isB_append hmb (isB_take hdb _)) (d.drop 64) (by rw [List.length_drop]; omega) (isB_drop hdb _)
      rw [List.append_assoc, List.take_append_drop] at h2 h5
      exact ⟨c', h1, h2, h3.trans e1, h4.trans e2, h5⟩
    · rw [if_neg hd]
      obtain ⟨b', h1, h2, h3⟩ := put_short h.len h.data (show m.length % 64 + d.length < 64 by omega)
      rw [hm] at h1
      rw [h1]
      refine ⟨_, rfl, ⟨?_, h2, h3⟩, rfl, rfl, ?_⟩
      · rw [(absorbed_short (f := sha1Block) (h := sha1H0) (show m.length % 64 + d.length < 64 by omega)).1]
        exact h.digest
      · rw [List.length_append]
        show d.length = _
        omega

theorem rep_update {c : Info} {m : Str} (h : Rep c m) (hmb : IsBytes m) (d : Str) (hdb : IsBytes d) :
    ∃ c', sha1_update c d = .ok c' ∧ Rep c' (m ++ d) := by
  have hlt : m.length % 64 < 64 := Nat.mod_lt _ (by omega)
  have hb0 : (addBits c d.length).count_lo = 8 * (m ++ d).length % 2 ^ 32 := by
    simp only [addBits, h.lo, List.length_append]
    omega
  have hb1 : (addBits c d.length).count_hi = 8 * (m ++ d).length / 2 ^ 32 % 2 ^ 32 := by
    simp only [addBits, h.lo, h.hi, List.length_append]
    split <;> omega
  have ht : (addBits c d.length).loc = m.length % 64 := h.loc
  have hh : Half (addBits c d.length) m := ⟨h.digest, h.len, h.data⟩
  suffices hs : ∃ c', sha1_update c d = .ok c' ∧ Half c' (m ++ d) ∧ c'.count_lo = (addBits c d.length).count_lo ∧
      c'.count_hi = (addBits c d.length).count_hi ∧ c'.loc = (m ++ d).length % 64 by
    obtain ⟨c', h1, h2, h3, h4, h5⟩ := hs
    exact ⟨c', h1, ⟨h2, h5, h3.trans hb0, h4.trans hb1⟩⟩
  simp only [sha1_update, ht]
  generalize addBits c d.length = c1 at hh ht
  by_cases h0 : m.length % 64 = 0
  · rw [if_neg (by omega)]
    exact updateLoop_half hh h0 hmb _ d (by omega) hdb
  · rw [if_pos h0]
    by_cases h1 : 64 - m.length % 64 > d.length
    · rw [if_pos h1, fetch_eq (Nat.le_refl _), List.take_length]
      obtain ⟨b', g1, g2, g3⟩ := put_short hh.len hh.data (show m.length % 64 + d.length < 64 by omega)
      simp only [Res.bind_ok]
      rw [g1]
      simp only [Res.bind_ok, Res.pure_eq]
      rw [if_neg (by omega)]
      refine ⟨_, rfl, ⟨?_, g2, g3⟩, rfl, rfl, ?_⟩
      · rw [(absorbed_short (f := sha1Block) (h := sha1H0) (show m.length % 64 + d.length < 64 by omega)).1]
        exact hh.digest
      · rw [List.length_append]
        show m.length % 64 + d.length = _
        omega
    · rw [if_neg h1, fetch_eq (by omega)]
      have hl : (d.take (64 - m.length % 64)).length = 64 - m.length % 64 := by rw [List.length_take]; omega
      have hfull : m.length % 64 + (d.take (64 - m.length % 64)).length = 64 := by omega
      have hp := put_full hh.len hh.data hfull
      simp only [Res.bind_ok, hp]
      rw [if_pos (by omega)]
      obtain ⟨hh2, e1, e2⟩ := transform_full hh hmb (isB_take hdb (64 - m.length % 64)) hfull
        (m.length % 64 + (64 - m.length % 64))
      obtain ⟨c', g1, g2, g3, g4, g5⟩ := updateLoop_half hh2 (by rw [List.length_append, hl]; omega)
        (isB_append hmb (isB_take hdb _)) (d.length + 1)
        (d.drop (64 - m.length % 64)) (by rw [List.length_drop]; omega) (isB_drop hdb _)
      rw [List.append_assoc, List.take_append_drop] at g2 g5
      exact ⟨c', g1, g2, g3.trans e1, g4.trans e2, g5⟩

theorem bytes_eq (w : Nat) : bytes w = beBytes 4 w := by
  simp only [bytes, beBytes, leBytes, List.reverse_cons, List.reverse_nil, List.nil_append, List.cons_append,
    List.cons.injEq, and_true]
  omega

theorem lenBytes (n : Nat) : bytes (n / 2 ^ 32 % 2 ^ 32) ++ bytes (n % 2 ^ 32) = beBytes 8 n := by
  simp only [bytes, beBytes, leBytes, List.reverse_cons, List.reverse_nil, List.nil_append, List.cons_append,
    List.cons.injEq, and_true]
  refine ⟨?_, ?_, ?_, ?_, ?_, ?_, ?_, ?_⟩ <;> omega

theorem copy_eq {s : Info} (hb : IsBytes s.data) (hl : s.data.length = 64) :
    sha1_transform_and_copy s = sha1Out (sha1Block s.digest s.data) := by
  unfold sha1_transform_and_copy
  rw [transform_eq hb hl]
  generalize sha1Block s.digest s.data = r
  obtain ⟨a, b, c, d, e⟩ := r
  simp only [sha1Out, bytes_eq]

theorem final_eq {c : Info} {m : Str} (h : Rep c m) (hmb : IsBytes m) : sha1_final c = .ok (Spec.sha1 m) := by
  have ht : c.count_lo / 8 % 64 = m.length % 64 := by rw [h.lo]; omega
  have htl := tailOf_length 64 m
  have htb : IsBytes (tailOf 64 m) := tailOf_bytes hmb
  have hlt : m.length % 64 < 64 := Nat.mod_lt _ (by omega)
  have hsplit : c.data = tailOf 64 m ++ c.data.drop (m.length % 64) := by
    rw [← h.data, List.take_append_drop]
  have hdl : (c.data.drop (m.length % 64)).length = 64 - m.length % 64 := by rw [List.length_drop, h.len]
  have hlen : (beBytes 8 (8 * m.length)).length = 8 := beBytes_length _ _
  generalize c.data.drop (m.length % 64) = r at hsplit hdl
  have h1 : put c.data (m.length % 64) [0x80] = .ok (tailOf 64 m ++ [0x80] ++ r.drop 1) := by
    rw [hsplit, ← htl, put_app (by simp; omega)]; rfl
  have e1 : (tailOf 64 m ++ [0x80]).length = m.length % 64 + 1 := by simp [htl]
  have hone : IsBytes [0x80] := by intro x hx; simp at hx; omega
  have hend : ∀ x y : Str, x.length = 56 → y.length = 8 →
      ∃ i, put (x ++ y) 56 (bytes c.count_hi) = .ok i ∧
        put i 60 (bytes c.count_lo) = .ok (x ++ beBytes 8 (8 * m.length)) := by
    intro x y hx hy
    have l0 : (bytes c.count_hi).length = 4 := rfl
    have l1 : (bytes c.count_lo).length = 4 := rfl
    refine ⟨_, by rw [show (56 : Nat) = x.length from hx.symm, put_app (by omega)], ?_⟩
    rw [show (60 : Nat) = (x ++ bytes c.count_hi).length by simp [hx, l0], put_app (by simp; omega)]
    rw [List.drop_of_length_le (by simp; omega), List.append_nil, List.append_assoc, h.lo, h.hi, lenBytes]
  by_cases hc : m.length % 64 < 56
  · have hp : pad c = .ok { c with
        data := (tailOf 64 m ++ [0x80] ++ List.replicate (64 - 1 - 8 - m.length % 64) 0) ++
          r.drop (64 - 8 - m.length % 64) } := by
      simp only [pad, ht, h1, Res.bind_ok]
      rw [if_neg (by omega), ← e1, put_app (by simp; omega)]
      simp only [Res.bind_ok, Res.pure_eq, List.length_replicate, List.drop_drop, e1]
      rw [show 64 - 8 - (m.length % 64 + 1) = 64 - 1 - 8 - m.length % 64 by omega,
        show 1 + (64 - 1 - 8 - m.length % 64) = 64 - 8 - m.length % 64 by omega]
    obtain ⟨i1, g1, g2⟩ := hend (tailOf 64 m ++ [0x80] ++ List.replicate (64 - 1 - 8 - m.length % 64) 0)
      (r.drop (64 - 8 - m.length % 64)) (by simp [htl]; omega) (by simp; omega)
    unfold sha1_final
    rw [hp]
    simp only [Res.bind_ok]
    rw [g1]
    simp only [Res.bind_ok]
    rw [g2]
    simp only [Res.bind_ok, Res.pure_eq]
    rw [copy_eq, Spec.sha1, pad_short hlen (by omega), ← h.digest]
    · exact isB_append (isB_append (isB_append htb hone) (isB_replicate _)) (beBytes_bytes _ _)
    · simp [htl]; omega
  · have hbk : IsBytes (tailOf 64 m ++ [0x80] ++ List.replicate (64 - 1 - m.length % 64) 0) :=
      isB_append (isB_append htb hone) (isB_replicate _)
    have hp : pad c = .ok { c with
        digest := sha1Block c.digest (tailOf 64 m ++ [0x80] ++ List.replicate (64 - 1 - m.length % 64) 0)
        data := List.replicate (64 - 8) 0 ++
          (tailOf 64 m ++ [0x80] ++ List.replicate (64 - 1 - m.length % 64) 0).drop 56 } := by
      simp only [pad, ht, h1, Res.bind_ok]
      rw [if_pos (by omega), ← e1, put_app (by simp; omega)]
      simp only [Res.bind_ok, Res.pure_eq, List.length_replicate]
      rw [List.drop_of_length_le (by simp [htl]; omega), List.append_nil]
      rw [e1, show 64 - (m.length % 64 + 1) = 64 - 1 - m.length % 64 by omega]
      rw [transform_eq hbk (by simp [htl]; omega)]
      simp only []
      rw [put_eq (by simp [htl]; omega)]
      simp only [Res.bind_ok, List.take_zero, List.nil_append, List.length_replicate, Nat.zero_add]
    obtain ⟨i1, g1, g2⟩ := hend (List.replicate (64 - 8) 0)
      ((tailOf 64 m ++ [0x80] ++ List.replicate (64 - 1 - m.length % 64) 0).drop 56) (by simp) (by simp [htl]; omega)
    unfold sha1_final
    rw [hp]
    simp only [Res.bind_ok]
    rw [g1]
    simp only [Res.bind_ok]
    rw [g2]
    simp only [Res.bind_ok, Res.pure_eq]
    rw [copy_eq, Spec.sha1, pad_long hlen (by omega) (by omega) (by omega), ← h.digest]
    · exact isB_append (isB_replicate _) (beBytes_bytes _ _)
    · simp

theorem sha1_eq {junk m : Str} (hj : junk.length = 64) (hm : m.length < 2 ^ 31) (hb : IsBytes m) :
    sha1 junk m = .ok (Spec.sha1 m) := by
  obtain ⟨c, h1, h2⟩ := rep_update (rep_init hj) (by intro x hx; cases hx) m hb
  unfold sha1
  rw [Nat.mod_eq_of_lt (show m.length < 2 ^ 32 by omega), List.take_length, Res.mem_of_not (by omega)]
  simp only [Res.bind_ok]
  rw [h1]
  exact final_eq h2 hb

end Fwknop.Sha1
