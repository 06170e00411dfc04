import Verif.Model.Sha2
import Verif.Lemmas.Absorb

/-!
# SHA-256: the model computes the function of FIPS 180-4
-/

namespace Fwknop.Sha2

open Spec

/-! ## The message schedule -/

theorem sha2W_length {w : Nat} (P : Sha2 w) (M : Str) (n : Nat) : (sha2W P M n).length = 16 + n := by
  induction n with
  | zero => simp [sha2W]
  | succ n ih => simp [sha2W, ih]; omega

theorem sha2W_stable {w : Nat} (P : Sha2 w) (M : Str) (n d t : Nat) (ht : t < 16 + n) :
    (sha2W P M (n + d)).getD t 0 = (sha2W P M n).getD t 0 := by
  induction d with
  | zero => rfl
  | succ d ih =>
    rw [← ih, ← Nat.add_assoc]
    simp only [sha2W]
    rw [List.getD_eq_getElem?_getD, List.getElem?_append_left (by rw [sha2W_length]; omega),
      ← List.getD_eq_getElem?_getD]

theorem sha2W_first {w : Nat} (P : Sha2 w) (M : Str) (n t : Nat) (ht : t < 16) :
    (sha2W P M n).getD t 0 = beWord w M t := by
  have h := sha2W_stable P M 0 n t (by omega)
  rw [Nat.zero_add] at h
  rw [h, sha2W, List.getD_eq_getElem?_getD, List.getElem?_map, List.getElem?_range ht]
  rfl

theorem sha2W_next {w : Nat} (P : Sha2 w) (M : Str) (n t : Nat) (h16 : 16 ≤ t) (ht : t < 16 + n) :
    (sha2W P M n).getD t 0 = P.s1 ((sha2W P M n).getD (t - 2) 0) + (sha2W P M n).getD (t - 7) 0 +
      P.s0 ((sha2W P M n).getD (t - 15) 0) + (sha2W P M n).getD (t - 16) 0 := by
  have e : n = t - 16 + (n - (t - 16)) := by omega
  have e1 : n = t - 16 + 1 + (n - (t - 16) - 1) := by omega
  have st : ∀ u < t, (sha2W P M n).getD u 0 = (sha2W P M (t - 16)).getD u 0 := by
    intro u hu
    have := sha2W_stable P M (t - 16) (n - (t - 16)) u (by omega)
    rw [← e] at this
    exact this
  have s1 : (sha2W P M n).getD t 0 = (sha2W P M (t - 16 + 1)).getD t 0 := by
    have := sha2W_stable P M (t - 16 + 1) (n - (t - 16) - 1) t (by omega)
    rw [← e1] at this
    exact this
  rw [s1, st (t - 2) (by omega), st (t - 7) (by omega), st (t - 15) (by omega), st (t - 16) (by omega)]
  simp only [sha2W]
  rw [List.getD_eq_getElem?_getD (i := t), List.getElem?_append_right (by rw [sha2W_length]; omega), sha2W_length,
    show t - (16 + (t - 16)) = 0 by omega, show 16 + (t - 16) = t by omega]
  rfl

theorem and15 (n : Nat) : n &&& 0x0f = n % 16 := Nat.and_two_pow_sub_one_eq_mod n 4

/-! ## The transform -/

theorem rev32 : Rev32 REVERSE32 := by
  intro a b c d
  apply BitVec.eq_of_getLsbD_eq
  intro i hi
  simp only [REVERSE32, BitVec.getLsbD_or, BitVec.getLsbD_and, BitVec.getLsbD_shiftLeft, BitVec.getLsbD_ushiftRight,
    BitVec.getLsbD_append]
  iterate 32
    cases i with
    | zero => simp
    | succ i => ?_
  omega

theorem rev64 : Rev64 REVERSE64 := by
  intro a b c d e f g h
  apply BitVec.eq_of_getLsbD_eq
  intro i hi
  simp only [REVERSE64, BitVec.getLsbD_or, BitVec.getLsbD_and, BitVec.getLsbD_shiftLeft, BitVec.getLsbD_ushiftRight,
    BitVec.getLsbD_append]
  iterate 64
    cases i with
    | zero => simp
    | succ i => ?_
  omega

theorem S32_eq (b : Nat) (x : BitVec 32) (h : b < 32) : S32 b x = x.rotateRight b := by
  rw [BitVec.rotateRight_eq_rotateRightAux_of_lt h]
  rfl

theorem K256_eq : K256 = sha256K := rfl

theorem round256_eq (s : State 32) (k w : BitVec 32) : round256 s k w = sha2Round sha256Fns k w s := by
  obtain ⟨a, b, c, d, e, f, g, h⟩ := s
  simp only [round256, sha2Round, sha256Fns, Sigma0_256, Sigma1_256, S32_eq 2 _ (by omega), S32_eq 13 _ (by omega),
    S32_eq 22 _ (by omega), S32_eq 6 _ (by omega), S32_eq 11 _ (by omega), S32_eq 25 _ (by omega)]
  rfl

theorem sigma0_256_eq (x : BitVec 32) : sigma0_256 x = sha256Fns.s0 x := by
  simp only [sigma0_256, sha256Fns, S32_eq 7 _ (by omega), S32_eq 18 _ (by omega)]

theorem sigma1_256_eq (x : BitVec 32) : sigma1_256 x = sha256Fns.s1 x := by
  simp only [sigma1_256, sha256Fns, S32_eq 17 _ (by omega), S32_eq 19 _ (by omega)]

theorem beWord_rev32 {b : Str} (hb : IsBytes b) {i : Nat} (hi : 4 * i + 4 ≤ b.length) :
    REVERSE32 (loadW 4 b i) = beWord 32 b i := by
  have h := rev32.le (l := (b.drop (4 * i)).take 4) (by rw [List.length_take, List.length_drop]; omega)
    (isB_take (isB_drop hb _) _)
  unfold beWord loadW
  rw [fromLE_eq]
  exact h

/-- The rounds up to `n` of the standard. -/
def rounds256 (D : Str) (n : Nat) (s : State 32) : State 32 :=
  (List.range n).foldl (fun s t => sha2Round sha256Fns (sha256K.getD t 0) ((sha2W sha256Fns D 48).getD t 0) s) s

theorem rounds256_succ (D : Str) (n : Nat) (s : State 32) : rounds256 D (n + 1) s =
    sha2Round sha256Fns (sha256K.getD n 0) ((sha2W sha256Fns D 48).getD n 0) (rounds256 D n s) := by
  unfold rounds256
  rw [List.range_succ, List.foldl_append]
  rfl

theorem first256_run (data : Option Str) (st : State 32) (buf : Str) (hl : buf.length = 64)
    (hd : (data.getD buf).length = 64) (hb : IsBytes (data.getD buf)) : ∀ j ≤ 16, ∃ b,
      (List.range j).foldl (first256 data) (st, buf) = (rounds256 (data.getD buf) j st, b) ∧ b.length = 64 ∧
      (∀ i < j, loadW 4 b i = (sha2W sha256Fns (data.getD buf) 48).getD i 0) ∧
      (∀ i, j ≤ i → loadW 4 b i = loadW 4 buf i) := by
  intro j
  induction j with
  | zero => intro _; exact ⟨buf, rfl, hl, fun i hi => by omega, fun _ _ => rfl⟩
  | succ j ih =>
    intro hj
    obtain ⟨b, h1, h2, h3, h4⟩ := ih (by omega)
    have hsrc : loadW 4 (data.getD b) j = loadW 4 (data.getD buf) j := by
      cases data with
      | none => exact h4 j (Nat.le_refl _)
      | some x => rfl
    have hw : loadW 4 (storeW 4 b j (REVERSE32 (loadW 4 (data.getD b) j))) j =
        (sha2W sha256Fns (data.getD buf) 48).getD j 0 := by
      rw [loadW_storeW_self (by omega), hsrc, beWord_rev32 hb (by omega), sha2W_first _ _ _ _ (by omega)]
    refine ⟨storeW 4 b j (REVERSE32 (loadW 4 (data.getD b) j)), ?_, ?_, ?_, ?_⟩
    · rw [List.range_succ, List.foldl_append, h1]
      simp only [List.foldl_cons, List.foldl_nil, first256]
      rw [hw, round256_eq, K256_eq, rounds256_succ]
    · rw [storeW_length _ _ _ _ (by omega), h2]
    · intro i hi
      by_cases hij : i = j
      · rw [hij]; exact hw
      · rw [loadW_storeW_ne (by omega) (by omega) hij]; exact h3 i (by omega)
    · intro i hi
      rw [loadW_storeW_ne (by omega) (by omega) (by omega)]; exact h4 i (by omega)

theorem second256_run (D : Str) (st : State 32) (buf : Str) (hl : buf.length = 64)
    (hw : ∀ i < 16, loadW 4 buf i = (sha2W sha256Fns D 48).getD i 0) : ∀ n ≤ 48, ∃ b,
      (List.range' 16 n).foldl second256 (rounds256 D 16 st, buf) = (rounds256 D (16 + n) st, b) ∧ b.length = 64 ∧
      (∀ t, n ≤ t → t < 16 + n → loadW 4 b (t % 16) = (sha2W sha256Fns D 48).getD t 0) := by
  intro n
  induction n with
  | zero =>
    intro _
    exact ⟨buf, rfl, hl, fun t _ h2 => by rw [Nat.mod_eq_of_lt (by omega)]; exact hw t (by omega)⟩
  | succ n ih =>
    intro hn
    obtain ⟨b, h1, h2, h3⟩ := ih (by omega)
    have g0 := h3 n (by omega) (by omega)
    have g1 := h3 (n + 1) (by omega) (by omega)
    have g9 := h3 (n + 9) (by omega) (by omega)
    have g14 := h3 (n + 14) (by omega) (by omega)
    have hnext := sha2W_next sha256Fns D 48 (16 + n) (by omega) (by omega)
    rw [show 16 + n - 2 = n + 14 by omega, show 16 + n - 7 = n + 9 by omega, show 16 + n - 15 = n + 1 by omega,
      show 16 + n - 16 = n by omega] at hnext
    have hw' : loadW 4 b ((16 + n) &&& 0x0f) + (sigma1_256 (loadW 4 b ((16 + n + 14) &&& 0x0f)) +
        loadW 4 b ((16 + n + 9) &&& 0x0f) + sigma0_256 (loadW 4 b ((16 + n + 1) &&& 0x0f))) =
        (sha2W sha256Fns D 48).getD (16 + n) 0 := by
      rw [and15, and15, and15, and15, show (16 + n) % 16 = n % 16 by omega,
        show (16 + n + 14) % 16 = (n + 14) % 16 by omega, show (16 + n + 9) % 16 = (n + 9) % 16 by omega,
        show (16 + n + 1) % 16 = (n + 1) % 16 by omega, g0, g1, g9, g14, sigma0_256_eq, sigma1_256_eq, hnext]
      exact BitVec.add_comm _ _
    refine ⟨storeW 4 b ((16 + n) &&& 0x0f) ((sha2W sha256Fns D 48).getD (16 + n) 0), ?_, ?_, ?_⟩
    · rw [List.range'_concat, List.foldl_append, h1]
      simp only [List.foldl_cons, List.foldl_nil, second256, Nat.one_mul]
      rw [hw', round256_eq, K256_eq, ← Nat.add_assoc, rounds256_succ]
    · rw [storeW_length _ _ _ _ (by rw [and15]; omega), h2]
    · intro t ht1 ht2
      by_cases htn : t = 16 + n
      · rw [htn, and15, loadW_storeW_self (by omega)]
      · rw [loadW_storeW_ne (by omega) (by rw [and15]; omega) (by rw [and15]; omega)]
        exact h3 t (by omega) (by omega)

theorem block256 (s : State 32) (D : Str) : sha2Block sha256Fns s D = addState s (rounds256 D 64 s) := by
  obtain ⟨a, b, c, d, e, f, g, h⟩ := s
  unfold sha2Block addState rounds256
  have e1 : sha256Fns.rounds = 64 := rfl
  have e2 : sha256Fns.K = sha256K := rfl
  simp only [e1, e2]

theorem transform256_eq (c : Ctx256) (data : Option Str) {D : Str} (hD : data.getD c.buffer = D)
    (hl : c.buffer.length = 64) (hd : D.length = 64) (hb : IsBytes D) :
    ∃ b, b.length = 64 ∧ SHA256_Transform c data =
      Ctx256.mk (sha2Block sha256Fns c.state D) c.bitcount b := by
  subst hD
  obtain ⟨b, h1, h2, h3, _⟩ := first256_run data c.state c.buffer hl hd hb 16 (Nat.le_refl _)
  obtain ⟨b', g1, g2, _⟩ := second256_run (data.getD c.buffer) c.state b h2 h3 48 (Nat.le_refl _)
  refine ⟨b', g2, ?_⟩
  unfold SHA256_Transform
  simp only [h1]
  rw [g1, block256]

/-! ## The context -/

attribute [local irreducible] SHA256_Transform Spec.sha2Block Spec.absorbed REVERSE32 REVERSE64

/-- The hash value and the buffer after the bytes `m`. -/
structure Half256 (c : Ctx256) (m : Str) : Prop where
  state : c.state = absorbed (sha2Block sha256Fns) 64 sha256H0 m
  len : c.buffer.length = 64
  buffer : c.buffer.take (m.length % 64) = tailOf 64 m

/-- The context after the bytes `m`. -/
structure Rep256 (c : Ctx256) (m : Str) : Prop extends Half256 c m where
  bits : c.bitcount = 8 * m.length % 2 ^ 64

theorem rep_init256 : Rep256 SHA256_Init [] where
  state := by simp [SHA256_Init, absorbed_nil, sha256H0]
  len := by simp [SHA256_Init]
  buffer := by simp [tailOf_nil]
  bits := by simp [SHA256_Init]

/-- A block that completes the buffer, or that is read where it is. -/
theorem transform_full256 {c : Ctx256} {data : Option Str} {m d : Str}
    (hst : c.state = absorbed (sha2Block sha256Fns) 64 sha256H0 m) (hl : c.buffer.length = 64)
    (hm : IsBytes m) (hb : IsBytes d) (hd : m.length % 64 + d.length = 64)
    (hdata : data.getD c.buffer = tailOf 64 m ++ d) :
    Half256 (SHA256_Transform c data) (m ++ d) ∧ (SHA256_Transform c data).bitcount = c.bitcount := by
  obtain ⟨ha, ht⟩ := absorbed_full (f := sha2Block sha256Fns) (h := sha256H0) (by omega) hd
  obtain ⟨b, h1, h2⟩ := transform256_eq c data hdata hl
    (by rw [List.length_append, tailOf_length]; exact hd)
    (isB_append (tailOf_bytes hm) hb)
  rw [h2]
  refine ⟨⟨?_, h1, ?_⟩, rfl⟩
  · rw [ha, ← hst]
  · rw [ht, List.length_append]
    have : (m.length + d.length) % 64 = 0 := by omega
    rw [this, List.take_zero]

theorem loop256_rep {c : Ctx256} {m : Str} (h : Rep256 c m) (hm : m.length % 64 = 0) (hmb : IsBytes m) (fuel : Nat)
    (d : Str) (hf : d.length < fuel) (hdb : IsBytes d) :
    ∃ c', loop256 fuel c d = .ok c' ∧ Rep256 c' (m ++ d) := by
  induction fuel generalizing c m d with
  | zero => omega
  | succ fuel ih =>
    unfold loop256
    by_cases hd : d.length ≥ 64
    · rw [if_pos hd, fetch_eq hd]
      have hl : (d.take 64).length = 64 := by rw [List.length_take]; omega
      have hfull : m.length % 64 + (d.take 64).length = 64 := by omega
      have ht0 : tailOf 64 m = [] := List.eq_nil_of_length_eq_zero (by rw [tailOf_length]; exact hm)
      simp only [Res.bind_ok]
      obtain ⟨hh, e1⟩ := transform_full256 (data := some (d.take 64)) h.state h.len hmb (isB_take hdb 64) hfull
        (by rw [ht0]; rfl)
      have hr : Rep256 { SHA256_Transform c (some (d.take 64)) with
          bitcount := ((SHA256_Transform c (some (d.take 64))).bitcount + 512) % 2 ^ 64 } (m ++ d.take 64) := by
        refine ⟨⟨hh.state, hh.len, hh.buffer⟩, ?_⟩
        simp only [e1, h.bits, List.length_append, hl]
        omega
      obtain ⟨c', h1, h2⟩ := ih hr (by rw [List.length_append, hl]; omega)
        (isB_append hmb (isB_take hdb _)) (d.drop 64) (by rw [List.length_drop]; omega) (isB_drop hdb _)
      rw [List.append_assoc, List.take_append_drop] at h2
      exact ⟨c', h1, h2⟩
    · rw [if_neg hd]
      by_cases h0 : d.length > 0
      · rw [if_pos h0]
        obtain ⟨b', h1, h2, h3⟩ := put_short h.len h.buffer (show m.length % 64 + d.length < 64 by omega)
        rw [hm] at h1
        rw [h1]
        refine ⟨_, rfl, ⟨?_, h2, h3⟩, ?_⟩
        · rw [(absorbed_short (f := sha2Block sha256Fns) (h := sha256H0)
            (show m.length % 64 + d.length < 64 by omega)).1]
          exact h.state
        · simp only [h.bits, List.length_append]
          omega
      · rw [if_neg h0]
        have : d = [] := List.eq_nil_of_length_eq_zero (by omega)
        subst this
        rw [List.append_nil]
        exact ⟨c, rfl, h⟩

theorem rep_update256 {c : Ctx256} {m : Str} (h : Rep256 c m) (hmb : IsBytes m) (d : Str) (hdb : IsBytes d) :
    ∃ c', SHA256_Update c d = .ok c' ∧ Rep256 c' (m ++ d) := by
  have hlt : m.length % 64 < 64 := Nat.mod_lt _ (by omega)
  have ht : c.bitcount / 8 % 64 = m.length % 64 := by rw [h.bits]; omega
  simp only [SHA256_Update, ht]
  by_cases hd0 : d.length = 0
  · rw [if_pos hd0]
    have : d = [] := List.eq_nil_of_length_eq_zero hd0
    subst this
    rw [List.append_nil]
    exact ⟨c, rfl, h⟩
  rw [if_neg hd0]
  by_cases h0 : m.length % 64 = 0
  · rw [if_neg (by omega)]
    exact loop256_rep h h0 hmb _ d (by omega) hdb
  · rw [if_pos (by omega)]
    by_cases h1 : d.length ≥ 64 - m.length % 64
    · rw [if_pos h1, fetch_eq (by omega)]
      have hl : (d.take (64 - m.length % 64)).length = 64 - m.length % 64 := by rw [List.length_take]; omega
      have hfull : m.length % 64 + (d.take (64 - m.length % 64)).length = 64 := by omega
      have hp := put_full h.len h.buffer hfull
      simp only [Res.bind_ok, hp]
      obtain ⟨hh2, e1⟩ := transform_full256 (data := none) (c := { c with
          buffer := tailOf 64 m ++ d.take (64 - m.length % 64)
          bitcount := (c.bitcount + (64 - m.length % 64) * 8) % 2 ^ 64 })
        h.state (by rw [List.length_append, tailOf_length]; exact hfull) hmb
        (isB_take hdb (64 - m.length % 64)) hfull rfl
      have hr : Rep256 (SHA256_Transform { c with
          buffer := tailOf 64 m ++ d.take (64 - m.length % 64)
          bitcount := (c.bitcount + (64 - m.length % 64) * 8) % 2 ^ 64 } none) (m ++ d.take (64 - m.length % 64)) := by
        refine ⟨hh2, e1.trans ?_⟩
        simp only [h.bits, List.length_append, hl]
        omega
      obtain ⟨c', g1, g2⟩ := loop256_rep hr (by rw [List.length_append, hl]; omega)
        (isB_append hmb (isB_take hdb _)) (d.length + 1)
        (d.drop (64 - m.length % 64)) (by rw [List.length_drop]; omega) (isB_drop hdb _)
      rw [List.append_assoc, List.take_append_drop] at g2
      exact ⟨c', g1, g2⟩
    · rw [if_neg h1]
      obtain ⟨b', g1, g2, g3⟩ := put_short h.len h.buffer (show m.length % 64 + d.length < 64 by omega)
      rw [g1]
      refine ⟨_, rfl, ⟨?_, g2, g3⟩, ?_⟩
      · rw [(absorbed_short (f := sha2Block sha256Fns) (h := sha256H0)
          (show m.length % 64 + d.length < 64 by omega)).1]
        exact h.state
      · simp only [h.bits, List.length_append]
        omega

theorem out256_eq (s : State 32) : out256 s = sha2Out s := by
  obtain ⟨a, b, c, d, e, f, g, h⟩ := s
  have key : ∀ x : BitVec 32, toLE 4 (REVERSE32 x).toNat = beBytes (32 / 8) x.toNat := by
    intro x
    have := rev32.be x.toNat
    rw [toLE_eq]
    rw [BitVec.ofNat_toNat, BitVec.setWidth_eq] at this
    exact this
  simp only [out256, sha2Out, key]

/-- The last block. -/
theorem last256 {c : Ctx256} {x y : Str} {st : State 32} (n : Nat) (hst : c.state = st) (hc : c.buffer = x ++ y)
    (hx : x.length = 56) (hy : y.length = 8) (hxb : IsBytes x) :
    (do let buffer ← put c.buffer 56 (toLE 8 (REVERSE64 (BitVec.ofNat 64 n)).toNat)
        return out256 (SHA256_Transform { c with buffer } none).state : Res Str) =
      .ok (sha2Out (sha2Block sha256Fns st (x ++ beBytes 8 n))) := by
  have e : toLE 8 (REVERSE64 (BitVec.ofNat 64 n)).toNat = beBytes 8 n := by rw [toLE_eq]; exact rev64.be n
  rw [e, hc]
  have hp : put (x ++ y) 56 (beBytes 8 n) = .ok (x ++ beBytes 8 n) := by
    rw [← hx, put_app (by rw [beBytes_length]; omega), beBytes_length, List.drop_of_length_le (by omega), List.append_nil]
  rw [hp]
  have hl : (x ++ beBytes 8 n).length = 64 := by rw [List.length_append, beBytes_length]; omega
  obtain ⟨b, _, h2⟩ := transform256_eq { c with buffer := x ++ beBytes 8 n } none (D := x ++ beBytes 8 n) rfl hl hl
    (isB_append hxb (beBytes_bytes _ _))
  simp only [Res.bind_ok, Res.pure_eq]
  rw [h2, out256_eq, ← hst]

theorem clear256 (c : Ctx256) (hl : c.buffer.length = 64) :
    (do let buffer ← put c.buffer 0 (List.replicate 56 0)
        return { c with buffer } : Res Ctx256) =
      .ok ⟨c.state, c.bitcount, List.replicate (64 - 8) 0 ++ c.buffer.drop 56⟩ := by
  rw [put_zero (by rw [hl, List.length_replicate]; omega), List.length_replicate]
  rfl

theorem padLong256 (c : Ctx256) {blk : Str} (hl : c.buffer.length = 64) (hD : c.buffer = blk) (hb : IsBytes blk) :
    ∃ y : Str, y.length = 8 ∧
      (do let buffer ← put (SHA256_Transform c none).buffer 0 (List.replicate 56 0)
          return { SHA256_Transform c none with buffer } : Res Ctx256) =
        .ok ⟨sha2Block sha256Fns c.state blk, c.bitcount, List.replicate (64 - 8) 0 ++ y⟩ := by
  obtain ⟨b, b1, b2⟩ := transform256_eq c none (D := blk) hD hl (hD ▸ hl) hb
  refine ⟨b.drop 56, by rw [List.length_drop, b1], ?_⟩
  rw [clear256 _ (by rw [b2]; exact b1), b2]

theorem final_eq256 {c : Ctx256} {m : Str} (h : Rep256 c m) (hmb : IsBytes m) :
    SHA256_Final c = .ok (Spec.sha256 m) := by
  have ht : c.bitcount / 8 % 64 = m.length % 64 := by rw [h.bits]; omega
  have htl := tailOf_length 64 m
  have htb : IsBytes (tailOf 64 m) := tailOf_bytes hmb
  have hlt : m.length % 64 < 64 := Nat.mod_lt _ (by omega)
  have hsplit : c.buffer = tailOf 64 m ++ c.buffer.drop (m.length % 64) := by
    rw [← h.buffer, List.take_append_drop]
  have hdl : (c.buffer.drop (m.length % 64)).length = 64 - m.length % 64 := by rw [List.length_drop, h.len]
  have hlen : (beBytes 8 (8 * m.length)).length = 8 := beBytes_length _ _
  have hbits : beBytes 8 c.bitcount = beBytes 8 (8 * m.length) := by
    rw [h.bits]
    unfold beBytes
    exact congrArg List.reverse (leBytes_mod 8 (8 * m.length))
  generalize c.buffer.drop (m.length % 64) = r at hsplit hdl
  have h1 : put c.buffer (m.length % 64) [0x80] = .ok (tailOf 64 m ++ [0x80] ++ r.drop 1) := by
    rw [hsplit, ← htl, put_app (by simp; omega)]; rfl
  have e1 : (tailOf 64 m ++ [0x80]).length = m.length % 64 + 1 := by simp [htl]
  have hone : IsBytes [0x80] := by intro x hx; simp at hx; omega
  unfold SHA256_Final
  by_cases hc : m.length % 64 < 56
  · have hp : ∃ y : Str, y.length = 8 ∧ pad256 c = .ok { c with
        buffer := (tailOf 64 m ++ [0x80] ++ List.replicate (64 - 1 - 8 - m.length % 64) 0) ++ y } := by
      simp only [pad256, ht]
      by_cases h0 : m.length % 64 > 0
      · rw [if_pos h0, h1]
        simp only [Res.bind_ok]
        rw [if_pos (by omega), ← e1, put_app (by simp; omega)]
        simp only [Res.bind_ok, Res.pure_eq, List.length_replicate, List.drop_drop, e1]
        rw [show 56 - (m.length % 64 + 1) = 64 - 1 - 8 - m.length % 64 by omega]
        exact ⟨_, by simp; omega, rfl⟩
      · rw [if_neg h0]
        have hz : m.length % 64 = 0 := by omega
        have ht0 : tailOf 64 m = [] := List.eq_nil_of_length_eq_zero (by rw [tailOf_length]; exact hz)
        rw [hz, ht0, put_zero (by rw [h.len]; simp), List.length_replicate]
        simp only [Res.bind_ok]
        rw [put_zero (by simp)]
        simp only [Res.bind_ok, Res.pure_eq]
        have e2 : ∀ q : Str, (List.replicate 56 0 ++ q).drop [0x80].length = List.replicate 55 0 ++ q := by
          intro q
          rw [List.drop_append_of_le_length (by simp), List.drop_replicate]
          rfl
        refine ⟨c.buffer.drop 56, by rw [List.length_drop, h.len], ?_⟩
        rw [e2, List.nil_append, List.append_assoc]
    obtain ⟨y, hy, hp⟩ := hp
    rw [hp]
    simp only [Res.bind_ok]
    have hlast := last256 c.bitcount (c := { c with
        buffer := (tailOf 64 m ++ [0x80] ++ List.replicate (64 - 1 - 8 - m.length % 64) 0) ++ y }) h.state rfl
      (by simp [htl]; omega) hy (isB_append (isB_append htb hone) (isB_replicate _))
    refine hlast.trans ?_
    rw [Spec.sha256, pad_short hlen (by omega), hbits]
  · have hbk : IsBytes (tailOf 64 m ++ [0x80] ++ List.replicate (64 - 1 - m.length % 64) 0) :=
      isB_append (isB_append htb hone) (isB_replicate _)
    have hbl : (tailOf 64 m ++ [0x80] ++ List.replicate (64 - 1 - m.length % 64) 0).length = 64 := by
      simp [htl]; omega
    have hp : ∃ y : Str, y.length = 8 ∧ pad256 c =
        .ok ⟨sha2Block sha256Fns c.state (tailOf 64 m ++ [0x80] ++ List.replicate (64 - 1 - m.length % 64) 0),
          c.bitcount, List.replicate (64 - 8) 0 ++ y⟩ := by
      have hT := padLong256 ⟨c.state, c.bitcount, tailOf 64 m ++ [0x80] ++ List.replicate (64 - 1 - m.length % 64) 0⟩
        hbl rfl hbk
      unfold pad256
      revert hT
      generalize SHA256_Transform = T
      generalize sha2Block sha256Fns = U
      intro hT
      simp only [ht]
      rw [if_pos (by omega), h1]
      simp only [Res.bind_ok]
      have h2 : put (tailOf 64 m ++ [0x80] ++ r.drop 1) (m.length % 64 + 1)
          (List.replicate (64 - (m.length % 64 + 1)) 0) =
            .ok (tailOf 64 m ++ [0x80] ++ List.replicate (64 - 1 - m.length % 64) 0) := by
        rw [← e1, put_app (by simp; omega), List.length_replicate, List.drop_of_length_le (by simp [htl]; omega),
          List.append_nil, e1, show 64 - (m.length % 64 + 1) = 64 - 1 - m.length % 64 by omega]
      rw [if_neg (by omega), h2]
      obtain ⟨y, hy, hT⟩ := hT
      refine ⟨y, hy, ?_⟩
      rw [Res.bind_ok]
      exact hT
    obtain ⟨y, hy, hp⟩ := hp
    rw [hp]
    simp only [Res.bind_ok]
    have hlast := last256 c.bitcount (c := { c with
        state := sha2Block sha256Fns c.state (tailOf 64 m ++ [0x80] ++ List.replicate (64 - 1 - m.length % 64) 0)
        buffer := List.replicate (64 - 8) 0 ++ y }) rfl rfl
      (by simp) hy (isB_replicate _)
    refine hlast.trans ?_
    rw [Spec.sha256, pad_long hlen (by omega) (by omega) (by omega), hbits, ← h.state]

theorem sha256_eq {m : Str} (hb : IsBytes m) : sha256 m = .ok (Spec.sha256 m) := by
  obtain ⟨c, h1, h2⟩ := rep_update256 rep_init256 (by intro x hx; cases hx) m hb
  unfold sha256
  rw [h1]
  exact final_eq256 h2 hb

end Fwknop.Sha2
