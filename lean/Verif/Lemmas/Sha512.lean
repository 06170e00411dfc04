import Verif.Lemmas.Sha256

/-!
# SHA-512 and SHA-384: the model computes the functions of FIPS 180-4
-/

namespace Fwknop.Sha2

open Spec

theorem S64_eq (b : Nat) (x : BitVec 64) (h : b < 64) : S64 b x = x.rotateRight b := by
  rw [BitVec.rotateRight_eq_rotateRightAux_of_lt h]
  rfl

theorem K512_eq : K512 = sha512K := rfl

theorem round512_eq (s : State 64) (k w : BitVec 64) : round512 s k w = sha2Round sha512Fns k w s := by
  obtain ⟨a, b, c, d, e, f, g, h⟩ := s
  simp only [round512, sha2Round, sha512Fns, Sigma0_512, Sigma1_512, S64_eq 28 _ (by omega), S64_eq 34 _ (by omega),
    S64_eq 39 _ (by omega), S64_eq 14 _ (by omega), S64_eq 18 _ (by omega), S64_eq 41 _ (by omega)]
  rfl

theorem sigma0_512_eq (x : BitVec 64) : sigma0_512 x = sha512Fns.s0 x := by
  simp only [sigma0_512, sha512Fns, S64_eq 1 _ (by omega), S64_eq 8 _ (by omega)]

theorem sigma1_512_eq (x : BitVec 64) : sigma1_512 x = sha512Fns.s1 x := by
  simp only [sigma1_512, sha512Fns, S64_eq 61 _ (by omega), S64_eq 19 _ (by omega)]

theorem beWord_rev64 {b : Str} (hb : IsBytes b) {i : Nat} (hi : 8 * i + 8 ≤ b.length) :
    REVERSE64 (loadW 8 b i) = beWord 64 b i := by
  have h := rev64.le (l := (b.drop (8 * i)).take 8) (by rw [List.length_take, List.length_drop]; omega)
    (isB_take (isB_drop hb _) _)
  unfold beWord loadW
  rw [fromLE_eq]
  exact h

/-- The rounds up to `n` of the standard. -/
def rounds512 (D : Str) (n : Nat) (s : State 64) : State 64 :=
  (List.range n).foldl (fun s t => sha2Round sha512Fns (sha512K.getD t 0) ((sha2W sha512Fns D 64).getD t 0) s) s

theorem rounds512_succ (D : Str) (n : Nat) (s : State 64) : rounds512 D (n + 1) s =
    sha2Round sha512Fns (sha512K.getD n 0) ((sha2W sha512Fns D 64).getD n 0) (rounds512 D n s) := by
  unfold rounds512
  rw [List.range_succ, List.foldl_append]
  rfl

theorem first512_run (data : Option Str) (st : State 64) (buf : Str) (hl : buf.length = 128)
    (hd : (data.getD buf).length = 128) (hb : IsBytes (data.getD buf)) : ∀ j ≤ 16, ∃ b,
      (List.range j).foldl (first512 data) (st, buf) = (rounds512 (data.getD buf) j st, b) ∧ b.length = 128 ∧
      (∀ i < j, loadW 8 b i = (sha2W sha512Fns (data.getD buf) 64).getD i 0) ∧
      (∀ i, j ≤ i → loadW 8 b i = loadW 8 buf i) := by
  intro j
  induction j with
  | zero => intro _; exact ⟨buf, rfl, hl, fun i hi => by omega, fun _ _ => rfl⟩
  | succ j ih =>
    intro hj
    obtain ⟨b, h1, h2, h3, h4⟩ := ih (by omega)
    have hsrc : loadW 8 (data.getD b) j = loadW 8 (data.getD buf) j := by
      cases data with
      | none => exact h4 j (Nat.le_refl _)
      | some x => rfl
    have hw : loadW 8 (storeW 8 b j (REVERSE64 (loadW 8 (data.getD b) j))) j =
        (sha2W sha512Fns (data.getD buf) 64).getD j 0 := by
      rw [loadW_storeW_self (by omega), hsrc, beWord_rev64 hb (by omega), sha2W_first _ _ _ _ (by omega)]
    refine ⟨storeW 8 b j (REVERSE64 (loadW 8 (data.getD b) j)), ?_, ?_, ?_, ?_⟩
    · rw [List.range_succ, List.foldl_append, h1]
      simp only [List.foldl_cons, List.foldl_nil, first512]
      rw [hw, round512_eq, K512_eq, rounds512_succ]
    · rw [storeW_length _ _ _ _ (by omega), h2]
    · intro i hi
      by_cases hij : i = j
      · rw [hij]; exact hw
      · rw [loadW_storeW_ne (by omega) (by omega) hij]; exact h3 i (by omega)
    · intro i hi
      rw [loadW_storeW_ne (by omega) (by omega) (by omega)]; exact h4 i (by omega)

theorem second512_run (D : Str) (st : State 64) (buf : Str) (hl : buf.length = 128)
    (hw : ∀ i < 16, loadW 8 buf i = (sha2W sha512Fns D 64).getD i 0) : ∀ n ≤ 64, ∃ b,
      (List.range' 16 n).foldl second512 (rounds512 D 16 st, buf) = (rounds512 D (16 + n) st, b) ∧ b.length = 128 ∧
      (∀ t, n ≤ t → t < 16 + n → loadW 8 b (t % 16) = (sha2W sha512Fns D 64).getD t 0) := by
  intro n
  induction n with
  | zero =>
    intro _
    exact ⟨buf, rfl, hl, fun t _ h2 => by rw [Nat.mod_eq_of_lt (by omega)]; exact hw t (by omega)⟩
  | succ n ih =>
    intro hn
    obtain ⟨b, h1, h2, h3⟩ := ih (by omega)
    have g0 := h3 n (by omega) (by omega)
    have g1 := h3 (n + 1) (by omega) (by omega)
    have g9 := h3 (n + 9) (by omega) (by omega)
    have g14 := h3 (n + 14) (by omega) (by omega)
    have hnext := sha2W_next sha512Fns D 64 (16 + n) (by omega) (by omega)
    rw [show 16 + n - 2 = n + 14 by omega, show 16 + n - 7 = n + 9 by omega, show 16 + n - 15 = n + 1 by omega,
      show 16 + n - 16 = n by omega] at hnext
    have hw' : loadW 8 b ((16 + n) &&& 0x0f) + (sigma1_512 (loadW 8 b ((16 + n + 14) &&& 0x0f)) +
        loadW 8 b ((16 + n + 9) &&& 0x0f) + sigma0_512 (loadW 8 b ((16 + n + 1) &&& 0x0f))) =
        (sha2W sha512Fns D 64).getD (16 + n) 0 := by
      rw [and15, and15, and15, and15, show (16 + n) % 16 = n % 16 by omega,
        show (16 + n + 14) % 16 = (n + 14) % 16 by omega, show (16 + n + 9) % 16 = (n + 9) % 16 by omega,
        show (16 + n + 1) % 16 = (n + 1) % 16 by omega, g0, g1, g9, g14, sigma0_512_eq, sigma1_512_eq, hnext]
      exact BitVec.add_comm _ _
    refine ⟨storeW 8 b ((16 + n) &&& 0x0f) ((sha2W sha512Fns D 64).getD (16 + n) 0), ?_, ?_, ?_⟩
    · rw [List.range'_concat, List.foldl_append, h1]
      simp only [List.foldl_cons, List.foldl_nil, second512, Nat.one_mul]
      rw [hw', round512_eq, K512_eq, ← Nat.add_assoc, rounds512_succ]
    · rw [storeW_length _ _ _ _ (by rw [and15]; omega), h2]
    · intro t ht1 ht2
      by_cases htn : t = 16 + n
      · rw [htn, and15, loadW_storeW_self (by omega)]
      · rw [loadW_storeW_ne (by omega) (by rw [and15]; omega) (by rw [and15]; omega)]
        exact h3 t (by omega) (by omega)

theorem block512 (s : State 64) (D : Str) : sha2Block sha512Fns s D = addState s (rounds512 D 80 s) := by
  obtain ⟨a, b, c, d, e, f, g, h⟩ := s
  unfold sha2Block addState rounds512
  have e1 : sha512Fns.rounds = 80 := rfl
  have e2 : sha512Fns.K = sha512K := rfl
  simp only [e1, e2]

theorem transform512_eq (c : Ctx512) (data : Option Str) {D : Str} (hD : data.getD c.buffer = D)
    (hl : c.buffer.length = 128) (hd : D.length = 128) (hb : IsBytes D) :
    ∃ b, b.length = 128 ∧ SHA512_Transform c data =
      Ctx512.mk (sha2Block sha512Fns c.state D) c.bits0 c.bits1 b := by
  subst hD
  obtain ⟨b, h1, h2, h3, _⟩ := first512_run data c.state c.buffer hl hd hb 16 (Nat.le_refl _)
  obtain ⟨b', g1, g2, _⟩ := second512_run (data.getD c.buffer) c.state b h2 h3 64 (Nat.le_refl _)
  refine ⟨b', g2, ?_⟩
  unfold SHA512_Transform
  simp only [h1]
  rw [g1, block512]

/-! ## The context -/

attribute [local irreducible] SHA512_Transform Spec.sha2Block Spec.absorbed REVERSE64

/-- The hash value and the buffer after the bytes `m`, from the initial value `H`. -/
structure Half512 (H : Eight 64) (c : Ctx512) (m : Str) : Prop where
  state : c.state = absorbed (sha2Block sha512Fns) 128 H m
  len : c.buffer.length = 128
  buffer : c.buffer.take (m.length % 128) = tailOf 128 m

/-- The counter after `n` bytes. -/
def Count512 (c : Ctx512) (n : Nat) : Prop := c.bits0 = 8 * n % 2 ^ 64 ∧ c.bits1 = 8 * n / 2 ^ 64 % 2 ^ 64

/-- The context after the bytes `m`. -/
structure Rep512 (H : Eight 64) (c : Ctx512) (m : Str) : Prop extends Half512 H c m where
  bits : Count512 c m.length

theorem rep_init512 : Rep512 sha512H0 SHA512_Init [] where
  state := by simp [SHA512_Init, absorbed_nil, sha512H0]
  len := by simp [SHA512_Init]
  buffer := by simp [tailOf_nil]
  bits := by simp [SHA512_Init, Count512]

theorem rep_init384 : Rep512 sha384H0 SHA384_Init [] where
  state := by simp [SHA384_Init, absorbed_nil, sha384H0]
  len := by simp [SHA384_Init]
  buffer := by simp [tailOf_nil]
  bits := by simp [SHA384_Init, Count512]

theorem addinc {c : Ctx512} {n k : Nat} (h : Count512 c n) (hk : 8 * k < 2 ^ 64) :
    Count512 (ADDINC128 c (k * 8)) (n + k) := by
  obtain ⟨h0, h1⟩ := h
  constructor
  · simp only [ADDINC128, h0]
    omega
  · simp only [ADDINC128, h0, h1]
    split <;> omega

theorem half_addinc {H : Eight 64} {c : Ctx512} {m : Str} (h : Half512 H c m) (n : Nat) :
    Half512 H (ADDINC128 c n) m := ⟨h.state, h.len, h.buffer⟩

/-- A block that completes the buffer, or that is read where it is. -/
theorem transform_full512 {H : Eight 64} {c : Ctx512} {data : Option Str} {m d : Str}
    (hst : c.state = absorbed (sha2Block sha512Fns) 128 H m) (hl : c.buffer.length = 128)
    (hm : IsBytes m) (hb : IsBytes d) (hd : m.length % 128 + d.length = 128)
    (hdata : data.getD c.buffer = tailOf 128 m ++ d) :
    Half512 H (SHA512_Transform c data) (m ++ d) ∧ (SHA512_Transform c data).bits0 = c.bits0 ∧
      (SHA512_Transform c data).bits1 = c.bits1 := by
  obtain ⟨ha, ht⟩ := absorbed_full (f := sha2Block sha512Fns) (h := H) (by omega) hd
  obtain ⟨b, h1, h2⟩ := transform512_eq c data hdata hl
    (by rw [List.length_append, tailOf_length]; exact hd)
    (isB_append (tailOf_bytes hm) hb)
  rw [h2]
  refine ⟨⟨?_, h1, ?_⟩, rfl, rfl⟩
  · rw [ha, ← hst]
  · rw [ht, List.length_append]
    have : (m.length + d.length) % 128 = 0 := by omega
    rw [this, List.take_zero]

theorem loop512_rep {H : Eight 64} {c : Ctx512} {m : Str} (h : Rep512 H c m) (hm : m.length % 128 = 0)
    (hmb : IsBytes m) (fuel : Nat) (d : Str) (hf : d.length < fuel) (hdb : IsBytes d) :
    ∃ c', loop512 fuel c d = .ok c' ∧ Rep512 H c' (m ++ d) := by
  induction fuel generalizing c m d with
  | zero => omega
  | succ fuel ih =>
    unfold loop512
    by_cases hd : d.length ≥ 128
    · rw [if_pos hd, fetch_eq hd]
      have hl : (d.take 128).length = 128 := by rw [List.length_take]; omega
      have hfull : m.length % 128 + (d.take 128).length = 128 := by omega
      have ht0 : tailOf 128 m = [] := List.eq_nil_of_length_eq_zero (by rw [tailOf_length]; exact hm)
      simp only [Res.bind_ok]
      obtain ⟨hh, e0, e1⟩ := transform_full512 (data := some (d.take 128)) h.state h.len hmb (isB_take hdb 128) hfull
        (by rw [ht0]; rfl)
      have hr : Rep512 H (ADDINC128 (SHA512_Transform c (some (d.take 128))) 1024) (m ++ d.take 128) := by
        refine ⟨half_addinc hh 1024, ?_⟩
        rw [List.length_append, hl]
        have := addinc (k := 128) (c := SHA512_Transform c (some (d.take 128))) (n := m.length)
          ⟨e0.trans h.bits.1, e1.trans h.bits.2⟩ (by omega)
        exact this
      obtain ⟨c', h1, h2⟩ := ih hr (by rw [List.length_append, hl]; omega)
        (isB_append hmb (isB_take hdb _)) (d.drop 128) (by rw [List.length_drop]; omega) (isB_drop hdb _)
      rw [List.append_assoc, List.take_append_drop] at h2
      exact ⟨c', h1, h2⟩
    · rw [if_neg hd]
      by_cases h0 : d.length > 0
      · rw [if_pos h0]
        obtain ⟨b', h1, h2, h3⟩ := put_short h.len h.buffer (show m.length % 128 + d.length < 128 by omega)
        rw [hm] at h1
        rw [h1]
        refine ⟨_, rfl, ⟨?_, h2, h3⟩, ?_⟩
        · rw [(absorbed_short (f := sha2Block sha512Fns) (h := H)
            (show m.length % 128 + d.length < 128 by omega)).1]
          exact h.state
        · rw [List.length_append, Nat.mod_eq_of_lt (by omega)]
          exact addinc ⟨h.bits.1, h.bits.2⟩ (by omega)
      · rw [if_neg h0]
        have : d = [] := List.eq_nil_of_length_eq_zero (by omega)
        subst this
        rw [List.append_nil]
        exact ⟨c, rfl, h⟩

theorem rep_update512 {H : Eight 64} {c : Ctx512} {m : Str} (h : Rep512 H c m) (hmb : IsBytes m) (d : Str)
    (hdb : IsBytes d) : ∃ c', SHA512_Update c d = .ok c' ∧ Rep512 H c' (m ++ d) := by
  have hlt : m.length % 128 < 128 := Nat.mod_lt _ (by omega)
  have ht : c.bits0 / 8 % 128 = m.length % 128 := by rw [h.bits.1]; omega
  simp only [SHA512_Update, ht]
  by_cases hd0 : d.length = 0
  · rw [if_pos hd0]
    have : d = [] := List.eq_nil_of_length_eq_zero hd0
    subst this
    rw [List.append_nil]
    exact ⟨c, rfl, h⟩
  rw [if_neg hd0]
  by_cases h0 : m.length % 128 = 0
  · rw [if_neg (by omega)]
    exact loop512_rep h h0 hmb _ d (by omega) hdb
  · rw [if_pos (by omega)]
    by_cases h1 : d.length ≥ 128 - m.length % 128
    · rw [if_pos h1, fetch_eq (by omega)]
      have hl : (d.take (128 - m.length % 128)).length = 128 - m.length % 128 := by rw [List.length_take]; omega
      have hfull : m.length % 128 + (d.take (128 - m.length % 128)).length = 128 := by omega
      have hp := put_full h.len h.buffer hfull
      simp only [Res.bind_ok, hp]
      have hk : Count512 (ADDINC128 { c with buffer := tailOf 128 m ++ d.take (128 - m.length % 128) }
          ((128 - m.length % 128) * 8)) (m.length + (128 - m.length % 128)) :=
        addinc ⟨h.bits.1, h.bits.2⟩ (by omega)
      obtain ⟨hh2, e0, e1⟩ := transform_full512 (data := none)
        (c := ADDINC128 { c with buffer := tailOf 128 m ++ d.take (128 - m.length % 128) }
          ((128 - m.length % 128) * 8))
        h.state (by show (tailOf 128 m ++ d.take (128 - m.length % 128)).length = 128
                    rw [List.length_append, tailOf_length]; exact hfull) hmb
        (isB_take hdb (128 - m.length % 128)) hfull rfl
      have hr : Rep512 H (SHA512_Transform (ADDINC128 { c with
          buffer := tailOf 128 m ++ d.take (128 - m.length % 128) } ((128 - m.length % 128) * 8)) none)
          (m ++ d.take (128 - m.length % 128)) := by
        refine ⟨hh2, ?_⟩
        rw [List.length_append, hl]
        exact ⟨e0.trans hk.1, e1.trans hk.2⟩
      obtain ⟨c', g1, g2⟩ := loop512_rep hr (by rw [List.length_append, hl]; omega)
        (isB_append hmb (isB_take hdb _)) (d.length + 1)
        (d.drop (128 - m.length % 128)) (by rw [List.length_drop]; omega) (isB_drop hdb _)
      rw [List.append_assoc, List.take_append_drop] at g2
      exact ⟨c', g1, g2⟩
    · rw [if_neg h1]
      obtain ⟨b', g1, g2, g3⟩ := put_short h.len h.buffer (show m.length % 128 + d.length < 128 by omega)
      rw [g1]
      refine ⟨_, rfl, ⟨?_, g2, g3⟩, ?_⟩
      · rw [(absorbed_short (f := sha2Block sha512Fns) (h := H)
          (show m.length % 128 + d.length < 128 by omega)).1]
        exact h.state
      · rw [List.length_append, Nat.mod_eq_of_lt (by omega)]
        exact addinc ⟨h.bits.1, h.bits.2⟩ (by omega)

theorem word512 (x : BitVec 64) : toLE 8 (REVERSE64 x).toNat = beBytes (64 / 8) x.toNat := by
  have := rev64.be x.toNat
  rw [toLE_eq]
  rw [BitVec.ofNat_toNat, BitVec.setWidth_eq] at this
  exact this

theorem out512_eq (s : State 64) : out512 s = sha2Out s := by
  obtain ⟨a, b, c, d, e, f, g, h⟩ := s
  simp only [out512, sha2Out, word512]

theorem lenBytes512 (n : Nat) : beBytes 8 (n / 2 ^ 64 % 2 ^ 64) ++ beBytes 8 (n % 2 ^ 64) = beBytes 16 n := by
  simp only [beBytes, leBytes, List.reverse_cons, List.reverse_nil, List.nil_append, List.cons_append,
    List.cons.injEq, and_true]
  refine ⟨?_, ?_, ?_, ?_, ?_, ?_, ?_, ?_, ?_, ?_, ?_, ?_, ?_, ?_, ?_, ?_⟩ <;> omega

/-- The last block. -/
theorem last512 {c : Ctx512} {x y : Str} {st : State 64} (n : Nat) (hst : c.state = st) (hc : c.buffer = x ++ y)
    (hx : x.length = 112) (hy : y.length = 16) (hxb : IsBytes x) :
    ∃ c', (do let buffer ← put c.buffer 112 (toLE 8 (REVERSE64 (BitVec.ofNat 64 (n / 2 ^ 64 % 2 ^ 64))).toNat)
              let buffer ← put buffer 120 (toLE 8 (REVERSE64 (BitVec.ofNat 64 (n % 2 ^ 64))).toNat)
              return SHA512_Transform { c with buffer } none : Res Ctx512) = .ok c' ∧
      c'.state = sha2Block sha512Fns st (x ++ beBytes 16 n) := by
  have e : ∀ n, toLE 8 (REVERSE64 (BitVec.ofNat 64 n)).toNat = beBytes 8 n := by
    intro n; rw [toLE_eq]; exact rev64.be n
  rw [e, e, hc]
  have hp : put (x ++ y) 112 (beBytes 8 (n / 2 ^ 64 % 2 ^ 64)) =
      .ok (x ++ beBytes 8 (n / 2 ^ 64 % 2 ^ 64) ++ y.drop 8) := by
    rw [← hx, put_app (by rw [beBytes_length]; omega), beBytes_length]
  have hp2 : put (x ++ beBytes 8 (n / 2 ^ 64 % 2 ^ 64) ++ y.drop 8) 120 (beBytes 8 (n % 2 ^ 64)) =
      .ok (x ++ beBytes 16 n) := by
    have hl : (x ++ beBytes 8 (n / 2 ^ 64 % 2 ^ 64)).length = 120 := by
      rw [List.length_append, beBytes_length]; omega
    rw [← hl, put_app (by rw [beBytes_length, List.length_drop]; omega), beBytes_length,
      List.drop_of_length_le (by rw [List.length_drop]; omega), List.append_nil, List.append_assoc, lenBytes512]
  rw [hp]
  simp only [Res.bind_ok]
  rw [hp2]
  have hl : (x ++ beBytes 16 n).length = 128 := by rw [List.length_append, beBytes_length]; omega
  obtain ⟨b, _, h2⟩ := transform512_eq { c with buffer := x ++ beBytes 16 n } none (D := x ++ beBytes 16 n) rfl hl hl
    (isB_append hxb (beBytes_bytes _ _))
  simp only [Res.bind_ok, Res.pure_eq]
  rw [h2]
  exact ⟨_, rfl, by rw [← hst]⟩

/-- The code clears 126 bytes of the buffer here. -/
theorem clear512 (c : Ctx512) (hl : c.buffer.length = 128) :
    (do let buffer ← put c.buffer 0 (List.replicate (128 - 2) 0)
        return { c with buffer } : Res Ctx512) =
      .ok ⟨c.state, c.bits0, c.bits1, List.replicate (128 - 16) 0 ++ (List.replicate 14 0 ++ c.buffer.drop 126)⟩ := by
  rw [put_zero (by rw [hl, List.length_replicate]; omega), List.length_replicate]
  have e : List.replicate (128 - 2) 0 = List.replicate (128 - 16) 0 ++ List.replicate 14 0 := by
    rw [List.replicate_append_replicate]
  rw [e, List.append_assoc]
  rfl

theorem padLong512 (c : Ctx512) {blk : Str} (hl : c.buffer.length = 128) (hD : c.buffer = blk) (hb : IsBytes blk) :
    ∃ y : Str, y.length = 16 ∧
      (do let buffer ← put (SHA512_Transform c none).buffer 0 (List.replicate (128 - 2) 0)
          return { SHA512_Transform c none with buffer } : Res Ctx512) =
        .ok ⟨sha2Block sha512Fns c.state blk, c.bits0, c.bits1, List.replicate (128 - 16) 0 ++ y⟩ := by
  obtain ⟨b, b1, b2⟩ := transform512_eq c none (D := blk) hD hl (hD ▸ hl) hb
  refine ⟨List.replicate 14 0 ++ b.drop 126, by rw [List.length_append, List.length_drop, b1, List.length_replicate], ?_⟩
  rw [clear512 _ (by rw [b2]; exact b1), b2]

theorem last_eq512 {H : Eight 64} {c : Ctx512} {m : Str} (h : Rep512 H c m) (hmb : IsBytes m) :
    ∃ c', SHA512_Last c = .ok c' ∧
      c'.state = absorbed (sha2Block sha512Fns) 128 H (mdPad 128 16 (beBytes 16) m) := by
  have ht : c.bits0 / 8 % 128 = m.length % 128 := by rw [h.bits.1]; omega
  have htl := tailOf_length 128 m
  have htb : IsBytes (tailOf 128 m) := tailOf_bytes hmb
  have hlt : m.length % 128 < 128 := Nat.mod_lt _ (by omega)
  have hsplit : c.buffer = tailOf 128 m ++ c.buffer.drop (m.length % 128) := by
    rw [← h.buffer, List.take_append_drop]
  have hdl : (c.buffer.drop (m.length % 128)).length = 128 - m.length % 128 := by rw [List.length_drop, h.len]
  have hlen : (beBytes 16 (8 * m.length)).length = 16 := beBytes_length _ _
  generalize c.buffer.drop (m.length % 128) = r at hsplit hdl
  have h1 : put c.buffer (m.length % 128) [0x80] = .ok (tailOf 128 m ++ [0x80] ++ r.drop 1) := by
    rw [hsplit, ← htl, put_app (by simp; omega)]; rfl
  have e1 : (tailOf 128 m ++ [0x80]).length = m.length % 128 + 1 := by simp [htl]
  have hone : IsBytes [0x80] := by intro x hx; simp at hx; omega
  have hfin : ∀ c1 : Ctx512, ∀ x y : Str, ∀ st : State 64, c1.state = st → c1.buffer = x ++ y → x.length = 112 →
      y.length = 16 → IsBytes x → pad512 c = .ok c1 →
      ∃ c', SHA512_Last c = .ok c' ∧ c'.state = sha2Block sha512Fns st (x ++ beBytes 16 (8 * m.length)) := by
    intro c1 x y st k1 k2 k3 k4 k5 k6
    have hlast := last512 (8 * m.length) k1 k2 k3 k4 k5
    rw [← h.bits.1, ← h.bits.2] at hlast
    unfold SHA512_Last
    rw [k6, Res.bind_ok]
    exact hlast
  by_cases hc : m.length % 128 < 112
  · have hp : ∃ y : Str, y.length = 16 ∧ pad512 c = .ok { c with
        buffer := (tailOf 128 m ++ [0x80] ++ List.replicate (128 - 1 - 16 - m.length % 128) 0) ++ y } := by
      simp only [pad512, ht]
      by_cases h0 : m.length % 128 > 0
      · rw [if_pos h0, h1]
        simp only [Res.bind_ok]
        rw [if_pos (by omega), ← e1, put_app (by simp; omega)]
        simp only [Res.bind_ok, Res.pure_eq, List.length_replicate, List.drop_drop, e1]
        rw [show 112 - (m.length % 128 + 1) = 128 - 1 - 16 - m.length % 128 by omega]
        exact ⟨_, by simp; omega, rfl⟩
      · rw [if_neg h0]
        have hz : m.length % 128 = 0 := by omega
        have ht0 : tailOf 128 m = [] := List.eq_nil_of_length_eq_zero (by rw [tailOf_length]; exact hz)
        rw [hz, ht0, put_zero (by rw [h.len]; simp), List.length_replicate]
        simp only [Res.bind_ok]
        rw [put_zero (by simp)]
        simp only [Res.bind_ok, Res.pure_eq]
        have e2 : ∀ q : Str, (List.replicate 112 0 ++ q).drop [0x80].length = List.replicate 111 0 ++ q := by
          intro q
          rw [List.drop_append_of_le_length (by simp), List.drop_replicate]
          rfl
        refine ⟨c.buffer.drop 112, by rw [List.length_drop, h.len], ?_⟩
        rw [e2, List.nil_append, List.append_assoc]
    obtain ⟨y, hy, hp⟩ := hp
    obtain ⟨c', g1, g2⟩ := hfin { c with
        buffer := (tailOf 128 m ++ [0x80] ++ List.replicate (128 - 1 - 16 - m.length % 128) 0) ++ y }
      (tailOf 128 m ++ [0x80] ++ List.replicate (128 - 1 - 16 - m.length % 128) 0) y c.state rfl rfl (by simp [htl]; omega) hy
      (isB_append (isB_append htb hone) (isB_replicate _)) hp
    refine ⟨c', g1, ?_⟩
    rw [g2, pad_short hlen (by omega), h.state]
  · have hbk : IsBytes (tailOf 128 m ++ [0x80] ++ List.replicate (128 - 1 - m.length % 128) 0) :=
      isB_append (isB_append htb hone) (isB_replicate _)
    have hbl : (tailOf 128 m ++ [0x80] ++ List.replicate (128 - 1 - m.length % 128) 0).length = 128 := by
      simp [htl]; omega
    have hp : ∃ y : Str, y.length = 16 ∧ pad512 c =
        .ok ⟨sha2Block sha512Fns c.state (tailOf 128 m ++ [0x80] ++ List.replicate (128 - 1 - m.length % 128) 0),
          c.bits0, c.bits1, List.replicate (128 - 16) 0 ++ y⟩ := by
      have hT := padLong512 ⟨c.state, c.bits0, c.bits1,
        tailOf 128 m ++ [0x80] ++ List.replicate (128 - 1 - m.length % 128) 0⟩ hbl rfl hbk
      unfold pad512
      revert hT
      generalize SHA512_Transform = T
      generalize sha2Block sha512Fns = U
      intro hT
      simp only [ht]
      rw [if_pos (by omega), h1]
      simp only [Res.bind_ok]
      have h2 : put (tailOf 128 m ++ [0x80] ++ r.drop 1) (m.length % 128 + 1)
          (List.replicate (128 - (m.length % 128 + 1)) 0) =
            .ok (tailOf 128 m ++ [0x80] ++ List.replicate (128 - 1 - m.length % 128) 0) := by
        rw [← e1, put_app (by simp; omega), List.length_replicate, List.drop_of_length_le (by simp [htl]; omega),
          List.append_nil, e1, show 128 - (m.length % 128 + 1) = 128 - 1 - m.length % 128 by omega]
      rw [if_neg (by omega), h2]
      obtain ⟨y, hy, hT⟩ := hT
      refine ⟨y, hy, ?_⟩
      rw [Res.bind_ok]
      exact hT
    obtain ⟨y, hy, hp⟩ := hp
    obtain ⟨c', g1, g2⟩ := hfin ⟨_, _, _, _⟩ _ y _ rfl rfl (by rw [List.length_replicate]) hy (isB_replicate _) hp
    refine ⟨c', g1, ?_⟩
    rw [g2, pad_long hlen (by omega) (by omega) (by omega), h.state]

theorem final_eq512 {c : Ctx512} {m : Str} (h : Rep512 sha512H0 c m) (hmb : IsBytes m) :
    SHA512_Final c = .ok (Spec.sha512 m) := by
  obtain ⟨c', h1, h2⟩ := last_eq512 h hmb
  unfold SHA512_Final Spec.sha512
  rw [h1, Res.bind_ok, Res.pure_eq, out512_eq, h2]

theorem final_eq384 {c : Ctx512} {m : Str} (h : Rep512 sha384H0 c m) (hmb : IsBytes m) :
    SHA384_Final c = .ok (Spec.sha384 m) := by
  obtain ⟨c', h1, h2⟩ := last_eq512 h hmb
  unfold SHA384_Final Spec.sha384
  rw [h1, Res.bind_ok, Res.pure_eq, ← h2]
  generalize c'.state = s
  obtain ⟨a, b, c, d, e, f, g, h⟩ := s
  have hl : ([a, b, c, d, e, f].flatMap fun x => beBytes (64 / 8) x.toNat).length = 48 := by
    simp [List.flatMap_cons]
  have e : sha2Out (a, b, c, d, e, f, g, h) = ([a, b, c, d, e, f].flatMap fun x => beBytes (64 / 8) x.toNat) ++
      ([g, h].flatMap fun x => beBytes (64 / 8) x.toNat) := by
    simp [sha2Out, List.flatMap_cons]
  rw [e, List.take_append_of_le_length (by omega), List.take_of_length_le (by omega)]
  simp only [word512]

theorem sha512_eq {m : Str} (hb : IsBytes m) : sha512 m = .ok (Spec.sha512 m) := by
  obtain ⟨c, h1, h2⟩ := rep_update512 rep_init512 (by intro x hx; cases hx) m hb
  unfold sha512
  rw [h1]
  exact final_eq512 h2 hb

theorem sha384_eq {m : Str} (hb : IsBytes m) : sha384 m = .ok (Spec.sha384 m) := by
  obtain ⟨c, h1, h2⟩ := rep_update512 rep_init384 (by intro x hx; cases hx) m hb
  unfold sha384
  rw [h1]
  exact final_eq384 h2 hb

end Fwknop.Sha2
