import Verif.Model.Sha3
import Verif.Spec.Sha3
import Verif.Lemmas.Absorb

/-!
# Keccak-f: the permutation of the model, on bytes, is the one of FIPS 202, on lanes
-/

namespace Fwknop.Sha3

open Spec

/-! ## Lanes in bytes -/

theorem load_step (u : BitVec 64) (c : Nat) (hu : u.toNat < 2 ^ 56) (hc : c < 256) :
    (u <<< 8 ||| BitVec.ofNat 64 c).toNat = u.toNat * 256 + c := by
  rw [BitVec.toNat_or, BitVec.toNat_shiftLeft, BitVec.toNat_ofNat, Nat.mod_eq_of_lt (by omega : c < 2 ^ 64),
    Nat.mod_eq_of_lt (by rw [Nat.shiftLeft_eq]; omega), ← Nat.shiftLeft_add_eq_or_of_lt (by omega : c < 2 ^ 8),
    Nat.shiftLeft_eq]

theorem load64_eq {x : Str} (hl : x.length = 8) (hb : IsBytes x) : (load64 x).toNat = leNum x := by
  obtain ⟨a, b, c, d, e, f, g, h, rfl⟩ := eight_of_length hl
  have ha : a < 256 := hb a (by simp)
  have hb' : b < 256 := hb b (by simp)
  have hc : c < 256 := hb c (by simp)
  have hd : d < 256 := hb d (by simp)
  have he : e < 256 := hb e (by simp)
  have hf : f < 256 := hb f (by simp)
  have hg : g < 256 := hb g (by simp)
  have hh : h < 256 := hb h (by simp)
  have z : (0 : BitVec 64).toNat = 0 := rfl
  have e1 := load_step 0 h (by rw [z]; omega) hh
  have e2 := load_step _ g (by rw [e1, z]; omega) hg
  have e3 := load_step _ f (by rw [e2, e1, z]; omega) hf
  have e4 := load_step _ e (by rw [e3, e2, e1, z]; omega) he
  have e5 := load_step _ d (by rw [e4, e3, e2, e1, z]; omega) hd
  have e6 := load_step _ c (by rw [e5, e4, e3, e2, e1, z]; omega) hc
  have e7 := load_step _ b (by rw [e6, e5, e4, e3, e2, e1, z]; omega) hb'
  have e8 := load_step _ a (by rw [e7, e6, e5, e4, e3, e2, e1, z]; omega) ha
  have e9 : load64 [a, b, c, d, e, f, g, h] = ((((((((0 : BitVec 64) <<< 8 ||| BitVec.ofNat 64 h) <<< 8 |||
      BitVec.ofNat 64 g) <<< 8 ||| BitVec.ofNat 64 f) <<< 8 ||| BitVec.ofNat 64 e) <<< 8 ||| BitVec.ofNat 64 d) <<< 8 |||
      BitVec.ofNat 64 c) <<< 8 ||| BitVec.ofNat 64 b) <<< 8 ||| BitVec.ofNat 64 a := rfl
  rw [e9, e8, e7, e6, e5, e4, e3, e2, e1, z]
  simp only [leNum]
  omega

theorem store64_eq (n : Nat) (u : BitVec 64) : store64 n u = leBytes n u.toNat := by
  induction n generalizing u with
  | zero => rfl
  | succ n ih =>
    simp only [store64, leBytes, ih]
    rw [BitVec.toNat_ushiftRight, Nat.shiftRight_eq_div_pow]

theorem xor64_eq (n v : Nat) (u : BitVec 64) : xor64 (leBytes n v) u = leBytes n (v ^^^ u.toNat) := by
  induction n generalizing u v with
  | zero => rfl
  | succ n ih =>
    simp only [xor64, leBytes, ih]
    rw [BitVec.toNat_ushiftRight]
    have h1 : (v % 256 ^^^ u.toNat) % 256 = (v ^^^ u.toNat) % 256 := by
      rw [show (256 : Nat) = 2 ^ 8 from rfl, Nat.xor_mod_two_pow, Nat.xor_mod_two_pow, Nat.mod_mod]
    have h2 : (v ^^^ u.toNat) / 256 = v / 256 ^^^ u.toNat >>> 8 := by
      rw [show (256 : Nat) = 2 ^ 8 from rfl, ← Nat.shiftRight_eq_div_pow, ← Nat.shiftRight_eq_div_pow,
        Nat.shiftRight_xor_distrib]
    rw [h1, h2]

/-- The bytes of a list of lanes. -/
def bytesOf (l : List (BitVec 64)) : Str := l.flatMap fun w => leBytes 8 w.toNat

theorem bytesOf_length (l : List (BitVec 64)) : (bytesOf l).length = 8 * l.length := by
  induction l with
  | nil => rfl
  | cons w l ih =>
    simp only [bytesOf, List.flatMap_cons, List.length_append, leBytes_length, List.length_cons] at ih ⊢
    omega

theorem bytesOf_bytes (l : List (BitVec 64)) : IsBytes (bytesOf l) := by
  intro c hc
  simp only [bytesOf, List.mem_flatMap] at hc
  obtain ⟨w, _, h⟩ := hc
  exact leBytes_bytes _ _ c h

theorem bytesOf_append (l k : List (BitVec 64)) : bytesOf (l ++ k) = bytesOf l ++ bytesOf k := by
  simp [bytesOf]

theorem bytesOf_split {l : List (BitVec 64)} {i : Nat} (hi : i < l.length) :
    bytesOf l = bytesOf (l.take i) ++ leBytes 8 (l.getD i 0).toNat ++ bytesOf (l.drop (i + 1)) := by
  have e : l = l.take i ++ (l.getD i 0 :: l.drop (i + 1)) := by
    rw [List.getD_eq_getElem?_getD, List.getElem?_eq_getElem hi, Option.getD_some, List.getElem_cons_drop,
      List.take_append_drop]
  rw [List.append_assoc]
  conv => lhs; rw [e, bytesOf_append]
  rfl

theorem lane_of {l : List (BitVec 64)} {i : Nat} (hi : i < l.length) :
    (bytesOf l).take (8 * i) = bytesOf (l.take i) ∧ ((bytesOf l).drop (8 * i)).take 8 = leBytes 8 (l.getD i 0).toNat ∧
      (bytesOf l).drop (8 * i + 8) = bytesOf (l.drop (i + 1)) := by
  have hl : (bytesOf (l.take i)).length = 8 * i := by rw [bytesOf_length, List.length_take]; omega
  have hl2 : (bytesOf (l.take i) ++ leBytes 8 (l.getD i 0).toNat).length = 8 * i + 8 := by
    rw [List.length_append, hl, leBytes_length]
  rw [bytesOf_split hi]
  refine ⟨?_, ?_, ?_⟩
  · rw [List.append_assoc, ← hl, List.take_left]
  · rw [List.append_assoc, ← hl, List.drop_left]
    have := List.take_left (l₁ := leBytes 8 (l.getD i 0).toNat) (l₂ := bytesOf (l.drop (i + 1)))
    rw [leBytes_length] at this
    exact this
  · rw [← hl2, List.drop_left]

theorem readLane_eq {l : List (BitVec 64)} {x y : Nat} (h : idx x y < l.length) :
    readLane (bytesOf l) x y = l.getD (idx x y) 0 := by
  unfold readLane
  rw [(lane_of h).2.1]
  apply BitVec.eq_of_toNat_eq
  rw [load64_eq (leBytes_length _ _) (leBytes_bytes _ _), leNum_leBytes]
  exact Nat.mod_eq_of_lt (BitVec.isLt _)

theorem bytesOf_set {l : List (BitVec 64)} {i : Nat} (h : i < l.length) (w : BitVec 64) :
    bytesOf (l.set i w) = bytesOf (l.take i) ++ leBytes 8 w.toNat ++ bytesOf (l.drop (i + 1)) := by
  rw [List.set_eq_take_append_cons_drop, if_pos h, bytesOf_append, List.append_assoc]
  rfl

theorem writeLane_eq {l : List (BitVec 64)} {x y : Nat} (h : idx x y < l.length) (w : BitVec 64) :
    writeLane (bytesOf l) x y w = bytesOf (l.set (idx x y) w) := by
  unfold writeLane
  rw [(lane_of h).1, (lane_of h).2.2, store64_eq, bytesOf_set h]

theorem XORLane_eq {l : List (BitVec 64)} {x y : Nat} (h : idx x y < l.length) (w : BitVec 64) :
    XORLane (bytesOf l) x y w = bytesOf (l.set (idx x y) (l.getD (idx x y) 0 ^^^ w)) := by
  unfold XORLane
  rw [(lane_of h).1, (lane_of h).2.2, (lane_of h).2.1, xor64_eq, bytesOf_set h, BitVec.toNat_xor]

theorem ROL64_eq (a : BitVec 64) {r : Nat} (h0 : 0 < r) (h : r < 64) : ROL64 a r = a.rotateLeft r := by
  rw [BitVec.rotateLeft_eq_rotateLeftAux_of_lt h]
  unfold ROL64 BitVec.rotateLeftAux
  apply BitVec.eq_of_getLsbD_eq
  intro i hi
  simp only [BitVec.getLsbD_xor, BitVec.getLsbD_or, BitVec.getLsbD_shiftLeft, BitVec.getLsbD_ushiftRight]
  by_cases hr : i < r
  · simp [hr]
  · have : a.getLsbD (64 - r + i) = false := BitVec.getLsbD_of_ge _ _ (by omega)
    simp [this]

theorem lanes_of_bytes {s : Str} (hl : s.length = 200) (hb : IsBytes s) : ∃ l : List (BitVec 64),
    l.length = 25 ∧ s = bytesOf l := by
  have key : ∀ (n : Nat) (s : Str), s.length = 8 * n → IsBytes s → ∃ l : List (BitVec 64),
      l.length = n ∧ s = bytesOf l := by
    intro n
    induction n with
    | zero =>
      intro s hl _
      exact ⟨[], rfl, List.eq_nil_of_length_eq_zero (by omega)⟩
    | succ n ih =>
      intro s hl hb
      obtain ⟨l, h1, h2⟩ := ih (s.drop 8) (by rw [List.length_drop]; omega) (isB_drop hb _)
      refine ⟨BitVec.ofNat 64 (leNum (s.take 8)) :: l, by simp [h1], ?_⟩
      have hl8 : (s.take 8).length = 8 := by rw [List.length_take]; omega
      have e : leBytes 8 (BitVec.ofNat 64 (leNum (s.take 8))).toNat = s.take 8 := by
        rw [BitVec.toNat_ofNat, show (2 : Nat) ^ 64 = 256 ^ 8 by decide, leBytes_mod]
        have := leBytes_leNum (s.take 8) (isB_take hb _)
        rw [hl8] at this
        exact this
      show s = leBytes 8 (BitVec.ofNat 64 (leNum (s.take 8))).toNat ++ bytesOf l
      rw [e, ← h2, List.take_append_drop]
  exact key 25 s hl hb

/-! ## The steps on lists of lanes -/

/-- A loop on bytes simulates a loop on lanes. -/
theorem foldl_rel {α σ τ : Type} {R : σ → τ → Prop} {f : σ → α → σ} {g : τ → α → τ} (xs : List α) {s : σ} {t : τ}
    (h0 : R s t) (h : ∀ s t x, x ∈ xs → R s t → R (f s x) (g t x)) : R (xs.foldl f s) (xs.foldl g t) := by
  induction xs generalizing s t with
  | nil => exact h0
  | cons x xs ih =>
    exact ih (h s t x (by simp) h0) (fun s t y hy => h s t y (by simp [hy]))

/-- The bytes are those of 25 lanes. -/
def Rep (s : Str) (l : List (BitVec 64)) : Prop := l.length = 25 ∧ s = bytesOf l

theorem Rep.read {s : Str} {l : List (BitVec 64)} (h : Rep s l) {x y : Nat} (hx : x < 5) (hy : y < 5) :
    readLane s x y = l.getD (idx x y) 0 := by
  rw [h.2, readLane_eq (by rw [h.1]; unfold idx; omega)]

theorem Rep.write {s : Str} {l : List (BitVec 64)} (h : Rep s l) {x y : Nat} (hx : x < 5) (hy : y < 5)
    (w : BitVec 64) : Rep (writeLane s x y w) (l.set (idx x y) w) := by
  refine ⟨by rw [List.length_set, h.1], ?_⟩
  rw [h.2, writeLane_eq (by rw [h.1]; unfold idx; omega)]

theorem Rep.xor {s : Str} {l : List (BitVec 64)} (h : Rep s l) {x y : Nat} (hx : x < 5) (hy : y < 5)
    (w : BitVec 64) : Rep (XORLane s x y w) (l.set (idx x y) (l.getD (idx x y) 0 ^^^ w)) := by
  refine ⟨by rw [List.length_set, h.1], ?_⟩
  rw [h.2, XORLane_eq (by rw [h.1]; unfold idx; omega)]

/-- Theta on a list of lanes. -/
def thetaL (l : List (BitVec 64)) : List (BitVec 64) :=
  let C := (List.range 5).map fun x =>
    l.getD (idx x 0) 0 ^^^ l.getD (idx x 1) 0 ^^^ l.getD (idx x 2) 0 ^^^ l.getD (idx x 3) 0 ^^^ l.getD (idx x 4) 0
  (List.range 5).foldl (fun s x =>
    let D := C.getD ((x + 4) % 5) 0 ^^^ (C.getD ((x + 1) % 5) 0).rotateLeft 1
    (List.range 5).foldl (fun s y => s.set (idx x y) (s.getD (idx x y) 0 ^^^ D)) s) l

theorem theta_rep {s : Str} {l : List (BitVec 64)} (h : Rep s l) : Rep (theta s) (thetaL l) := by
  have hC : ((List.range 5).map fun x => readLane s x 0 ^^^ readLane s x 1 ^^^ readLane s x 2 ^^^ readLane s x 3 ^^^
      readLane s x 4) = (List.range 5).map fun x =>
      l.getD (idx x 0) 0 ^^^ l.getD (idx x 1) 0 ^^^ l.getD (idx x 2) 0 ^^^ l.getD (idx x 3) 0 ^^^ l.getD (idx x 4) 0 := by
    apply List.map_congr_left
    intro x hx
    have hx5 := List.mem_range.mp hx
    rw [h.read hx5 (by decide), h.read hx5 (by decide), h.read hx5 (by decide), h.read hx5 (by decide),
      h.read hx5 (by decide)]
  simp only [theta, thetaL]
  rw [hC]
  generalize List.map _ (List.range 5) = C
  refine foldl_rel _ h fun s l x hx hr => ?_
  rw [ROL64_eq _ (by decide) (by decide)]
  exact foldl_rel _ hr fun s l y hy hr => hr.xor (List.mem_range.mp hx) (List.mem_range.mp hy) _

/-- One step of rho and pi on a list of lanes. -/
def rhoPiStepL (s : List (BitVec 64) × Nat × Nat × BitVec 64) (t : Nat) : List (BitVec 64) × Nat × Nat × BitVec 64 :=
  let r := (t + 1) * (t + 2) / 2 % 64
  let Y := (2 * s.2.1 + 3 * s.2.2.1) % 5
  let x := s.2.2.1
  let y := Y
  let temp := s.1.getD (idx x y) 0
  (s.1.set (idx x y) (s.2.2.2.rotateLeft r), x, y, temp)

/-- Rho and pi on a list of lanes. -/
def rhoPiL (l : List (BitVec 64)) : List (BitVec 64) :=
  ((List.range 24).foldl rhoPiStepL (l, 1, 0, l.getD (idx 1 0) 0)).1

theorem offsets_ok : ∀ t ∈ List.range 24, 0 < (t + 1) * (t + 2) / 2 % 64 ∧ (t + 1) * (t + 2) / 2 % 64 < 64 := by decide

theorem rhoPi_rep {s : Str} {l : List (BitVec 64)} (h : Rep s l) : Rep (rhoPi s) (rhoPiL l) := by
  have := foldl_rel (R := fun (a : Str × Nat × Nat × BitVec 64) (b : List (BitVec 64) × Nat × Nat × BitVec 64) =>
      Rep a.1 b.1 ∧ a.2 = b.2 ∧ b.2.1 < 5 ∧ b.2.2.1 < 5) (f := rhoPiStep) (g := rhoPiStepL) (List.range 24)
      (s := (s, 1, 0, readLane s 1 0)) (t := (l, 1, 0, l.getD (idx 1 0) 0))
      ⟨h, by rw [h.read (by decide) (by decide)], by show 1 < 5; decide, by show 0 < 5; decide⟩ (by
    rintro ⟨a, ax, ay, ac⟩ ⟨b, bx, bY, bc⟩ t ht ⟨hr, he, h1, h2⟩
    simp only [Prod.mk.injEq] at he
    obtain ⟨rfl, rfl, rfl⟩ := he
    have hm : (2 * ax + 3 * ay) % 5 < 5 := Nat.mod_lt _ (by decide)
    simp only [rhoPiStep, rhoPiStepL]
    rw [ROL64_eq _ (offsets_ok t ht).1 (offsets_ok t ht).2, hr.read h2 hm]
    exact ⟨hr.write h2 hm _, rfl, h2, hm⟩)
  exact this.1

/-- Chi on a list of lanes. -/
def chiL (l : List (BitVec 64)) : List (BitVec 64) :=
  (List.range 5).foldl (fun s y =>
    let temp := (List.range 5).map fun x => s.getD (idx x y) 0
    (List.range 5).foldl (fun s x =>
      s.set (idx x y) (temp.getD x 0 ^^^ (~~~(temp.getD ((x + 1) % 5) 0) &&& temp.getD ((x + 2) % 5) 0)))
      s) l

theorem chi_rep {s : Str} {l : List (BitVec 64)} (h : Rep s l) : Rep (chi s) (chiL l) := by
  refine foldl_rel _ h fun s l y hy hr => ?_
  have hC : ((List.range 5).map fun x => readLane s x y) = (List.range 5).map fun x => l.getD (idx x y) 0 := by
    apply List.map_congr_left
    intro x hx
    rw [hr.read (List.mem_range.mp hx) (List.mem_range.mp hy)]
  simp only
  rw [hC]
  exact foldl_rel _ hr fun s l x hx hr => hr.write (List.mem_range.mp hx) (List.mem_range.mp hy) _

/-- One step of iota on a list of lanes. -/
def iotaStepL (s : List (BitVec 64) × Nat) (j : Nat) : List (BitVec 64) × Nat :=
  (if (LFSR86540 s.2).1 then s.1.set 0 (s.1.getD 0 0 ^^^ (1 : BitVec 64) <<< (2 ^ j - 1)) else s.1, (LFSR86540 s.2).2)

theorem iotaStep_rep {s : Str} {l : List (BitVec 64)} (r j : Nat) (h : Rep s l) :
    Rep (iotaStep (s, r) j).1 (iotaStepL (l, r) j).1 ∧ (iotaStep (s, r) j).2 = (iotaStepL (l, r) j).2 := by
  refine ⟨?_, rfl⟩
  simp only [iotaStep, iotaStepL]
  split
  · exact h.xor (by decide) (by decide) _
  · exact h

/-- What iota adds to the first lane, and the register after it. -/
def iotaW (s : BitVec 64 × Nat) (j : Nat) : BitVec 64 × Nat :=
  (if (LFSR86540 s.2).1 then s.1 ^^^ (1 : BitVec 64) <<< (2 ^ j - 1) else s.1, (LFSR86540 s.2).2)

theorem iota_fold (js : List Nat) (a : BitVec 64) (l : List (BitVec 64)) (u : BitVec 64) (r : Nat) :
    js.foldl iotaStepL ((a ^^^ u) :: l, r) = ((a ^^^ (js.foldl iotaW (u, r)).1) :: l, (js.foldl iotaW (u, r)).2) := by
  induction js generalizing u r with
  | nil => rfl
  | cons j js ih =>
    simp only [List.foldl_cons]
    rw [show iotaStepL ((a ^^^ u) :: l, r) j = ((a ^^^ (iotaW (u, r) j).1) :: l, (iotaW (u, r) j).2) from ?_, ih]
    simp only [iotaStepL, iotaW]
    split
    · simp [BitVec.xor_assoc]
    · rfl

/-- The register at the start of a round. -/
def regAt : Nat → Nat
  | 0 => 0x01
  | n + 1 => ((List.range 7).foldl iotaW (0, regAt n)).2

theorem iota_consts : ∀ ir ∈ List.range 24, ((List.range 7).foldl iotaW (0, regAt ir)).1 = keccakRC ir := by
  decide +kernel

/-! ## The steps are those of the standard -/

/-- The lanes of a state, in the order of the string. -/
def lanesOf (A : Lanes) : List (BitVec 64) := (List.range 25).map fun i => A (i % 5) (i / 5)

theorem keccakString_eq (A : Lanes) : keccakString A = bytesOf (lanesOf A) := by
  unfold keccakString bytesOf lanesOf
  rw [List.flatMap_map]

theorem keccakLanes_eq {l : List (BitVec 64)} (hl : l.length = 25) {x y : Nat} (hx : x < 5) (hy : y < 5) :
    keccakLanes (bytesOf l) x y = l.getD (5 * y + x) 0 := by
  have h : 5 * y + x < l.length := by omega
  unfold keccakLanes leWord
  have := (lane_of h).2.1
  rw [show (64 / 8) = 8 from rfl, this, leNum_leBytes]
  apply BitVec.eq_of_toNat_eq
  rw [BitVec.toNat_ofNat, show (256 : Nat) ^ 8 = 2 ^ 64 by decide, Nat.mod_mod, Nat.mod_eq_of_lt (BitVec.isLt _)]

theorem theta_eq (A : Lanes) : thetaL (lanesOf A) = lanesOf (keccakTheta A) := by
  simp [thetaL, lanesOf, keccakTheta, keccakC, List.range, List.range.loop, idx]

theorem chi_eq (A : Lanes) : chiL (lanesOf A) = lanesOf (keccakChi A) := by
  simp [chiL, lanesOf, keccakChi, List.range, List.range.loop, idx]

theorem rotl0 (a : BitVec 64) : a.rotateLeft 0 = a := by
  rw [BitVec.rotateLeft_eq_rotateLeftAux_of_lt (by decide)]
  apply BitVec.eq_of_getLsbD_eq
  intro i hi
  simp only [BitVec.rotateLeftAux, BitVec.getLsbD_or, BitVec.getLsbD_shiftLeft, BitVec.getLsbD_ushiftRight]
  rw [BitVec.getLsbD_of_ge a (64 - 0 + i) (by omega)]
  simp [hi]

theorem rhoPi_eq (A : Lanes) : rhoPiL (lanesOf A) = lanesOf (keccakPi (keccakRho A)) := by
  simp [rhoPiL, rhoPiStepL, lanesOf, keccakPi, keccakRho, keccakOffset, List.range, List.range.loop, idx, rotl0]

/-- The same lanes. -/
def Agree (A B : Lanes) : Prop := ∀ x < 5, ∀ y < 5, A x y = B x y

theorem Agree.lanes {A B : Lanes} (h : Agree A B) : lanesOf A = lanesOf B := by
  apply List.map_congr_left
  intro i hi
  have := List.mem_range.mp hi
  exact h _ (Nat.mod_lt _ (by decide)) _ (by omega)

theorem Agree.theta {A B : Lanes} (h : Agree A B) : Agree (keccakTheta A) (keccakTheta B) := by
  have hC : ∀ x < 5, keccakC A x = keccakC B x := by
    intro x hx
    simp only [keccakC]
    rw [h x hx 0 (by decide), h x hx 1 (by decide), h x hx 2 (by decide), h x hx 3 (by decide), h x hx 4 (by decide)]
  intro x hx y hy
  simp only [keccakTheta]
  rw [h x hx y hy, hC _ (Nat.mod_lt _ (by decide)), hC _ (Nat.mod_lt _ (by decide))]

theorem Agree.rho {A B : Lanes} (h : Agree A B) : Agree (keccakRho A) (keccakRho B) := by
  intro x hx y hy
  simp only [keccakRho, h x hx y hy]

theorem Agree.pi {A B : Lanes} (h : Agree A B) : Agree (keccakPi A) (keccakPi B) := by
  intro x hx y hy
  exact h _ (Nat.mod_lt _ (by decide)) x hx

theorem Agree.chi {A B : Lanes} (h : Agree A B) : Agree (keccakChi A) (keccakChi B) := by
  intro x hx y hy
  simp only [keccakChi]
  rw [h x hx y hy, h _ (Nat.mod_lt _ (by decide)) y hy, h _ (Nat.mod_lt _ (by decide)) y hy]

theorem Agree.iota {A B : Lanes} (ir : Nat) (h : Agree A B) : Agree (keccakIota ir A) (keccakIota ir B) := by
  intro x hx y hy
  simp only [keccakIota, h x hx y hy]

theorem iota_eq (ir : Nat) (A : Lanes) :
    lanesOf (keccakIota ir A) = (A 0 0 ^^^ keccakRC ir) :: (lanesOf A).drop 1 := by
  rfl

/-- The lanes of a list. -/
def laneFn (l : List (BitVec 64)) : Lanes := fun x y => l.getD (5 * y + x) 0

theorem lanesOf_laneFn {l : List (BitVec 64)} (hl : l.length = 25) : lanesOf (laneFn l) = l := by
  apply List.ext_getElem
  · simp [lanesOf, hl]
  · intro i h1 h2
    simp only [lanesOf, List.getElem_map, List.getElem_range, laneFn]
    rw [show 5 * (i / 5) + i % 5 = i by omega, List.getD_eq_getElem?_getD, List.getElem?_eq_getElem h2, Option.getD_some]

theorem lanesOf_length (A : Lanes) : (lanesOf A).length = 25 := by simp [lanesOf]

theorem round_rep {s : Str} {l : List (BitVec 64)} (h : Rep s l) {ir : Nat} (hi : ir < 24) :
    ∃ l', Rep (round (s, regAt ir) ir).1 l' ∧ (round (s, regAt ir) ir).1 = keccakRnd s ir ∧
      (round (s, regAt ir) ir).2 = regAt (ir + 1) := by
  have hr := chi_rep (rhoPi_rep (theta_rep h))
  have hA : chiL (rhoPiL (thetaL l)) = lanesOf (keccakChi (keccakPi (keccakRho (keccakTheta (laneFn l))))) := by
    conv => lhs; rw [← lanesOf_laneFn h.1]
    rw [theta_eq, rhoPi_eq, chi_eq]
  rw [hA] at hr
  have hag : Agree (keccakLanes s) (laneFn l) := by
    intro x hx y hy
    rw [h.2, keccakLanes_eq h.1 hx hy]
    rfl
  have hspec : keccakRnd s ir = bytesOf (lanesOf (keccakIota ir
      (keccakChi (keccakPi (keccakRho (keccakTheta (laneFn l))))))) := by
    rw [← ((((hag.theta).rho).pi).chi.iota ir).lanes, ← keccakString_eq]
    rfl
  rw [hspec, iota_eq]
  generalize keccakChi (keccakPi (keccakRho (keccakTheta (laneFn l)))) = A at hr
  have hf := foldl_rel (R := fun (a : Str × Nat) (b : List (BitVec 64) × Nat) => Rep a.1 b.1 ∧ a.2 = b.2)
    (f := iotaStep) (g := iotaStepL) (List.range 7) (s := (chi (rhoPi (theta s)), regAt ir))
    (t := (lanesOf A, regAt ir)) ⟨hr, rfl⟩ (by
    rintro ⟨a, ar⟩ ⟨b, br⟩ t _ ⟨h1, h2⟩
    obtain rfl : ar = br := h2
    exact iotaStep_rep _ _ h1)
  have hl : lanesOf A = (A 0 0 ^^^ 0) :: (lanesOf A).drop 1 := by
    have : A 0 0 ^^^ 0 = A 0 0 := by simp
    rw [this]
    rfl
  rw [hl, iota_fold, iota_consts ir (List.mem_range.mpr hi)] at hf
  exact ⟨_, hf.1, hf.1.2, hf.2⟩

theorem permute_fold {s : Str} {l : List (BitVec 64)} (h : Rep s l) (n : Nat) (hn : n ≤ 24) :
    ∃ l', Rep ((List.range n).foldl round (s, regAt 0)).1 l' ∧
      ((List.range n).foldl round (s, regAt 0)).1 = (List.range n).foldl keccakRnd s ∧
      ((List.range n).foldl round (s, regAt 0)).2 = regAt n := by
  induction n with
  | zero => exact ⟨l, h, rfl, rfl⟩
  | succ n ih =>
    obtain ⟨l1, h1, h2, h3⟩ := ih (by omega)
    rw [List.range_succ, List.foldl_append, List.foldl_append]
    simp only [List.foldl_cons, List.foldl_nil]
    rw [← h2]
    generalize hq : (List.range n).foldl round (s, regAt 0) = q at h1 h2 h3
    obtain ⟨a, r⟩ := q
    simp only at h3
    subst h3
    exact round_rep h1 (by omega)

/-- The permutation of the code is that of the standard. -/
theorem permute_eq {s : Str} (hl : s.length = 200) (hb : IsBytes s) :
    KeccakF1600_StatePermute s = keccakP s ∧ (keccakP s).length = 200 ∧ IsBytes (keccakP s) := by
  obtain ⟨l, h1, h2⟩ := lanes_of_bytes hl hb
  obtain ⟨l', h3, h4, _⟩ := permute_fold (s := s) ⟨h1, h2⟩ 24 (Nat.le_refl _)
  have e : KeccakF1600_StatePermute s = keccakP s := h4
  refine ⟨e, ?_, ?_⟩
  · rw [← e]
    show (((List.range 24).foldl round (s, regAt 0)).1).length = 200
    rw [h3.2, bytesOf_length, h3.1]
  · rw [← e]
    show IsBytes (((List.range 24).foldl round (s, regAt 0)).1)
    rw [h3.2]
    exact bytesOf_bytes _

end Fwknop.Sha3
