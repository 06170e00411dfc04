import Verif.Lemmas.Aes

/-! # Rounds, key schedule and the inverse cipher, on states -/

namespace Fwknop.Aes

open Fwknop.Spec.Aes (xt gmul S State shiftRows mixColumns xtPow keyWord xorWord subWord rotWord rcon)

/-- The state held in four words. -/
def st (w : List Nat) : State := fun r c => byte r (w.getD c 0)

/-- Equality of 4 by 4 states. -/
def EqS (s t : State) : Prop := ∀ r < 4, ∀ c < 4, s r c = t r c

theorem EqS.trans {s t u : State} (h : EqS s t) (h' : EqS t u) : EqS s u :=
  fun r hr c hc => (h r hr c hc).trans (h' r hr c hc)

theorem EqS.symm {s t : State} (h : EqS s t) : EqS t s := fun r hr c hc => (h r hr c hc).symm

/-- All entries are bytes. -/
def BytesS (s : State) : Prop := ∀ r c, s r c < 256

theorem st_bytes (w : List Nat) : BytesS (st w) := fun _ _ => byte_lt _ _

def subT (box : List Nat) (s : State) : State := fun r c => box.getD (s r c) 0

def invShift (s : State) : State := fun r c => s r ((c + 4 - r) % 4)

def invMix (s : State) : State := fun r c =>
  gmul 14 (s r c) ^^^ gmul 11 (s ((r + 1) % 4) c) ^^^ gmul 13 (s ((r + 2) % 4) c)
    ^^^ gmul 9 (s ((r + 3) % 4) c)

/-- Exclusive or with the key words from index `k`. -/
def addKeys (keys : List Nat) (k : Nat) (s : State) : State :=
  fun r c => byte r (keys.getD (k + c) 0) ^^^ s r c

theorem lt4 {r : Nat} (h : r < 4) : r = 0 ∨ r = 1 ∨ r = 2 ∨ r = 3 := by omega

theorem getD_map_range {f : Nat → Nat} {n c : Nat} (hc : c < n) :
    ((List.range n).map f).getD c 0 = f c := by
  simp [List.getD_eq_getElem?_getD, List.getElem?_map, List.getElem?_range hc]

theorem EqS.shiftRows {s t : State} (h : EqS s t) : EqS (Spec.Aes.shiftRows s) (Spec.Aes.shiftRows t) :=
  fun r hr c _ => h r hr _ (Nat.mod_lt _ (by decide))

theorem EqS.invShift {s t : State} (h : EqS s t) : EqS (invShift s) (Aes.invShift t) :=
  fun r hr c _ => h r hr _ (Nat.mod_lt _ (by decide))

theorem EqS.subT {s t : State} (h : EqS s t) (box : List Nat) : EqS (subT box s) (Aes.subT box t) :=
  fun r hr c hc => by show box.getD _ _ = box.getD _ _; rw [h r hr c hc]

theorem EqS.mix {s t : State} (h : EqS s t) : EqS (mixColumns s) (mixColumns t) := by
  intro r hr c hc
  unfold mixColumns
  rw [h r hr c hc, h _ (Nat.mod_lt _ (by decide)) c hc, h _ (Nat.mod_lt _ (by decide)) c hc,
    h _ (Nat.mod_lt _ (by decide)) c hc]

theorem EqS.invMix {s t : State} (h : EqS s t) : EqS (invMix s) (Aes.invMix t) := by
  intro r hr c hc
  unfold Aes.invMix
  rw [h r hr c hc, h _ (Nat.mod_lt _ (by decide)) c hc, h _ (Nat.mod_lt _ (by decide)) c hc,
    h _ (Nat.mod_lt _ (by decide)) c hc]

theorem EqS.addKeys {s t : State} (h : EqS s t) (keys : List Nat) (k : Nat) :
    EqS (addKeys keys k s) (Aes.addKeys keys k t) :=
  fun r hr c hc => by unfold Aes.addKeys; rw [h r hr c hc]

/-! ## The steps of the code -/

theorem tableWord (x0 x1 x2 x3 : Nat) :
    byte 0 (x0 ^^^ ROTRBYTE (x1 ^^^ ROTRBYTE (x2 ^^^ ROTRBYTE x3)))
      = byte 0 x0 ^^^ (byte 3 x1 ^^^ (byte 2 x2 ^^^ byte 1 x3))
    ∧ byte 1 (x0 ^^^ ROTRBYTE (x1 ^^^ ROTRBYTE (x2 ^^^ ROTRBYTE x3)))
      = byte 1 x0 ^^^ (byte 0 x1 ^^^ (byte 3 x2 ^^^ byte 2 x3))
    ∧ byte 2 (x0 ^^^ ROTRBYTE (x1 ^^^ ROTRBYTE (x2 ^^^ ROTRBYTE x3)))
      = byte 2 x0 ^^^ (byte 1 x1 ^^^ (byte 0 x2 ^^^ byte 3 x3))
    ∧ byte 3 (x0 ^^^ ROTRBYTE (x1 ^^^ ROTRBYTE (x2 ^^^ ROTRBYTE x3)))
      = byte 3 x0 ^^^ (byte 2 x1 ^^^ (byte 1 x2 ^^^ byte 0 x3)) := by
  have r0 := fun x => (byte_rotr x).1
  have r1 := fun x => (byte_rotr x).2.1
  have r2 := fun x => (byte_rotr x).2.2.1
  have r3 := fun x => (byte_rotr x).2.2.2
  simp only [byte_xor, r0, r1, r2, r3, and_self]

theorem and_ff0 (w : Nat) : w &&& 0xff = byte 0 w := by rw [and_ff]; rfl
theorem and_ff1 (w : Nat) : (w >>> 8) &&& 0xff = byte 1 w := by rw [and_ff]; rfl
theorem and_ff2 (w : Nat) : (w >>> 16) &&& 0xff = byte 2 w := by rw [and_ff]; rfl
theorem and_ff3 (w : Nat) : (w >>> 24) &&& 0xff = byte 3 w := by rw [and_ff]; rfl

theorem st_encTable (w : List Nat) :
    EqS (st (tableRound dtbl idx w)) (mixColumns (shiftRows (subT sbox (st w)))) := by
  intro r hr c hc
  unfold st tableRound
  rw [getD_map_range hc]
  rw [and_ff3, and_ff2, and_ff1, and_ff0]
  have h := tableWord (dtbl.getD (byte 0 (w.getD c 0)) 0)
    (dtbl.getD (byte 1 (w.getD ((idx.getD 1 []).getD c 0) 0)) 0)
    (dtbl.getD (byte 2 (w.getD ((idx.getD 2 []).getD c 0) 0)) 0)
    (dtbl.getD (byte 3 (w.getD ((idx.getD 3 []).getD c 0) 0)) 0)
  have d := fun k x => dtbl_bytes (byte k x) (byte_lt k x)
  have d0 := fun k x => (d k x).1
  have d1 := fun k x => (d k x).2.1
  have d2 := fun k x => (d k x).2.2.1
  have d3 := fun k x => (d k x).2.2.2
  rcases lt4 hr with rfl | rfl | rfl | rfl
  · rw [h.1, d0, d3, d2, d1]
    rcases lt4 hc with rfl | rfl | rfl | rfl <;>
      simp [mixColumns, shiftRows, subT, idx, Nat.xor_assoc]
  · rw [h.2.1, d0, d3, d2, d1]
    rcases lt4 hc with rfl | rfl | rfl | rfl <;>
      simp only [mixColumns, shiftRows, subT, idx] <;> simp <;> ac_rfl
  · rw [h.2.2.1, d0, d3, d2, d1]
    rcases lt4 hc with rfl | rfl | rfl | rfl <;>
      simp only [mixColumns, shiftRows, subT, idx] <;> simp <;> ac_rfl
  · rw [h.2.2.2, d0, d3, d2, d1]
    rcases lt4 hc with rfl | rfl | rfl | rfl <;>
      simp only [mixColumns, shiftRows, subT, idx] <;> simp <;> ac_rfl

theorem st_decTable (w : List Nat) :
    EqS (st (tableRound itbl iidx w)) (invMix (invShift (subT isbox (st w)))) := by
  intro r hr c hc
  unfold st tableRound
  rw [getD_map_range hc]
  rw [and_ff3, and_ff2, and_ff1, and_ff0]
  have h := tableWord (itbl.getD (byte 0 (w.getD c 0)) 0)
    (itbl.getD (byte 1 (w.getD ((iidx.getD 1 []).getD c 0) 0)) 0)
    (itbl.getD (byte 2 (w.getD ((iidx.getD 2 []).getD c 0) 0)) 0)
    (itbl.getD (byte 3 (w.getD ((iidx.getD 3 []).getD c 0) 0)) 0)
  have d := fun k x => itbl_bytes (byte k x) (byte_lt k x)
  have d0 := fun k x => (d k x).1
  have d1 := fun k x => (d k x).2.1
  have d2 := fun k x => (d k x).2.2.1
  have d3 := fun k x => (d k x).2.2.2
  rcases lt4 hr with rfl | rfl | rfl | rfl
  · rw [h.1, d0, d3, d2, d1]
    rcases lt4 hc with rfl | rfl | rfl | rfl <;>
      simp [invMix, invShift, subT, iidx, Nat.xor_assoc]
  · rw [h.2.1, d0, d3, d2, d1]
    rcases lt4 hc with rfl | rfl | rfl | rfl <;>
      simp only [invMix, invShift, subT, iidx] <;> simp <;> ac_rfl
  · rw [h.2.2.1, d0, d3, d2, d1]
    rcases lt4 hc with rfl | rfl | rfl | rfl <;>
      simp only [invMix, invShift, subT, iidx] <;> simp <;> ac_rfl
  · rw [h.2.2.2, d0, d3, d2, d1]
    rcases lt4 hc with rfl | rfl | rfl | rfl <;>
      simp only [invMix, invShift, subT, iidx] <;> simp <;> ac_rfl

theorem byte_sub (box : List Nat) (hb : ∀ x < 256, box.getD x 0 < 256) (x r : Nat) (hr : r < 4) :
    byte r (SUBBYTE x box) = box.getD (byte r x) 0 := by
  unfold SUBBYTE
  rw [and_ff0, and_ff1, and_ff2, and_ff3]
  have h := byte_pack (hb _ (byte_lt 0 x)) (hb _ (byte_lt 1 x)) (hb _ (byte_lt 2 x))
    (hb _ (byte_lt 3 x))
  rcases lt4 hr with rfl | rfl | rfl | rfl
  · exact h.1
  · exact h.2.1
  · exact h.2.2.1
  · exact h.2.2.2

theorem byte_masks (a b c d : Nat) :
    byte 0 ((a &&& 0xff) ||| (b &&& 0xff00) ||| (c &&& 0xff0000) ||| (d &&& 0xff000000)) = byte 0 a
    ∧ byte 1 ((a &&& 0xff) ||| (b &&& 0xff00) ||| (c &&& 0xff0000) ||| (d &&& 0xff000000)) = byte 1 b
    ∧ byte 2 ((a &&& 0xff) ||| (b &&& 0xff00) ||| (c &&& 0xff0000) ||| (d &&& 0xff000000)) = byte 2 c
    ∧ byte 3 ((a &&& 0xff) ||| (b &&& 0xff00) ||| (c &&& 0xff0000) ||| (d &&& 0xff000000))
      = byte 3 d := by
  have m : ∀ r x, byte r x &&& 255 = byte r x := fun r x => by
    rw [and_ff]; exact Nat.mod_eq_of_lt (byte_lt r x)
  have c1 : byte 0 0xff = 255 ∧ byte 0 0xff00 = 0 ∧ byte 0 0xff0000 = 0 ∧ byte 0 0xff000000 = 0
    ∧ byte 1 0xff = 0 ∧ byte 1 0xff00 = 255 ∧ byte 1 0xff0000 = 0 ∧ byte 1 0xff000000 = 0
    ∧ byte 2 0xff = 0 ∧ byte 2 0xff00 = 0 ∧ byte 2 0xff0000 = 255 ∧ byte 2 0xff000000 = 0
    ∧ byte 3 0xff = 0 ∧ byte 3 0xff00 = 0 ∧ byte 3 0xff0000 = 0 ∧ byte 3 0xff000000 = 255 := by
    decide
  simp only [byte_or, byte_and, c1, m, Nat.and_zero, Nat.or_zero, Nat.zero_or, and_self]

theorem st_encLast (w : List Nat) :
    EqS (st (lastRound sbox idx w)) (shiftRows (subT sbox (st w))) := by
  intro r hr c hc
  unfold st lastRound
  rw [getD_map_range hc, byte_sub sbox sbox_lt _ r hr]
  have h := byte_masks (w.getD c 0) (w.getD ((idx.getD 1 []).getD c 0) 0)
    (w.getD ((idx.getD 2 []).getD c 0) 0) (w.getD ((idx.getD 3 []).getD c 0) 0)
  rcases lt4 hr with rfl | rfl | rfl | rfl
  · rw [h.1]; rcases lt4 hc with rfl | rfl | rfl | rfl <;> rfl
  · rw [h.2.1]; rcases lt4 hc with rfl | rfl | rfl | rfl <;> rfl
  · rw [h.2.2.1]; rcases lt4 hc with rfl | rfl | rfl | rfl <;> rfl
  · rw [h.2.2.2]; rcases lt4 hc with rfl | rfl | rfl | rfl <;> rfl

theorem st_decLast (w : List Nat) :
    EqS (st (lastRound isbox iidx w)) (invShift (subT isbox (st w))) := by
  intro r hr c hc
  unfold st lastRound
  rw [getD_map_range hc, byte_sub isbox isbox_lt _ r hr]
  have h := byte_masks (w.getD c 0) (w.getD ((iidx.getD 1 []).getD c 0) 0)
    (w.getD ((iidx.getD 2 []).getD c 0) 0) (w.getD ((iidx.getD 3 []).getD c 0) 0)
  rcases lt4 hr with rfl | rfl | rfl | rfl
  · rw [h.1]; rcases lt4 hc with rfl | rfl | rfl | rfl <;> rfl
  · rw [h.2.1]; rcases lt4 hc with rfl | rfl | rfl | rfl <;> rfl
  · rw [h.2.2.1]; rcases lt4 hc with rfl | rfl | rfl | rfl <;> rfl
  · rw [h.2.2.2]; rcases lt4 hc with rfl | rfl | rfl | rfl <;> rfl

theorem st_add32 (w keys : List Nat) (k : Nat) :
    EqS (st (key_addition32 w keys k)) (addKeys keys k (st w)) := by
  intro r _ c hc
  unfold st key_addition32
  rw [getD_map_range hc, byte_xor]; rfl

theorem getD_lt {s : Str} (h : IsBytes s) (n : Nat) : s.getD n 0 < 256 := by
  rw [List.getD_eq_getElem?_getD]
  cases e : s[n]? with
  | none => simp
  | some x => simpa using h x (List.mem_of_getElem? e)

theorem st_add8 {txt : Str} (ht : IsBytes txt) (keys : List Nat) (k : Nat) :
    EqS (st (key_addition_8to32 txt keys k)) (addKeys keys k (Spec.Aes.load txt)) := by
  intro r hr c hc
  unfold st key_addition_8to32
  rw [getD_map_range hc, byte_xor]
  have h := byte_pack (getD_lt ht (4 * c)) (getD_lt ht (4 * c + 1)) (getD_lt ht (4 * c + 2))
    (getD_lt ht (4 * c + 3))
  unfold addKeys Spec.Aes.load
  congr 1
  rcases lt4 hr with rfl | rfl | rfl | rfl
  · rw [h.1]; simp
  · rw [h.2.1]; congr 1; omega
  · rw [h.2.2.1]; congr 1; omega
  · rw [h.2.2.2]; congr 1; omega

theorem store_congr {s t : State} (h : EqS s t) : Spec.Aes.store s = Spec.Aes.store t := by
  unfold Spec.Aes.store
  apply List.map_congr_left
  intro n hn
  have := List.mem_range.1 hn
  exact h _ (by omega) _ (by omega)

theorem add32to8 (w keys : List Nat) (k : Nat) :
    key_addition32to8 w keys k = Spec.Aes.store (addKeys keys k (st w)) := by
  unfold key_addition32to8 Spec.Aes.store
  apply List.map_congr_left
  intro n _
  show _ = byte _ _ ^^^ byte _ _
  rw [Nat.xor_comm, ← byte_xor, and_ff, Nat.xor_comm]; rfl

theorem load_store (s : State) : EqS (Spec.Aes.load (Spec.Aes.store s)) s := by
  intro r hr c hc
  unfold Spec.Aes.load Spec.Aes.store
  rw [getD_map_range (by omega)]
  congr 1 <;> omega

theorem store_load {b : Str} (h : b.length = 16) : Spec.Aes.store (Spec.Aes.load b) = b := by
  unfold Spec.Aes.load Spec.Aes.store
  apply List.ext_getElem?
  intro n
  by_cases hn : n < 16
  · rw [List.getElem?_map, List.getElem?_range hn]
    have e : n % 4 + 4 * (n / 4) = n := by omega
    simp only [Option.map_some, e, List.getD_eq_getElem?_getD]
    rw [List.getElem?_eq_getElem (by omega)]; rfl
  · rw [List.getElem?_eq_none (by simp; omega), List.getElem?_eq_none (by omega)]

theorem store_length (s : State) : (Spec.Aes.store s).length = 16 := by
  simp [Spec.Aes.store]

theorem store_bytes {s : State} (h : BytesS s) : IsBytes (Spec.Aes.store s) := by
  intro x hx
  unfold Spec.Aes.store at hx
  obtain ⟨n, _, rfl⟩ := List.mem_map.1 hx
  exact h _ _

theorem addKeys_bytes {s : State} (h : BytesS s) (keys : List Nat) (k : Nat) :
    BytesS (addKeys keys k s) := fun _ _ => xor_lt (byte_lt _ _) (h _ _)

/-! ## Inverse transformations -/

theorem invShift_shift (s : State) : EqS (invShift (shiftRows s)) s := by
  intro r hr c hc
  unfold invShift shiftRows
  congr 1
  omega

theorem sub_invShift (box : List Nat) (s : State) :
    invShift (subT box s) = subT box (invShift s) := rfl

theorem sub_shift (box : List Nat) (s : State) :
    shiftRows (subT box s) = subT box (shiftRows s) := rfl

theorem isub_sub {s : State} (h : BytesS s) : subT isbox (subT sbox s) = s := by
  funext r c
  exact isbox_sbox _ (h r c)

theorem undo_sub_shift {s : State} (h : BytesS s) :
    EqS (invShift (subT isbox (shiftRows (subT sbox s)))) s := by
  rw [sub_invShift, sub_shift]
  rw [← sub_invShift]
  have e : EqS (invShift (subT isbox (subT sbox (shiftRows s)))) (invShift (shiftRows s)) := by
    rw [isub_sub (s := shiftRows s) (fun r c => h _ _)]
    exact fun _ _ _ _ => rfl
  exact e.trans (invShift_shift s)

theorem invMix_mix {s : State} (h : BytesS s) : EqS (invMix (mixColumns s)) s := by
  intro r hr c hc
  unfold invMix mixColumns
  have hm := mix_row (h r c) (h ((r + 1) % 4) c) (h ((r + 2) % 4) c) (h ((r + 3) % 4) c)
  rcases lt4 hr with rfl | rfl | rfl | rfl <;> exact hm

theorem invMix_add {s t : State} (hs : BytesS s) (ht : BytesS t) (r c : Nat) :
    invMix (fun r c => s r c ^^^ t r c) r c = invMix s r c ^^^ invMix t r c := by
  unfold invMix
  rw [gmul_xor _ (hs _ _) (ht _ _), gmul_xor _ (hs _ _) (ht _ _), gmul_xor _ (hs _ _) (ht _ _),
    gmul_xor _ (hs _ _) (ht _ _)]
  ac_rfl

theorem byte_inv_mix_word (a r : Nat) (hr : r < 4) :
    byte r (inv_mix_word a) = gmul 14 (byte r a) ^^^ gmul 11 (byte ((r + 1) % 4) a)
      ^^^ gmul 13 (byte ((r + 2) % 4) a) ^^^ gmul 9 (byte ((r + 3) % 4) a) := by
  have e : ∀ i < 4, mul 0xe ((a >>> (i * 8)) &&& 0xff) ^^^ mul 0xb ((a >>> ((i + 1) % 4 * 8)) &&& 0xff)
      ^^^ mul 0xd ((a >>> ((i + 2) % 4 * 8)) &&& 0xff) ^^^ mul 0x9 ((a >>> ((i + 3) % 4 * 8)) &&& 0xff)
      = gmul 14 (byte i a) ^^^ gmul 11 (byte ((i + 1) % 4) a)
      ^^^ gmul 13 (byte ((i + 2) % 4) a) ^^^ gmul 9 (byte ((i + 3) % 4) a) := by
    intro i _
    have hb : ∀ k, (a >>> (k * 8)) &&& 0xff = byte k a := fun k => by
      rw [and_ff, Nat.mul_comm]; rfl
    have m := fun k => mul_consts (byte k a) (byte_lt k a)
    rw [hb, hb, hb, hb, (m _).1, (m _).2.1, (m _).2.2.1, (m _).2.2.2]
  have l : ∀ i, gmul 14 (byte i a) ^^^ gmul 11 (byte ((i + 1) % 4) a)
      ^^^ gmul 13 (byte ((i + 2) % 4) a) ^^^ gmul 9 (byte ((i + 3) % 4) a) < 256 := fun i =>
    xor_lt (xor_lt (xor_lt (gmul_lt _ (byte_lt _ _)) (gmul_lt _ (byte_lt _ _)))
      (gmul_lt _ (byte_lt _ _))) (gmul_lt _ (byte_lt _ _))
  unfold inv_mix_word
  simp only []
  rw [e 0 (by decide), e 1 (by decide), e 2 (by decide), e 3 (by decide)]
  have h := byte_pack (l 0) (l 1) (l 2) (l 3)
  rcases lt4 hr with rfl | rfl | rfl | rfl
  · exact h.1
  · exact h.2.1
  · exact h.2.2.1
  · exact h.2.2.2

/-! ## Decryption undoes encryption -/

theorem encRounds_snoc (keys : List Nat) : ∀ (n r : Nat) (w : List Nat),
    encRounds keys (n + 1) r w
      = key_addition32 (tableRound dtbl idx (encRounds keys n r w)) keys ((r + n) * 4) := by
  intro n
  induction n with
  | zero => intro r w; rfl
  | succ n ih =>
    intro r w
    show encRounds keys (n + 1) (r + 1) _ = _
    rw [ih, show r + 1 + n = r + (n + 1) by omega]
    rfl

theorem inverseKeys_end (nr : Nat) (keys : List Nat) (k c : Nat) (hc : c < 4)
    (h : k = 0 ∨ k = 4 * nr) : (inverseKeys nr keys).getD (k + c) 0 = keys.getD (k + c) 0 := by
  unfold inverseKeys
  rw [getD_map_range (by omega), if_pos (by omega)]

theorem inverseKeys_mid (nr : Nat) (keys : List Nat) (n c : Nat) (hc : c < 4)
    (h1 : 0 < n) (h2 : n < nr) :
    (inverseKeys nr keys).getD (n * 4 + c) 0 = inv_mix_word (keys.getD (n * 4 + c) 0) := by
  unfold inverseKeys
  rw [getD_map_range (by omega), if_neg (by omega)]

theorem mix_bytes {s : State} (h : BytesS s) : BytesS (mixColumns s) := fun _ _ =>
  xor_lt (xor_lt (xor_lt (gmul_lt _ (h _ _)) (gmul_lt _ (h _ _))) (h _ _)) (h _ _)

theorem subT_sbox_bytes {s : State} (h : BytesS s) : BytesS (subT sbox s) := fun _ _ =>
  sbox_lt _ (h _ _)

/-- One round of the inverse cipher undoes one round of the cipher. -/
theorem undo_round (keys : List Nat) (nr n : Nat) (h1 : 0 < n) (h2 : n < nr) (x y w : List Nat)
    (hy : EqS (st y) (addKeys keys (n * 4) (mixColumns (shiftRows (subT sbox (st x))))))
    (hw : EqS (st w) (shiftRows (subT sbox (st y)))) :
    EqS (st (key_addition32 (tableRound itbl iidx w) (inverseKeys nr keys) (n * 4)))
      (shiftRows (subT sbox (st x))) := by
  have hS : BytesS (shiftRows (subT sbox (st x))) := fun _ _ =>
    subT_sbox_bytes (st_bytes x) _ _
  refine (st_add32 _ _ _).trans ?_
  have e1 : EqS (st (tableRound itbl iidx w))
      (invMix (addKeys keys (n * 4) (mixColumns (shiftRows (subT sbox (st x)))))) := by
    refine (st_decTable w).trans (EqS.invMix ?_)
    refine ((EqS.subT hw isbox).invShift).trans ?_
    exact (undo_sub_shift (st_bytes y)).trans hy
  refine (e1.addKeys _ _).trans ?_
  intro r hr c hc
  show byte r ((inverseKeys nr keys).getD (n * 4 + c) 0) ^^^ _ = _
  rw [inverseKeys_mid nr keys n c hc h1 h2, byte_inv_mix_word _ r hr]
  have ha := invMix_add (s := fun r c => byte r (keys.getD (n * 4 + c) 0))
    (t := mixColumns (shiftRows (subT sbox (st x)))) (fun _ _ => byte_lt _ _)
    (mix_bytes hS) r c
  show _ ^^^ invMix (fun r c => byte r (keys.getD (n * 4 + c) 0) ^^^ _) r c = _
  rw [ha, ← Nat.xor_assoc]
  show (invMix (fun r c => byte r (keys.getD (n * 4 + c) 0)) r c ^^^ _) ^^^ _ = _
  rw [Nat.xor_self, Nat.zero_xor]
  exact invMix_mix hS r hr c hc

theorem undo_rounds (keys : List Nat) (nr : Nat) (w0 : List Nat) : ∀ n, n < nr → ∀ w,
    EqS (st w) (shiftRows (subT sbox (st (encRounds keys n 1 w0)))) →
    EqS (st (decRounds (inverseKeys nr keys) n w)) (shiftRows (subT sbox (st w0))) := by
  intro n
  induction n with
  | zero => intro _ w h; exact h
  | succ n ih =>
    intro hn w h
    apply ih (by omega)
    rw [encRounds_snoc] at h
    refine undo_round keys nr (n + 1) (by omega) hn _ _ w ?_ h
    rw [show (1 + n) = n + 1 by omega]
    exact (st_add32 _ _ _).trans ((st_encTable _).addKeys _ _)

theorem addKeys_twice (keys keys' : List Nat) (k : Nat) (s : State)
    (h : ∀ c < 4, keys.getD (k + c) 0 = keys'.getD (k + c) 0) :
    EqS (addKeys keys k (addKeys keys' k s)) s := by
  intro r _ c hc
  unfold addKeys
  rw [h c hc, ← Nat.xor_assoc, Nat.xor_self, Nat.zero_xor]

theorem enc_store (keys : List Nat) (nr : Nat) (b : Str) :
    rijndael_encrypt keys nr b = Spec.Aes.store (addKeys keys (4 * nr) (shiftRows (subT sbox
      (st (encRounds keys (nr - 1) 1 (key_addition_8to32 b keys 0)))))) := by
  unfold rijndael_encrypt
  rw [add32to8]
  exact store_congr ((st_encLast _).addKeys _ _)

theorem dec_enc (keys : List Nat) (nr : Nat) (hnr : 0 < nr) {b : Str} (hb : IsBytes b)
    (hl : b.length = 16) :
    rijndael_decrypt (inverseKeys nr keys) nr (rijndael_encrypt keys nr b) = b := by
  have hcb : IsBytes (rijndael_encrypt keys nr b) := by
    rw [enc_store]
    exact store_bytes (addKeys_bytes (fun _ _ => subT_sbox_bytes (st_bytes _) _ _) _ _)
  have h0 : EqS (st (key_addition_8to32 (rijndael_encrypt keys nr b) (inverseKeys nr keys) (4 * nr)))
      (shiftRows (subT sbox (st (encRounds keys (nr - 1) 1 (key_addition_8to32 b keys 0))))) := by
    refine (st_add8 hcb _ _).trans ?_
    rw [enc_store]
    refine ((load_store _).addKeys _ _).trans ?_
    exact addKeys_twice _ _ _ _ (fun c hc => inverseKeys_end nr keys _ c hc (Or.inr rfl))
  have h1 := undo_rounds keys nr _ (nr - 1) (by omega) _ h0
  unfold rijndael_decrypt
  rw [add32to8, ← store_load hl]
  apply store_congr
  have h2 := (st_decLast (decRounds (inverseKeys nr keys) (nr - 1)
    (key_addition_8to32 (rijndael_encrypt keys nr b) (inverseKeys nr keys) (4 * nr)))).trans
    ((EqS.subT h1 isbox).invShift)
  have h3 := h2.trans (undo_sub_shift (st_bytes _))
  have h4 := (h3.trans (st_add8 hb keys 0)).addKeys (inverseKeys nr keys) 0
  rw [store_load hl]
  exact h4.trans (addKeys_twice _ _ _ _ (fun c hc => inverseKeys_end nr keys 0 c hc (Or.inl rfl)))

/-! ## The cipher is the standard's -/

/-- The bytes of a word, first byte first. -/
def bytesOf (w : Nat) : List Nat := [byte 0 w, byte 1 w, byte 2 w, byte 3 w]

theorem bytesOf_getD (w r : Nat) (hr : r < 4) : (bytesOf w).getD r 0 = byte r w := by
  rcases lt4 hr with rfl | rfl | rfl | rfl <;> rfl

theorem bytesOf_xor (a b : Nat) : bytesOf (a ^^^ b) = xorWord (bytesOf a) (bytesOf b) := by
  simp [bytesOf, xorWord, byte_xor]

theorem bytesOf_sub (a : Nat) : bytesOf (SUBBYTE a sbox) = subWord (bytesOf a) := by
  have h := byte_sub sbox sbox_lt a
  simp only [bytesOf, subWord, List.map, h 0 (by decide), h 1 (by decide), h 2 (by decide),
    h 3 (by decide), sbox_S _ (byte_lt _ _)]

theorem bytesOf_rot {a : Nat} (h : a < 2 ^ 32) : bytesOf (ROTBYTE a) = rotWord (bytesOf a) := by
  have h := byte_rot h
  simp [bytesOf, rotWord, h]

theorem bytesOf_small {a : Nat} (h : a < 256) : bytesOf a = [a, 0, 0, 0] := by
  have := byte_sum h (show 0 < 256 by decide) (show 0 < 256 by decide) 0 (show 0 < 256 by decide)
  simpa [bytesOf] using this

theorem sub_lt (a : Nat) : SUBBYTE a sbox < 2 ^ 32 := by
  unfold SUBBYTE
  rw [and_ff0, and_ff1, and_ff2, and_ff3]
  rw [pack4 (sbox_lt _ (byte_lt _ _)) (sbox_lt _ (byte_lt _ _)) (sbox_lt _ (byte_lt _ _))]
  have := sbox_lt _ (byte_lt 0 a)
  have := sbox_lt _ (byte_lt 1 a)
  have := sbox_lt _ (byte_lt 2 a)
  have := sbox_lt _ (byte_lt 3 a)
  omega

theorem keyWord_of_lt {nk : Nat} {key : Str} {i : Nat} (h : i < nk) :
    keyWord nk key i = (key.drop (4 * i)).take 4 := by
  rw [keyWord, dif_pos (Or.inl h)]

theorem keyWord_of_ge {nk : Nat} {key : Str} {i : Nat} (h : nk ≤ i) (h0 : 0 < nk) :
    keyWord nk key i = xorWord (keyWord nk key (i - nk))
      (if i % nk = 0 then xorWord (subWord (rotWord (keyWord nk key (i - 1)))) (rcon (i / nk))
       else if nk > 6 ∧ i % nk = 4 then subWord (keyWord nk key (i - 1))
       else keyWord nk key (i - 1)) := by
  conv => lhs; rw [keyWord]
  rw [dif_neg (by omega)]

/-- The words so far are the first words of the schedule. -/
def Sched (nk : Nat) (key : Str) (keys : List Nat) : Prop :=
  ∀ i < keys.length, bytesOf (keys.getD i 0) = keyWord nk key i ∧ keys.getD i 0 < 2 ^ 32

theorem Sched.snoc {nk : Nat} {key : Str} {keys : List Nat} (h : Sched nk key keys) {w : Nat}
    (hw : bytesOf w = keyWord nk key keys.length ∧ w < 2 ^ 32) : Sched nk key (keys ++ [w]) := by
  intro i hi
  rw [List.length_append] at hi
  by_cases hlt : i < keys.length
  · rw [List.getD_eq_getElem?_getD, List.getElem?_append_left hlt, ← List.getD_eq_getElem?_getD]
    exact h i hlt
  · have : i = keys.length := by simp at hi; omega
    subst this
    rw [List.getD_eq_getElem?_getD, List.getElem?_append_right (Nat.le_refl _)]
    simpa using hw

theorem xor_lt32 {a b : Nat} (ha : a < 2 ^ 32) (hb : b < 2 ^ 32) : a ^^^ b < 2 ^ 32 :=
  Nat.xor_lt_two_pow ha hb

theorem expand_sched (nk : Nat) (hnk : nk = 4 ∨ nk = 6 ∨ nk = 8) (key : Str) :
    ∀ (n rc : Nat) (keys : List Nat), Sched nk key keys → nk ≤ keys.length →
      rc = xtPow ((keys.length + nk - 1) / nk - 1) 1 →
      Sched nk key (expand nk n rc keys) ∧ (expand nk n rc keys).length = keys.length + n := by
  intro n
  induction n with
  | zero => intro rc keys h _ _; exact ⟨h, rfl⟩
  | succ n ih =>
    intro rc keys h hl hr
    have hrc : rc < 256 := by rw [hr]; exact xtPow_lt _ (by decide)
    have h0 : 0 < nk := by omega
    have p1 := h (keys.length - 1) (by omega)
    have p2 := h (keys.length - nk) (by omega)
    have hk := keyWord_of_ge (key := key) hl h0
    unfold expand
    simp only []
    by_cases c1 : keys.length % nk = 0
    · rw [if_pos c1]
      have hq : (keys.length + nk - 1) / nk - 1 = keys.length / nk - 1 := by
        rcases hnk with rfl | rfl | rfl <;> omega
      have hw : bytesOf (keys.getD (keys.length - nk) 0 ^^^
            (SUBBYTE (ROTBYTE (keys.getD (keys.length - 1) 0)) sbox ^^^ rc))
          = keyWord nk key keys.length ∧ (keys.getD (keys.length - nk) 0 ^^^
            (SUBBYTE (ROTBYTE (keys.getD (keys.length - 1) 0)) sbox ^^^ rc)) < 2 ^ 32 := by
        constructor
        · rw [bytesOf_xor, bytesOf_xor, bytesOf_sub, bytesOf_rot p1.2, p1.1, p2.1, hk, if_pos c1,
            bytesOf_small hrc, hr, hq]
          rfl
        · exact xor_lt32 p2.2 (xor_lt32 (sub_lt _) (by omega))
      have := ih (xtime (rc &&& 0xff)) _ (h.snoc hw) (by simp; omega) (by
        rw [and_ff, Nat.mod_eq_of_lt hrc, xtime_xt _ hrc, hr, List.length_append]
        show xtPow (_ + 1) 1 = _
        congr 1
        simp only [List.length_singleton]
        rcases hnk with rfl | rfl | rfl <;> omega)
      refine ⟨this.1, ?_⟩
      rw [this.2]; simp; omega
    · rw [if_neg c1]
      have hq : xtPow ((keys.length + nk - 1) / nk - 1) 1
          = xtPow ((keys.length + 1 + nk - 1) / nk - 1) 1 := by
        congr 1
        rcases hnk with rfl | rfl | rfl <;> omega
      by_cases c2 : nk > 6 ∧ keys.length % nk = 4
      · rw [if_pos c2]
        have hw : bytesOf (keys.getD (keys.length - nk) 0 ^^^
              SUBBYTE (keys.getD (keys.length - 1) 0) sbox)
            = keyWord nk key keys.length ∧ (keys.getD (keys.length - nk) 0 ^^^
              SUBBYTE (keys.getD (keys.length - 1) 0) sbox) < 2 ^ 32 := by
          constructor
          · rw [bytesOf_xor, bytesOf_sub, p1.1, p2.1, hk, if_neg c1, if_pos c2]
          · exact xor_lt32 p2.2 (sub_lt _)
        have := ih rc _ (h.snoc hw) (by simp; omega) (by
          rw [hr, List.length_append, hq]; rfl)
        refine ⟨this.1, ?_⟩
        rw [this.2]; simp; omega
      · rw [if_neg c2]
        have hw : bytesOf (keys.getD (keys.length - nk) 0 ^^^ keys.getD (keys.length - 1) 0)
            = keyWord nk key keys.length ∧ (keys.getD (keys.length - nk) 0 ^^^
              keys.getD (keys.length - 1) 0) < 2 ^ 32 := by
          constructor
          · rw [bytesOf_xor, p1.1, p2.1, hk, if_neg c1, if_neg c2]
          · exact xor_lt32 p2.2 p1.2
        have := ih rc _ (h.snoc hw) (by simp; omega) (by
          rw [hr, List.length_append, hq]; rfl)
        refine ⟨this.1, ?_⟩
        rw [this.2]; simp; omega

theorem take4 {key : Str} {n : Nat} (h : n + 4 ≤ key.length) :
    (key.drop n).take 4 = [key.getD n 0, key.getD (n + 1) 0, key.getD (n + 2) 0, key.getD (n + 3) 0] := by
  have e : ∀ k, n + k < key.length → key[n + k]? = some (key.getD (n + k) 0) := fun k hk => by
    rw [List.getD_eq_getElem?_getD, List.getElem?_eq_getElem hk]; rfl
  apply List.ext_getElem?
  intro i
  by_cases hi : i < 4
  · rw [List.getElem?_take_of_lt hi, List.getElem?_drop, e i (by omega)]
    rcases lt4 hi with rfl | rfl | rfl | rfl <;> rfl
  · rw [List.getElem?_eq_none (by simp; omega), List.getElem?_eq_none (by simp; omega)]

theorem keyWords_sched (nk : Nat) {key : Str} (hb : IsBytes key) (hl : key.length = 4 * nk) :
    Sched nk key (keyWords nk key) ∧ (keyWords nk key).length = nk := by
  have hlen : (keyWords nk key).length = nk := by simp [keyWords]
  refine ⟨?_, hlen⟩
  intro i hi
  rw [hlen] at hi
  unfold keyWords
  rw [getD_map_range hi, keyWord_of_lt hi, take4 (by omega)]
  have a := getD_lt hb (i * 4)
  have b := getD_lt hb (i * 4 + 1)
  have c := getD_lt hb (i * 4 + 2)
  have d := getD_lt hb (i * 4 + 3)
  have h := byte_sum a b c 0 d
  have e : key.getD (i * 4) 0 + key.getD (i * 4 + 1) 0 <<< 8 + key.getD (i * 4 + 2) 0 <<< 16
      + key.getD (i * 4 + 3) 0 <<< 24
      = key.getD (i * 4) 0 + 256 * key.getD (i * 4 + 1) 0 + 65536 * key.getD (i * 4 + 2) 0
        + 16777216 * key.getD (i * 4 + 3) 0 + 4294967296 * 0 := by
    simp only [Nat.shiftLeft_eq]; omega
  rw [e]
  constructor
  · unfold bytesOf
    rw [h.1, h.2.1, h.2.2.1, h.2.2.2, Nat.mul_comm i 4]
  · omega

theorem rounds_eq (keys : List Nat) (W : Nat → List Nat) (nr : Nat) (hW : ∀ i < 4 * (nr + 1),
    bytesOf (keys.getD i 0) = W i) {b : Str} (hb : IsBytes b) : ∀ n, n ≤ nr →
    EqS (st (encRounds keys n 1 (key_addition_8to32 b keys 0)))
      (Spec.Aes.rounds W n (Spec.Aes.load b)) := by
  have hadd : ∀ n ≤ nr, ∀ s t : State, EqS s t →
      EqS (addKeys keys (4 * n) s) (Spec.Aes.addRoundKey W n t) := by
    intro n hn s t h r hr c hc
    unfold addKeys Spec.Aes.addRoundKey
    rw [h r hr c hc, ← hW _ (by omega), bytesOf_getD _ r hr, Nat.xor_comm]
  intro n
  induction n with
  | zero => intro _; exact (st_add8 hb keys 0).trans (hadd 0 (by omega) _ _ fun _ _ _ _ => rfl)
  | succ n ih =>
    intro hn
    rw [encRounds_snoc]
    refine (st_add32 _ _ _).trans ?_
    rw [show (1 + n) * 4 = 4 * (n + 1) by omega]
    refine hadd (n + 1) hn _ _ ((st_encTable _).trans (EqS.mix (EqS.shiftRows ?_)))
    intro r hr c hc
    show sbox.getD _ _ = S _
    rw [sbox_S _ (st_bytes _ _ _), ih (by omega) r hr c hc]

theorem encrypt_eq (keys : List Nat) (nk nr : Nat) {key b : Str} (h0 : 0 < nr)
    (hk : Sched nk key keys) (hl : keys.length = 4 * (nr + 1)) (hb : IsBytes b) :
    rijndael_encrypt keys nr b = Spec.Aes.cipher nk nr key b := by
  rw [enc_store]
  unfold Spec.Aes.cipher
  apply store_congr
  intro r hr c hc
  unfold addKeys Spec.Aes.addRoundKey
  rw [← (hk _ (by omega)).1, bytesOf_getD _ r hr, Nat.xor_comm]
  congr 1
  have h := rounds_eq keys (keyWord nk key) nr (fun i hi => (hk i (by omega)).1) hb (nr - 1) (by omega)
  show sbox.getD _ _ = S _
  rw [sbox_S _ (st_bytes _ _ _), h r hr _ (Nat.mod_lt _ (by decide))]

end Fwknop.Aes
