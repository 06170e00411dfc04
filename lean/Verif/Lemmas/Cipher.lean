import Verif.Model.Cipher
import Verif.Lemmas.Res

/-!
# Lemmas on the block modes and the padding
-/

namespace Fwknop

/-- A 16-byte block. -/
def IsBlock (b : Str) : Prop := b.length = 16 ∧ IsBytes b

theorem isBytes_append {a b : Str} (ha : IsBytes a) (hb : IsBytes b) : IsBytes (a ++ b) := by
  intro c hc
  rcases List.mem_append.1 hc with h | h
  · exact ha c h
  · exact hb c h

theorem isBytes_take {a : Str} (n : Nat) (ha : IsBytes a) : IsBytes (a.take n) :=
  fun c hc => ha c (List.mem_of_mem_take hc)

theorem isBytes_drop {a : Str} (n : Nat) (ha : IsBytes a) : IsBytes (a.drop n) :=
  fun c hc => ha c (List.mem_of_mem_drop hc)

theorem xorBytes_length {a b : Str} (h : a.length = b.length) : (xorBytes a b).length = a.length := by
  simp [xorBytes, h]

theorem xorBytes_cancel (a b : Str) (h : a.length = b.length) : xorBytes a (xorBytes a b) = b := by
  induction a generalizing b with
  | nil => cases b with
    | nil => rfl
    | cons y b => simp at h
  | cons x a ih => cases b with
    | nil => simp at h
    | cons y b =>
      have hl : a.length = b.length := by simpa using h
      have := ih b hl
      simp only [xorBytes, List.zipWith_cons_cons] at this ⊢
      rw [this, ← Nat.xor_assoc, Nat.xor_self, Nat.zero_xor]

theorem xorBytes_comm (a b : Str) : xorBytes a b = xorBytes b a := by
  induction a generalizing b with
  | nil => cases b <;> rfl
  | cons x a ih => cases b with
    | nil => rfl
    | cons y b =>
      have := ih b
      simp only [xorBytes, List.zipWith_cons_cons] at this ⊢
      rw [this, Nat.xor_comm]

theorem xorBytes_bytes {a b : Str} (ha : IsBytes a) (hb : IsBytes b) : IsBytes (xorBytes a b) := by
  induction a generalizing b with
  | nil => intro c hc; simp [xorBytes] at hc
  | cons x a ih => cases b with
    | nil => intro c hc; simp [xorBytes] at hc
    | cons y b =>
      intro c hc
      simp only [xorBytes, List.zipWith_cons_cons, List.mem_cons] at hc
      rcases hc with h | h
      · subst h
        exact Nat.xor_lt_two_pow (n := 8) (ha x (by simp)) (hb y (by simp))
      · exact ih (fun c hc => ha c (by simp [hc])) (fun c hc => hb c (by simp [hc])) c h

theorem xorBytes_block {a b : Str} (ha : IsBlock a) (hb : IsBlock b) : IsBlock (xorBytes a b) :=
  ⟨by rw [xorBytes_length (by rw [ha.1, hb.1]), ha.1], xorBytes_bytes ha.2 hb.2⟩

theorem incLE_length (s : Str) : (incLE s).length = s.length := by
  induction s with
  | nil => rfl
  | cons b bs ih => unfold incLE; split <;> simp [ih]

theorem incLE_bytes {s : Str} (h : IsBytes s) : IsBytes (incLE s) := by
  induction s with
  | nil => exact h
  | cons b bs ih =>
    have hb : IsBytes bs := fun c hc => h c (by simp [hc])
    unfold incLE
    split
    · intro c hc
      rcases List.mem_cons.1 hc with e | e
      · omega
      · exact hb c e
    · intro c hc
      rcases List.mem_cons.1 hc with e | e
      · omega
      · exact ih hb c e

theorem ctrInc_block {b : Str} (h : IsBlock b) : IsBlock (ctrInc b) := by
  refine ⟨by simp [ctrInc, incLE_length, h.1], ?_⟩
  intro c hc
  simp only [ctrInc, List.mem_reverse] at hc
  exact incLE_bytes (fun c hc => h.2 c (by simpa using hc)) c hc

/-! ## Splitting into blocks -/

theorem blocksN_flatten (n : Nat) (s : Str) (h : s.length = 16 * n) : (blocksN n s).flatten = s := by
  induction n generalizing s with
  | zero => have : s = [] := List.eq_nil_of_length_eq_zero (by omega); simp [blocksN, this]
  | succ n ih =>
    simp only [blocksN, List.flatten_cons]
    rw [ih (s.drop 16) (by simp; omega), List.take_append_drop]

theorem blocksN_block (n : Nat) (s : Str) (h : s.length = 16 * n) (hb : IsBytes s) :
    ∀ b ∈ blocksN n s, IsBlock b := by
  induction n generalizing s with
  | zero => simp [blocksN]
  | succ n ih =>
    intro b hbm
    simp only [blocksN, List.mem_cons] at hbm
    rcases hbm with e | e
    · subst e
      exact ⟨by simp; omega, isBytes_take _ hb⟩
    · exact ih (s.drop 16) (by simp; omega) (isBytes_drop _ hb) b e

theorem blocksN_length (n : Nat) (s : Str) : (blocksN n s).length = n := by
  induction n generalizing s with
  | zero => rfl
  | succ n ih => simp [blocksN, ih]

theorem blocksN_of_flatten (bs : List Str) (h : ∀ b ∈ bs, IsBlock b) :
    blocksN bs.length bs.flatten = bs := by
  induction bs with
  | nil => rfl
  | cons b bs ih =>
    have hb := (h b (by simp)).1
    simp only [List.length_cons, blocksN, List.flatten_cons]
    rw [List.take_append_of_le_length (by omega), List.take_of_length_le (by omega),
      List.drop_append_of_le_length (by omega), List.drop_eq_nil_of_le (by omega), List.nil_append,
      ih (fun x hx => h x (by simp [hx]))]

theorem flatten_length (bs : List Str) (h : ∀ b ∈ bs, IsBlock b) :
    bs.flatten.length = 16 * bs.length := by
  induction bs with
  | nil => rfl
  | cons b bs ih =>
    have hb := (h b (by simp)).1
    rw [List.flatten_cons, List.length_append, ih (fun x hx => h x (by simp [hx])), hb,
      List.length_cons]
    omega

theorem flatten_bytes (bs : List Str) (h : ∀ b ∈ bs, IsBlock b) : IsBytes bs.flatten := by
  intro c hc
  obtain ⟨b, hb, hcb⟩ := List.mem_flatten.1 hc
  exact (h b hb).2 c hcb

/-! ## The modes, one block function at a time -/

section modes
variable {E D : Str → Str} (hE : ∀ b, IsBlock b → IsBlock (E b))
  (hD : ∀ b, IsBlock b → IsBlock (D b)) (hDE : ∀ b, IsBlock b → D (E b) = b)

include hE in
theorem ecb_blocks {bs : List Str} (h : ∀ b ∈ bs, IsBlock b) : ∀ b ∈ ecb E bs, IsBlock b := by
  intro b hb
  obtain ⟨x, hx, rfl⟩ := List.mem_map.1 hb
  exact hE x (h x hx)

include hDE in
theorem ecb_roundtrip {bs : List Str} (h : ∀ b ∈ bs, IsBlock b) : ecb D (ecb E bs) = bs := by
  induction bs with
  | nil => rfl
  | cons b bs ih =>
    have := ih (fun x hx => h x (by simp [hx]))
    simp only [ecb, List.map_cons, List.cons.injEq] at this ⊢
    exact ⟨hDE b (h b (by simp)), this⟩

include hE in
theorem cbcEnc_blocks {bs : List Str} {iv : Str} (hiv : IsBlock iv) (h : ∀ b ∈ bs, IsBlock b) :
    ∀ b ∈ cbcEnc E iv bs, IsBlock b := by
  induction bs generalizing iv with
  | nil => simp [cbcEnc]
  | cons x bs ih =>
    have hx := hE _ (xorBytes_block hiv (h x (by simp)))
    intro b hb
    simp only [cbcEnc, List.mem_cons] at hb
    rcases hb with e | e
    · exact e ▸ hx
    · exact ih hx (fun y hy => h y (by simp [hy])) b e

include hD in
theorem cbcDec_blocks {bs : List Str} {iv : Str} (hiv : IsBlock iv) (h : ∀ b ∈ bs, IsBlock b) :
    ∀ b ∈ cbcDec D iv bs, IsBlock b := by
  induction bs generalizing iv with
  | nil => simp [cbcDec]
  | cons x bs ih =>
    intro b hb
    simp only [cbcDec, List.mem_cons] at hb
    rcases hb with e | e
    · exact e ▸ xorBytes_block (hD x (h x (by simp))) hiv
    · exact ih (h x (by simp)) (fun y hy => h y (by simp [hy])) b e

include hE hDE in
theorem cbc_roundtrip {bs : List Str} {iv : Str} (hiv : IsBlock iv) (h : ∀ b ∈ bs, IsBlock b) :
    cbcDec D iv (cbcEnc E iv bs) = bs := by
  induction bs generalizing iv with
  | nil => rfl
  | cons x bs ih =>
    have hx := h x (by simp)
    have hc := hE _ (xorBytes_block hiv hx)
    simp only [cbcEnc, cbcDec]
    rw [hDE _ (xorBytes_block hiv hx), xorBytes_comm (xorBytes iv x) iv,
      xorBytes_cancel iv x (by rw [hiv.1, hx.1]), ih hc (fun y hy => h y (by simp [hy]))]

include hE in
theorem cfbEnc_blocks {bs : List Str} {iv : Str} (hiv : IsBlock iv) (h : ∀ b ∈ bs, IsBlock b) :
    ∀ b ∈ cfbEnc E iv bs, IsBlock b := by
  induction bs generalizing iv with
  | nil => simp [cfbEnc]
  | cons x bs ih =>
    have hx := xorBytes_block (hE _ hiv) (h x (by simp))
    intro b hb
    simp only [cfbEnc, List.mem_cons] at hb
    rcases hb with e | e
    · exact e ▸ hx
    · exact ih hx (fun y hy => h y (by simp [hy])) b e

include hE in
theorem cfbDec_blocks {bs : List Str} {iv : Str} (hiv : IsBlock iv) (h : ∀ b ∈ bs, IsBlock b) :
    ∀ b ∈ cfbDec E iv bs, IsBlock b := by
  induction bs generalizing iv with
  | nil => simp [cfbDec]
  | cons x bs ih =>
    intro b hb
    simp only [cfbDec, List.mem_cons] at hb
    rcases hb with e | e
    · exact e ▸ xorBytes_block (hE _ hiv) (h x (by simp))
    · exact ih (h x (by simp)) (fun y hy => h y (by simp [hy])) b e

include hE in
theorem cfb_roundtrip {bs : List Str} {iv : Str} (hiv : IsBlock iv) (h : ∀ b ∈ bs, IsBlock b) :
    cfbDec E iv (cfbEnc E iv bs) = bs := by
  induction bs generalizing iv with
  | nil => rfl
  | cons x bs ih =>
    have hx := h x (by simp)
    simp only [cfbEnc, cfbDec]
    rw [xorBytes_cancel _ x (by rw [(hE _ hiv).1, hx.1]),
      ih (xorBytes_block (hE _ hiv) hx) (fun y hy => h y (by simp [hy]))]

include hE in
theorem ofb_blocks {bs : List Str} {iv : Str} (hiv : IsBlock iv) (h : ∀ b ∈ bs, IsBlock b) :
    ∀ b ∈ ofb E iv bs, IsBlock b := by
  induction bs generalizing iv with
  | nil => simp [ofb]
  | cons x bs ih =>
    intro b hb
    simp only [ofb, List.mem_cons] at hb
    rcases hb with e | e
    · exact e ▸ xorBytes_block (hE _ hiv) (h x (by simp))
    · exact ih (hE _ hiv) (fun y hy => h y (by simp [hy])) b e

include hE in
theorem ofb_roundtrip {bs : List Str} {iv : Str} (hiv : IsBlock iv) (h : ∀ b ∈ bs, IsBlock b) :
    ofb E iv (ofb E iv bs) = bs := by
  induction bs generalizing iv with
  | nil => rfl
  | cons x bs ih =>
    simp only [ofb]
    rw [xorBytes_cancel _ x (by rw [(hE _ hiv).1, (h x (by simp)).1]),
      ih (hE _ hiv) (fun y hy => h y (by simp [hy]))]

include hE in
theorem ctr_blocks {bs : List Str} {iv : Str} (hiv : IsBlock iv) (h : ∀ b ∈ bs, IsBlock b) :
    ∀ b ∈ ctr E iv bs, IsBlock b := by
  induction bs generalizing iv with
  | nil => simp [ctr]
  | cons x bs ih =>
    intro b hb
    simp only [ctr, List.mem_cons] at hb
    rcases hb with e | e
    · exact e ▸ xorBytes_block (hE _ hiv) (h x (by simp))
    · exact ih (ctrInc_block hiv) (fun y hy => h y (by simp [hy])) b e

include hE in
theorem ctr_roundtrip {bs : List Str} {iv : Str} (hiv : IsBlock iv) (h : ∀ b ∈ bs, IsBlock b) :
    ctr E iv (ctr E iv bs) = bs := by
  induction bs generalizing iv with
  | nil => rfl
  | cons x bs ih =>
    simp only [ctr]
    rw [xorBytes_cancel _ x (by rw [(hE _ hiv).1, (h x (by simp)).1]),
      ih (ctrInc_block hiv) (fun y hy => h y (by simp [hy]))]

end modes

theorem cbcEnc_length (E : Str → Str) (iv : Str) (bs : List Str) :
    (cbcEnc E iv bs).length = bs.length := by
  induction bs generalizing iv with
  | nil => rfl
  | cons x bs ih => simp [cbcEnc, ih]

theorem cbcDec_length (E : Str → Str) (iv : Str) (bs : List Str) :
    (cbcDec E iv bs).length = bs.length := by
  induction bs generalizing iv with
  | nil => rfl
  | cons x bs ih => simp [cbcDec, ih]

theorem cfbEnc_length (E : Str → Str) (iv : Str) (bs : List Str) :
    (cfbEnc E iv bs).length = bs.length := by
  induction bs generalizing iv with
  | nil => rfl
  | cons x bs ih => simp [cfbEnc, ih]

theorem cfbDec_length (E : Str → Str) (iv : Str) (bs : List Str) :
    (cfbDec E iv bs).length = bs.length := by
  induction bs generalizing iv with
  | nil => rfl
  | cons x bs ih => simp [cfbDec, ih]

theorem ofb_length (E : Str → Str) (iv : Str) (bs : List Str) : (ofb E iv bs).length = bs.length := by
  induction bs generalizing iv with
  | nil => rfl
  | cons x bs ih => simp [ofb, ih]

theorem ctr_length (E : Str → Str) (iv : Str) (bs : List Str) : (ctr E iv bs).length = bs.length := by
  induction bs generalizing iv with
  | nil => rfl
  | cons x bs ih => simp [ctr, ih]

/-- A 32-byte key. -/
def IsKey (k : Str) : Prop := k.length = 32 ∧ IsBytes k

section block
variable {bc : BlockCipher} (hbc : bc.Lawful) {k iv : Str} (hk : IsKey k) (hiv : IsBlock iv)
include hbc hk

theorem enc_block : ∀ b, IsBlock b → IsBlock (bc.enc k b) := fun b hb =>
  ⟨hbc.enc_len k b hk.1 hk.2 hb.1 hb.2, hbc.enc_bytes k b hk.1 hk.2 hb.1 hb.2⟩

theorem dec_block : ∀ b, IsBlock b → IsBlock (bc.dec k b) := fun b hb =>
  ⟨hbc.dec_len k b hk.1 hk.2 hb.1 hb.2, hbc.dec_bytes k b hk.1 hk.2 hb.1 hb.2⟩

include hiv

/-- Modes with an implementation. -/
def RealMode (m : Int) : Prop :=
  m = FKO_ENC_MODE_ECB ∨ m = FKO_ENC_MODE_CBC ∨ m = FKO_ENC_MODE_CFB ∨ m = FKO_ENC_MODE_OFB
    ∨ m = FKO_ENC_MODE_CTR

omit hbc hk hiv in
theorem block_shape (f : List Str → List Str) (hf : ∀ bs, (∀ b ∈ bs, IsBlock b) → ∀ b ∈ f bs, IsBlock b)
    (hl : ∀ bs, (f bs).length = bs.length) (n : Nat) (s : Str) (hs : s.length = 16 * n)
    (hb : IsBytes s) : (f (blocksN n s)).flatten.length = s.length ∧ IsBytes (f (blocksN n s)).flatten := by
  have h1 := hf _ (blocksN_block n s hs hb)
  exact ⟨by rw [flatten_length _ h1, hl, blocksN_length, hs], flatten_bytes _ h1⟩

omit hbc hk hiv in
theorem replicate_bytes (n v : Nat) (hv : v < 256) : IsBytes (List.replicate n v) := by
  intro c hc
  rw [List.eq_of_mem_replicate hc]; exact hv

theorem block_encrypt_shape (m : Int) (s : Str) (hs : s.length % 16 = 0) (hb : IsBytes s) :
    (block_encrypt bc m k iv s).length = s.length ∧ IsBytes (block_encrypt bc m k iv s) := by
  have hn : s.length = 16 * (s.length / 16) := by omega
  have hE := enc_block hbc hk
  unfold block_encrypt
  simp only
  split
  · exact block_shape _ (fun _ h => ecb_blocks hE h) (fun bs => by simp [ecb]) _ s hn hb
  split
  · exact block_shape _ (fun _ h => cbcEnc_blocks hE hiv h) (cbcEnc_length _ _) _ s hn hb
  split
  · exact block_shape _ (fun _ h => cfbEnc_blocks hE hiv h) (cfbEnc_length _ _) _ s hn hb
  split
  · exact block_shape _ (fun _ h => ofb_blocks hE hiv h) (ofb_length _ _) _ s hn hb
  split
  · exact block_shape _ (fun _ h => ctr_blocks hE hiv h) (ctr_length _ _) _ s hn hb
  · exact ⟨by simp, replicate_bytes _ _ (by decide)⟩

theorem block_decrypt_shape (m : Int) (s : Str) (hs : s.length % 16 = 0) (hb : IsBytes s) :
    (block_decrypt bc m k iv s).length = s.length ∧ IsBytes (block_decrypt bc m k iv s) := by
  have hn : s.length = 16 * (s.length / 16) := by omega
  have hE := enc_block hbc hk
  have hD := dec_block hbc hk
  unfold block_decrypt
  simp only
  split
  · exact block_shape _ (fun _ h => ecb_blocks hD h) (fun bs => by simp [ecb]) _ s hn hb
  split
  · exact block_shape _ (fun _ h => cbcDec_blocks hD hiv h) (cbcDec_length _ _) _ s hn hb
  split
  · exact block_shape _ (fun _ h => cfbDec_blocks hE hiv h) (cfbDec_length _ _) _ s hn hb
  split
  · exact block_shape _ (fun _ h => ofb_blocks hE hiv h) (ofb_length _ _) _ s hn hb
  split
  · exact block_shape _ (fun _ h => ctr_blocks hE hiv h) (ctr_length _ _) _ s hn hb
  · exact ⟨by simp, replicate_bytes _ _ (by decide)⟩

omit hbc hk hiv in
theorem reblock (g : List Str → List Str) (f : List Str → List Str)
    (hf : ∀ bs, (∀ b ∈ bs, IsBlock b) → ∀ b ∈ f bs, IsBlock b)
    (hr : ∀ bs, (∀ b ∈ bs, IsBlock b) → g (f bs) = bs) (n : Nat) (s : Str)
    (hs : s.length = 16 * n) (hb : IsBytes s) :
    (g (blocksN ((f (blocksN n s)).flatten.length / 16) (f (blocksN n s)).flatten)).flatten = s := by
  have h1 := hf _ (blocksN_block n s hs hb)
  have h2 : (f (blocksN n s)).flatten.length / 16 = (f (blocksN n s)).length := by
    rw [flatten_length _ h1]; omega
  rw [h2, blocksN_of_flatten _ h1, hr _ (blocksN_block n s hs hb), blocksN_flatten n s hs]

theorem block_roundtrip (m : Int) (hm : RealMode m) (s : Str) (hs : s.length % 16 = 0)
    (hb : IsBytes s) : block_decrypt bc m k iv (block_encrypt bc m k iv s) = s := by
  have hn : s.length = 16 * (s.length / 16) := by omega
  have hE := enc_block hbc hk
  have hDE : ∀ b, IsBlock b → bc.dec k (bc.enc k b) = b := fun b h =>
    hbc.dec_enc k b hk.1 hk.2 h.1 h.2
  rcases hm with e | e | e | e | e <;> subst e <;> unfold block_decrypt block_encrypt
  · exact reblock _ _ (fun _ h => ecb_blocks hE h)
      (fun _ h => ecb_roundtrip hDE h) _ s hn hb
  · exact reblock _ _ (fun _ h => cbcEnc_blocks hE hiv h)
      (fun _ h => cbc_roundtrip hE hDE hiv h) _ s hn hb
  · exact reblock _ _ (fun _ h => cfbEnc_blocks hE hiv h)
      (fun _ h => cfb_roundtrip hE hiv h) _ s hn hb
  · exact reblock _ _ (fun _ h => ofb_blocks hE hiv h)
      (fun _ h => ofb_roundtrip hE hiv h) _ s hn hb
  · exact reblock _ _ (fun _ h => ctr_blocks hE hiv h)
      (fun _ h => ctr_roundtrip hE hiv h) _ s hn hb

end block

/-! ## Padding -/

theorem addPad_length (s : Str) : (addPad s).length = s.length + (16 - s.length % 16) := by
  simp [addPad]

theorem addPad_mod (s : Str) : (addPad s).length % 16 = 0 := by
  rw [addPad_length]; omega

theorem addPad_bytes {s : Str} (h : IsBytes s) : IsBytes (addPad s) :=
  isBytes_append h (replicate_bytes _ _ (by simp only [RIJNDAEL_BLOCKSIZE]; omega))

theorem padLen_addPad (s : Str) : padLen (addPad s) = 16 - s.length % 16 := by
  have hv : 1 ≤ 16 - s.length % 16 := by omega
  obtain ⟨p, hp⟩ : ∃ p, 16 - s.length % 16 = p + 1 := ⟨16 - s.length % 16 - 1, by omega⟩
  have hl : (addPad s).getLastD 0 = p + 1 := by
    unfold addPad
    simp only [RIJNDAEL_BLOCKSIZE, hp]
    rw [List.replicate_succ', ← List.append_assoc, List.getLastD_concat]
  unfold padLen
  simp only [hl]
  rw [if_pos, hp]
  refine ⟨by simp only [RIJNDAEL_BLOCKSIZE]; omega, ?_⟩
  rw [addPad_length]
  have : s.length + (16 - s.length % 16) - (p + 1) = s.length := by omega
  rw [this]
  unfold addPad
  simp [hp]

/-! ## Key derivation -/

theorem kiv_shape {H : Hash} (hH : H.Lawful) (m : Int) (key salt : Str) :
    IsKey (rij_salt_and_iv H m key salt).1 ∧ IsBlock (rij_salt_and_iv H m key salt).2 := by
  have hl : ∀ x, (H FKO_DIGEST_MD5 x).length = 16 := fun x => by rw [hH.len]; rfl
  refine ⟨⟨?_, isBytes_append (hH.bytes _ _) (hH.bytes _ _)⟩, ?_, hH.bytes _ _⟩
  · simp only [rij_salt_and_iv, List.length_append, hl]
  · simp only [rij_salt_and_iv, hl]

/-- The modes whose encryption can be undone. -/
def InvertibleMode (m : Int) : Prop :=
  m = FKO_ENC_MODE_ECB ∨ m = FKO_ENC_MODE_CBC ∨ m = FKO_ENC_MODE_CFB ∨ m = FKO_ENC_MODE_OFB
    ∨ m = FKO_ENC_MODE_CTR ∨ m = FKO_ENC_MODE_CBC_LEGACY_IV

theorem rijMode_real {m : Int} (h : InvertibleMode m) : RealMode (rijMode m) := by
  rcases h with e | e | e | e | e | e <;> subst e <;> unfold RealMode <;> decide

theorem rij_roundtrip {H : Hash} (hH : H.Lawful) {bc : BlockCipher} (hbc : bc.Lawful) {m : Int}
    (hm : InvertibleMode m) (salt : Str) (hs : salt.length = 8) (s key : Str) (hb : IsBytes s) :
    ∃ rest, rij_decrypt H bc (rij_encrypt H bc salt s key m) key m = .ok (s ++ 0 :: rest, s.length) := by
  obtain ⟨hk, hiv⟩ := kiv_shape hH m key salt
  have hsh := block_encrypt_shape hbc hk hiv (rijMode m) (addPad s) (addPad_mod s) (addPad_bytes hb)
  have hrt := block_roundtrip hbc hk hiv (rijMode m) (rijMode_real hm) (addPad s) (addPad_mod s)
    (addPad_bytes hb)
  have hlen : (rij_encrypt H bc salt s key m).length = 16 + (addPad s).length := by
    simp only [rij_encrypt, List.length_append, hsh.1, hs]
    simp
  have hsalt : ((rij_encrypt H bc salt s key m).drop 8).take 8 = salt := by
    simp only [rij_encrypt, List.append_assoc]
    rw [List.drop_append_of_le_length (by simp), List.drop_eq_nil_of_le (by simp), List.nil_append,
      List.take_append_of_le_length (by omega), List.take_of_length_le (by omega)]
  have hbody : (rij_encrypt H bc salt s key m).drop 16 =
      block_encrypt bc (rijMode m) (rij_salt_and_iv H m key salt).1 (rij_salt_and_iv H m key salt).2
        (addPad s) := by
    simp only [rij_encrypt]
    rw [List.drop_append_of_le_length (by simp [hs]), List.drop_eq_nil_of_le (by simp [hs]),
      List.nil_append]
  unfold rij_decrypt
  simp only [SALT_LEN, RIJNDAEL_BLOCKSIZE]
  rw [if_neg (by rw [hlen, addPad_length]; omega), hsalt, hbody, hrt, padLen_addPad, addPad_length,
    hlen, addPad_length]
  have e1 : s.length + (16 - s.length % 16) - (16 - s.length % 16) = s.length := by omega
  rw [e1]
  obtain ⟨p, hp⟩ : ∃ p, 16 - s.length % 16 = p + 1 := ⟨16 - s.length % 16 - 1, by omega⟩
  refine ⟨List.replicate p (p + 1) ++ List.replicate
    (16 + (s.length + (16 - s.length % 16)) - (s.length + (16 - s.length % 16))) 0, ?_⟩
  unfold addPad
  simp only [RIJNDAEL_BLOCKSIZE, hp, List.replicate_succ, List.append_assoc, List.cons_append]
  rw [List.set_append_right _ _ (Nat.le_refl _)]
  simp

theorem padLen_le (out : Str) (h : 16 ≤ out.length) : padLen out ≤ out.length := by
  unfold padLen
  simp only [RIJNDAEL_BLOCKSIZE]
  split <;> omega

/-- With at least one block after the salt, decryption stays inside its buffers and reports a
length inside the buffer, where the buffer has a terminator. -/
theorem rij_decrypt_shape {H : Hash} (hH : H.Lawful) {bc : BlockCipher} (hbc : bc.Lawful) (m : Int)
    (input key : Str) (hl : 32 ≤ input.length) (hmod : input.length % 16 = 0) (hb : IsBytes input) :
    ∃ buf n, rij_decrypt H bc input key m = .ok (buf, n) ∧ buf.length = input.length ∧
      n + 16 ≤ input.length ∧ IsBytes buf ∧ buf[n]? = some 0 := by
  obtain ⟨hk, hiv⟩ := kiv_shape hH m key ((input.drop 8).take 8)
  have hsh := block_decrypt_shape hbc hk hiv (rijMode m) (input.drop 16) (by simp; omega)
    (isBytes_drop _ hb)
  unfold rij_decrypt
  simp only [SALT_LEN, RIJNDAEL_BLOCKSIZE]
  rw [if_neg (by omega)]
  refine ⟨_, _, rfl, ?_, ?_, ?_, ?_⟩
  · simp only [List.length_set, List.length_append, List.length_replicate, hsh.1, List.length_drop]
    omega
  · have h := hsh.1
    simp only [List.length_drop] at h
    omega
  · intro c hc
    rcases List.mem_or_eq_of_mem_set hc with h | h
    · exact isBytes_append hsh.2 (replicate_bytes _ _ (by decide)) c h
    · omega
  · rw [List.getElem?_set_self]
    have h := hsh.1
    simp only [List.length_drop] at h
    simp only [List.length_append, List.length_replicate, h]
    omega

end Fwknop
