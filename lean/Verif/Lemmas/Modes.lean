import Verif.Lemmas.Cipher
import Verif.Spec.Modes

/-!
# The code's feedback modes against SP 800-38A
-/

namespace Fwknop
open Fwknop.Spec

theorem xorBytes_eq_xorB (a b : Str) : xorBytes a b = xorB b a := by
  rw [xorBytes_comm]; rfl

theorem ecb_spec (E : Str → Str) (P : List Str) : IsECB E P (ecb E P) := by
  refine ⟨by simp [ecb], ?_⟩
  intro i hi
  simp [ecb, List.getD_eq_getElem?_getD, hi]

theorem prev_cons (iv c : Str) (C : List Str) (i : Nat) : prev iv (c :: C) (i + 1) = prev c C i := by
  unfold prev
  cases i with
  | zero => simp
  | succ i => simp

theorem cbc_spec (E : Str → Str) (iv : Str) (P : List Str) : IsCBC E iv P (cbcEnc E iv P) := by
  refine ⟨cbcEnc_length E iv P, ?_⟩
  induction P generalizing iv with
  | nil => intro i hi; simp at hi
  | cons p P ih =>
    intro i hi
    cases i with
    | zero => simp [cbcEnc, prev, xorBytes_eq_xorB]
    | succ i =>
      simp only [List.length_cons] at hi
      unfold cbcEnc
      rw [prev_cons]
      simpa using ih _ i (by omega)

theorem cfb_spec (E : Str → Str) (iv : Str) (P : List Str) : IsCFB E iv P (cfbEnc E iv P) := by
  refine ⟨cfbEnc_length E iv P, ?_⟩
  induction P generalizing iv with
  | nil => intro i hi; simp at hi
  | cons p P ih =>
    intro i hi
    cases i with
    | zero => simp [cfbEnc, prev, xorBytes_eq_xorB]
    | succ i =>
      simp only [List.length_cons] at hi
      unfold cfbEnc
      rw [prev_cons]
      simpa using ih _ i (by omega)

theorem ofbStream_succ (E : Str → Str) (iv : Str) (i : Nat) :
    ofbStream E iv (i + 1) = ofbStream E (E iv) i := by
  induction i with
  | zero => rfl
  | succ i ih => rw [ofbStream, ih]; rfl

theorem ofb_spec (E : Str → Str) (iv : Str) (P : List Str) : IsOFB E iv P (ofb E iv P) := by
  refine ⟨ofb_length E iv P, ?_⟩
  induction P generalizing iv with
  | nil => intro i hi; simp at hi
  | cons p P ih =>
    intro i hi
    cases i with
    | zero => simp [ofb, ofbStream, xorBytes_eq_xorB]
    | succ i =>
      simp only [List.length_cons] at hi
      unfold ofb
      rw [ofbStream_succ]
      simpa using ih _ i (by omega)

/-- The number, least significant byte first. -/
def leVal : Str → Nat
  | [] => 0
  | b :: bs => b + 256 * leVal bs

theorem beVal_append (b : Str) (x : Nat) : beVal (b ++ [x]) = 256 * beVal b + x := by
  simp [beVal]

theorem beVal_reverse (b : Str) : beVal b.reverse = leVal b := by
  induction b with
  | nil => rfl
  | cons x b ih => rw [List.reverse_cons, beVal_append, ih, leVal]; omega

theorem leVal_lt {b : Str} (h : IsBytes b) : leVal b < 256 ^ b.length := by
  induction b with
  | nil => simp [leVal]
  | cons x b ih =>
    have hx : x < 256 := h x (by simp)
    have := ih (fun c hc => h c (by simp [hc]))
    simp only [leVal, List.length_cons, Nat.pow_succ]
    omega

theorem leVal_inc {b : Str} (h : IsBytes b) : leVal (incLE b) = (leVal b + 1) % 256 ^ b.length := by
  induction b with
  | nil => simp [incLE, leVal]
  | cons x b ih =>
    have hx : x < 256 := h x (by simp)
    have hb : IsBytes b := fun c hc => h c (by simp [hc])
    have hlt := leVal_lt hb
    unfold incLE
    split
    · rename_i hne
      have hx2 : x + 1 < 256 := by omega
      rw [leVal, leVal, Nat.mod_eq_of_lt hx2, Nat.mod_eq_of_lt]
      · omega
      · simp only [List.length_cons, Nat.pow_succ]; omega
    · rename_i hne
      have hx2 : x = 255 := by omega
      subst hx2
      rw [leVal, leVal, ih hb, List.length_cons, Nat.pow_succ]
      rw [show 255 + 256 * leVal b + 1 = 256 * (leVal b + 1) by omega, Nat.mul_comm _ 256,
        Nat.mul_mod_mul_left]
      omega

theorem beVal_inc {b : Str} (h : IsBlock b) : beVal (ctrInc b) = (beVal b + 1) % 2 ^ 128 := by
  unfold ctrInc
  have hr : IsBytes b.reverse := fun c hc => h.2 c (List.mem_reverse.1 hc)
  have e : beVal b = leVal b.reverse := by rw [← beVal_reverse, List.reverse_reverse]
  rw [beVal_reverse, leVal_inc hr, e, List.length_reverse, h.1]

theorem ctr_spec (E : Str → Str) (iv : Str) (hiv : IsBlock iv) (P : List Str) :
    IsCTR E iv P (ctr E iv P) := by
  refine ⟨ctr_length E iv P, ?_⟩
  induction P generalizing iv with
  | nil => intro i hi; simp at hi
  | cons p P ih =>
    intro i hi
    cases i with
    | zero =>
      refine ⟨iv, hiv.1, hiv.2, ?_, by simp [ctr, xorBytes_eq_xorB]⟩
      have hr : IsBytes iv.reverse := fun c hc => hiv.2 c (List.mem_reverse.1 hc)
      have e : beVal iv = leVal iv.reverse := by rw [← beVal_reverse, List.reverse_reverse]
      have := leVal_lt hr
      rw [← e, List.length_reverse, hiv.1] at this
      rw [Nat.add_zero, Nat.mod_eq_of_lt this]
    | succ i =>
      simp only [List.length_cons] at hi
      obtain ⟨T, h1, h2, h3, h4⟩ := ih (ctrInc iv) (ctrInc_block hiv) i (by omega)
      refine ⟨T, h1, h2, ?_, ?_⟩
      · rw [h3, beVal_inc hiv]; omega
      · unfold ctr; simpa using h4

theorem kiv_spec (H : Hash) (mode : Int) (key salt : Str) :
    (rij_salt_and_iv H mode key salt).1 ++ (rij_salt_and_iv H mode key salt).2
      = bytesToKey (H 1) (finalKey mode key) salt 3 := by
  simp [rij_salt_and_iv, bytesToKey, bytesToKeyAux, FKO_DIGEST_MD5]

theorem addPad_spec (s : Str) : IsPkcs7 s (addPad s) :=
  ⟨addPad_mod s, 16 - s.length % 16, by omega, by omega, rfl⟩

end Fwknop
