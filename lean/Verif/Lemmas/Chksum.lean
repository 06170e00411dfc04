import Verif.Lemmas.Packet

/-!
# Lemmas: the checksum
-/

namespace Fwknop

open Spec

/-- The sum of the words of a text, first the most significant byte. -/
def beSum : Str → Nat
  | a :: b :: s => a * 256 + b + beSum s
  | [a] => a * 256
  | [] => 0

theorem onesSum_lt : ∀ s : Str, (∀ x ∈ s, x < 256) → onesSum s < 65536
  | [], _ => by simp [onesSum]
  | [a], h => by
    have := h a (by simp)
    simp only [onesSum]
    omega
  | a :: b :: s, h => by
    have := onesSum_lt s (fun x hx => h x (by simp [hx]))
    have := h a (by simp)
    have := h b (by simp)
    simp only [onesSum, onesAdd]
    split <;> omega

theorem onesSum_mod : ∀ s : Str, onesSum s % 65535 = beSum s % 65535
  | [] => rfl
  | [a] => rfl
  | a :: b :: s => by
    have := onesSum_mod s
    simp only [onesSum, onesAdd, beSum]
    split <;> omega

theorem onesSum_zero : ∀ s : Str, onesSum s = 0 → wordSum s = 0
  | [], _ => rfl
  | [a], h => by simp only [onesSum] at h; simp only [wordSum]; omega
  | a :: b :: s, h => by
    simp only [onesSum, onesAdd] at h
    have := onesSum_zero s
    simp only [wordSum]
    split at h
    · have := this (by omega); omega
    · omega

theorem wordSum_beSum : ∀ s : Str, (256 * wordSum s) % 65535 = beSum s % 65535
  | [] => rfl
  | [a] => by simp only [wordSum, beSum]; omega
  | a :: b :: s => by
    have := wordSum_beSum s
    simp only [wordSum, beSum]
    omega

theorem wordSum_le : ∀ s : Str, (∀ x ∈ s, x < 256) → wordSum s ≤ 65535 * s.length
  | [], _ => by simp [wordSum]
  | [a], h => by
    have := h a (by simp)
    simp only [wordSum, List.length_cons, List.length_nil]
    omega
  | a :: b :: s, h => by
    have := wordSum_le s (fun x hx => h x (by simp [hx]))
    have := h a (by simp)
    have := h b (by simp)
    simp only [wordSum, List.length_cons]
    omega

theorem chksum_mod (s : Str) (hs : wordSum s < 2 ^ 32) :
    (chksum s + wordSum s) % 65535 = 0 ∧ chksum s ≤ 65535 ∧ (wordSum s = 0 → chksum s = 65535) := by
  unfold chksum
  simp only
  generalize wordSum s = w at hs ⊢
  obtain ⟨q, hq⟩ : ∃ q, w / 65536 = q := ⟨_, rfl⟩
  obtain ⟨r, hr⟩ : ∃ r, w % 65536 = r := ⟨_, rfl⟩
  rw [hq, hr]
  have hw : w = 65536 * q + r := by omega
  by_cases h : q + r < 65536
  · have h1 : (q + r + (q + r) / 65536) % 65536 = q + r := by
      rw [Nat.div_eq_of_lt h, Nat.add_zero, Nat.mod_eq_of_lt h]
    rw [h1]
    refine ⟨?_, by omega, by omega⟩
    have : 65535 - (q + r) + w = 65535 * (1 + q) := by omega
    rw [this, Nat.mul_mod_right]
  · have h1 : (q + r + (q + r) / 65536) % 65536 = q + r - 65535 := by
      have h2 : (q + r) / 65536 = 1 := by omega
      rw [h2]
      omega
    rw [h1]
    refine ⟨?_, by omega, by omega⟩
    have : 65535 - (q + r - 65535) + w = 65535 * (2 + q) := by omega
    rw [this, Nat.mul_mod_right]

/-- A text whose words add up to a multiple of 65535 has the ones' complement sum 0xffff. -/
theorem onesSum_full {s : Str} (hb : ∀ x ∈ s, x < 256) (h0 : wordSum s ≠ 0) (hm : wordSum s % 65535 = 0) :
    onesSum s = 65535 := by
  have h1 := onesSum_lt s hb
  have h2 := onesSum_mod s
  have h3 := wordSum_beSum s
  have h4 : onesSum s ≠ 0 := fun h => h0 (onesSum_zero s h)
  omega

end Fwknop
