import Verif.Lemmas.Base64

/-!
# C01, C02: base64
-/

namespace Fwknop.Props
open Fwknop.Base64 Fwknop.Spec

/-- C01: decoding what was encoded gives the input back. -/
theorem C01_base64_roundtrip (s : Str) (hs : IsBytes s) : b64_decode (b64_encode s) = some s := by
  rw [b64_decode, b64_encode_eq s hs, b64_eq_noPad]
  exact decodeLoop_spec s _ 0 0 hs rfl (decodeLoop_eq_tail _)

/-- C01: the same after the trailing '=' have been stripped. -/
theorem C01_base64_roundtrip_stripped (s : Str) (hs : IsBytes s) :
    b64_decode (strip_b64_eq (b64_encode s)) = some s := by
  have := decodeLoop_spec s [] 0 0 hs rfl (fun _ _ => rfl)
  rw [strip_encode s hs, b64_decode]; simpa using this

/-- C01: hence encoding is injective, padded or stripped. -/
theorem C01_base64_injective (s t : Str) (hs : IsBytes s) (ht : IsBytes t)
    (h : strip_b64_eq (b64_encode s) = strip_b64_eq (b64_encode t)) : s = t := by
  have h1 := C01_base64_roundtrip_stripped s hs
  rw [h, C01_base64_roundtrip_stripped t ht] at h1
  exact (Option.some.inj h1).symm

example : IsBytes [0, 255, 58, 61, 7] ∧
    b64_decode (strip_b64_eq (b64_encode [0, 255, 58, 61, 7])) = some [0, 255, 58, 61, 7] := by
  decide

/-- C02: the encoder computes RFC 4648 base64. -/
theorem C02_base64_is_rfc4648 (s : Str) (hs : IsBytes s) : b64_encode s = Spec.b64 s :=
  b64_encode_eq s hs

/-- C02: the stripped text uses only the 64 alphabet characters and has length ceil(4n/3). -/
theorem C02_base64_stripped_alphabet (s : Str) (hs : IsBytes s) :
    (∀ c ∈ strip_b64_eq (b64_encode s), IsB64Char c) ∧
    (strip_b64_eq (b64_encode s)).length = (4 * s.length + 2) / 3 := by
  rw [strip_encode s hs]
  exact ⟨b64NoPad_chars s hs, b64NoPad_length s⟩

/-- C02: the padded text is the stripped text plus at most two '=', of length 4*ceil(n/3). -/
theorem C02_base64_padding (s : Str) (hs : IsBytes s) :
    ∃ n ≤ 2, b64_encode s = strip_b64_eq (b64_encode s) ++ List.replicate n 61 ∧
      (b64_encode s).length = 4 * ((s.length + 2) / 3) := by
  refine ⟨(3 - s.length % 3) % 3, by omega, ?_, ?_⟩
  · rw [strip_encode s hs, b64_encode_eq s hs, b64_eq_noPad]
  · rw [b64_encode_eq s hs, b64_eq_noPad]
    simp [b64NoPad_length]; omega

/-- C02: neither the field separator ':' nor a NUL nor '=' occurs in a stripped field. -/
theorem C02_base64_no_separator (s : Str) (hs : IsBytes s) :
    58 ∉ strip_b64_eq (b64_encode s) ∧ 0 ∉ strip_b64_eq (b64_encode s) ∧
    61 ∉ strip_b64_eq (b64_encode s) := by
  have h := (C02_base64_stripped_alphabet s hs).1
  refine ⟨fun hc => ?_, fun hc => ?_, fun hc => ?_⟩ <;>
    (have := h _ hc; simp only [IsB64Char] at this; omega)

/-- The decoder writes at most 3/4 of the input length, for any input at all (used for the
buffer bounds of C07 and C13). -/
theorem C02_base64_decode_length (s out : Str) (h : b64_decode s = some out) :
    4 * out.length ≤ 3 * s.length := by
  simpa using decodeLoop_length s 0 0 out h

example : IsBytes b!"a:b" ∧ b64_encode b!"a:b" = b!"YTpi" := by decide

/-! ## C59 -/

/-- **C59.** The decoder reads up to the first NUL or '=' and accepts the text exactly when every
character before it is one of the 64; the result is then the bytes these characters denote. -/
theorem C59_decode_exact (s out : Str) :
    b64_decode s = some out ↔
      ∃ vs : Str, (∀ x ∈ vs, x < 64) ∧ s.takeWhile (fun c => c ≠ 0 ∧ c ≠ 61) = vs.map b64Char ∧
        out = b64Bytes vs := by
  obtain ⟨tl, hs, htl⟩ : ∃ tl, s = s.takeWhile (fun c => decide (c ≠ 0 ∧ c ≠ 61)) ++ tl ∧
      ∀ i v, decodeLoop tl i v = some [] := by
    refine ⟨s.dropWhile (fun c => decide (c ≠ 0 ∧ c ≠ 61)), List.takeWhile_append_dropWhile.symm, ?_⟩
    intro i v
    cases hd : s.dropWhile (fun c => decide (c ≠ 0 ∧ c ≠ 61)) with
    | nil => rfl
    | cons c t =>
      have := List.head_dropWhile_not (l := s) (fun c => decide (c ≠ 0 ∧ c ≠ 61)) (by rw [hd]; simp)
      simp only [hd, List.head_cons, decide_eq_false_iff_not] at this
      rw [decodeLoop, if_pos (by omega)]
  generalize hp : s.takeWhile (fun c => decide (c ≠ 0 ∧ c ≠ 61)) = p at hs
  have hpc : ∀ x ∈ p, x ≠ 0 ∧ x ≠ 61 := by
    intro x hx
    rw [← hp] at hx
    have := List.all_eq_true.1 (List.all_takeWhile (l := s) (p := fun c => decide (c ≠ 0 ∧ c ≠ 61))) x hx
    simpa using this
  by_cases hall : ∀ c ∈ p, IsB64Char c
  · obtain ⟨vs, h1, h2⟩ := vals_of_chars p hall
    have hdec : b64_decode s = some (b64Bytes vs) := by
      rw [b64_decode, hs, ← h2]; exact decodeLoop_vals vs tl 0 0 h1 rfl htl
    rw [hdec]
    constructor
    · intro h; cases h; exact ⟨vs, h1, h2.symm, rfl⟩
    · rintro ⟨ws, g1, g2, rfl⟩
      have := decodeLoop_vals ws tl 0 0 g1 rfl htl
      rw [← g2, ← hs] at this
      rw [← hdec, b64_decode, this]
  · constructor
    · intro h
      exfalso
      simp only [Classical.not_forall] at hall
      obtain ⟨c, hc, hn⟩ := hall
      obtain ⟨a, b, e⟩ := List.append_of_mem hc
      have hc' := hpc c hc
      have := decodeLoop_bad a c (b ++ tl) 0 0 (fun x hx => hpc x (by rw [e]; simp [hx])) hn hc'.1 hc'.2
      rw [b64_decode, hs, e, List.append_assoc, List.cons_append, this] at h
      cases h
    · rintro ⟨ws, g1, g2, -⟩
      exfalso
      apply hall
      intro c hc
      rw [g2] at hc
      obtain ⟨k, hk, rfl⟩ := List.mem_map.1 hc
      exact b64Char_isB64 k (g1 k hk)

example : b64_decode b!"Zm9v!mE" = none ∧ b64_decode b!"Zm9vYmE=!!" = some b!"fooba" := by decide

end Fwknop.Props
