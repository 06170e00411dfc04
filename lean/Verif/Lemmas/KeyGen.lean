import Verif.Spec.KeyGen
import Verif.Lemmas.AccessAccept
import Verif.Lemmas.ClientSafe

/-!
# Lemmas on key generation (C108)
-/

namespace Fwknop

open Fwknop.Spec

theorem random_bytes {E : RandEnv} (hE : GivesBytes E) (i len : Nat) :
    (get_random_data E i len).length = len ∧ IsBytes (get_random_data E i len) := by
  unfold get_random_data
  split
  · rename_i d h; exact hE i len d h
  · refine ⟨by simp, ?_⟩
    intro c hc
    obtain ⟨j, -, rfl⟩ := List.mem_map.1 hc
    omega

theorem b64_len (s : Str) : (b64 s).length = 4 * ((s.length + 2) / 3) := by
  rw [Base64.b64_eq_noPad]
  simp [Base64.b64NoPad_length]; omega

/-- Everything about `fko_key_gen`. -/
theorem key_gen_eq {E : RandEnv} (hE : GivesBytes E) (kl hl t : Int) {n m : Int} (en : (if kl = 0 then 32 else kl) = n)
    (em : (if hl = 0 then hmacDefaultLen t else hl) = m) :
    fko_key_gen E kl hl t = if 1 ≤ n ∧ n ≤ 32 ∧ 1 ≤ m ∧ m ≤ 128 then
        .ok (b64 (get_random_data E 0 n.toNat), b64 (get_random_data E 1 m.toNat)) else .err := by
  unfold fko_key_gen
  simp only [RIJNDAEL_MAX_KEYSIZE, SHA512_BLOCK_LEN, MAX_B64_KEY_LEN]
  simp only [show ((32 : Nat) : Int) = 32 from rfl, show ((128 : Nat) : Int) = 128 from rfl]
  rw [en, em]
  by_cases h1 : n < 1 ∨ n > 32
  · rw [if_neg (by omega)]; simp [Res.guard, h1]
  by_cases h2 : m < 1 ∨ m > 128
  · rw [if_neg (by omega)]; simp [Res.guard, h1, h2]
  rw [if_pos (by omega)]
  obtain ⟨a1, a2⟩ := random_bytes hE 0 n.toNat
  obtain ⟨b1, b2⟩ := random_bytes hE 1 m.toNat
  rw [Base64.b64_encode_eq _ a2, Base64.b64_encode_eq _ b2]
  have l1 := b64_len (get_random_data E 0 n.toNat)
  have l2 := b64_len (get_random_data E 1 m.toNat)
  rw [a1] at l1
  rw [b1] at l2
  have c1 : ¬ (get_random_data E 0 n.toNat).length > 32 := by omega
  have c2 : ¬ (get_random_data E 1 m.toNat).length > 128 := by omega
  have c3 : ¬ (b64 (get_random_data E 0 n.toNat)).length + 1 > 180 + 1 := by omega
  have c4 : ¬ (b64 (get_random_data E 1 m.toNat)).length + 1 > 180 + 1 := by omega
  have c5 : ¬ ((b64 (get_random_data E 0 n.toNat)).length : Int) < n := by omega
  have c6 : ¬ ((b64 (get_random_data E 1 m.toNat)).length : Int) < m := by omega
  simp only [Res.guard, Res.mem, h1, h2, c1, c2, c3, c4, c5, c6, decide_false, Bool.false_eq_true, if_false]
  rfl

theorem genArgs_append {args more : List GenArg} : ∀ {o : GenOpts},
    genArgs o (args ++ more) = (genArgs o args >>= fun o' => genArgs o' more) := by
  induction args with
  | nil => intro o; rfl
  | cons a r ih =>
    intro o
    show (genArg o a >>= fun o' => genArgs o' (r ++ more)) = ((genArg o a >>= fun o' => genArgs o' r) >>= _)
    cases genArg o a with
    | ub => rfl
    | err => rfl
    | ok o' => exact ih

theorem list_snoc {α : Type} {P : List α → Prop} (h0 : P []) (h1 : ∀ l a, P l → P (l ++ [a])) (l : List α) : P l := by
  have : ∀ r : List α, P r.reverse := by
    intro r
    induction r with
    | nil => exact h0
    | cons a r ih => rw [List.reverse_cons]; exact h1 _ _ ih
  simpa using this l.reverse

/-- The options after reading, in terms of the last option of each kind. -/
structure GenRead (args : List GenArg) (o : GenOpts) : Prop where
  key : ∀ v n, genGiven genKeyLen args = some v → Decimal v n → o.key_len = n ∧ 1 ≤ n ∧ n ≤ 128
  noKey : genGiven genKeyLen args = none → o.key_len = 0
  hmac : ∀ v n, genGiven genHmacLen args = some v → Decimal v n → o.hmac_key_len = n ∧ 1 ≤ n ∧ n ≤ 128
  noHmac : genGiven genHmacLen args = none → o.hmac_key_len = 0
  type : ∀ v, genGiven genType args = some v → ∃ n, (n, o.hmac_type) ∈ hmacNames ∧ v.map lower = n.map lower
  noType : genGiven genType args = none → o.hmac_type = 0

theorem genLen_good {v : Str} (h : NumberIn 1 128 v) : ∃ n : Nat, genLen v = .ok n ∧ Decimal v n ∧ 1 ≤ n ∧ n ≤ 128 := by
  obtain ⟨n, ⟨h1, h2, h3⟩, h4, h5⟩ := h
  refine ⟨n, ?_, ⟨h1, h2, h3⟩, h4, h5⟩
  have hd : digitsVal 10 v = n := by rw [← number_eq]; exact h3
  unfold genLen
  rw [strtol_wrapper_digits v (fun c hc => (isDigitChar_iff c).1 (h2 c hc)) h1 (by omega), hd]
  have : (1 : Int) ≤ n ∧ ((MAX_KEY_LEN : Nat) < (0 : Int) ∨ (n : Int) ≤ (MAX_KEY_LEN : Nat)) :=
    ⟨by omega, .inr (by simp only [MAX_KEY_LEN]; omega)⟩
  simp only [this, decide_true, and_self, if_true]

theorem decimal_unique {v : Str} {n m : Nat} (h1 : Decimal v n) (h2 : Decimal v m) : n = m := h1.2.2.symm.trans h2.2.2

theorem given_append (f : GenArg → Option (List Nat)) (args : List GenArg) (a : GenArg) :
    genGiven f (args ++ [a]) = match f a with | some v => some v | none => genGiven f args := by
  unfold genGiven
  rw [List.filterMap_append]
  cases h : f a with
  | none => simp [h]
  | some v => simp [h]

theorem genArgs_good {args : List GenArg} (h : ∀ a ∈ args, GoodGenArg a) : ∃ o, genArgs {} args = .ok o ∧ GenRead args o := by
  revert h
  refine list_snoc (P := fun args => (∀ a ∈ args, GoodGenArg a) → ∃ o, genArgs {} args = .ok o ∧ GenRead args o) ?_ ?_ args
  · intro _
    exact ⟨{}, rfl, by simp [genGiven], fun _ => rfl, by simp [genGiven], fun _ => rfl, by simp [genGiven], fun _ => rfl⟩
  · intro args a ih h
    obtain ⟨o, ho, hr⟩ := ih fun b hb => h b (by simp [hb])
    have ha := h a (by simp)
    rw [genArgs_append, ho, Res.bind_ok]
    cases a with
    | key_len v =>
      obtain ⟨n, e, hd, h1, h2⟩ := genLen_good (v := v) ha
      refine ⟨{ o with key_len := n }, by simp [genArgs, genArg, e, Res.bind_ok, Res.pure_eq], ?_⟩
      constructor <;> rw [given_append]
      · intro v' n' e' hd'
        cases e'
        cases decimal_unique hd hd'
        exact ⟨rfl, h1, h2⟩
      · intro h; cases h
      · exact hr.hmac
      · exact hr.noHmac
      · exact hr.type
      · exact hr.noType
    | hmac_key_len v =>
      obtain ⟨n, e, hd, h1, h2⟩ := genLen_good (v := v) ha
      refine ⟨{ o with hmac_key_len := n }, by simp [genArgs, genArg, e, Res.bind_ok, Res.pure_eq], ?_⟩
      constructor <;> rw [given_append]
      · exact hr.key
      · exact hr.noKey
      · intro v' n' e' hd'
        cases e'
        cases decimal_unique hd hd'
        exact ⟨rfl, h1, h2⟩
      · intro h; cases h
      · exact hr.type
      · exact hr.noType
    | hmac_digest v =>
      obtain ⟨n, k, hm, hv⟩ : OneOf hmacNames v := ha
      have hk : digest_strtoint v = k := (hmac_name hm hv).1
      have hp := hmac_positive hm
      refine ⟨{ o with hmac_type := k }, ?_, ?_⟩
      · have : ¬ k < 0 := by omega
        simp [genArgs, genArg, hk, Res.guard, this, Res.bind_ok, Res.pure_eq]
      constructor <;> rw [given_append]
      · exact hr.key
      · exact hr.noKey
      · exact hr.hmac
      · exact hr.noHmac
      · intro v' e'
        cases e'
        exact ⟨n, hm, hv⟩
      · intro h; cases h

end Fwknop
