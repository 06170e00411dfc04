import Verif.Spec.Std
import Verif.Model.Hmac
import Verif.Lemmas.Fko
import Verif.Lemmas.Md5
import Verif.Lemmas.Sha1
import Verif.Lemmas.Sha512
import Verif.Lemmas.Sha3

/-!
# The digests and the HMAC of the library are the standard ones
-/

namespace Fwknop

open Spec

theorem foldBlocks_inv {σ : Type} {P : σ → Prop} {f : σ → List Nat → σ} (hf : ∀ s b, P (f s b)) {B : Nat} (n : Nat)
    (s : σ) (p : List Nat) (hn : 0 < n) : P (foldBlocks f B n s p) := by
  induction n generalizing s p with
  | zero => omega
  | succ n ih =>
    cases n with
    | zero => exact hf _ _
    | succ n => exact ih _ _ (by omega)

theorem keccakString_shape (A : Lanes) : (keccakString A).length = 200 ∧ IsBytes (keccakString A) := by
  rw [Sha3.keccakString_eq]
  exact ⟨by rw [Sha3.bytesOf_length, Sha3.lanesOf_length], Sha3.bytesOf_bytes _⟩

theorem keccakP_shape (s : List Nat) : (keccakP s).length = 200 ∧ IsBytes (keccakP s) := by
  unfold keccakP
  rw [List.range_succ, List.foldl_append]
  exact keccakString_shape _

theorem sha3_shape {r d : Nat} (hr : 0 < r) (hd : d ≤ 200) (m : List Nat) :
    (Spec.sha3 r d m).length = d ∧ IsBytes (Spec.sha3 r d m) := by
  have h : 0 < (sha3Pad r m).length / r := by
    apply Nat.div_pos _ hr
    have hlt := Nat.mod_lt m.length hr
    have hle := Nat.mod_le m.length r
    simp only [sha3Pad, List.length_append]
    split
    · simp; omega
    · simp; omega
  have := foldBlocks_inv (P := fun s : List Nat => s.length = 200 ∧ IsBytes s) (f := keccakAbsorb r)
    (fun s b => keccakP_shape _) (B := r) _ (List.replicate 200 0) (sha3Pad r m) h
  refine ⟨?_, isB_take this.2 _⟩
  unfold Spec.sha3 absorbed
  rw [List.length_take, this.1]
  omega

theorem sha2Out_shape {w n : Nat} (hw : w / 8 = n) (s : Eight w) : (sha2Out s).length = 8 * n ∧ IsBytes (sha2Out s) := by
  obtain ⟨a, b, c, d, e, f, g, h⟩ := s
  subst hw
  constructor
  · simp only [sha2Out, List.flatMap_cons, List.flatMap_nil, List.length_append, beBytes_length, List.length_nil]
    omega
  · intro x hx
    simp only [sha2Out, List.mem_flatMap] at hx
    obtain ⟨w, _, h⟩ := hx
    exact beBytes_bytes _ _ x h

theorem digest_shape (t : Nat) (m : List Nat) : (Spec.digest t m).length = digestBytes t ∧ IsBytes (Spec.digest t m) := by
  unfold Spec.digest digestBytes
  split
  · unfold Spec.md5
    generalize absorbed _ _ _ _ = s
    obtain ⟨a, b, c, d⟩ := s
    exact ⟨by simp [md5Out, leBytes_length], isB_append (isB_append (isB_append (leBytes_bytes _ _) (leBytes_bytes _ _))
      (leBytes_bytes _ _)) (leBytes_bytes _ _)⟩
  · unfold Spec.sha1
    generalize absorbed _ _ _ _ = s
    obtain ⟨a, b, c, d, e⟩ := s
    exact ⟨by simp [sha1Out, beBytes_length], isB_append (isB_append (isB_append (isB_append (beBytes_bytes _ _)
      (beBytes_bytes _ _)) (beBytes_bytes _ _)) (beBytes_bytes _ _)) (beBytes_bytes _ _)⟩
  · exact sha2Out_shape (n := 4) rfl _
  · obtain ⟨h1, h2⟩ := sha2Out_shape (w := 64) (n := 8) rfl (absorbed (sha2Block sha512Fns) 128 sha384H0 (mdPad 128 16 (beBytes 16) m))
    exact ⟨by unfold Spec.sha384; rw [List.length_take, h1]; omega, isB_take h2 _⟩
  · exact sha2Out_shape (n := 8) rfl _
  · exact sha3_shape (by decide) (by decide) m
  · exact sha3_shape (by decide) (by decide) m

/-- The standard functions as a parameter of the model. -/
def stdHash : Hash := fun t m => Spec.digest t.toNat m

theorem digestLen_eq (t : Int) : digestLen t = digestBytes t.toNat := by
  by_cases h : 1 ≤ t ∧ t ≤ 6
  · obtain rfl | rfl | rfl | rfl | rfl | rfl : t = 1 ∨ t = 2 ∨ t = 3 ∨ t = 4 ∨ t = 5 ∨ t = 6 := by omega
    all_goals rfl
  · have h1 : digestLen t = 64 := by
      unfold digestLen
      simp only [FKO_DIGEST_MD5, FKO_DIGEST_SHA1, FKO_DIGEST_SHA256, FKO_DIGEST_SHA3_256, FKO_DIGEST_SHA384]
      rw [if_neg (by omega), if_neg (by omega), if_neg (by omega), if_neg (by omega)]
    rw [h1]
    unfold digestBytes
    split <;> first | rfl | omega

theorem stdHash_lawful : stdHash.Lawful where
  len := fun t m => by
    unfold stdHash
    rw [(digest_shape _ _).1, digestLen_eq]
  bytes := fun t m => (digest_shape _ _).2

theorem digestCode_eq {junk m : Str} (t : Int) (hj : junk.length = 64) (hl : m.length < 2 ^ 31) (hm : IsBytes m) :
    digestCode junk t m = .ok (stdHash t m) := by
  unfold stdHash
  by_cases h : 1 ≤ t ∧ t ≤ 6
  · obtain rfl | rfl | rfl | rfl | rfl | rfl : t = 1 ∨ t = 2 ∨ t = 3 ∨ t = 4 ∨ t = 5 ∨ t = 6 := by omega
    · exact Md5.md5_eq hj (by omega)
    · exact Sha1.sha1_eq hj hl hm
    · exact Sha2.sha256_eq hm
    · exact Sha2.sha384_eq hm
    · exact Sha2.sha512_eq hm
    · exact Sha3.sha3_256_eq (by omega) hm
  · have h1 : digestCode junk t m = Sha3.sha3_512 m := by
      unfold digestCode
      simp only [FKO_DIGEST_MD5, FKO_DIGEST_SHA1, FKO_DIGEST_SHA256, FKO_DIGEST_SHA3_256, FKO_DIGEST_SHA384, FKO_DIGEST_SHA512]
      rw [if_neg (by omega), if_neg (by omega), if_neg (by omega), if_neg (by omega), if_neg (by omega), if_neg (by omega)]
    have h2 : Spec.digest t.toNat = Spec.sha3_512 := by
      unfold Spec.digest
      split <;> first | rfl | omega
    rw [h1, h2, Sha3.sha3_512_eq (by omega) hm]

theorem pad_init_length (c : Nat) (key : Str) : (pad_init c key).length = 136 := by
  simp only [pad_init, MAX_DIGEST_BLOCK_LEN, List.length_append, List.length_map, List.length_take, List.length_replicate]
  omega

theorem pad_init_bytes {c : Nat} (hc : c < 256) {key : Str} (hk : IsBytes key) : IsBytes (pad_init c key) := by
  apply isB_append
  · intro x hx
    obtain ⟨y, hy, rfl⟩ := List.mem_map.mp hx
    exact Sha3.xor_byte (hk y (List.mem_of_mem_take hy)) hc
  · intro x hx
    rw [List.mem_replicate] at hx
    omega

theorem hmacKey_eq {junk key : Str} (t : Int) (hj : junk.length = 64) (hl : key.length < 2 ^ 31) (hk : IsBytes key) :
    ∃ a n, hmacKey junk t key = .ok (a, n) ∧
      a.take n = if blockLen t < key.length then stdHash t key else key := by
  have hb := blockLen_le t
  have hd := digestLen_le t
  unfold hmacKey
  simp only [MAX_DIGEST_BLOCK_LEN]
  split
  · have hlen := stdHash_lawful.len t key
    rw [digestCode_eq t hj hl hk, Res.bind_ok, put_zero (by rw [hlen, List.length_replicate]; omega), Res.bind_ok]
    exact ⟨_, _, rfl, by rw [← hlen, List.take_left]⟩
  · rw [put_zero (by rw [List.length_replicate]; omega), Res.bind_ok]
    exact ⟨_, _, rfl, by rw [List.take_left]⟩

theorem put_after {b x y : Str} (h : x.length + y.length ≤ b.length) :
    ∃ r, (do let b ← put b 0 x; put b x.length y) = .ok (x ++ y ++ r) := by
  rw [put_zero (by omega), Res.bind_ok, put_app (by rw [List.length_drop]; omega)]
  exact ⟨_, rfl⟩

theorem hmacCode_eq {junk : Nat → Str} (hj : ∀ i, (junk i).length = 64) (t : Int) {msg key : Str}
    (hm : IsBytes msg) (hk : IsBytes key) (hml : msg.length + 136 < 2 ^ 31) (hkl : key.length < 2 ^ 31) :
    hmacCode junk t msg key = .ok (hmac stdHash t msg key) := by
  have hb := blockLen_le t
  have hd := digestLen_le t
  obtain ⟨a, n, h1, h2⟩ := hmacKey_eq t (hj 0) hkl hk
  unfold hmacCode hmac
  rw [h1, Res.bind_ok]
  simp only [h2]
  have hfb : IsBytes (if blockLen t < key.length then stdHash t key else key) := by
    split
    · exact stdHash_lawful.bytes _ _
    · exact hk
  generalize (if blockLen t < key.length then stdHash t key else key) = fk at hfb
  have hpl : ∀ c, ((pad_init c fk).take (blockLen t)).length = blockLen t := by
    intro c
    rw [List.length_take, pad_init_length]
    omega
  have hi := hpl 0x36
  have ho := hpl 0x5c
  have hib : IsBytes ((pad_init 0x36 fk).take (blockLen t)) := isB_take (pad_init_bytes (by decide) hfb) _
  have hob : IsBytes ((pad_init 0x5c fk).take (blockLen t)) := isB_take (pad_init_bytes (by decide) hfb) _
  generalize (pad_init 0x36 fk).take (blockLen t) = ip at hi hib
  generalize (pad_init 0x5c fk).take (blockLen t) = op at ho hob
  have hsum : ∀ (b x y : Str) {β : Type} (f : Str → Res β), x.length + y.length ≤ b.length →
      (do let b ← put b 0 x; let b ← put b x.length y; let z ← fetch b (y.length + x.length); f z) = f (x ++ y) := by
    intro b x y β f h
    rw [put_zero (by omega), Res.bind_ok, put_app (by rw [List.length_drop]; omega), Res.bind_ok,
      fetch_eq (by simp only [List.length_append]; omega), Res.bind_ok, Nat.add_comm, ← List.length_append, List.take_left]
  have e1 := hsum (List.replicate (msg.length + MAX_DIGEST_BLOCK_LEN + 1) 0) ip msg
    (f := fun z => do
      let inner ← digestCode (junk 1) t z
      let ph ← put (List.replicate (blockLen t + digestLen t + 1) 0) 0 op
      let ph ← put ph (blockLen t) inner
      let y ← fetch ph (blockLen t + digestLen t)
      digestCode (junk 2) t y) (by rw [List.length_replicate, hi]; show _ ≤ msg.length + 136 + 1; omega)
  rw [hi] at e1
  refine e1.trans ?_
  have hin : digestCode (junk 1) t (ip ++ msg) = .ok (stdHash t (ip ++ msg)) :=
    digestCode_eq t (hj 1) (by rw [List.length_append, hi]; omega) (isB_append hib hm)
  rw [hin, Res.bind_ok]
  have hil := stdHash_lawful.len t (ip ++ msg)
  have hilb := stdHash_lawful.bytes t (ip ++ msg)
  generalize stdHash t (ip ++ msg) = inner at hil hilb
  have e2 := hsum (List.replicate (blockLen t + digestLen t + 1) 0) op inner (f := fun z => digestCode (junk 2) t z)
    (by rw [List.length_replicate, ho, hil]; omega)
  rw [ho, hil, Nat.add_comm (digestLen t)] at e2
  refine e2.trans ?_
  exact digestCode_eq t (hj 2) (by rw [List.length_append, ho, hil]; omega) (isB_append hob hilb)

end Fwknop
