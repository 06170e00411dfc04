import Verif.Lemmas.Encode
import Verif.Lemmas.Setters

/-!
# C03 - C07, C16, C18, C21, C22: SPA messages, the library context and its setters
-/

namespace Fwknop.Props
open Fwknop Fwknop.Spec Fwknop.Res

/-! ## Concrete cases used to show that hypotheses can be met -/

/-- A hash of the right shape (not a good one). -/
def toyHash : Hash := fun t m => List.replicate (digestLen t) (m.sum % 256)

theorem toyHash_lawful : toyHash.Lawful := by
  constructor
  · intro t m; simp [toyHash]
  · intro t m c hc
    simp only [toyHash, List.mem_replicate] at hc
    omega

/-- An access request with a NAT target, server auth and a client timeout. -/
def sampleRequest : Request where
  rand := b!"1804289383846930"
  user := b!"mbr"
  ts := 1700000000
  version := b!"3.0.0"
  type := 4
  msg := b!"1.2.3.4,tcp/22"
  nat := some b!"192.168.10.3,22"
  auth := some b!"crypt,secret"
  timeout := 300

theorem sampleRequest_wf : sampleRequest.WellFormed where
  rand_len := by decide
  rand_chars := by unfold IsPlainField; decide
  user_ne := by decide
  user_len := by decide
  user_chars := by unfold IsUserChar; decide
  ts_lt := by decide
  version_len := by decide
  version_chars := by unfold IsPlainField; decide
  type_le := by decide
  msg_text := by unfold IsText; decide
  msg_len := by decide
  msg_cmd := fun h => absurd h (by decide)
  msg_access := fun _ => (validate_access_iff _).1 (by decide)
  nat_some := fun _ => ⟨_, rfl, by unfold IsText; decide,
    ((validate_nat_iff _).1 (by decide)).1, by decide⟩
  nat_none := by decide
  auth_ok := by
    intro a h
    cases h
    exact ⟨by unfold IsText; decide, by decide, by decide⟩
  timeout_some := by decide
  timeout_none := by decide

/-- The context that carries a request. -/
def ctxOf (r : Request) (digest_type : Int) : Ctx where
  rand_val := some r.rand
  username := some r.user
  timestamp := r.ts
  message_type := r.type
  message := some r.msg
  nat_access := r.nat
  server_auth := r.auth
  client_timeout := r.timeout
  digest_type := digest_type
  version := some r.version

theorem ctxOf_carries (r : Request) (t : Int) : Carries (ctxOf r t) r :=
  ⟨rfl, rfl, rfl, rfl, rfl, rfl, rfl, rfl, rfl⟩

/-! ## C03, C04 -/

/-- **C03.** The encoder writes the documented text of the request, followed in the packet by
':' and its digest. -/
theorem C03_encode_is_documented_text {r : Request} (hr : r.WellFormed) (H : Hash) (c : Ctx)
    (hc : Carries c r) (hd : 1 ≤ c.digest_type ∧ c.digest_type ≤ 7) :
    ∃ c', fko_encode_spa_data H c = .ok (true, c') ∧ Carries c' r ∧
      c'.encoded_msg = some (r.wire ++ [0]) ∧ c'.encoded_msg_len = r.wire.length ∧
      c'.digest = some (digest_base64 H c.digest_type r.wire) := by
  obtain ⟨c', h1, h2, h3, h4, h5, -⟩ := encode_wire hr H c hc hd
  exact ⟨c', h1, h2, h3, h4, h5⟩

/-- **C03.** Encoding a request and decoding `text ':' digest` in a fresh context gives the
request back, for every request within the receiver's limits and every digest algorithm.
`rest` is whatever lies behind the terminator in the receiver's buffer. -/
theorem C03_encode_decode_roundtrip {H : Hash} (hH : H.Lawful) {r : Request} (hr : r.WellFormed)
    (c : Ctx) (hc : Carries c r) (hd : 1 ≤ c.digest_type ∧ c.digest_type ≤ 7) (rest : Str) :
    ∃ c' text dig, fko_encode_spa_data H c = .ok (true, c') ∧
      c'.encoded_msg = some (text ++ [0]) ∧ c'.digest = some dig ∧
      ∃ s', fko_decode_spa_data H
          { encoded_msg := some (text ++ 58 :: dig ++ 0 :: rest),
            encoded_msg_len := (text ++ 58 :: dig).length } = .ok s' ∧
        Carries s' r ∧ s'.digest = some dig := by
  obtain ⟨c', h1, h2, h3, h4, h5, -⟩ := encode_wire hr H c hc hd
  refine ⟨c', r.wire, _, h1, h3, h5, ?_⟩
  exact decode_wire hr hH c.digest_type hd _ rest rfl rfl rfl rfl rfl

example : toyHash.Lawful ∧ sampleRequest.WellFormed ∧ Carries (ctxOf sampleRequest 3) sampleRequest :=
  ⟨toyHash_lawful, sampleRequest_wf, ctxOf_carries _ _⟩

/-- The request carried by a context is determined. -/
theorem carries_unique {c : Ctx} {r r' : Request} (h : Carries c r) (h' : Carries c r') : r = r' := by
  obtain ⟨a1, a2, a3, a4, a5, a6, a7, a8, a9⟩ := h
  obtain ⟨b1, b2, b3, b4, b5, b6, b7, b8, b9⟩ := h'
  have e3 : r.ts = r'.ts := by omega
  have e5 : r.type = r'.type := by omega
  cases r; cases r'
  simp_all

/-- **C04.** Two well-formed requests with the same text are the same request. -/
theorem C04_text_unambiguous {r r' : Request} (hr : r.WellFormed) (hr' : r'.WellFormed)
    (h : r.wire = r'.wire) : r = r' := by
  obtain ⟨s, h1, h2, -⟩ := decode_wire hr toyHash_lawful 3 (by decide)
    { encoded_msg := some (r.wire ++ 58 :: digest_base64 toyHash 3 r.wire ++ 0 :: []),
      encoded_msg_len := (r.wire ++ 58 :: digest_base64 toyHash 3 r.wire).length } []
    rfl rfl rfl rfl rfl
  obtain ⟨s', h1', h2', -⟩ := decode_wire hr' toyHash_lawful 3 (by decide)
    { encoded_msg := some (r.wire ++ 58 :: digest_base64 toyHash 3 r.wire ++ 0 :: []),
      encoded_msg_len := (r.wire ++ 58 :: digest_base64 toyHash 3 r.wire).length } []
    (by rw [h]) (by rw [h]) rfl rfl rfl
  rw [h1] at h1'
  cases h1'
  exact carries_unique h2 h2'

/-- **C04.** In terms of the API: two contexts with well-formed requests whose encoded texts
are equal carry the same request. -/
theorem C04_encoders_agree_only_on_equal_requests {H : Hash} {r r' : Request} (hr : r.WellFormed)
    (hr' : r'.WellFormed) (c c' d d' : Ctx) (hc : Carries c r) (hc' : Carries c' r')
    (hd : 1 ≤ c.digest_type ∧ c.digest_type ≤ 7) (hd' : 1 ≤ c'.digest_type ∧ c'.digest_type ≤ 7)
    (e : fko_encode_spa_data H c = .ok (true, d)) (e' : fko_encode_spa_data H c' = .ok (true, d'))
    (h : d.encoded_msg = d'.encoded_msg) : r = r' := by
  obtain ⟨x, h1, -, h3, -⟩ := encode_wire hr H c hc hd
  obtain ⟨x', h1', -, h3', -⟩ := encode_wire hr' H c' hc' hd'
  rw [e] at h1; rw [e'] at h1'
  cases h1; cases h1'
  rw [h3, h3'] at h
  exact C04_text_unambiguous hr hr' (by simpa using h)

/-! ## C05, C06, C07 -/

theorem takeWhile_ne_append (p t : Str) (h : 58 ∉ p) :
    (p ++ 58 :: t).takeWhile (· ≠ 58) = p := by
  induction p with
  | nil => simp
  | cons a p ih =>
    simp only [List.mem_cons, not_or] at h
    rw [List.cons_append, List.takeWhile_cons, if_pos (by simpa using Ne.symm h.1), ih h.2]

theorem split_last_unique {E E' D D' : Str} (hD : 58 ∉ D) (hD' : 58 ∉ D')
    (h : E ++ 58 :: D = E' ++ 58 :: D') : E = E' ∧ D = D' := by
  have hr := congrArg List.reverse h
  simp only [List.reverse_append, List.reverse_cons, List.append_assoc, List.cons_append,
    List.nil_append] at hr
  have e1 := takeWhile_ne_append D.reverse E.reverse (by simpa using hD)
  have e2 := takeWhile_ne_append D'.reverse E'.reverse (by simpa using hD')
  rw [hr, e2] at e1
  have hDD : D = D' := by simpa using e1.symm
  subst hDD
  exact ⟨by simpa using h, rfl⟩

/-- **C05.** A decrypted plaintext without embedded NUL is accepted only when it is
`E ':' D` where `D` is the base64 digest of `E` by the algorithm recorded in the context, whose
digests have that length. -/
theorem C05_digest_enforced {H : Hash} (hH : H.Lawful) (c c' : Ctx) (text rest : Str)
    (hbuf : c.encoded_msg = some (text ++ 0 :: rest)) (h0 : 0 ∉ text)
    (hlen : c.encoded_msg_len = text.length) (h : fko_decode_spa_data H c = .ok c') :
    ∃ E D, text = E ++ 58 :: D ∧ D = digest_base64 H c'.digest_type E ∧
      (1 ≤ c'.digest_type ∧ c'.digest_type ≤ 7) ∧ D.length = b64DigestLen c'.digest_type ∧
      c'.digest = some D := by
  obtain ⟨E, D, fill, h1, -, -, -, -, h4, h5, h6, h7, h8, -⟩ :=
    (decode_sat hH c text rest hbuf h0 (by omega)
      (by rw [List.length_append, List.length_cons]; omega)).of_ok h
  have : fill = [] := List.length_eq_zero_iff.1 (by omega)
  subst this
  rw [List.append_nil] at h5
  exact ⟨E, D, h1, h5, ⟨h6, h7⟩, by rw [h5]; exact digest_base64_length hH _ _, h8⟩

/-- **C05.** Consequently a text whose last field is not the digest, by any of the seven
algorithms, of what precedes it is not accepted. -/
theorem C05_wrong_digest_rejected {H : Hash} (hH : H.Lawful) (c c' : Ctx) (E D rest : Str)
    (hbuf : c.encoded_msg = some (E ++ 58 :: D ++ 0 :: rest)) (h0 : 0 ∉ E ++ 58 :: D)
    (hD : 58 ∉ D) (hlen : c.encoded_msg_len = (E ++ 58 :: D).length)
    (hbad : ∀ t : Int, 1 ≤ t → t ≤ 7 → D ≠ digest_base64 H t E) :
    fko_decode_spa_data H c ≠ .ok c' := by
  intro h
  obtain ⟨E', D', h1, h2, h3, -, -⟩ := C05_digest_enforced hH c c' _ rest hbuf h0 hlen h
  have hD' : 58 ∉ D' := by rw [h2]; exact (digest_base64_chars hH _ _).1
  obtain ⟨rfl, rfl⟩ := split_last_unique hD hD' h1
  exact hbad _ h3.1 h3.2 h2

/-- **C05.** With NUL bytes inside the plaintext (a buffer whose recorded length goes beyond the
first NUL) the digest is still enforced, over the recorded length: `fill` is the part of the
buffer that follows the text. -/
theorem C05_digest_enforced_embedded_nul {H : Hash} (hH : H.Lawful) (c c' : Ctx) (text rest : Str)
    (hbuf : c.encoded_msg = some (text ++ 0 :: rest)) (h0 : 0 ∉ text)
    (hlen : (text.length : Int) ≤ c.encoded_msg_len)
    (hlen2 : c.encoded_msg_len < (text ++ 0 :: rest).length)
    (h : fko_decode_spa_data H c = .ok c') :
    ∃ E D fill, text = E ++ 58 :: D ∧ D = digest_base64 H c'.digest_type (E ++ fill) ∧
      (E ++ 58 :: D ++ fill).length = c.encoded_msg_len := by
  obtain ⟨E, D, fill, h1, -, -, -, -, h4, h5, -⟩ :=
    (decode_sat hH c text rest hbuf h0 hlen hlen2).of_ok h
  refine ⟨E, D, fill, h1, h5, ?_⟩
  rw [← h1, List.length_append]; omega

/-- **C06.** Whenever decoding succeeds (in a context without leftover NAT, auth or timeout
data), the context carries a request that obeys the rules of `Request.Accepted`. -/
theorem C06_decoded_is_wellformed {H : Hash} (hH : H.Lawful) (c c' : Ctx) (text rest : Str)
    (hbuf : c.encoded_msg = some (text ++ 0 :: rest)) (h0 : 0 ∉ text)
    (hlen : (text.length : Int) ≤ c.encoded_msg_len)
    (hlen2 : c.encoded_msg_len < (text ++ 0 :: rest).length)
    (hn : c.nat_access = none) (ha : c.server_auth = none) (ht : c.client_timeout = 0)
    (h : fko_decode_spa_data H c = .ok c') : ∃ r : Request, Carries c' r ∧ r.Accepted := by
  obtain ⟨E, D, fill, h1, -, hp, -, hl, -, -, -, -, -, -, hf⟩ :=
    (decode_sat hH c text rest hbuf h0 hlen hlen2).of_ok h
  obtain ⟨⟨rand, r1, r2, r3, r4⟩, ⟨u, u1, u2, u3⟩, ⟨t1, t2⟩, ⟨v, v1, v2, v3, v4, v5⟩, ⟨y1, y2⟩,
    ⟨m, m1, m2, m3⟩, hnat, hauth, hto, -⟩ := hf
  simp only at r1 u1 t1 t2 v1 y1 y2 m1 m2 hnat hauth hto
  have hprint : ∀ ch ∈ E, isPrint ch = true := by
    intro ch hc
    refine hp ch ?_
    rw [List.take_of_length_le (by omega), h1]
    simp [hc]
  have hplain : ∀ s : Str, (∀ ch ∈ s, ch ∈ E) → 58 ∉ s → IsPlainField s := by
    intro s hs h58 ch hc
    have := hprint ch (hs ch hc)
    simp only [isPrint, Bool.and_eq_true, decide_eq_true_eq] at this
    exact ⟨this.1, this.2, fun e => h58 (e ▸ hc)⟩
  have hu := (validate_username_iff u).1 u2
  rw [List.take_of_length_le (by omega)] at hu
  refine ⟨⟨rand, u, c'.timestamp.toNat, v, c'.message_type.toNat, m, c'.nat_access,
    c'.server_auth, c'.client_timeout⟩, ?_, ?_⟩
  · exact ⟨r1, u1, by simp only; omega, v1, by simp only; omega, m1, rfl, rfl, rfl⟩
  have hmt : (c'.message_type.toNat : Int) = c'.message_type := by omega
  have hNat : isNatType c'.message_type = true ↔ HasNat c'.message_type.toNat := by
    conv => lhs; rw [← hmt]
    exact isNatType_iff _
  have hTo : isTimeoutType c'.message_type = true ↔ HasTimeout c'.message_type.toNat := by
    conv => lhs; rw [← hmt]
    exact isTimeoutType_iff _
  constructor <;> simp only
  · exact r2
  · exact hplain _ r3 r4
  · exact hu.1
  · exact u3
  · exact hu.2
  · omega
  · exact ⟨v2, v3⟩
  · exact hplain _ v4 v5
  · omega
  · exact m3
  · intro h0; rw [if_pos (by omega)] at m2; exact (validate_cmd_iff _).1 m2
  · intro h0; rw [if_neg (by omega)] at m2; exact (validate_access_iff _).1 m2
  · intro h0; rw [if_pos (hNat.2 h0)] at hnat
    obtain ⟨n, n1, n2, n3⟩ := hnat
    exact ⟨n, n1, ((validate_nat_iff _).1 n2).1, n3⟩
  · intro h0; rw [if_neg (fun e => h0 (hNat.1 e))] at hnat; rw [hnat, hn]
  · intro a h0
    rcases hauth with hau | ⟨a', ha1, ha2⟩
    · rw [hau, ha] at h0; cases h0
    · rw [ha1] at h0; cases h0; exact ha2
  · by_cases h0 : isTimeoutType c'.message_type = true
    · rw [if_pos h0] at hto; exact hto
    · rw [if_neg h0, ht] at hto; omega
  · intro h0; rw [if_neg (fun e => h0 (hTo.1 e)), ht] at hto; exact hto

/-- The hypotheses of C05, C06 and C07 are met by a text that decodes. -/
example : ∃ c' , fko_decode_spa_data toyHash
    { encoded_msg := some (sampleRequest.wire ++ 58 :: digest_base64 toyHash 5 sampleRequest.wire
        ++ 0 :: [7, 0, 7]),
      encoded_msg_len := (sampleRequest.wire ++ 58 :: digest_base64 toyHash 5 sampleRequest.wire).length }
    = .ok c' := by
  obtain ⟨s', h, -⟩ := decode_wire sampleRequest_wf toyHash_lawful 5 (by decide)
    { encoded_msg := some (sampleRequest.wire ++ 58 :: digest_base64 toyHash 5 sampleRequest.wire
        ++ 0 :: [7, 0, 7]),
      encoded_msg_len := (sampleRequest.wire ++ 58 :: digest_base64 toyHash 5 sampleRequest.wire).length }
    [7, 0, 7] rfl rfl rfl rfl rfl
  exact ⟨s', h⟩

/-- **C07.** Decoding never accesses memory outside its buffers: for every content of the
plaintext buffer (any bytes, a terminator somewhere) and every recorded length that is at least
the length of the text and inside the allocation. -/
theorem C07_decoder_memory_safe {H : Hash} (hH : H.Lawful) (c : Ctx) (text rest : Str)
    (hbuf : c.encoded_msg = some (text ++ 0 :: rest)) (h0 : 0 ∉ text)
    (hlen : (text.length : Int) ≤ c.encoded_msg_len)
    (hlen2 : c.encoded_msg_len < (text ++ 0 :: rest).length) :
    fko_decode_spa_data H c ≠ .ub :=
  (decode_sat hH c text rest hbuf h0 hlen hlen2).ne_ub

/-- The terminator matters: a buffer without one is over-read. -/
example : fko_decode_spa_data toyHash
    { encoded_msg := some (List.replicate 40 58), encoded_msg_len := 40 } = .ub := by decide

/-! ## C16 -/

/-- **C16.** The comparison reports 0 exactly when the first `n` bytes agree. -/
theorem C16_constant_time_cmp_is_equality (a b : Str) (n : Nat) (ha : n ≤ a.length)
    (hb : n ≤ b.length) : constant_runtime_cmp a b n = 0 ↔ a.take n = b.take n :=
  constant_runtime_cmp_iff a b n ha hb

/-- **C16.** On strings of equal length it is equality. -/
theorem C16_constant_time_cmp_same_length (a b : Str) (h : a.length = b.length) :
    constant_runtime_cmp a b a.length = 0 ↔ a = b := by
  rw [constant_runtime_cmp_iff a b _ (by omega) (by omega), List.take_length, h, List.take_length]

/-- **C16.** Every call inspects exactly `n` positions, whatever the content: each of them is
counted once, as equal or as different. -/
theorem C16_constant_time_cmp_inspects_all (a b : Str) (n : Nat) (ha : n ≤ a.length)
    (hb : n ≤ b.length) : (cmpCounts a b n 0 0).1 + (cmpCounts a b n 0 0).2 = n := by
  obtain ⟨k, h1, h2, h3, -⟩ := cmpCounts_spec n a b 0 0 ha hb
  omega

example : constant_runtime_cmp b!"abc" b!"abc" 3 = 0 ∧ constant_runtime_cmp b!"xbc" b!"abc" 3 ≠ 0 := by
  decide

/-! ## C21 -/

/-- **C21.** Whatever setter calls follow the creation of a context, in whatever order and with
whatever arguments, the message type is one of the seven known types. -/
theorem C21_type_always_known (rands : List Nat) (user : Str) (now : Int) (c : Ctx)
    (h : fko_new rands user now = some c) (ss : List Setter) :
    0 ≤ (runSetters c ss).message_type ∧ (runSetters c ss).message_type ≤ 6 := by
  have h0 : 0 ≤ c.message_type ∧ c.message_type ≤ 6 := by
    rw [(fko_new_some h).1]; decide
  clear h
  induction ss generalizing c with
  | nil => exact h0
  | cons s ss ih => exact ih _ (setter_type_range c s h0)

/-- **C21.** After any sequence of setter calls, once the timeout setter has accepted `t`: an
access message has a client-timeout type exactly when `t` is positive, a command message stays a
command, and whether the message carries a NAT target does not change. -/
theorem C21_timeout_setter_coherent (rands : List Nat) (user : Str) (now : Int) (c c' : Ctx)
    (h : fko_new rands user now = some c) (ss : List Setter) (t : Int)
    (ht : fko_set_spa_client_timeout (runSetters c ss) t = some c') :
    c'.client_timeout = t ∧
    ((runSetters c ss).message_type ≠ 0 → (0 < t ↔ HasTimeout c'.message_type.toNat)) ∧
    ((runSetters c ss).message_type = 0 → c'.message_type = 0) ∧
    (HasNat c'.message_type.toNat ↔ HasNat (runSetters c ss).message_type.toNat) := by
  have hr := C21_type_always_known rands user now c h ss
  generalize runSetters c ss = d at *
  obtain ⟨h1, h2, h3⟩ := set_timeout_some ht
  rw [h2, h3]
  refine ⟨by omega, ?_⟩
  exact timeoutType_spec d.message_type t hr h1

/-- **C21.** The encoder re-establishes this before it writes the type: in every packet it
produces an access message has a client-timeout type exactly when it carries a timeout. -/
theorem C21_encoded_type_coherent (H : Hash) (c c' : Ctx) (hr : 0 ≤ c.message_type ∧ c.message_type ≤ 6)
    (h : fko_encode_spa_data H c = .ok (true, c')) :
    (c.message_type ≠ 0 → (0 < c'.client_timeout ↔ HasTimeout c'.message_type.toNat)) ∧
    (c.message_type = 0 → c'.message_type = 0) ∧ c'.client_timeout = c.client_timeout := by
  obtain ⟨h1, h2⟩ := encode_type h
  rw [h1, h2]
  have := timeoutType_spec c.message_type (c.client_timeout : Int) hr (by omega)
  simp only [Int.toNat_natCast] at this
  refine ⟨fun h => ?_, this.2.1, rfl⟩
  rw [← this.1 h]; omega

example : ∃ c, fko_new [1804289383, 846930886] b!"mbr" 1700000000 = some c ∧
    (fko_set_spa_client_timeout (runSetters c [.msgType 5, .natAccess b!"10.0.0.1,22"]) 30).map
      (·.message_type) = some 6 :=
  ⟨_, rfl, by decide⟩

/-! ## C22 -/

/-- **C22.** Digest (and HMAC) numbers: the name of each known number converts back to it. -/
theorem C22_digest_name_roundtrip (d : Int) (h : 1 ≤ d ∧ d ≤ 7) (size : Nat) (hs : 9 ≤ size) :
    (digest_inttostr d size).2 = true ∧ digest_strtoint (digest_inttostr d size).1 = d := by
  have hc : ∀ s : Str, s.length ≤ 8 → strlcpy s size = s := by
    intro s hl; unfold strlcpy; rw [List.take_of_length_le (by omega)]
  have : d = 1 ∨ d = 2 ∨ d = 3 ∨ d = 4 ∨ d = 5 ∨ d = 6 ∨ d = 7 := by omega
  rcases this with rfl | rfl | rfl | rfl | rfl | rfl | rfl <;> refine ⟨rfl, ?_⟩ <;>
    simp [digest_inttostr, hc, consts] <;> decide

/-- **C22.** Unknown numbers have no name. -/
theorem C22_digest_unknown_number (d : Int) (h : ¬ (1 ≤ d ∧ d ≤ 7)) (size : Nat) :
    (digest_inttostr d size).2 = false := by
  unfold digest_inttostr
  simp only [FKO_DIGEST_MD5, FKO_DIGEST_SHA1, FKO_DIGEST_SHA256, FKO_DIGEST_SHA384,
    FKO_DIGEST_SHA512, FKO_DIGEST_SHA3_256, FKO_DIGEST_SHA3_512]
  repeat rw [if_neg (by omega)]

/-- The digest names, by number. -/
def digestNames : List (Str × Int) :=
  [(b!"md5", 1), (b!"sha1", 2), (b!"sha256", 3), (b!"sha384", 4), (b!"sha512", 5),
   (b!"sha3_256", 6), (b!"sha3_512", 7)]

/-- **C22.** A text is accepted with number `d` exactly when, ignoring case, it is the name of
`d`; every other text is rejected (-1). -/
theorem C22_digest_names_exact (s : Str) (d : Int) :
    digest_strtoint s = d ↔
      (s.map toLower, d) ∈ digestNames ∨ (d = -1 ∧ ∀ e, (s.map toLower, e) ∉ digestNames) := by
  unfold digest_strtoint strcaseeq
  generalize s.map toLower = u
  simp only [decide_eq_true_eq]
  have e1 : (b!"md5").map toLower = b!"md5" := by decide
  have e2 : (b!"sha1").map toLower = b!"sha1" := by decide
  have e3 : (b!"sha256").map toLower = b!"sha256" := by decide
  have e4 : (b!"sha384").map toLower = b!"sha384" := by decide
  have e5 : (b!"sha512").map toLower = b!"sha512" := by decide
  have e6 : (b!"sha3_256").map toLower = b!"sha3_256" := by decide
  have e7 : (b!"sha3_512").map toLower = b!"sha3_512" := by decide
  rw [e1, e2, e3, e4, e5, e6, e7]
  repeat' split
  all_goals (first
    | (subst_vars; simp [digestNames, consts]; omega) | (simp_all [digestNames, consts]; omega))

/-- **C22.** Encryption modes: every supported number converts to a name and back; the numbers
with a name are exactly the supported ones (PCBC, 4, is not). -/
theorem C22_enc_mode_roundtrip (m : Int) (h : 1 ≤ m ∧ m ≤ 8 ∧ m ≠ 4) (size : Nat) (hs : 11 ≤ size) :
    (enc_mode_inttostr m size).2 = true ∧ enc_mode_strtoint (enc_mode_inttostr m size).1 = m := by
  have hc : ∀ s : Str, s.length ≤ 10 → strlcpy s size = s := by
    intro s hl; unfold strlcpy; rw [List.take_of_length_le (by omega)]
  have : m = 1 ∨ m = 2 ∨ m = 3 ∨ m = 5 ∨ m = 6 ∨ m = 7 ∨ m = 8 := by omega
  rcases this with rfl | rfl | rfl | rfl | rfl | rfl | rfl <;> refine ⟨rfl, ?_⟩ <;>
    simp [enc_mode_inttostr, fko_enc_mode_strs, hc, consts] <;> decide

/-- **C22.** -/
theorem C22_enc_mode_unknown_number (m : Int) (h : ¬ (1 ≤ m ∧ m ≤ 8 ∧ m ≠ 4)) (size : Nat) :
    (enc_mode_inttostr m size).2 = false := by
  have : fko_enc_mode_strs.find? (fun e => e.2.1 = m && e.2.2) = none := by
    rw [List.find?_eq_none]
    intro e he
    simp only [fko_enc_mode_strs, FKO_ENC_MODE_CBC, FKO_ENC_MODE_ECB, FKO_ENC_MODE_CFB,
      FKO_ENC_MODE_PCBC, FKO_ENC_MODE_OFB, FKO_ENC_MODE_CTR, FKO_ENC_MODE_ASYMMETRIC,
      FKO_ENC_MODE_CBC_LEGACY_IV, List.mem_cons, List.not_mem_nil, or_false] at he
    rcases he with rfl | rfl | rfl | rfl | rfl | rfl | rfl | rfl <;> simp <;> omega
  unfold enc_mode_inttostr
  rw [this]

/-- **C22.** Names of encryption modes: the result is a supported number or -1, and it is a
number only for a text that is, ignoring case, one of the table's supported names. -/
theorem C22_enc_mode_names_exact (s : Str) (m : Int) (hm : m ≠ -1) :
    enc_mode_strtoint s = m ↔ (s.map toLower, m) ∈
      [(b!"cbc", 2), (b!"ecb", 1), (b!"cfb", 3), (b!"ofb", 5), (b!"ctr", 6), (b!"asymmetric", 7),
       (b!"legacy", (8 : Int))] := by
  unfold enc_mode_strtoint fko_enc_mode_strs strcaseeq
  generalize s.map toLower = u
  have e1 : (b!"CBC").map toLower = b!"cbc" := by decide
  have e2 : (b!"ECB").map toLower = b!"ecb" := by decide
  have e3 : (b!"CFB").map toLower = b!"cfb" := by decide
  have e4 : (b!"OFB").map toLower = b!"ofb" := by decide
  have e5 : (b!"CTR").map toLower = b!"ctr" := by decide
  have e6 : (b!"Asymmetric").map toLower = b!"asymmetric" := by decide
  have e7 : (b!"legacy").map toLower = b!"legacy" := by decide
  simp only [List.find?_cons, e1, e2, e3, e4, e5, e6, e7, Bool.and_true, Bool.and_false,
    List.find?_nil]
  by_cases h1 : u = b!"cbc"
  · subst h1; simp [consts]; omega
  by_cases h2 : u = b!"ecb"
  · subst h2; simp [consts]; omega
  by_cases h3 : u = b!"cfb"
  · subst h3; simp [consts]; omega
  by_cases h4 : u = b!"ofb"
  · subst h4; simp [consts]; omega
  by_cases h5 : u = b!"ctr"
  · subst h5; simp [consts]; omega
  by_cases h6 : u = b!"asymmetric"
  · subst h6; simp [consts]; omega
  by_cases h7 : u = b!"legacy"
  · subst h7; simp [consts]; omega
  simp [h1, h2, h3, h4, h5, h6, h7, consts]; omega

/-! ## C18 -/

/-- The packet text the receiver gets after decryption, and the receiver's context. -/
def received (c : Ctx) : Ctx :=
  let text := (c.encoded_msg.getD []).takeWhile (· ≠ 0)
  let full := text ++ 58 :: c.digest.getD []
  { encoded_msg := some (full ++ [0]), encoded_msg_len := full.length }

/-- The client built by `fko_new` and setter calls, then the encoder. -/
def clientEncodes (H : Hash) (rands : List Nat) (user : Str) (now : Int) (ss : List Setter) :
    Option Ctx :=
  match fko_new rands user now with
  | none => none
  | some c =>
    match fko_encode_spa_data H (runSetters c ss) with
    | .ok (true, c') => some c'
    | _ => none

/-- Sixty letters. -/
def longUser : Str := List.replicate 60 97

/-- **C18 does not hold**: a user name of 60 characters is accepted by the setter and encoded,
but the receiver's decoder rejects it (its limit applies to the base64 text). -/
theorem C18_long_username_not_decodable :
    (clientEncodes toyHash (List.replicate 16 1804289383) longUser 1700000000
        [.message b!"1.2.3.4,tcp/22"]).map
      (fun c' => fko_decode_spa_data toyHash (received c')) = some .err := by
  decide +kernel

/-- **C18 does not hold**: an accepted client timeout above 65536. -/
theorem C18_long_timeout_not_decodable :
    (clientEncodes toyHash (List.replicate 16 1804289383) b!"mbr" 1700000000
        [.message b!"1.2.3.4,tcp/22", .timeout 65537]).map
      (fun c' => fko_decode_spa_data toyHash (received c')) = some .err := by
  decide +kernel

/-- **C18 does not hold**: an access message of 204 characters. -/
theorem C18_long_message_not_decodable :
    (clientEncodes toyHash (List.replicate 16 1804289383) b!"mbr" 1700000000
        [.message (b!"1.2.3.4" ++ (List.replicate 28 b!",tcp/22").flatten)]).map
      (fun c' => fko_decode_spa_data toyHash (received c')) = some .err := by
  decide +kernel

/-- **C18 does not hold**: a local NAT message without a NAT target. -/
theorem C18_local_nat_without_target_not_decodable :
    (clientEncodes toyHash (List.replicate 16 1804289383) b!"mbr" 1700000000
        [.message b!"1.2.3.4,tcp/22", .msgType 5]).map
      (fun c' => fko_decode_spa_data toyHash (received c')) = some .err := by
  decide +kernel

/-- **C18 does not hold**: a NAT message turned back into a plain access message is decoded, but
its NAT target is delivered as server authentication data. -/
theorem C18_nat_target_misread :
    (clientEncodes toyHash (List.replicate 16 1804289383) b!"mbr" 1700000000
        [.message b!"1.2.3.4,tcp/22", .natAccess b!"10.0.0.1,22", .msgType 1]).bind
      (fun c' => match fko_decode_spa_data toyHash (received c') with
        | .ok s => some (s.nat_access, s.server_auth)
        | _ => none) = some (none, some b!"10.0.0.1,22") := by
  decide +kernel

/-- The conditions under which C18 does hold, on the context before encoding: sizes that fit the
receiver, a printable random value without ':', a message valid for the current type, NAT target
present exactly for the NAT types, a timeout present exactly for the timeout types. -/
structure Decodable (c : Ctx) : Prop where
  rand : ∀ r, c.rand_val = some r → IsPlainField r
  user : ∀ u, c.username = some u → u.length ≤ 48
  ts : c.timestamp < 2 ^ 31
  msg_len : ∀ m, c.message = some m → m.length ≤ 192
  msg_cmd : ∀ m, c.message = some m → c.message_type = 0 → IsCommandMsg m
  msg_access : ∀ m, c.message = some m → c.message_type ≠ 0 → IsAccessMsg m
  nat : HasNat c.message_type.toNat ↔ c.nat_access ≠ none
  timeout : HasTimeout c.message_type.toNat ↔ c.client_timeout ≠ 0
  timeout_le : c.client_timeout ≤ 65536

/-- **C18 (part).** Everything the setters accept and the encoder encodes is decoded, to the
same values, provided the conditions of `Decodable` hold when the encoder is called.  Missing:
the setters do not enforce those conditions (see the witnesses above). -/
theorem C18_setters_then_decode_partial {H : Hash} (hH : H.Lawful) (rands : List Nat) (user : Str)
    (now : Int) (c : Ctx) (hr : 16 ≤ rands.length) (h : fko_new rands user now = some c)
    (ss : List Setter) (hs : ∀ s ∈ ss, s.ArgText) (hd : Decodable (runSetters c ss)) (c' : Ctx)
    (he : fko_encode_spa_data H (runSetters c ss) = .ok (true, c')) :
    ∃ s, fko_decode_spa_data H (received c') = .ok s ∧ ∃ r, Carries c' r ∧ Carries s r := by
  have hf := runSetters_fields ss hs c (fko_new_fields hr h)
  generalize runSetters c ss = d at *
  obtain ⟨⟨rand, r1, r2⟩, ⟨u, u1, u2, u3⟩, t1, v1, y1, m1, n1, a1, d1⟩ := hf
  obtain ⟨g1, g2, g3, g4, g5, g6, g7, g8, g9⟩ := hd
  have hmsg : ∃ m, d.message = some m := by
    cases hm : d.message with
    | some m => exact ⟨m, rfl⟩
    | none => unfold fko_encode_spa_data at he; rw [hm] at he; simp [u1, v1] at he
  obtain ⟨m, hm⟩ := hmsg
  have hu := (validate_username_iff u).1 u2
  rw [List.take_of_length_le (by omega)] at hu
  have hwf : (⟨rand, u, d.timestamp.toNat, FKO_PROTOCOL_VERSION, d.message_type.toNat, m,
      d.nat_access, d.server_auth, d.client_timeout⟩ : Request).WellFormed := by
    constructor <;> simp only
    · exact r2
    · exact g1 _ r1
    · exact hu.1
    · exact g2 _ u1
    · exact hu.2
    · omega
    · decide
    · unfold IsPlainField; decide
    · omega
    · exact (m1 _ hm).1
    · exact g4 _ hm
    · intro h; exact g5 _ hm (by omega)
    · intro h; exact g6 _ hm (by omega)
    · intro h
      have := g7.1 h
      cases hn : d.nat_access with
      | none => exact absurd hn this
      | some n =>
        obtain ⟨b1, b2, b3⟩ := n1 n hn
        exact ⟨n, rfl, b1, ((validate_nat_iff _).1 b2).1, by omega⟩
    · intro h
      cases hn : d.nat_access with
      | none => rfl
      | some n => exact absurd (g7.2 (by rw [hn]; simp)) h
    · exact a1
    · intro h; have := g8.1 h; omega
    · intro h
      by_cases h0 : d.client_timeout = 0
      · exact h0
      · exact absurd (g8.2 h0) h
  obtain ⟨x, e1, e2, e3, -, e5, -⟩ := encode_wire hwf H d
    ⟨r1, u1, by simp only; omega, v1, by simp only; omega, hm, rfl, rfl, rfl⟩ d1
  rw [he] at e1
  cases e1
  have h0 : 0 ∉ Request.wire ⟨rand, u, d.timestamp.toNat, FKO_PROTOCOL_VERSION,
      d.message_type.toNat, m, d.nat_access, d.server_auth, d.client_timeout⟩ := by
    intro h0
    have := print_wire hwf 0 h0
    simp [isPrint] at this
  generalize hw : Request.wire ⟨rand, u, d.timestamp.toNat, FKO_PROTOCOL_VERSION,
      d.message_type.toNat, m, d.nat_access, d.server_auth, d.client_timeout⟩ = w at *
  have htw : (w ++ [0]).takeWhile (· ≠ 0) = w := by
    rw [List.takeWhile_append_of_pos (by intro x hx; simp; intro e; exact h0 (e ▸ hx))]
    simp
  have hrec : received c' = {
      encoded_msg := some (w ++ 58 :: digest_base64 H d.digest_type w ++ [0]),
      encoded_msg_len := (w ++ 58 :: digest_base64 H d.digest_type w).length } := by
    unfold received
    rw [e3, e5]
    simp only [Option.getD_some, htw]
  obtain ⟨s, f1, f2, -⟩ := decode_wire hwf hH d.digest_type d1 (received c') []
    (by rw [hrec, hw]) (by rw [hrec, hw]) (by rw [hrec]) (by rw [hrec]) (by rw [hrec])
  exact ⟨s, f1, _, e2, f2⟩

/-- The hypotheses are met by a plain client. -/
example : ∃ c, fko_new (List.replicate 16 1804289383) b!"mbr" 1700000000 = some c ∧
    Decodable (runSetters c [.message b!"1.2.3.4,tcp/22", .timeout 30]) := by
  refine ⟨_, rfl, ?_⟩
  constructor
  · intro r h; cases h; unfold IsPlainField; decide
  · intro r h; cases h; decide
  · decide
  · intro r h; cases h; decide
  · intro r h h0; exact absurd h0 (by decide)
  · intro r h _; cases h; exact (validate_access_iff _).1 (by decide)
  · decide
  · decide
  · decide

end Fwknop.Props
