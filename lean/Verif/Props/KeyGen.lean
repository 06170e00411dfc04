import Verif.Lemmas.KeyGen
import Verif.Props.AccessAccept
import Verif.Props.Client
import Verif.Spec.Knock

/-!
# C108: generated keys

`fwknop -k` and `fwknopd -k` write two lines.  They are the same keys on both sides.
-/

namespace Fwknop.Props

open Fwknop Fwknop.Spec

/-! ## What is written -/

/-- **C108.** Whatever the options, key generation touches nothing outside its arrays, and if it
writes keys they are the base64 texts of 1 to 32 and of 1 to 128 bytes, which are what /dev/urandom
gave, the second not from the same reading as the first. -/
theorem C108_output {E : RandEnv} (hE : GivesBytes E) (args : List GenArg) : generate_keys E args ≠ .ub ∧
    ∀ t, generate_keys E args = .ok t → ∃ k h, t = twoLines k h ∧ IsBytes k ∧ IsBytes h ∧
      1 ≤ k.length ∧ k.length ≤ 32 ∧ 1 ≤ h.length ∧ h.length ≤ 128 ∧
      (∀ d, E.urandom 0 k.length = some d → k = d) ∧ (∀ d, E.urandom 1 h.length = some d → h = d) := by
  have hargs : ∀ (args : List GenArg) (o : GenOpts), genArgs o args ≠ .ub := by
    intro args
    induction args with
    | nil => intro o h; cases h
    | cons a r ih =>
      intro o
      show (genArg o a >>= fun o' => genArgs o' r) ≠ .ub
      refine bind_safe ?_ fun o' _ => ih o'
      cases a with
      | key_len v => exact bind_safe (by unfold genLen; dsimp only; split <;> simp) fun _ _ => pure_safe _
      | hmac_key_len v => exact bind_safe (by unfold genLen; dsimp only; split <;> simp) fun _ _ => pure_safe _
      | hmac_digest v => exact bind_safe (guard_safe _) fun _ _ => pure_safe _
  constructor
  · unfold generate_keys
    refine bind_safe (hargs args {}) fun o _ => bind_safe ?_ fun _ _ => pure_safe _
    rw [key_gen_eq hE _ _ _ rfl rfl]
    generalize (if o.key_len = 0 then (32 : Int) else o.key_len) = n
    generalize (if o.hmac_key_len = 0 then hmacDefaultLen _ else o.hmac_key_len) = m
    split <;> simp
  · intro t ht
    unfold generate_keys at ht
    obtain ⟨o, -, ht⟩ := Res.bind_eq_ok ht
    obtain ⟨r, hr, ht⟩ := Res.bind_eq_ok ht
    cases ht
    rw [key_gen_eq hE _ _ _ rfl rfl] at hr
    generalize (if o.key_len = 0 then (32 : Int) else o.key_len) = n at hr
    generalize (if o.hmac_key_len = 0 then hmacDefaultLen _ else o.hmac_key_len) = m at hr
    split at hr
    · rename_i hc
      cases hr
      obtain ⟨a1, a2⟩ := random_bytes hE 0 n.toNat
      obtain ⟨b1, b2⟩ := random_bytes hE 1 m.toNat
      refine ⟨get_random_data E 0 n.toNat, get_random_data E 1 m.toNat, ?_, a2, b2, by omega, by omega, by omega, by omega, ?_, ?_⟩
      · simp [keyLinesText, twoLines]
      · intro d hd
        rw [a1] at hd
        simp [get_random_data, hd]
      · intro d hd
        rw [b1] at hd
        simp [get_random_data, hd]
    · cases hr

/-- **C108.** If each option is as the help text says, and the lengths they ask for are at most 32
and 128, keys of these lengths are written. -/
theorem C108_generates {E : RandEnv} (hE : GivesBytes E) {args : List GenArg} (hargs : ∀ a ∈ args, GoodGenArg a) {n m : Nat}
    (h : AsksFor args n m) (hn : n ≤ 32) :
    ∃ k h, generate_keys E args = .ok (twoLines k h) ∧ k.length = n ∧ h.length = m ∧ IsBytes k ∧ IsBytes h := by
  obtain ⟨o, ho, hr⟩ := genArgs_good hargs
  have h1 : (if o.key_len = 0 then (32 : Int) else o.key_len) = n ∧ 1 ≤ n := by
    have hk := h.key
    cases e : genGiven genKeyLen args with
    | none =>
      rw [e] at hk
      have : n = 32 := hk
      rw [hr.noKey e, if_pos rfl]; omega
    | some v =>
      rw [e] at hk
      obtain ⟨a, b, c⟩ := hr.key v n e hk
      rw [a, if_neg (by omega)]; omega
  have h2 : (if o.hmac_key_len = 0 then hmacDefaultLen (if o.hmac_type = 0 then 3 else o.hmac_type) else o.hmac_key_len) = m ∧
      1 ≤ m ∧ m ≤ 128 := by
    have hk := h.hmac
    cases e : genGiven genHmacLen args with
    | some v =>
      rw [e] at hk
      obtain ⟨a, b, c⟩ := hr.hmac v m e hk
      rw [a, if_neg (by omega)]; omega
    | none =>
      rw [e] at hk
      dsimp only at hk
      rw [hr.noHmac e, if_pos rfl]
      cases e2 : genGiven genType args with
      | none =>
        rw [e2] at hk
        have : m = 64 := hk
        rw [hr.noType e2, this]
        decide
      | some t =>
        rw [e2] at hk
        obtain ⟨name, hm, ht⟩ : ∃ name, (name, m) ∈ defaultHmacLen ∧ t.map lower = name.map lower := hk
        obtain ⟨name', hm', ht'⟩ := hr.type t e2
        rw [ht] at ht'
        simp only [defaultHmacLen, List.mem_cons, List.not_mem_nil, or_false, Prod.mk.injEq] at hm
        simp only [hmacNames, List.mem_cons, List.not_mem_nil, or_false, Prod.mk.injEq] at hm'
        rcases hm with ⟨rfl, rfl⟩ | ⟨rfl, rfl⟩ | ⟨rfl, rfl⟩ | ⟨rfl, rfl⟩ | ⟨rfl, rfl⟩ <;>
          rcases hm' with ⟨rfl, e3⟩ | ⟨rfl, e3⟩ | ⟨rfl, e3⟩ | ⟨rfl, e3⟩ | ⟨rfl, e3⟩ | ⟨rfl, e3⟩ | ⟨rfl, e3⟩ <;>
          first
            | exact absurd ht' (by decide)
            | (rw [e3]; decide)
  obtain ⟨a1, a2⟩ := random_bytes hE 0 n
  obtain ⟨b1, b2⟩ := random_bytes hE 1 m
  refine ⟨get_random_data E 0 n, get_random_data E 1 m, ?_, a1, b1, a2, b2⟩
  unfold generate_keys
  rw [ho, Res.bind_ok]
  dsimp only [FKO_HMAC_UNKNOWN, FKO_DEFAULT_HMAC_MODE]
  rw [key_gen_eq hE _ _ _ h1.1 h2.1, if_pos (by omega), Res.bind_ok, Res.pure_eq]
  simp [keyLinesText, twoLines]

/-- A source of bytes that counts. -/
def countingRand : RandEnv := ⟨fun i len => some ((List.range len).map fun j => (7 * i + j) % 256), fun _ => 0, fun _ _ => 0⟩

theorem counting_bytes : GivesBytes countingRand := by
  intro i len d h
  cases h
  refine ⟨by simp, fun c hc => ?_⟩
  obtain ⟨j, -, rfl⟩ := List.mem_map.1 hc
  omega

example : AsksFor [.key_len b!"16", .hmac_digest b!"SHA1", .key_len b!"8"] 8 20 :=
  ⟨(⟨by decide, by simp [IsDigitChar], by decide⟩ : Decimal b!"8" 8), b!"sha1", by simp [defaultHmacLen], by decide⟩

example : ∀ a ∈ [GenArg.key_len b!"16", .hmac_digest b!"SHA1", .key_len b!"8"], GoodGenArg a := by
  intro a ha
  simp only [List.mem_cons, List.not_mem_nil, or_false] at ha
  rcases ha with rfl | rfl | rfl
  · exact ⟨16, ⟨by decide, by simp [IsDigitChar], by decide⟩, by decide, by decide⟩
  · exact ⟨b!"sha1", 2, by simp [hmacNames], by decide⟩
  · exact ⟨8, ⟨by decide, by simp [IsDigitChar], by decide⟩, by decide, by decide⟩

example : generate_keys countingRand [.key_len b!"16", .hmac_digest b!"SHA1", .key_len b!"8"] =
    .ok b!"KEY_BASE64: AAECAwQFBgc=\nHMAC_KEY_BASE64: BwgJCgsMDQ4PEBESExQVFhcYGRo=\n" := by decide +kernel

/-- The help text says lengths of 1 to 128 bytes; encryption keys of more than 32 are refused, and for
the SHA3 digests there is no default, so that without `--hmac-key-len` nothing is generated. -/
theorem C108_false_for_long_keys_and_sha3 (E : RandEnv) :
    GoodGenArg (.key_len b!"33") ∧ generate_keys E [.key_len b!"33"] = .err ∧
    GoodGenArg (.hmac_digest b!"sha3_256") ∧ generate_keys E [.hmac_digest b!"sha3_256"] = .err :=
  ⟨⟨33, ⟨by decide, by simp [IsDigitChar], by decide⟩, by decide, by decide⟩, rfl, ⟨b!"sha3_256", 6, by simp [hmacNames], by decide⟩, rfl⟩

/-- Without /dev/urandom the default key is one of a million, which depend on the C library only: the
microseconds of the clock are the seed. -/
theorem C108_false_without_urandom (rand : Nat → Nat → Nat) : ∃ L : List Str, L.length = 10 ^ 6 ∧
    ∀ (E : RandEnv) (args : List GenArg) (t : Str), E.rand = rand → (∀ i len, E.urandom i len = none) → (∀ i, E.usec i < 10 ^ 6) →
      genGiven genKeyLen args = none → (∀ a ∈ args, GoodGenArg a) → generate_keys E args = .ok t → ∃ k ∈ L, ∃ h, t = twoLines k h := by
  refine ⟨(List.range (10 ^ 6)).map fun s => (List.range 32).map fun j => rand s j % 255, by rw [List.length_map, List.length_range], ?_⟩
  intro E args t he hu hs hk hg ht
  have hE : GivesBytes E := fun i len d h => by rw [hu] at h; cases h
  obtain ⟨o, ho, hr⟩ := genArgs_good hg
  unfold generate_keys at ht
  rw [ho, Res.bind_ok] at ht
  dsimp only at ht
  obtain ⟨r, e, ht⟩ := Res.bind_eq_ok ht
  cases ht
  rw [hr.noKey hk, key_gen_eq hE _ _ _ rfl rfl, if_pos rfl] at e
  generalize (if o.hmac_key_len = 0 then hmacDefaultLen _ else o.hmac_key_len) = m at e
  split at e
  · cases e
    refine ⟨_, List.mem_map.2 ⟨E.usec 0, List.mem_range.2 (hs 0), rfl⟩, get_random_data E 1 m.toNat, ?_⟩
    have : get_random_data E 0 32 = (List.range 32).map fun j => rand (E.usec 0) j % 255 := by
      unfold get_random_data
      rw [hu, he]
    simp [keyLinesText, twoLines, this]
  · cases e

/-! ## At the daemon -/

theorem b64_text {k : Str} (hk : IsBytes k) : ∀ c ∈ b64 k, IsB64Char c ∨ c = 61 := by
  intro c hc
  rw [Base64.b64_eq_noPad] at hc
  rcases List.mem_append.1 hc with h | h
  · exact .inl (Base64.b64NoPad_chars k hk c h)
  · exact .inr (List.eq_of_mem_replicate h)

theorem b64_ne {k : Str} (h : 1 ≤ k.length) : b64 k ≠ [] := by
  intro e
  have := b64_len k
  rw [e] at this
  simp at this
  omega

theorem colon_line {name value : Str} (h1 : name ≠ []) (h2 : name.headD 0 ≠ 35 ∧ name.headD 0 ≠ 59)
    (h3 : ∀ c ∈ name, c ≠ 32 ∧ ¬ (9 ≤ c ∧ c ≤ 13) ∧ c ≠ 58 ∧ c ≠ 0) (h4 : value ≠ []) (h5 : isSpace (value.headD 0) = false)
    (h6 : isSpace (value.getLastD 0) = false) (h7 : ∀ c ∈ value, c ≠ 59 ∧ c ≠ 10 ∧ c ≠ 13 ∧ c ≠ 0) :
    LineHolds (name ++ (58 :: 32 :: value) ++ [10]) name value :=
  ⟨[], [58], [32], [], [10], by simp, by simp, fun _ => h2, h1, h3, .inr rfl, by simp, by simp [SpTab], h4, by simp only [h5, Bool.false_eq_true, not_false_iff],
    by simp only [h6, Bool.false_eq_true, not_false_iff], h7, by simp, fun _ => rfl, .inr ⟨10, [], rfl, by decide⟩⟩

theorem b64_line {name k : Str} (hn : name = b!"KEY_BASE64" ∨ name = b!"HMAC_KEY_BASE64") (hk : IsBytes k) (h1 : 1 ≤ k.length)
    (h2 : k.length ≤ 128) : 10 ∉ name ++ (58 :: 32 :: b64 k) ∧ (name ++ (58 :: 32 :: b64 k)).length ≤ 1022 ∧
      LineMeans (name ++ (58 :: 32 :: b64 k) ++ [10]) (some (name, b64 k)) := by
  have ht := b64_text hk
  have hne := b64_ne h1
  have hb : ∀ c, IsB64Char c ∨ c = 61 → isSpace c = false ∧ c ≠ 59 ∧ c ≠ 10 ∧ c ≠ 13 ∧ c ≠ 0 := by
    intro c hc
    unfold IsB64Char at hc
    unfold isSpace
    refine ⟨?_, ?_⟩
    · simp; omega
    · omega
  have hh : isSpace ((b64 k).headD 0) = false ∧ isSpace ((b64 k).getLastD 0) = false := by
    cases e : b64 k with
    | nil => exact absurd e hne
    | cons x r =>
      rw [e] at ht
      refine ⟨(hb x (ht x (by simp))).1, ?_⟩
      have : (x :: r).getLastD 0 ∈ x :: r := by
        rw [List.getLastD_eq_getLast?, List.getLast?_eq_some_getLast (by simp)]
        exact List.getLast_mem _
      exact (hb _ (ht _ this)).1
  have hl := b64_len k
  have name_ok : name ≠ [] ∧ (name.headD 0 ≠ 35 ∧ name.headD 0 ≠ 59) ∧
      (∀ c ∈ name, c ≠ 32 ∧ ¬ (9 ≤ c ∧ c ≤ 13) ∧ c ≠ 58 ∧ c ≠ 0) ∧ name.length ≤ 15 ∧ 10 ∉ name := by
    rcases hn with rfl | rfl <;> decide
  refine ⟨?_, ?_, .entry _ _ _ (colon_line name_ok.1 name_ok.2.1 name_ok.2.2.1 hne hh.1 hh.2 fun c hc => (hb c (ht c hc)).2)⟩
  · intro hc
    simp only [List.mem_append, List.mem_cons] at hc
    rcases hc with h | h | h | h
    · exact name_ok.2.2.2.2 h
    · cases h
    · cases h
    · exact (hb 10 (ht 10 h)).2.2.1 rfl
  · simp only [List.length_append, List.length_cons]
    omega

theorem keyFile_holds {src k h : Str} (hs : LineHolds (b!"SOURCE: " ++ src ++ [10]) b!"SOURCE" src) (hsl : src.length ≤ 1000)
    (hs10 : 10 ∉ src) (hk : IsBytes k) (hh : IsBytes h) (hk1 : 1 ≤ k.length) (hk2 : k.length ≤ 32) (hh1 : 1 ≤ h.length)
    (hh2 : h.length ≤ 128) : FileHolds (keyFile src k h)
      [(b!"SOURCE", src), (b!"KEY_BASE64", b64 k), (b!"HMAC_KEY_BASE64", b64 h)] := by
  refine ⟨[(b!"SOURCE: " ++ src, some (b!"SOURCE", src)), (b!"KEY_BASE64" ++ (58 :: 32 :: b64 k), some (b!"KEY_BASE64", b64 k)),
    (b!"HMAC_KEY_BASE64" ++ (58 :: 32 :: b64 h), some (b!"HMAC_KEY_BASE64", b64 h))], by simp [keyFile, twoLines], ?_, rfl⟩
  intro l hl
  simp only [List.mem_cons, List.not_mem_nil, or_false] at hl
  rcases hl with rfl | rfl | rfl
  · exact ⟨by simpa using hs10, by simp; omega, .entry _ _ _ hs⟩
  · exact b64_line (.inl rfl) hk hk1 (by omega)
  · exact b64_line (.inr rfl) hh hh1 hh2

theorem b64_back {k : Str} (hk : IsBytes k) : Base64.b64_decode (b64 k) = some k := by
  rw [← C02_base64_is_rfc4648 k hk]
  exact C01_base64_roundtrip k hk

theorem keys_good {env : AccEnv} {src k h : Str} {A : Nat → Prop} (hA : Networks src A) (hk : IsBytes k) (hh : IsBytes h)
    (hk1 : 1 ≤ k.length) (hd1 : k ≠ h) (hd2 : k.take 16 ≠ h) :
    GoodStanza env src [(b!"KEY_BASE64", b64 k), (b!"HMAC_KEY_BASE64", b64 h)] := by
  have e1 : keyOf b!"KEY" b!"KEY_BASE64" [(b!"KEY_BASE64", b64 k), (b!"HMAC_KEY_BASE64", b64 h)] = some k := by
    simp [keyOf, lastEntry, b64_back hk]
  have e2 : keyOf b!"HMAC_KEY" b!"HMAC_KEY_BASE64" [(b!"KEY_BASE64", b64 k), (b!"HMAC_KEY_BASE64", b64 h)] = some h := by
    simp [keyOf, lastEntry, b64_back hh]
  refine ⟨?_, ⟨A, hA⟩, fun v hv => absurd hv (by simp [lastOf]), fun v hv => absurd hv (by simp [lastOf]),
    fun v hv => absurd hv (by simp [lastOf]), .inl ⟨k, e1, fun e => by rw [e] at hk1; simp at hk1⟩, ?_, fun h => absurd (by simp [gpgPw]) h,
    fun h => absurd h (by simp [snat, lastEntry, lastOf, yes]), .inl ⟨by simp [lastOf], by simp [lastOf]⟩⟩
  · intro e he
    simp only [List.mem_cons, List.not_mem_nil, or_false] at he
    rcases he with rfl | rfl
    · refine ⟨?_, fun _ => ⟨k, hk, rfl⟩, ?_, ?_, ?_, ?_, ?_, ?_, ?_, ?_, ?_, ?_⟩
      all_goals exact fun h => absurd h (by simp)
    · refine ⟨?_, fun _ => ⟨h, hh, rfl⟩, ?_, ?_, ?_, ?_, ?_, ?_, ?_, ?_, ?_, ?_⟩
      all_goals exact fun h => absurd h (by simp)
  · intro h' hh' _
    rw [e2] at hh'
    cases hh'
    refine ⟨fun k' hk' => ?_, by simp [gpgPw]⟩
    rw [e1] at hk'
    cases hk'
    exact ⟨hd1, hd2⟩

theorem keyFile_stanzas (src k h : Str) : stanzasOf [(b!"SOURCE", src), (b!"KEY_BASE64", b64 k), (b!"HMAC_KEY_BASE64", b64 h)] =
      [(src, [(b!"KEY_BASE64", b64 k), (b!"HMAC_KEY_BASE64", b64 h)])] := by
  simp [stanzasOf, splitSources]

theorem keyFile_plain (src k h : Str) : ∀ e ∈ [(b!"SOURCE", src), (b!"KEY_BASE64", b64 k), (b!"HMAC_KEY_BASE64", b64 h)], Plain e.1 := by
  intro e he
  simp only [List.mem_cons, List.not_mem_nil, or_false] at he
  rcases he with rfl | rfl | rfl <;> refine ⟨?_, ?_, ?_⟩ <;> simp

theorem keyFile_loads {env : AccEnv} {fds : Nat} {name src k h : Str} {A : Nat → Prop} (hfd : 1 ≤ fds)
    (hf : env.file name = some (keyFile src k h)) (hs : LineHolds (b!"SOURCE: " ++ src ++ [10]) b!"SOURCE" src)
    (hsl : src.length ≤ 1000) (hs10 : 10 ∉ src) (hA : Networks src A) (hk : IsBytes k) (hh : IsBytes h) (hk1 : 1 ≤ k.length)
    (hk2 : k.length ≤ 32) (hh1 : 1 ≤ h.length) (hh2 : h.length ≤ 128) (hd1 : k ≠ h) (hd2 : k.take 16 ≠ h) :
    ∃ e, load_access env fds (.file name) = .ok [e] ∧
      Spec.Configured env src [(b!"KEY_BASE64", b64 k), (b!"HMAC_KEY_BASE64", b64 h)] e.st := by
  have hst := keyFile_stanzas src k h
  obtain ⟨l, hl, hlen, -, hc⟩ := C107_loaded_partial hfd hf (keyFile_holds hs hsl hs10 hk hh hk1 hk2 hh1 hh2)
    (keyFile_plain src k h) (by rw [hst]; exact List.cons_ne_nil _ _) (by
      intro p hp
      rw [hst] at hp
      rw [List.mem_singleton.1 hp]
      exact keys_good hA hk hh hk1 hd1 hd2)
  rw [hst] at hlen hc
  obtain ⟨e, he, c⟩ := hc 0 src _ List.getElem?_cons_zero
  refine ⟨e, ?_, c⟩
  rw [List.length_cons, List.length_nil] at hlen
  obtain ⟨e', rfl⟩ := List.length_eq_one_iff.1 hlen
  rw [List.getElem?_cons_zero] at he
  rw [hl, Option.some.inj he]

theorem keys_configured {env : AccEnv} {src k h : Str} {A : Nat → Prop} {a : Stanza} (hA : Networks src A) (hk : IsBytes k) (hh : IsBytes h)
    (hh1 : 1 ≤ h.length) (c : Spec.Configured env src [(b!"KEY_BASE64", b64 k), (b!"HMAC_KEY_BASE64", b64 h)] a) :
    a.use_rijndael = true ∧ a.key = some k ∧ a.hmac_key = some h ∧
      a.encryption_mode = 2 ∧ a.hmac_type = 3 ∧ a.use_gpg = false ∧
      (∀ x < 2 ^ 32, compare_addr_list a.source_list x = true ↔ A x) ∧
      a.oport_list = [] ∧ a.rport_list = [] ∧ a.fw_access_timeout = 30 ∧ a.access_expire_time = 0 := by
  have hm : a.encryption_mode = 2 := c.mode_default (by simp [lastOf])
  have hkey : keyOf b!"KEY" b!"KEY_BASE64" [(b!"KEY_BASE64", b64 k), (b!"HMAC_KEY_BASE64", b64 h)] = some k := by
    simp [keyOf, lastEntry, b64_back hk]
  have hhm : a.hmac_key = some h := c.hmac_key.trans (by simp [keyOf, lastEntry, b64_back hh])
  have ht : a.hmac_type = 3 := c.hmac_default (by simp [lastOf]) h hhm (fun e => by rw [e] at hh1; simp at hh1)
  have hr : a.use_rijndael = true := c.rijndael.2 (by simp [lastOf])
  have hkk : a.key = some k := by
    rw [c.key, hkey, hm]
    simp
  have hg : a.use_gpg = false := by
    have := c.gpg
    cases hg : a.use_gpg with
    | false => rfl
    | true => exact absurd (by simp [gpgPw]) (this.1 hg)
  have h1 := c.no_open (by simp [lastOf])
  have h2 := c.no_restrict (by simp [lastOf])
  have h3 := c.timeout.1 (by simp [lastOf])
  have h4 := c.never_expires (by simp [lastEntry])
  exact ⟨hr, hkk, hhm, hm, ht, hg, c.source A hA, h1, h2, h3, h4⟩

/-- **C108.** The two lines under a SOURCE line are a complete access.conf: the daemon loads it, takes
packets from the sources named, and has the very keys that were generated, for CBC and HMAC-SHA256. -/
theorem C108_daemon_has_the_keys {env : AccEnv} {fds : Nat} {name src k h : Str} {A : Nat → Prop} (hfd : 1 ≤ fds)
    (hf : env.file name = some (keyFile src k h)) (hs : LineHolds (b!"SOURCE: " ++ src ++ [10]) b!"SOURCE" src)
    (hsl : src.length ≤ 1000) (hs10 : 10 ∉ src) (hA : Networks src A) (hk : IsBytes k) (hh : IsBytes h) (hk1 : 1 ≤ k.length)
    (hk2 : k.length ≤ 32) (hh1 : 1 ≤ h.length) (hh2 : h.length ≤ 128) (hd1 : k ≠ h) (hd2 : k.take 16 ≠ h) :
    ∃ e, load_access env fds (.file name) = .ok [e] ∧ e.st.use_rijndael = true ∧ e.st.key = some k ∧ e.st.hmac_key = some h ∧
      e.st.encryption_mode = 2 ∧ e.st.hmac_type = 3 ∧ e.st.use_gpg = false ∧
      (∀ x < 2 ^ 32, compare_addr_list e.st.source_list x = true ↔ A x) ∧
      e.st.oport_list = [] ∧ e.st.rport_list = [] ∧ e.st.fw_access_timeout = 30 ∧ e.st.access_expire_time = 0 := by
  obtain ⟨e, he, c⟩ := keyFile_loads hfd hf hs hsl hs10 hA hk hh hk1 hk2 hh1 hh2 hd1 hd2
  exact ⟨e, he, keys_configured hA hk hh hh1 c⟩

/-! ## At the client -/

theorem mode_unique {v : Option Str} {x y : Int} (h1 : Named modeNames v x) (h2 : Named modeNames v y) : x = y := by
  cases v with
  | none => rw [h1.1 rfl, h2.1 rfl]
  | some t =>
    obtain ⟨n, hn, en⟩ := h1.2 t rfl
    obtain ⟨n', hn', en'⟩ := h2.2 t rfl
    rw [en] at en'
    simp only [modeNames, List.mem_cons, List.not_mem_nil, or_false, Prod.mk.injEq] at hn hn'
    rcases hn with ⟨rfl, rfl⟩ | ⟨rfl, rfl⟩ | ⟨rfl, rfl⟩ | ⟨rfl, rfl⟩ | ⟨rfl, rfl⟩ | ⟨rfl, rfl⟩ | ⟨rfl, rfl⟩ <;>
      rcases hn' with ⟨rfl, rfl⟩ | ⟨rfl, rfl⟩ | ⟨rfl, rfl⟩ | ⟨rfl, rfl⟩ | ⟨rfl, rfl⟩ | ⟨rfl, rfl⟩ | ⟨rfl, rfl⟩ <;>
      first
        | rfl
        | exact absurd en' (by decide)

/-- **C108** (partial: keys given on the command line).  A client that is given the two texts makes its
packet with the very keys that were generated. -/
theorem C108_client_has_the_keys_partial {K : Crypto} {E : CliEnv} {args : List CliArg} (htext : ∀ a ∈ args, IsText (argText a))
    (hgpg : args.any asksGpg = false) {p : Packed} {t : Str} (hc : client K E {} args = .ok (p, t))
    (hname : KeyName ((given argServer args).getD [])) {k h : Str} (hk : IsBytes k) (hh : IsBytes h)
    (g1 : given argKey args = none) (g2 : given argKey64 args = some (b64 k)) (g3 : given argHmac args = none)
    (g4 : given argHmac64 args = some (b64 h)) (huse : args.any asksHmac = true) :
    p.key = k ∧ p.hmac = some h := by
  obtain ⟨o, o', key, hm, hs, hkey, hhm, -, hno, hp⟩ := C89_keys_as_given_partial htext hgpg hc hname
  have hsame := hs.same
  have f1 : o'.have_key = false := by
    rw [show o'.have_key = o.have_key from (congrArg CliOpts.have_key hsame).symm, hm.key.1, g1]; rfl
  have f2 : o'.have_base64_key = true ∧ o'.key_base64 = b64 k := by
    rw [show o'.have_base64_key = o.have_base64_key from (congrArg CliOpts.have_base64_key hsame).symm,
      show o'.key_base64 = o.key_base64 from (congrArg CliOpts.key_base64 hsame).symm, hm.key64.1, hm.key64.2, g2]
    exact ⟨rfl, rfl⟩
  have f3 : o'.have_hmac_key = false := by
    rw [show o'.have_hmac_key = o.have_hmac_key from (congrArg CliOpts.have_hmac_key hsame).symm, hm.hmac.1, g3]; rfl
  have f4 : o'.have_hmac_base64_key = true ∧ o'.hmac_key_base64 = b64 h := by
    rw [show o'.have_hmac_base64_key = o.have_hmac_base64_key from (congrArg CliOpts.have_hmac_base64_key hsame).symm,
      show o'.hmac_key_base64 = o.hmac_key_base64 from (congrArg CliOpts.hmac_key_base64 hsame).symm, hm.hmac64.1, hm.hmac64.2, g4]
    exact ⟨rfl, rfl⟩
  have hu : o'.use_hmac = true := by
    rw [show o'.use_hmac = o.use_hmac from (congrArg CliOpts.use_hmac hsame).symm, hm.use_hmac, huse]
  have hlegacy : o'.encryption_mode ≠ 8 := by
    obtain ⟨o2, o2', hm2, hs2, hch⟩ := C88_only_checked_requests htext hc
    have m1 : o2'.encryption_mode = o'.encryption_mode := by
      rw [show o'.encryption_mode = o.encryption_mode from (congrArg CliOpts.encryption_mode hsame).symm,
        show o2'.encryption_mode = o2.encryption_mode from (congrArg CliOpts.encryption_mode hs2.same).symm]
      exact mode_unique hm2.mode hm.mode
    intro h8
    have h9 := hch.legacy (m1.trans h8)
    rw [show o2'.use_hmac = o2.use_hmac from (congrArg CliOpts.use_hmac hs2.same).symm, hm2.use_hmac, huse] at h9
    cases h9
  rw [hp, if_neg hlegacy]
  constructor
  · unfold GivenKey at hkey
    rw [if_neg (by rw [f1]; decide), if_pos f2.1] at hkey
    exact hkey k f2.2 hk
  · cases e : p.hmac with
    | none => rw [hno.1 e] at hu; cases hu
    | some x =>
      rw [e] at hhm
      unfold GivenHmac at hhm
      dsimp only at hhm
      rw [if_neg (by rw [f3]; decide), if_pos f4.1] at hhm
      rw [hhm h f4.2 hh]

/-- **C108** (partial: keys given on the command line, no other encryption mode or digest type asked
for).  The daemon whose access.conf has the two lines under a SOURCE line and the client that is given
the two texts share their keys; what follows from that is C100. -/
theorem C108_both_ends_partial {env : AccEnv} {fds : Nat} {name src k h : Str} {A : Nat → Prop} (hfd : 1 ≤ fds)
    (hf : env.file name = some (keyFile src k h)) (hs : LineHolds (b!"SOURCE: " ++ src ++ [10]) b!"SOURCE" src)
    (hsl : src.length ≤ 1000) (hs10 : 10 ∉ src) (hA : Networks src A) (hk : IsBytes k) (hh : IsBytes h) (hk1 : 1 ≤ k.length)
    (hk2 : k.length ≤ 32) (hh1 : 1 ≤ h.length) (hh2 : h.length ≤ 128) (hd1 : k ≠ h) (hd2 : k.take 16 ≠ h)
    {K : Crypto} {E : CliEnv} {args : List CliArg} (htext : ∀ a ∈ args, IsText (argText a))
    (hgpg : args.any asksGpg = false) {p : Packed} {t : Str} (hc : client K E {} args = .ok (p, t))
    (hname : KeyName ((given argServer args).getD []))
    (g1 : given argKey args = none) (g2 : given argKey64 args = some (b64 k)) (g3 : given argHmac args = none)
    (g4 : given argHmac64 args = some (b64 h)) (g5 : given argMode args = none) (g6 : given argHmacType args = none)
    (huse : args.any asksHmac = true) {o o' : CliOpts} (hm : Meant args o) (hset : Settled o o') :
    ∃ e, load_access env fds (.file name) = .ok [e] ∧ SharesKeys e.st p o' := by
  obtain ⟨e, he, h1, h2, h3, h4, h5, -⟩ := C108_daemon_has_the_keys hfd hf hs hsl hs10 hA hk hh hk1 hk2 hh1 hh2 hd1 hd2
  obtain ⟨q1, q2⟩ := C108_client_has_the_keys_partial htext hgpg hc hname hk hh g1 g2 g3 g4 huse
  refine ⟨e, he, h1, by rw [h2, q1], ?_, by rw [h3, q2], ?_⟩
  · rw [show o'.encryption_mode = o.encryption_mode from (congrArg CliOpts.encryption_mode hset.same).symm, hm.mode.1 g5, h4]
    rfl
  · rw [h5, q2, hset.hmac_type, hm.use_hmac, huse, hm.hmac_type.1 g6]
    rfl

/-! ## A case -/

def genKey : Str := (List.range 32).map fun j => (j * 37 + 5) % 256
def genHmac : Str := (List.range 64).map fun j => (j * 91 + 17) % 256

def genCliArgs : List CliArg := [.access b!"tcp/22", .allow_ip b!"5.6.7.8", .destination b!"spa.example.org", .key_base64 (b64 genKey),
  .hmac_key_base64 (b64 genHmac)]

example : LineHolds (b!"SOURCE: " ++ b!"ANY" ++ [10]) b!"SOURCE" b!"ANY" :=
  colon_line (name := b!"SOURCE") (by decide) (by decide) (by decide) (by decide) (by decide) (by decide) (by decide)

example : given argKey genCliArgs = none ∧ given argKey64 genCliArgs = some (b64 genKey) ∧ given argHmac genCliArgs = none ∧
    given argHmac64 genCliArgs = some (b64 genHmac) ∧ given argMode genCliArgs = none ∧ given argHmacType genCliArgs = none ∧
    genCliArgs.any asksHmac = true ∧ genCliArgs.any asksGpg = false ∧ genKey ≠ genHmac ∧ genKey.take 16 ≠ genHmac := by
  decide +kernel

example : (match client toyCrypto cliEnv {} genCliArgs with
    | .ok (p, _) => decide (p.key = genKey) && decide (p.hmac = some genHmac)
    | _ => false) = true := by decide +kernel

example : loaded (oneFile (keyFile b!"ANY" genKey genHmac)) (.file b!"access.conf") (fun a => (a.key, a.hmac_key)) =
    some [(some genKey, some genHmac)] := by decide +kernel

end Fwknop.Props
