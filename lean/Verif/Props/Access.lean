import Verif.Lemmas.Access

/-!
# C28, C29, C30, C52, C53: access stanzas
-/

namespace Fwknop.Props
open Fwknop Fwknop.Spec

/-! ## C28 -/

/-- **C28.** Every list of networks (`ANY`, `a.b.c.d`, `a.b.c.d/n`, `a.b.c.d/m.m.m.m`, separated
by commas and white space) is accepted, and an address matches it exactly when it belongs to one
of the networks. -/
theorem C28_network_list {s : Str} {A : Nat → Prop} (h : Networks s A) :
    ∃ l, expand_acc_int_list s = some l ∧ ∀ x < 2 ^ 32, compare_addr_list l x = true ↔ A x :=
  networks_expand h

/-- A list that holds one text. -/
theorem networks_one {s : Str} {A : Nat → Prop} (h : Network s A) : Networks s (fun x => A x) :=
  ⟨[([], s, A)], by simp, by
      intro i hi
      have hi := List.mem_singleton.1 hi
      subst hi
      exact ⟨by simp, h⟩,
    by simp [Spec.commaJoin], by simp⟩

/-- **C28.** `a.b.c.d/n` matches exactly the addresses that share the first `n` bits. -/
theorem C28_cidr {ip ds : Str} {v : Nat} (h : IsAddr ip v) (hd : ∀ c ∈ ds, IsDigitChar c)
    (hne : ds ≠ []) (hl : ds.length ≤ 2) (h1 : 1 ≤ number 10 ds) (h32 : number 10 ds ≤ 32) :
    ∃ l, expand_acc_int_list (ip ++ b!"/" ++ ds) = some l ∧
      ∀ x < 2 ^ 32, compare_addr_list l x = true ↔
        x / 2 ^ (32 - number 10 ds) = v / 2 ^ (32 - number 10 ds) := by
  have := C28_network_list (networks_one (.cidr ip ds v h hd hne hl h1 h32))
  simpa using this

/-- **C28.** `a.b.c.d` matches exactly that address. -/
theorem C28_host {ip : Str} {v : Nat} (h : IsAddr ip v) :
    ∃ l, expand_acc_int_list ip = some l ∧ ∀ x < 2 ^ 32, compare_addr_list l x = true ↔ x = v :=
  C28_network_list (networks_one (.host ip v h))

/-- **C28.** `ANY`, in any case, matches every address. -/
theorem C28_any {s : Str} (h : s.map lower = b!"any") :
    ∃ l, expand_acc_int_list s = some l ∧ ∀ x < 2 ^ 32, compare_addr_list l x = true := by
  obtain ⟨l, h1, h2⟩ := C28_network_list (networks_one (.any s h))
  exact ⟨l, h1, fun x hx => (h2 x hx).2 trivial⟩

/-- **C28.** A prefix length of 0 or above 32 is refused. -/
theorem C28_bad_length {ip ds : Str} {v : Nat} (h : IsAddr ip v) (hd : ∀ c ∈ ds, IsDigitChar c)
    (hl : ds.length ≤ 2) (hbad : number 10 ds = 0 ∨ 32 < number 10 ds) :
    expand_acc_int_list (ip ++ b!"/" ++ ds) = none := by
  have hdd : ∀ c ∈ ds, isDigit c = true := fun c hc => (isDigitChar_iff c).1 (hd c hc)
  have hm : parseMask ds = none := by
    unfold parseMask
    rw [if_neg (by omega)]
    by_cases hp : ds.length > 0
    · rw [if_pos hp]
      have hne : ds ≠ [] := List.length_pos_iff.1 hp
      rw [number_eq] at hbad
      have h99 := digitsVal_lt ds hdd
      have h100 : 10 ^ ds.length ≤ 10 ^ 2 := Nat.pow_le_pow_right (by decide) hl
      rw [strtol_wrapper_digits ds hdd hne (by omega) 1 32]
      have e : decide ((1 : Int) ≤ (digitsVal 10 ds : Nat) ∧ ((32 : Int) < 0 ∨ ((digitsVal 10 ds : Nat) : Int) ≤ 32)) = false := by
        simp; omega
      simp only [e, Bool.false_eq_true, if_false]
    · rw [if_neg hp]
  obtain ⟨c, t, hct, hc⟩ := addr_head h
  have hla := addr_len h
  have hno : (44 : Nat) ∉ ip ++ 47 :: ds := by
    intro hx
    rcases List.mem_append.1 hx with hx | hx
    · exact addr_no h (by decide) (by decide) hx
    · rcases List.mem_cons.1 hx with hx | hx
      · revert hx; decide
      · have := hdd _ hx; revert this; decide
  have hli : listItem (ip ++ 47 :: ds) = some (ip ++ 47 :: ds) := by
    unfold listItem
    have : (ip ++ 47 :: ds).dropWhile isSpace = ip ++ 47 :: ds := by
      rw [hct, List.cons_append, List.dropWhile_cons, isDigit_not_space c hc]; rfl
    rw [this]
    simp only [ACCESS_BUF_LEN, List.length_append, List.length_cons]
    rw [if_neg (by omega)]
  show expand_acc_int_list (ip ++ [47] ++ ds) = none
  rw [List.append_assoc, List.singleton_append]
  unfold expand_acc_int_list
  rw [expandLoop_noComma _ _ _ hno, List.nil_append, hli]
  have : add_int_ent (ip ++ 47 :: ds) = none := by
    unfold add_int_ent
    rw [if_neg (by rw [hct, List.cons_append, not_any _ hc]; decide)]
    have : splitEnt (ip ++ 47 :: ds) = none := by
      unfold splitEnt
      rw [strchr_split ip ds 47 (addr_no h (by decide) (by decide))]
      simp only [MAX_IPV4_STR_LEN]
      rw [if_neg (by omega)]
      have e1 : (ip ++ 47 :: ds).drop (ip.length + 1) = ds := by simp
      rw [e1, hm]; rfl
    rw [this]
  show (add_int_ent (ip ++ 47 :: ds)).bind _ = none
  rw [this]; rfl

/-- **C28** fails for the dotted mask 0.0.0.32, which is read as the prefix length 32: this
network should hold every address with bit 5 clear, and holds only itself. -/
theorem C28_mask_32 :
    ∃ l, expand_acc_int_list b!"10.0.0.0/0.0.0.32" = some l ∧
      compare_addr_list l 0x0A000000 = true ∧ compare_addr_list l 0x0A000001 = false :=
  ⟨[⟨0x0A000000, 0xFFFFFFFF⟩], by decide +kernel, by decide, by decide⟩

/-- The hypotheses can be met. -/
example : IsAddr b!"192.168.10.7" 0xC0A80A07 :=
  ⟨b!"192", b!"168", b!"10", b!"7", by simp [IsOctet, IsDigitChar, number], by simp [IsOctet, IsDigitChar, number],
      by simp [IsOctet, IsDigitChar, number], by simp [IsOctet, IsDigitChar, number], rfl, by decide, by decide⟩

example : ∃ l, expand_acc_int_list b!"192.168.10.7/24" = some l ∧
    ∀ x < 2 ^ 32, compare_addr_list l x = true ↔ x / 2 ^ 8 = 0xC0A80A07 / 2 ^ 8 :=
  C28_cidr (ip := b!"192.168.10.7") (ds := b!"24")
    ⟨b!"192", b!"168", b!"10", b!"7", by simp [IsOctet, IsDigitChar, number], by simp [IsOctet, IsDigitChar, number],
      by simp [IsOctet, IsDigitChar, number], by simp [IsOctet, IsDigitChar, number], rfl, by decide, by decide⟩
    (by simp [IsDigitChar]) (by simp) (by decide) (by decide) (by decide)

example : Networks b!"10.0.0.0/8, any" (fun _ => True) := by
  refine ⟨[([], b!"10.0.0.0/8", fun x => x / 2 ^ 24 = 0x0A000000 / 2 ^ 24), (b!" ", b!"any", fun _ => True)],
    by simp, ?_, by decide, by simp⟩
  intro i hi
  simp only [List.mem_cons, List.not_mem_nil, or_false] at hi
  rcases hi with rfl | rfl
  · exact ⟨by simp, .cidr b!"10.0.0.0" b!"8" 0x0A000000
      ⟨b!"10", b!"0", b!"0", b!"0", by simp [IsOctet, IsDigitChar, number], by simp [IsOctet, IsDigitChar, number],
      by simp [IsOctet, IsDigitChar, number], by simp [IsOctet, IsDigitChar, number], rfl, by decide, by decide⟩
      (by simp [IsDigitChar]) (by simp) (by decide) (by decide) (by decide)⟩
  · exact ⟨by simp [IsBlank], .any _ (by decide)⟩

/-! ## C29, C30 -/

/-- **C29** is false: with the configuration `OPEN_PORTS tcp/22,tcp/22` the request
`tcp/22,tcp/23` is allowed although port 23 is not open, and `tcp/22` is refused although it
is. -/
theorem C29_duplicates_break :
    ∃ l, expand_acc_port_list b!"tcp/22,tcp/22" = some l ∧
      acc_check_port_access { oport_list := l } b!"tcp/22,tcp/23" = true ∧
      acc_check_port_access { oport_list := l } b!"tcp/22" = false :=
  ⟨[⟨6, 22⟩, ⟨6, 22⟩], by decide +kernel, by decide +kernel, by decide +kernel⟩

/-- The decision in terms of the lists. -/
theorem port_access_lists (acc : Stanza) (req : Str) (ps O R : List (Nat × Nat))
    (hreq : RequestPorts req ps) (hO' : acc.oport_list = O.map toEnt) (hR' : acc.rport_list = R.map toEnt)
    (hnd : O.Nodup) :
    acc_check_port_access acc req = true ↔
      (∀ p ∈ ps, p ∉ R) ∧ (O = [] ∨ ∀ p ∈ ps, p ∈ O) := by
  obtain ⟨hp, hne⟩ := request_parse hreq
  have hmem : ∀ (L : List (Nat × Nat)) (p : Nat × Nat), toEnt p ∈ L.map toEnt ↔ p ∈ L := by
    intro L p
    rw [List.mem_map]
    constructor
    · rintro ⟨q, hq, e⟩; rwa [← toEnt_inj e]
    · intro h; exact ⟨p, h, rfl⟩
  have hany : compare_port_list_any (ps.map toEnt) acc.rport_list = true ↔ ∃ p ∈ ps, p ∈ R := by
    rw [compare_any_iff _ _ (by simpa using hne), hR']
    constructor
    · rintro ⟨p, hp, h⟩
      obtain ⟨q, hq, rfl⟩ := List.mem_map.1 hp
      exact ⟨q, hq, (hmem R q).1 h⟩
    · rintro ⟨q, hq, h⟩
      exact ⟨_, List.mem_map_of_mem hq, (hmem R q).2 h⟩
  have hall : compare_port_list_all (ps.map toEnt) acc.oport_list = true ↔ ∀ p ∈ ps, p ∈ O := by
    have hn : (O.map toEnt).Nodup := by
      rw [List.Nodup, List.pairwise_map]
      exact hnd.imp (fun h e => h (toEnt_inj e))
    rw [compare_all_iff, hO', (sum_count_nodup _ _ hn).2]
    constructor
    · intro h q hq; exact (hmem O q).1 (h _ (List.mem_map_of_mem hq))
    · intro h p hp
      obtain ⟨q, hq, rfl⟩ := List.mem_map.1 hp
      exact (hmem O q).2 (h q hq)
  have hOe : acc.oport_list = [] ↔ O = [] := by rw [hO', List.map_eq_nil_iff]
  unfold acc_check_port_access
  rw [hp]
  simp only
  by_cases h1 : ∃ p ∈ ps, p ∈ R
  · have hr : acc.rport_list ≠ [] := by
      obtain ⟨p, _, h⟩ := h1
      rw [hR']
      intro e
      rw [List.map_eq_nil_iff] at e
      rw [e] at h; cases h
    rw [if_pos ⟨hr, hany.2 h1⟩]
    constructor
    · intro h; cases h
    · rintro ⟨h, -⟩
      obtain ⟨p, hp, hpr⟩ := h1
      exact absurd hpr (h p hp)
  · rw [if_neg (fun e => h1 (hany.1 e.2))]
    have h1' : ∀ p ∈ ps, p ∉ R := fun p hp hr => h1 ⟨p, hp, hr⟩
    by_cases h2 : O = []
    · rw [if_neg (fun e => e.1 (hOe.2 h2))]
      simp [h2]; exact fun a b hab => h1' (a, b) hab
    · by_cases h3 : ∀ p ∈ ps, p ∈ O
      · rw [if_neg (fun e => by rw [hall.2 h3] at e; exact absurd e.2 (by decide))]
        exact ⟨fun _ => ⟨h1', .inr h3⟩, fun _ => rfl⟩
      · rw [if_pos ⟨fun e => h2 (hOe.1 e), by
          cases hc : compare_port_list_all (ps.map toEnt) acc.oport_list with
          | false => rfl
          | true => exact absurd (hall.1 hc) h3⟩]
        constructor
        · intro h; cases h
        · rintro ⟨-, h | h⟩
          · exact absurd h h2
          · exact absurd h h3

/-- **C29** (partial: OPEN_PORTS must not list a port twice).  For lists as written in the
configuration (`OPEN_PORTS` possibly absent, `RESTRICT_PORTS` possibly absent) and any well
formed request, the request is allowed exactly when no requested port is restricted and, if
OPEN_PORTS is given, every requested port is in it. -/
theorem C29_port_authorisation_partial (acc : Stanza) (req : Str) (ps O R : List (Nat × Nat))
    (hreq : RequestPorts req ps)
    (hO : O = [] ∧ acc.oport_list = [] ∨
      ∃ s, ProtoPorts s O ∧ expand_acc_port_list s = some acc.oport_list)
    (hR : R = [] ∧ acc.rport_list = [] ∨
      ∃ s, ProtoPorts s R ∧ expand_acc_port_list s = some acc.rport_list)
    (hnd : O.Nodup) :
    acc_check_port_access acc req = true ↔
      (∀ p ∈ ps, p ∉ R) ∧ (O = [] ∨ ∀ p ∈ ps, p ∈ O) := by
  have hO' : acc.oport_list = O.map toEnt := by
    rcases hO with ⟨rfl, h⟩ | ⟨s, h1, h2⟩
    · exact h
    · rw [protoPorts_expand h1] at h2; exact (Option.some.inj h2).symm
  have hR' : acc.rport_list = R.map toEnt := by
    rcases hR with ⟨rfl, h⟩ | ⟨s, h1, h2⟩
    · exact h
    · rw [protoPorts_expand h1] at h2; exact (Option.some.inj h2).symm
  exact port_access_lists acc req ps O R hreq hO' hR' hnd

/-- **C29.** What holds for every configuration, duplicates included: a request passes OPEN_PORTS
exactly when the occurrences of its ports in OPEN_PORTS number as many as the request's ports. -/
theorem C29_exact (acc : Stanza) (req : Str) (ps O : List (Nat × Nat)) (hreq : RequestPorts req ps)
    (s : Str) (hs : ProtoPorts s O) (hO : expand_acc_port_list s = some acc.oport_list)
    (hR : acc.rport_list = []) :
    acc_check_port_access acc req = true ↔ (ps.map fun p => O.count p).sum = ps.length := by
  obtain ⟨hp, hne⟩ := request_parse hreq
  have hO' : acc.oport_list = O.map toEnt := by
    rw [protoPorts_expand hs] at hO; exact (Option.some.inj hO).symm
  have hne' : acc.oport_list ≠ [] := by
    obtain ⟨items, hn, _, _, rfl⟩ := hs
    rw [hO']; simpa using hn
  have hcount : ∀ p, (O.map toEnt).count (toEnt p) = O.count p := by
    intro p
    induction O with
    | nil => rfl
    | cons q O ih =>
      clear ih hO hs hO'
      induction (q :: O) with
      | nil => rfl
      | cons a L ih =>
        rw [List.map_cons, List.count_cons, List.count_cons, ih]
        by_cases e : a = p
        · subst e; simp
        · have : toEnt a ≠ toEnt p := fun h => e (toEnt_inj h)
          simp [e, this]
  have hall : compare_port_list_all (ps.map toEnt) acc.oport_list = true ↔
      (ps.map fun p => O.count p).sum = ps.length := by
    rw [compare_all_iff, hO', List.map_map, List.length_map]
    have : (fun p => List.count p (O.map toEnt)) ∘ toEnt = fun p => O.count p := by
      funext p; exact hcount p
    rw [this]
  unfold acc_check_port_access
  rw [hp]
  simp only
  rw [if_neg (fun e => e.1 hR), ← hall]
  cases compare_port_list_all (ps.map toEnt) acc.oport_list <;> simp [hne']

/-- **C30.** A request with a port that RESTRICT_PORTS lists is denied, whatever OPEN_PORTS
says. -/
theorem C30_restrict_wins (acc : Stanza) (req : Str) (ps R : List (Nat × Nat))
    (hreq : RequestPorts req ps) (s : Str) (hs : ProtoPorts s R)
    (hR : expand_acc_port_list s = some acc.rport_list) (p : Nat × Nat) (hp : p ∈ ps) (hpR : p ∈ R) :
    acc_check_port_access acc req = false := by
  obtain ⟨hq, hne⟩ := request_parse hreq
  have hR' : acc.rport_list = R.map toEnt := by
    rw [protoPorts_expand hs] at hR; exact (Option.some.inj hR).symm
  have hany : compare_port_list_any (ps.map toEnt) acc.rport_list = true := by
    rw [compare_any_iff _ _ (by simpa using hne)]
    exact ⟨toEnt p, List.mem_map_of_mem hp, by rw [hR']; exact List.mem_map_of_mem hpR⟩
  unfold acc_check_port_access
  rw [hq]
  simp only
  rw [if_pos ⟨by rw [hR']; simpa using List.ne_nil_of_mem hpR, hany⟩]

/-- **C30.** Whatever the request text, well formed or not: when it is allowed, no port it was
read as is restricted. -/
theorem C30_allowed_not_restricted (acc : Stanza) (req : Str) (h : acc_check_port_access acc req = true) :
    ∃ ps, requestPorts req [] 0 = some ps ∧ ps ≠ [] ∧ ∀ p ∈ ps, p ∉ acc.rport_list := by
  have hne : ∀ (s cur : Str) (c : Nat) (ps : List PortEnt), requestPorts s cur c = some ps → ps ≠ [] := by
    intro s
    induction s with
    | nil =>
      intro cur c ps h
      unfold requestPorts at h
      split at h
      · cases h
      · cases hpp : parse_proto_and_port cur with
        | none => rw [hpp] at h; cases h
        | some p => rw [hpp] at h; cases h; simp
    | cons x s ih =>
      intro cur c ps h
      unfold requestPorts at h
      by_cases hx : x = 44
      · rw [if_pos hx] at h
        split at h
        · cases h
        · cases hpp : parse_proto_and_port cur with
          | none => rw [hpp] at h; cases h
          | some p =>
            rw [hpp] at h
            simp only at h
            cases hr : requestPorts s [] 1 with
            | none => rw [hr] at h; cases h
            | some r => rw [hr] at h; cases h; simp
      · rw [if_neg hx] at h; exact ih _ _ _ h
  unfold acc_check_port_access at h
  cases hq : requestPorts req [] 0 with
  | none => rw [hq] at h; cases h
  | some ps =>
    rw [hq] at h
    simp only at h
    have hn := hne _ _ _ _ hq
    refine ⟨ps, rfl, hn, fun p hp hr => ?_⟩
    rw [if_pos ⟨List.ne_nil_of_mem hr, (compare_any_iff _ _ hn).2 ⟨p, hp, hr⟩⟩] at h
    cases h

/-- The hypotheses can be met. -/
theorem request_22_53 : RequestPorts b!"tcp/22,udp/53" [(6, 22), (17, 53)] := by
  refine ⟨[(b!"tcp/22", (6, 22)), (b!"udp/53", (17, 53))], by simp, ?_, by decide, rfl⟩
  intro i hi
  simp only [List.mem_cons, List.not_mem_nil, or_false] at hi
  rcases hi with rfl | rfl
  · exact ⟨b!"tcp", b!"22", rfl, .inl ⟨by decide, rfl⟩, by simp, by simp [IsDigitChar], by decide, by decide, by decide⟩
  · exact ⟨b!"udp", b!"53", rfl, .inr ⟨by decide, rfl⟩, by simp, by simp [IsDigitChar], by decide, by decide, by decide⟩

theorem ports_22_53 : ProtoPorts b!"tcp/22, UDP/53" [(6, 22), (17, 53)] := by
  refine ⟨[([], b!"tcp/22", (6, 22)), (b!" ", b!"UDP/53", (17, 53))], by simp, ?_, by decide, rfl⟩
  intro i hi
  simp only [List.mem_cons, List.not_mem_nil, or_false] at hi
  rcases hi with rfl | rfl
  · exact ⟨by simp, b!"tcp", b!"22", rfl, .inl ⟨by decide, rfl⟩, by simp, by simp [IsDigitChar], by decide, by decide, by decide⟩
  · exact ⟨by simp [IsBlank], b!"UDP", b!"53", rfl, .inr ⟨by decide, rfl⟩, by simp, by simp [IsDigitChar], by decide, by decide, by decide⟩

example : acc_check_port_access { oport_list := [⟨6, 22⟩, ⟨17, 53⟩] } b!"tcp/22,udp/53" = true :=
  (C29_port_authorisation_partial _ _ _ [(6, 22), (17, 53)] [] request_22_53
    (.inr ⟨_, ports_22_53, by decide +kernel⟩) (.inl ⟨rfl, rfl⟩) (by decide)).2 (by decide)

example : acc_check_port_access { rport_list := [⟨6, 22⟩, ⟨17, 53⟩] } b!"tcp/22,udp/53" = false :=
  C30_restrict_wins _ _ _ _ request_22_53 _ ports_22_53 (by decide +kernel) (17, 53) (by decide) (by decide)

/-! ## C52 -/

/-- A stanza with a key and a GPG passphrase that is also the HMAC key. -/
def sharedPw : Stanza :=
  { use_rijndael := true, use_gpg := true, key := some b!"alpha", hmac_key := some b!"bravo"
    gpg_decrypt_pw := some b!"bravo", encryption_mode := 2 }

/-- **C52** is false for the GPG passphrase: when the encryption key happens to be as long as the
HMAC key the passphrase is not compared, and the stanza is accepted. -/
theorem C52_shared_passphrase_accepted :
    (acc_data_is_valid none none sharedPw).isSome = true := by decide +kernel

/-- A legacy mode stanza whose key and HMAC key are the same 17 bytes. -/
def legacyShared : Stanza :=
  { use_rijndael := true, key := some b!"abcdefghijklmnopq", hmac_key := some b!"abcdefghijklmnopq"
    encryption_mode := 8 }

/-- **C52** is false for the encryption key in legacy mode: it is cut to 16 bytes before the
comparison, so a longer key equal to the HMAC key is accepted. -/
theorem C52_legacy_shared_key_accepted :
    (acc_data_is_valid none none legacyShared).isSome = true := by decide +kernel

/-- **C52** (partial: not a key over 16 bytes in legacy mode).  A stanza whose encryption key
equals its HMAC key is rejected. -/
theorem C52_key_partial (u s : Option Nat) (a : Stanza) (k : Str) (hk : k ≠ [])
    (h1 : a.key = some k) (h2 : a.hmac_key = some k)
    (hleg : ¬ (a.use_rijndael = true ∧ a.encryption_mode = 8 ∧ k.length > 16)) :
    acc_data_is_valid u s a = none := by
  unfold acc_data_is_valid
  have : legacyKey a = a := by
    unfold legacyKey
    rw [h1]
    simp only
    rw [if_neg hleg]
  rw [this]
  have : sameKeys a = true := by
    unfold sameKeys
    rw [h1, h2]
    simp [hk]
  simp [this]

/-- **C52** (partial: the encryption key, as used, must differ in length from the HMAC key).  A
stanza whose GPG passphrase is in use and equals its HMAC key is rejected. -/
theorem C52_passphrase_partial (u s : Option Nat) (a : Stanza) (h : Str) (hh : h ≠ [])
    (h1 : a.gpg_decrypt_pw = some h) (h2 : a.hmac_key = some h) (hpw : a.gpg_allow_no_pw = false)
    (hlen : ∀ k, (legacyKey a).key = some k → k.length ≠ h.length) :
    acc_data_is_valid u s a = none := by
  unfold acc_data_is_valid
  have hl : (legacyKey a).gpg_decrypt_pw = some h ∧ (legacyKey a).hmac_key = some h ∧
      (legacyKey a).gpg_allow_no_pw = false := by
    unfold legacyKey
    split
    · split <;> exact ⟨h1, h2, hpw⟩
    · exact ⟨h1, h2, hpw⟩
  obtain ⟨e1, e2, e3⟩ := hl
  have : sameKeys (legacyKey a) = true := by
    unfold sameKeys
    rw [e2]
    simp only
    rw [if_neg hh]
    have hc : ¬ ((legacyKey a).key.getD [] ≠ [] ∧ ((legacyKey a).key.getD []).length = h.length) := by
      cases hk : (legacyKey a).key with
      | none => simp
      | some k => intro e; exact hlen k hk e.2
    rw [if_neg hc, if_pos ⟨by simp [e3], by simp [e1], by simp [e1]⟩, e1]
    simp
  simp [this]

/-- **C52.** What an accepted stanza guarantees: the key that packets are decrypted with is not
the HMAC key. -/
theorem C52_accepted_keys_differ (u s : Option Nat) (a b : Stanza) (h : acc_data_is_valid u s a = some b)
    (k : Str) (hk : (legacyKey a).key = some k) (hne : k ≠ []) : a.hmac_key ≠ some k := by
  intro hh
  unfold acc_data_is_valid at h
  have hs : sameKeys (legacyKey a) = true := by
    have : (legacyKey a).hmac_key = a.hmac_key := by
      unfold legacyKey
      split
      · split <;> rfl
      · rfl
    unfold sameKeys
    rw [this, hh, hk]
    simp [hne]
  simp [hs] at h

example : acc_data_is_valid none none
    { use_rijndael := true, key := some b!"secret", hmac_key := some b!"secret" } = none :=
  C52_key_partial _ _ _ b!"secret" (by decide) rfl rfl (by decide)

example : acc_data_is_valid none none
    { use_gpg := true, gpg_decrypt_pw := some b!"secret", hmac_key := some b!"secret" } = none :=
  C52_passphrase_partial _ _ _ b!"secret" (by decide) rfl rfl rfl (by intro k hk; cases hk)

/-! ## C53 -/

theorem defaults_cases (home : Str) (a b : Stanza) (h : set_acc_defaults home a = some b) :
    a.gpg_decrypt_pw = none ∧ b = modeDefaults (timeoutDefaults a) ∨
    a.gpg_decrypt_pw ≠ none ∧
      ¬ ((!a.gpg_disable_sig) = true ∧ a.gpg_remote_id_list = [] ∧ a.gpg_remote_fpr_list = []) ∧
      b = modeDefaults { timeoutDefaults a with
        gpg_home_dir := if a.gpg_home_dir = none then some home else a.gpg_home_dir
        gpg_require_sig := if !a.gpg_require_sig ∧ !a.gpg_disable_sig then true else a.gpg_require_sig } := by
  have key : ∀ a c : Stanza, gpgDefaults home a = some c →
      a.gpg_decrypt_pw = none ∧ c = a ∨
      a.gpg_decrypt_pw ≠ none ∧
        ¬ ((!a.gpg_disable_sig) = true ∧ a.gpg_remote_id_list = [] ∧ a.gpg_remote_fpr_list = []) ∧
        c = { a with
          gpg_home_dir := if a.gpg_home_dir = none then some home else a.gpg_home_dir
          gpg_require_sig := if !a.gpg_require_sig ∧ !a.gpg_disable_sig then true else a.gpg_require_sig } := by
    intro a c h
    unfold gpgDefaults at h
    by_cases hp : a.gpg_decrypt_pw = none
    · left
      rw [if_neg (fun e => e hp)] at h
      exact ⟨hp, (Option.some.inj h).symm⟩
    · right
      rw [if_pos hp] at h
      by_cases hs : (!a.gpg_disable_sig) = true ∧ a.gpg_remote_id_list = [] ∧ a.gpg_remote_fpr_list = []
      · rw [if_pos hs] at h; cases h
      · rw [if_neg hs] at h
        exact ⟨hp, hs, (Option.some.inj h).symm⟩
  unfold set_acc_defaults at h
  cases hg : gpgDefaults home (timeoutDefaults a) with
  | none => rw [hg] at h; cases h
  | some c =>
    rw [hg] at h
    have hb : b = modeDefaults c := (Option.some.inj h).symm
    rcases key _ _ hg with ⟨h1, h2⟩ | ⟨h1, h2, h3⟩
    · exact .inl ⟨h1, by rw [hb, h2]⟩
    · exact .inr ⟨h1, h2, by rw [hb, h3]; rfl⟩

/-- **C53.** After defaults every stanza has a positive timeout and maximum (the configured ones
where they are positive), a GPG stanza checks signatures unless that was explicitly turned off, a
GPG stanza that checks signatures has identities to check them against, and a stanza with an HMAC
key has an HMAC type. -/
theorem C53_defaults_safe (home : Str) (a b : Stanza) (h : set_acc_defaults home a = some b) :
    (0 < b.fw_access_timeout ∧ 0 < b.max_fw_timeout) ∧
    (0 < a.fw_access_timeout → b.fw_access_timeout = a.fw_access_timeout) ∧
    (0 < a.max_fw_timeout → b.max_fw_timeout = a.max_fw_timeout) ∧
    (a.gpg_decrypt_pw ≠ none → a.gpg_disable_sig = false →
      b.gpg_require_sig = true ∧ (b.gpg_remote_id_list ≠ [] ∨ b.gpg_remote_fpr_list ≠ []) ∧
      b.gpg_home_dir ≠ none) ∧
    (∀ k, a.hmac_key = some k → k ≠ [] → b.hmac_type ≠ 0) ∧
    b.encryption_mode ≠ 0 := by
  rcases defaults_cases home a b h with ⟨hp, h⟩ | ⟨hp, hs, h⟩
  all_goals
    subst h
    refine ⟨⟨?_, ?_⟩, ?_, ?_, ?_, ?_, ?_⟩
    all_goals simp only [modeDefaults, timeoutDefaults, DEF_FW_ACCESS_TIMEOUT, DEF_MAX_FW_TIMEOUT,
      FKO_DEFAULT_ENC_MODE, FKO_DEFAULT_HMAC_MODE]
  · split <;> omega
  · split <;> omega
  · intro h; rw [if_neg (by omega)]
  · intro h; rw [if_neg (by omega)]
  · intro h; exact absurd hp h
  · intro k hk hne
    split
    · decide
    · rename_i hc; simp [hk, hne] at hc; exact hc
  · split
    · decide
    · assumption
  · split <;> omega
  · split <;> omega
  · intro h; rw [if_neg (by omega)]
  · intro h; rw [if_neg (by omega)]
  · intro _ hd
    refine ⟨by cases a.gpg_require_sig <;> simp [hd], ?_, by cases a.gpg_home_dir <;> simp⟩
    by_cases h1 : a.gpg_remote_id_list = []
    · by_cases h2 : a.gpg_remote_fpr_list = []
      · exact absurd ⟨by simp [hd], h1, h2⟩ hs
      · exact .inr h2
    · exact .inl h1
  · intro k hk hne
    split
    · decide
    · rename_i hc; simp [hk, hne] at hc; exact hc
  · split
    · decide
    · assumption

/-- **C53.** Defaults change nothing else: keys, access lists and switches are as configured. -/
theorem C53_defaults_frame (home : Str) (a b : Stanza) (h : set_acc_defaults home a = some b) :
    b = { a with
      fw_access_timeout := b.fw_access_timeout, max_fw_timeout := b.max_fw_timeout
      gpg_home_dir := b.gpg_home_dir, gpg_require_sig := b.gpg_require_sig
      encryption_mode := b.encryption_mode, hmac_type := b.hmac_type } ∧
    (a.gpg_require_sig = true → b.gpg_require_sig = true) ∧
    (a.hmac_type ≠ 0 → b.hmac_type = a.hmac_type) ∧
    (a.encryption_mode ≠ 0 → b.encryption_mode = a.encryption_mode) := by
  rcases defaults_cases home a b h with ⟨hp, h⟩ | ⟨hp, hs, h⟩
  all_goals
    subst h
    refine ⟨rfl, ?_, ?_, ?_⟩
  · exact fun h => h
  · exact fun h => if_neg (fun e => h e.1)
  · exact fun h => if_neg h
  · intro h
    show (if (!a.gpg_require_sig) = true ∧ (!a.gpg_disable_sig) = true then true else a.gpg_require_sig) = true
    rw [h]; simp
  · exact fun h => if_neg (fun e => h e.1)
  · exact fun h => if_neg h

example : set_acc_defaults b!"/root/.gnupg"
    { key := some b!"k", hmac_key := some b!"h", use_rijndael := true } =
    some { key := some b!"k", hmac_key := some b!"h", use_rijndael := true, fw_access_timeout := 30
           max_fw_timeout := 300, encryption_mode := 2, hmac_type := 3 } := by decide +kernel

example : (set_acc_defaults b!"/root/.gnupg"
    { gpg_decrypt_pw := some b!"k", use_gpg := true, gpg_remote_id_list := [b!"1234ABCD"] }).isSome = true := by
  decide +kernel

end Fwknop.Props
