import Verif.Lemmas.Server
import Verif.Props.Access
import Verif.Props.Fko
import Verif.Props.CmdCycle

/-!
# C23, C26, C27, C31–C38, C56: what the server does with packets

In every theorem `sv` is any state of the server, `p` any packet, `now` any clock value unless it
is restricted, and `E` any implementation of the algorithms and of GnuPG.  `KeysOk` says that a
stanza that uses Rijndael has a key, which the parser makes sure of.
-/

namespace Fwknop.Props
open Fwknop Fwknop.Spec Fwknop.Res Fwknop.Base64

/-! ## A running example -/

/-- The text the client sends for `5.6.7.8,tcp/22`. -/
def sampleText : Str :=
  b!"9zYWx0c2FsdEFIQERCSElDSENIREZJQ0DKm6a/isPJxcnCycXHyMLBQRk5PhVCQkVCPStARDUZE4Xny/eUqsC1hcHwuM/G6fNxFDsXYFkwVXEyAFg7NRkThefL95SqwLWFwfC4z8bp83EUOxdgWTBVPHhJAXZ/UEo"

/-- The same with an HMAC. -/
def sampleSigned : Str := sampleText ++ b!"cnJycnJycnJycnJycnJycnJycnJycnJycnJycnJycnI"

/-- A context with a user, a time and some calls, packed; the text handed to the network. -/
def packed (user : Str) (ts : Int) (hmac_key : Option Str) (calls : List Call) : Res (Option Str) := do
  let c0 ← newCtx [1804289383, 846930886] user ts
  let c ← runCalls toyCrypto c0 (calls ++ [.final b!"saltsalt" (some b!"key") hmac_key])
  return fko_get_spa_data c

example : packed b!"mbr" 1700000000 none [.set (.message b!"5.6.7.8,tcp/22")] = .ok (some sampleText) := by
  decide +kernel

example : packed b!"mbr" 1700000000 (some b!"hmac key") [.set (.message b!"5.6.7.8,tcp/22"), .set (.hmacType 3)]
    = .ok (some sampleSigned) := by
  decide +kernel

/-- A text as a UDP packet from 10.0.0.1. -/
def samplePkt (t : Str) : Pkt :=
  ⟨t ++ List.replicate (1501 - t.length) 0, t.length, 17, 0x0A000001, 0x0A000002, 40000, 62201⟩

/-- SOURCE 10.0.0.0/8, a key. -/
def sampleStanza : Stanza :=
  { source_list := [⟨0x0A000000, 0xFF000000⟩], key := some b!"key", use_rijndael := true
    encryption_mode := 2, fw_access_timeout := 30, max_fw_timeout := 300 }

/-- The same with an HMAC key. -/
def sampleStanzaH : Stanza := { sampleStanza with hmac_key := some b!"hmac key", hmac_type := 3 }

def sampleEnv : Env := ⟨toyCrypto, fun _ _ _ => none, fun _ => true, fun _ _ => none⟩

def sampleServer (l : List Stanza) : Server := ⟨l, [], [], []⟩

def sampleArrival (now : Int) (t : Str) : Arrival := ⟨now, samplePkt t, fun _ => true⟩

/-- The number of effects of each packet of a history. -/
def counts (conf : Conf) (l : List Stanza) (as : List Arrival) : Res (List Nat) := do
  let r ← serve conf sampleEnv (sampleServer l) as
  return r.2.map fun es => es.length

/-! ## Everything a stanza demands -/

/-- What is behind every effect: the stanza's demands are met, except that the age is only
compared as a 32-bit number. -/
theorem effect_meets {conf : Conf} {E : Env} {now : Int} {p : Pkt} {open_ok : Nat → Bool} {sv sv' : Server}
    {effs : List Effect} (hk : ∀ acc ∈ sv.stanzas, KeysOk acc)
    (h : incoming_spa conf E now p open_ok sv = .ok (sv', effs)) {e : Effect} (he : e ∈ effs) :
    ∃ acc text proxy c ip rest, Cause conf E p sv e acc text proxy c ip rest ∧
      AddressesOk acc p.src_ip p.dst_ip ∧ ¬ Expired acc now ∧ handle_gpg_sigs E acc text c = .ok () ∧
      check_pkt_age conf now c.timestamp = true ∧ (0 ≤ c.timestamp ∧ c.timestamp < 2 ^ 31) ∧
      (acc.require_source_address = true → ip ≠ anyAddr) ∧
      (∀ u, acc.require_username = some u → c.username = some u) ∧
      (WantsForward c → conf.forwarding = true) ∧ (WantsLocalNat c → conf.local_nat = true) ∧
      Permitted conf acc c (requestOf acc (addrsOf p proxy) c ip rest) rest ∧
      ((acc.cmd_cycle_open ≠ none ∧ ∃ cmd, e = .cycle (stanzaNo e) cmd) ∨
       (acc.cmd_cycle_open = none ∧ IsCommand c ∧ ∃ cmd, e = .command (stanzaNo e) cmd (cmdIds acc) ∧
          (if acc.enable_cmd_sudo_exec then sudoCmd conf acc rest = .ok cmd else cmd = strlcpy rest MAX_SPA_CMD_LEN)) ∨
       (acc.cmd_cycle_open = none ∧ ¬ IsCommand c ∧
          e = .access (stanzaNo e) acc (requestOf acc (addrsOf p proxy) c ip rest))) := by
  obtain ⟨text, proxy, acc, cyc, c, sp, r, hr, h1, hst, hka, hact, her⟩ := effect_cause hk h he
  obtain ⟨hd, ip, rest, hm, _, rfl, ha, hs, hu, hf, hl⟩ := acting_request hka hact
  refine ⟨acc, text, proxy, c, ip, rest, ⟨hr, hst, hact.auth, hm⟩, hact.addresses, hact.live, hact.sigs, ha,
    hd.timestamp, hs, hu, hf, hl, acts_permitted (c := c) rfl hact.acted her, ?_⟩
  rcases act_effects hact.acted her with ⟨h1, cmd, h2, _⟩ | ⟨h1, h2, _, _, cmd, h3, h4⟩ | ⟨h1, h2, _, _, h3⟩
  · exact .inl ⟨h1, cmd, h2⟩
  · exact .inr (.inl ⟨h1, h2, cmd, h3, h4⟩)
  · exact .inr (.inr ⟨h1, h2, h3⟩)

/-- The example reaches the end: the packet is accepted and access is granted by the second
stanza (the first is for other addresses). -/
example : counts {} [{ sampleStanza with source_list := [⟨0x0B000000, 0xFF000000⟩] }, sampleStanza]
    [sampleArrival 1700000010 sampleText] = .ok [1] := by
  decide +kernel

example : ∀ acc ∈ (sampleServer [sampleStanza, sampleStanzaH]).stanzas, KeysOk acc := by
  intro acc h; simp [sampleServer] at h; rcases h with rfl | rfl <;> exact fun _ => by decide

/-! ## C27 -/

/-- The text of an address denotes the address. -/
theorem ntop_octet (n : Nat) (h : n < 256) :
    IsOctet (decStr n) ∧ octetVal (decStr n) = n ∧ (decStr n).length ≤ 3 := by
  have h0 : (decStr n).head? = some 48 → n = 0 := by
    have : ∀ n < 256, (decStr n).head? = some 48 → n = 0 := by decide +kernel
    exact this n h
  have hv : number 10 (decStr n) = n := by rw [number_eq, decStr_val]
  refine ⟨⟨decStr_ne_nil n, ?_⟩, ?_, decStr_length_le n 3 (by decide) (by omega)⟩
  · by_cases hh : (decStr n).head? = some 48
    · have := h0 hh
      subst this
      right
      exact ⟨hh, by decide, by decide⟩
    · exact .inl ⟨hh, fun c hc => (isDigitChar_iff c).2 (decStr_digits n c hc), by omega⟩
  · unfold octetVal
    split
    · rename_i hh
      have := h0 hh
      subst this
      decide
    · exact hv

theorem ntop_addr (v : Nat) (h : v < 2 ^ 32) : IsAddr (inet_ntop v) v := by
  have h1 := ntop_octet (v / 2 ^ 24 % 256) (by omega)
  have h2 := ntop_octet (v / 2 ^ 16 % 256) (by omega)
  have h3 := ntop_octet (v / 2 ^ 8 % 256) (by omega)
  have h4 := ntop_octet (v % 256) (by omega)
  refine ⟨_, _, _, _, h1.1, h2.1, h3.1, h4.1, rfl, ?_, ?_⟩
  · have := h1.2.2; have := h2.2.2; have := h3.2.2; have := h4.2.2
    unfold inet_ntop
    simp only [List.length_append, List.length_cons]
    omega
  · rw [h1.2.1, h2.2.1, h3.2.1, h4.2.1]
    omega

theorem network_inhabited {s : Str} {A : Nat → Prop} (h : Network s A) : ∃ x < 2 ^ 32, A x := by
  cases h with
  | any => exact ⟨0, by decide, trivial⟩
  | host _ v h => exact ⟨v, addr_lt h, rfl⟩
  | cidr ip ds v h => exact ⟨v, addr_lt h, rfl⟩
  | masked ip m v w h => exact ⟨v, addr_lt h, fun _ _ => rfl⟩

/-- **C27.** A stanza acts on a packet only if the packet's source address is in its list and, if
it has a DESTINATION list, the destination is in that one. -/
theorem C27_addresses {conf : Conf} {E : Env} {now : Int} {p : Pkt} {open_ok : Nat → Bool} {sv sv' : Server}
    {effs : List Effect} (hk : ∀ acc ∈ sv.stanzas, KeysOk acc)
    (h : incoming_spa conf E now p open_ok sv = .ok (sv', effs)) {e : Effect} (he : e ∈ effs) :
    ∃ acc, stanzaAt sv.stanzas (stanzaNo e) = some acc ∧ AddressesOk acc p.src_ip p.dst_ip := by
  obtain ⟨acc, _, _, _, _, _, hc, ha, _⟩ := effect_meets hk h he
  exact ⟨acc, hc.stanza, ha⟩

/-- **C27.** The same in terms of the texts in access.conf: `s` is the SOURCE (DESTINATION) line of
the stanza and `A` the set of addresses it stands for. -/
theorem C27_networks {conf : Conf} {E : Env} {now : Int} {p : Pkt} {open_ok : Nat → Bool} {sv sv' : Server}
    {effs : List Effect} (hk : ∀ acc ∈ sv.stanzas, KeysOk acc)
    (h : incoming_spa conf E now p open_ok sv = .ok (sv', effs)) {e : Effect} (he : e ∈ effs)
    (hs : p.src_ip < 2 ^ 32) (hd : p.dst_ip < 2 ^ 32) :
    ∃ acc, stanzaAt sv.stanzas (stanzaNo e) = some acc ∧
      (∀ s A, Networks s A → expand_acc_int_list s = some acc.source_list → A p.src_ip) ∧
      (∀ s A, Networks s A → expand_acc_int_list s = some acc.destination_list → A p.dst_ip) := by
  obtain ⟨acc, hst, ha, hb⟩ := C27_addresses hk h he
  refine ⟨acc, hst, fun s A hn hx => ?_, fun s A hn hx => ?_⟩
  · obtain ⟨l, h1, h2⟩ := C28_network_list hn
    rw [h1] at hx
    cases hx
    exact (h2 _ hs).1 ((addr_list_iff _ _).2 ha)
  · obtain ⟨l, h1, h2⟩ := C28_network_list hn
    rw [h1] at hx
    cases hx
    have hlne : acc.destination_list ≠ [] := by
      intro hnil
      obtain ⟨items, hne, hitems, _, rfl⟩ := hn
      have hall : ∀ x < 2 ^ 32, ¬ ∃ i ∈ items, i.2.2 x := fun x hx hex => by
        have := (h2 x hx).2 hex
        rw [hnil] at this
        exact absurd this (by simp [compare_addr_list])
      obtain ⟨i, hi⟩ := List.exists_mem_of_ne_nil _ hne
      obtain ⟨x, hx, hxi⟩ := network_inhabited (hitems i hi).2
      exact hall x hx ⟨i, hi, hxi⟩
    rcases hb with hb | hb
    · exact absurd hb hlne
    · exact (h2 _ hd).1 ((addr_list_iff _ _).2 hb)

/-- A packet from outside the network has no effect. -/
example : counts {} [{ sampleStanza with source_list := [⟨0x0B000000, 0xFF000000⟩] }]
    [sampleArrival 1700000010 sampleText] = .ok [0] := by
  decide +kernel

/-! ## C15 and C14 at the server -/

/-- What authentication with an HMAC key implies. -/
theorem auth_signed {E : Env} (hH : E.K.H.Lawful) {acc : Stanza} {text k : Str} {c : Ctx}
    (hkey : acc.hmac_key = some k) (hk : k ≠ []) (h : authenticate E acc text = .ok c) :
    ∃ (t : Nat) (gpg : Bool) (body : Str), acc.hmac_type = t ∧ 1 ≤ t ∧ t ≤ 7 ∧
      text = body ++ b64NoPad (rfc2104 (E.K.H t) (hashBlock t) k (restored gpg body)) ∧ 36 ≤ body.length ∧
      (gpg = true → acc.encryption_mode = 7 ∨ 400 ≤ text.length) := by
  have core : ∀ dk mode c, fko_new_with_data (E.crypto acc) text dk mode acc.hmac_key acc.hmac_type = .ok c →
      ∃ (t : Nat) (body : Str), acc.hmac_type = t ∧ 1 ≤ t ∧ t ≤ 7 ∧
      text = body ++ b64NoPad (rfc2104 (E.K.H t) (hashBlock t) k (restored (isGpgMode mode) body)) ∧
      36 ≤ body.length := by
    intro dk mode c h
    rw [hkey] at h
    rcases new_with_data_eq (E.crypto acc) text dk mode (some k) acc.hmac_type with e | ⟨-, e⟩
    · rw [e] at h; cases h
    rw [e] at h
    have hpos : k.length > 0 := List.length_pos_iff.2 hk
    simp only [if_pos hpos] at h
    have hH' : (E.crypto acc).H.Lawful := hH
    rcases verify_hmac_cases hH' (startCtx text mode acc.hmac_type) k text rfl rfl rfl rfl with
      e | ⟨body, c1, e, hb, h36, -, ht, -⟩
    · rw [e] at h; cases h
    have ht : (1 : Int) ≤ acc.hmac_type ∧ acc.hmac_type ≤ 7 := ht
    refine ⟨acc.hmac_type.toNat, body, by omega, by omega, by omega, ?_, h36⟩
    rw [hb]
    congr 1
    unfold tagOf
    have e7 : ((acc.hmac_type.toNat : Nat) : Int) = acc.hmac_type := by omega
    rw [← hmac_eq hH', e7]
    show b64NoPad (hmac E.K.H acc.hmac_type _ k) = _
    have := C58_hmac_is_rfc2104 hH acc.hmac_type.toNat (by omega) (restored (isGpgMode mode) body) k
    rw [e7] at this
    exact congrArg b64NoPad this
  have gpg : authGpg E acc text = .ok c → ∃ (t : Nat) (gpg : Bool) (body : Str), acc.hmac_type = t ∧ 1 ≤ t ∧ t ≤ 7 ∧
      text = body ++ b64NoPad (rfc2104 (E.K.H t) (hashBlock t) k (restored gpg body)) ∧ 36 ≤ body.length ∧
      (gpg = true → acc.encryption_mode = 7 ∨ 400 ≤ text.length) := by
    intro h
    unfold authGpg at h
    split at h
    · rename_i hc
      obtain ⟨c1, h1, _⟩ := bind_eq_ok h
      obtain ⟨t, body, a1, a2, a3, a4, a5⟩ := core _ _ _ h1
      refine ⟨t, _, body, a1, a2, a3, a4, a5, fun _ => .inr ?_⟩
      have := hc.2.1
      unfold fko_encryption_type at this
      dsimp only at this
      split at this
      · cases this
      · split at this
        · have : 400 ≤ min text.length MAX_SPA_ENCODED_MSG_SIZE := by simpa [MIN_GNUPG_MSG_SIZE] using ‹_›
          omega
        · cases this
    · cases h
  unfold authenticate at h
  split at h
  · split at h
    · cases h
    · rename_i c1 h1
      cases h
      obtain ⟨t, body, a1, a2, a3, a4, a5⟩ := core _ _ _ h1
      refine ⟨t, _, body, a1, a2, a3, a4, a5, fun hg => .inl ?_⟩
      simpa [isGpgMode] using hg
    · exact gpg h
  · exact gpg h

/-- **C15.** At the server: a stanza with an HMAC key acts only on packets that end in the HMAC,
of the stanza's type and under that key, of the ciphertext text in front of it. -/
theorem C15_no_effect_without_valid_hmac {conf : Conf} {E : Env} (hH : E.K.H.Lawful) {now : Int} {p : Pkt}
    {open_ok : Nat → Bool} {sv sv' : Server} {effs : List Effect} (hk : ∀ acc ∈ sv.stanzas, KeysOk acc)
    (h : incoming_spa conf E now p open_ok sv = .ok (sv', effs)) {e : Effect} (he : e ∈ effs) {acc : Stanza}
    (hacc : stanzaAt sv.stanzas (stanzaNo e) = some acc) {key : Str} (hkey : acc.hmac_key = some key)
    (hne : key ≠ []) :
    ∃ text proxy gpg, ∃ t : Nat, Received conf p text proxy ∧ acc.hmac_type = t ∧ 1 ≤ t ∧ t ≤ 7 ∧
      Authentic (E.K.H t) (hashBlock t) key gpg text := by
  obtain ⟨acc', text, proxy, c, ip, rest, hc, _⟩ := effect_meets hk h he
  have := hc.stanza
  rw [hacc] at this
  cases this
  obtain ⟨t, gpg, body, h1, h2, h3, h4, _⟩ := auth_signed hH hkey hne hc.decoded
  exact ⟨text, proxy, gpg, t, hc.received, h1, h2, h3, body, _, h4, rfl⟩

/-- The signed packet is accepted, the unsigned one and one with a changed character are not. -/
example : counts {} [sampleStanzaH] [sampleArrival 1700000010 sampleText,
    sampleArrival 1700000010 (sampleSigned.set 3 66), sampleArrival 1700000010 sampleSigned] = .ok [0, 0, 1] := by
  decide +kernel

/-- What a packet that passes `preprocess_spa_data` without HTTP is. -/
theorem received_plain {conf : Conf} {p : Pkt} {text proxy : Str} (hhttp : conf.http = false) (ht : Terminated p)
    (h : Received conf p text proxy) :
    text = p.data.take p.len ∧ text.length = p.len ∧ Base64.is_base64 text = true ∧ 140 ≤ p.len ∧
      ¬ b!"U2FsdGVkX1" <+: text ∧ (400 < p.len → ¬ b!"hQ" <+: text) := by
  obtain ⟨buf, hp, rfl⟩ := h
  unfold preprocess_spa_data at hp
  obtain ⟨h1, h2⟩ := ht
  have hh : isHttp conf p.data = false := by simp [isHttp, hhttp]
  rw [hh] at hp
  obtain ⟨_, g1, hp⟩ := bind_eq_ok hp
  obtain ⟨_, g2, hp⟩ := bind_eq_ok hp
  obtain ⟨_, g3, hp⟩ := bind_eq_ok hp
  obtain ⟨_, g4, hp⟩ := bind_eq_ok hp
  simp only [Bool.false_eq_true, if_false] at hp
  obtain ⟨_, g5, hp⟩ := bind_eq_ok hp
  have inv : ∀ {b : Bool} {u : Unit}, Res.guard b = .ok u → b = false := by
    intro b u hg; cases b with
    | false => rfl
    | true => cases hg
  have g1 := inv g1; have g2 := inv g2; have g3 := inv g3; have g4 := inv g4; have g5 := inv g5
  simp only [MIN_SPA_DATA_SIZE, MAX_SPA_PACKET_LEN, decide_eq_false_iff_not, Nat.not_lt] at g1 g2 g3
  have g5 : Base64.is_base64 (p.data.take p.len) = true := by simpa using g5
  cases hp
  have hno : ∀ c ∈ p.data.take p.len, c ≠ 0 := by
    intro c hc h0
    subst h0
    have := List.all_eq_true.1 g5 0 hc
    exact absurd this (by decide)
  have hz : p.data[p.len]? = some 0 := by
    obtain ⟨i, hi, h⟩ := List.mem_iff_getElem.1 h2
    simp only [List.length_take] at hi
    have hge : ¬ i < p.len := by
      intro hlt
      refine hno (p.data[i]'(by omega)) ?_ (by rw [← h]; simp)
      rw [List.mem_iff_getElem]
      exact ⟨i, by simp; omega, by simp⟩
    have : i = p.len := by omega
    subst this
    rw [← h]
    simp
  have hcs : cstr p.data = p.data.take p.len := by
    obtain ⟨hlt, hz⟩ := List.getElem?_eq_some_iff.1 hz
    have e : p.data = p.data.take p.len ++ 0 :: p.data.drop (p.len + 1) := by
      rw [← hz, List.getElem_cons_drop, List.take_append_drop]
    unfold cstr
    conv => lhs; rw [e]
    rw [List.takeWhile_append_of_pos (by simpa using hno)]
    simp
  rw [hcs]
  have h10 : (p.data.take p.len).length = p.len := by simp; omega
  have pre : ∀ q : Str, q.length ≤ p.len → q <+: p.data.take p.len → q <+: p.data :=
    fun q _ hq => hq.trans (List.take_prefix _ _)
  refine ⟨rfl, h10, g5, g1, fun hq => ?_, fun hlen hq => ?_⟩
  · have := (cmp_prefix p.data b!"U2FsdGVkX1" 10 rfl (by omega)).2 (pre _ (by show 10 ≤ _; omega) hq)
    exact g3 this
  · have := (cmp_prefix p.data b!"hQ" 2 rfl (by omega)).2 (pre _ (by show 2 ≤ _; omega) hq)
    simp [hlen, this] at g4

/-- **C14 is false as stated** for requests over HTTP: what follows `GET /` may start with the
constant prefix. -/
theorem C14_http_prefix_accepted :
    counts { http := true } [sampleStanza] [sampleArrival 1700000010
      (b!"GET /U2FsdGVkX1" ++ sampleText ++ b!" HTTP/1.0" ++ [13, 10] ++ b!"User-Agent: Fwknop/3.0.0" ++ [13, 10])]
      = .ok [1] := by
  decide +kernel

/-- **C14** (partial: not over HTTP, and for the GnuPG prefix only packets over 400 bytes).  A
packet that carries the constant prefix is dropped without any effect or change of state. -/
theorem C14_prefixed_packet_refused_partial {conf : Conf} (E : Env) (now : Int) {p : Pkt} (open_ok : Nat → Bool)
    (sv : Server) (hhttp : conf.http = false) (ht : Terminated p)
    (h : b!"U2FsdGVkX1" <+: p.data.take p.len ∨ b!"hQ" <+: p.data.take p.len ∧ 400 < p.len) :
    incoming_spa conf E now p open_ok sv = .ok (sv, []) := by
  unfold incoming_spa
  cases hp : preprocess_spa_data conf p.data p.len with
  | ub =>
    exfalso
    unfold preprocess_spa_data at hp
    rw [show isHttp conf p.data = false by simp [isHttp, hhttp]] at hp
    revert hp
    have key : ∀ (b : Bool) (r : Res (Str × Str)), r ≠ .ub → (Res.guard b >>= fun _ => r) ≠ .ub := by
      intro b r hr
      cases b with
      | false => simpa using hr
      | true => simp
    refine key _ _ (key _ _ (key _ _ (key _ _ ?_)))
    exact key _ _ (by simp)
  | err => rfl
  | ok x =>
    exfalso
    have := received_plain (text := cstr x.1) (proxy := x.2) hhttp ht ⟨x.1, hp, rfl⟩
    rw [this.1] at this
    rcases h with h | h
    · exact this.2.2.2.2.1 h
    · exact this.2.2.2.2.2 h.2 h.1

example : Terminated (samplePkt (b!"U2FsdGVkX1" ++ sampleText)) ∧
    b!"U2FsdGVkX1" <+: (samplePkt (b!"U2FsdGVkX1" ++ sampleText)).data.take
      (samplePkt (b!"U2FsdGVkX1" ++ sampleText)).len := by
  constructor
  · unfold Terminated; decide +kernel
  · decide +kernel

/-! ## C23 -/

/-- **C23.** With replay detection on (and not in test mode), in every history of packets: once a
packet had an effect, no later packet with the same text has any, whatever the time, its source
and the stanzas. -/
theorem C23_replay_never_honoured {conf : Conf} {E : Env} (hper : conf.persistence = true) (htest : conf.test = false)
    {as : List Arrival} : ∀ {sv sv' : Server} {outs : List (List Effect)}, (∀ acc ∈ sv.stanzas, KeysOk acc) →
    serve conf E sv as = .ok (sv', outs) → ∀ (i j : Nat) (a b : Arrival) (text pa pb : Str), i < j →
    as[i]? = some a → as[j]? = some b → Received conf a.pkt text pa → Received conf b.pkt text pb →
    outs[i]? ≠ some [] → outs[j]? = some [] := by
  have known : ∀ {as : List Arrival} {sv sv' : Server} {outs : List (List Effect)}, (∀ acc ∈ sv.stanzas, KeysOk acc) →
      serve conf E sv as = .ok (sv', outs) → ∀ (j : Nat) (b : Arrival) (text pb d : Str), as[j]? = some b →
      Received conf b.pkt text pb → get_raw_digest E text = .ok d → d ∈ sv.cache → outs[j]? = some [] := by
    intro as
    induction as with
    | nil => intro sv sv' outs _ _ j b text pb d hj; simp at hj
    | cons x xs ih =>
      intro sv sv' outs hk h j b text pb d hj hr hd hm
      obtain ⟨sv1, o, os, h1, h2, rfl⟩ := serve_cons h
      cases j with
      | zero =>
        simp at hj
        subst hj
        rw [incoming_known hper h1 hr hd hm]
        rfl
      | succ j =>
        simp at hj ⊢
        exact ih (incoming_keys h1 hk) h2 j b text pb d hj hr hd (incoming_cache hk h1 d hm)
  induction as with
  | nil => intro sv sv' outs _ _ i j a b text pa pb _ hi; simp at hi
  | cons x xs ih =>
    intro sv sv' outs hk h i j a b text pa pb hij hi hj hra hrb hne
    obtain ⟨sv1, o, os, h1, h2, rfl⟩ := serve_cons h
    obtain ⟨j, rfl⟩ : ∃ j', j = j' + 1 := ⟨j - 1, by omega⟩
    simp at hj ⊢
    cases i with
    | zero =>
      simp at hi hne
      subst hi
      obtain ⟨d, hd, hm⟩ := incoming_recorded hk hper htest h1 hne hra
      exact known (incoming_keys h1 hk) h2 j b text pb d hj hrb hd hm
    | succ i =>
      simp at hi hne
      exact ih (incoming_keys h1 hk) h2 i j a b text pa pb (by omega) hi hj hra hrb hne

/-- Each packet of a history is handled in some state of the server. -/
theorem serve_at {conf : Conf} {E : Env} {as : List Arrival} : ∀ {sv sv' : Server} {outs : List (List Effect)},
    (∀ acc ∈ sv.stanzas, KeysOk acc) → serve conf E sv as = .ok (sv', outs) →
    ∀ (i : Nat) (a : Arrival), as[i]? = some a →
      ∃ sv1 sv2 o, (∀ acc ∈ sv1.stanzas, KeysOk acc) ∧
        incoming_spa conf E a.now a.pkt a.open_ok sv1 = .ok (sv2, o) ∧ outs[i]? = some o := by
  induction as with
  | nil => intro sv sv' outs _ _ i a hi; simp at hi
  | cons x xs ih =>
    intro sv sv' outs hk h i a hi
    obtain ⟨sv1, o, os, h1, h2, rfl⟩ := serve_cons h
    cases i with
    | zero => simp at hi; subst hi; exact ⟨sv, sv1, o, hk, h1, rfl⟩
    | succ i =>
      simp at hi
      obtain ⟨s1, s2, o', a1, a2, a3⟩ := ih (incoming_keys h1 hk) h2 i a hi
      exact ⟨s1, s2, o', a1, a2, by simpa using a3⟩

/-- **C23.** In particular no packet with the same bytes. -/
theorem C23_same_bytes_never_honoured {conf : Conf} {E : Env} (hper : conf.persistence = true)
    (htest : conf.test = false) {as : List Arrival} {sv sv' : Server} {outs : List (List Effect)}
    (hk : ∀ acc ∈ sv.stanzas, KeysOk acc) (h : serve conf E sv as = .ok (sv', outs)) (i j : Nat) (a b : Arrival)
    (hij : i < j) (hi : as[i]? = some a) (hj : as[j]? = some b) (hd : a.pkt.data = b.pkt.data)
    (hl : a.pkt.len = b.pkt.len) (hne : outs[i]? ≠ some []) : outs[j]? = some [] := by
  obtain ⟨s1, s2, o, hk1, h1, ho⟩ := serve_at hk h i a hi
  have hone : o ≠ [] := fun e => hne (e ▸ ho)
  obtain ⟨e, he⟩ := List.exists_mem_of_ne_nil _ hone
  obtain ⟨acc, text, proxy, c, ip, rest, hc, _⟩ := effect_meets hk1 h1 he
  have hr := hc.received
  have hr' : Received conf b.pkt text proxy := by
    unfold Received at *
    rw [← hd, ← hl]
    exact hr
  exact C23_replay_never_honoured hper htest hk h i j a b text proxy proxy hij hi hj hr hr' hne

/-- A packet is accepted, its replays are not. -/
example : counts {} [sampleStanza, sampleStanza] [sampleArrival 1700000010 sampleText,
    sampleArrival 1700000010 sampleText, sampleArrival 1700000011 sampleText] = .ok [1, 0, 0] := by
  decide +kernel

/-! ## C26 -/

/-- **C26 is false as stated** without an HMAC: with `=` appended a captured packet decodes to the
same request but has another digest. -/
theorem C26_padding_disguises :
    counts {} [sampleStanza] [sampleArrival 1700000010 sampleText,
      sampleArrival 1700000011 (sampleText ++ b!"=")] = .ok [1, 1] := by
  decide +kernel

/-- **C26 is false as stated** with SPA over HTTP enabled, even with an HMAC: a packet captured on
the usual way is accepted again as a HTTP request with the constant prefix in front. -/
theorem C26_http_disguises :
    counts { http := true } [sampleStanzaH] [sampleArrival 1700000010 sampleSigned,
      sampleArrival 1700000011 (b!"GET /U2FsdGVkX1" ++ sampleSigned ++ b!" HTTP/1.0" ++ [13, 10] ++
        b!"User-Agent: Fwknop/3.0.0" ++ [13, 10])] = .ok [1, 1] := by
  decide +kernel

theorem restored_prefix (g : Bool) (body : Str) : omitted g <+: restored g body := by
  unfold restored
  split
  · assumption
  · exact List.prefix_append _ _

/-- **C26** (partial: HTTP off and an HMAC key set).  Two different packets accepted by the same
stanza carry HMACs over different data: whoever makes a second packet out of an accepted one has
to produce a valid HMAC for data that was never signed. -/
theorem C26_new_hmac_needed_partial {conf : Conf} {E : Env} (hH : E.K.H.Lawful) (hhttp : conf.http = false)
    {acc : Stanza} {key : Str} (hkey : acc.hmac_key = some key) (hne : key ≠ []) (hmode : acc.encryption_mode ≠ 7)
    {p p' : Pkt} {text text' proxy proxy' : Str} {c c' : Ctx} (ht : Terminated p) (ht' : Terminated p')
    (hr : Received conf p text proxy) (hr' : Received conf p' text' proxy')
    (ha : authenticate E acc text = .ok c) (ha' : authenticate E acc text' = .ok c') (hdiff : text ≠ text') :
    ∃ t : Nat, acc.hmac_type = t ∧ ∃ data data', SignedOver (E.K.H t) (hashBlock t) key text data ∧
      SignedOver (E.K.H t) (hashBlock t) key text' data' ∧ data ≠ data' := by
  obtain ⟨t, g, body, h1, _, _, h2, h36, hg⟩ := auth_signed hH hkey hne ha
  obtain ⟨t', g', body', h1', _, _, h2', h36', hg'⟩ := auth_signed hH hkey hne ha'
  have : t = t' := by omega
  subst this
  refine ⟨t, h1, restored g body, restored g' body', ⟨g, body, h2, rfl⟩, ⟨g', body', h2', rfl⟩, fun heq => hdiff ?_⟩
  obtain ⟨_, hl, _, _, hs, hq⟩ := received_plain hhttp ht hr
  obtain ⟨_, hl', _, _, hs', hq'⟩ := received_plain hhttp ht' hr'
  have hbt : body <+: text := by rw [h2]; exact List.prefix_append _ _
  have hbt' : body' <+: text' := by rw [h2']; exact List.prefix_append _ _
  have same : body = body' → text = text' := by
    intro hb; rw [h2, h2', heq, hb]
  -- both texts of the same kind, or the first characters differ
  have hgg : g = g' := by
    have p1 := restored_prefix g body
    have p2 := restored_prefix g' body'
    rw [heq] at p1
    obtain ⟨x, hx⟩ := p1
    obtain ⟨y, hy⟩ := p2
    rw [← hy] at hx
    cases g <;> cases g' <;> first | rfl | (simp [omitted] at hx)
  subst hgg
  cases g with
  | false =>
    have hn : ¬ omitted false <+: body := fun h => hs (h.trans hbt)
    have hn' : ¬ omitted false <+: body' := fun h => hs' (h.trans hbt')
    unfold restored at heq
    rw [if_neg hn, if_neg hn'] at heq
    exact same (List.append_cancel_left heq)
  | true =>
    have h400 := (hg rfl).resolve_left hmode
    have h400' := (hg' rfl).resolve_left hmode
    have hlen : text.length + body'.length = text'.length + body.length := by
      have e1 := congrArg List.length h2
      have e2 := congrArg List.length h2'
      rw [heq] at e1
      simp only [List.length_append] at e1 e2
      omega
    by_cases hn : omitted true <+: body <;> by_cases hn' : omitted true <+: body'
    · unfold restored at heq
      rw [if_pos hn, if_pos hn'] at heq
      exact same heq
    · exfalso
      unfold restored at heq
      rw [if_pos hn, if_neg hn'] at heq
      have := congrArg List.length heq
      simp only [List.length_append, omitted, if_true, List.length_cons, List.length_nil] at this
      exact hq (by omega) (hn.trans hbt)
    · exfalso
      unfold restored at heq
      rw [if_neg hn, if_pos hn'] at heq
      have := congrArg List.length heq
      simp only [List.length_append, omitted, if_true, List.length_cons, List.length_nil] at this
      exact hq' (by omega) (hn'.trans hbt')
    · unfold restored at heq
      rw [if_neg hn, if_neg hn'] at heq
      exact same (List.append_cancel_left heq)

/-- Two different packets that the same stanza accepts. -/
example : counts {} [sampleStanzaH] [sampleArrival 1700000010 sampleSigned] = .ok [1] ∧
    check (packed b!"root" 1700000000 (some b!"hmac key") [.set (.message b!"5.6.7.8,tcp/23"), .set (.hmacType 3)])
      (fun o => match o with
        | some t => decide (t ≠ sampleSigned ∧ counts {} [sampleStanzaH] [sampleArrival 1700000010 t] = .ok [1])
        | none => false) = true := by
  constructor <;> decide +kernel

/-! ## C31 -/

/-- Every check of a stanza succeeds for a packet. -/
def FullMatch (conf : Conf) (E : Env) (now : Int) (p : Pkt) (text proxy : Str) (acc : Stanza) : Prop :=
  ∃ c ip rest, authenticate E acc text = .ok c ∧ handle_gpg_sigs E acc text c = .ok () ∧ Message c ip rest ∧
    Meets conf now p.src_ip p.dst_ip acc c ip ∧
    Permitted conf acc c (requestOf acc (addrsOf p proxy) c ip rest) rest

/-- The closing command of a stanza that cannot be written. -/
def badClosing : Stanza :=
  { sampleStanza with
    cmd_cycle_open := some b!"/bin/open", cmd_cycle_close := some (b!"$SRC" ++ List.replicate 249 97)
    cmd_cycle_do_close := true, cmd_cycle_timer := 10 }

/-- **C31 is false as stated**: if the closing command of a command cycle does not fit its buffer,
the opening command has been run and the next stanza acts as well. -/
theorem C31_two_stanzas_act :
    counts {} [badClosing, sampleStanza] [sampleArrival 1700000010 sampleText] = .ok [2] := by
  decide +kernel

theorem full_acting {conf : Conf} {E : Env} {now : Int} {p : Pkt} {text proxy : Str} {acc : Stanza}
    (hnow : 0 ≤ now ∧ now < 2 ^ 31) (hk : KeysOk acc) (hc : ClosingBuilds acc) (hs : SudoOk acc)
    (h : FullMatch conf E now p text proxy acc) (n : Nat) (cyc : List CycleEnt) :
    ∃ c sp r, Acting conf E now p (addrsOf p proxy) text n acc cyc c sp r ∧ r.effects ≠ [] := by
  obtain ⟨c, ip, rest, h1, h2, hm, hmeets, hp⟩ := h
  have hd := authenticate_decoded E acc text hk c h1
  obtain ⟨ip', rest', hm', _, hj⟩ := judge_eq conf now acc (addrsOf p proxy) hd
  obtain ⟨rfl, rfl⟩ := message_unique hm hm'
  have := hd.timestamp
  have hj := hj.resolve_right fun hj => hj.2 ⟨(pkt_age_iff _ _ _ (by omega)).2 hmeets.fresh, hmeets.source, hmeets.user,
    hmeets.forward, hmeets.localNat⟩
  obtain ⟨r, hr, hre⟩ := permitted_acts now n cyc hc hs (c := c) rfl hp
  exact ⟨c, _, r, ⟨hmeets.addresses, hmeets.live, h1, h2, hj.1, hr⟩, hre⟩

/-- **C31** (partial: closing commands can be written, sudo groups are complete, the replay cache
file can be opened, and the clock is before 2038).  A packet has at most one effect.  If it has
one, it comes from the first stanza for which every check succeeds; if it has none, there is no
such stanza (or the packet was dropped before the stanzas were looked at). -/
theorem C31_first_full_match_partial {conf : Conf} {E : Env} {now : Int} {p : Pkt} {open_ok : Nat → Bool}
    {sv sv' : Server} {effs : List Effect} (hnow : 0 ≤ now ∧ now < 2 ^ 31)
    (hok : ∀ acc ∈ sv.stanzas, KeysOk acc ∧ ClosingBuilds acc ∧ SudoOk acc) (ho : ∀ n, open_ok n = true)
    (h : incoming_spa conf E now p open_ok sv = .ok (sv', effs)) :
    (effs = [] ∧ ((∀ text proxy, Received conf p text proxy →
        ∀ d, src_check conf E sv.stanzas sv.cache p.src_ip text ≠ .ok d) ∨
      ∃ text proxy, Received conf p text proxy ∧
        ∀ n acc, 1 ≤ n → stanzaAt sv.stanzas n = some acc → ¬ FullMatch conf E now p text proxy acc)) ∨
    ∃ e text proxy acc, effs = [e] ∧ Received conf p text proxy ∧ 1 ≤ stanzaNo e ∧
      stanzaAt sv.stanzas (stanzaNo e) = some acc ∧ FullMatch conf E now p text proxy acc ∧
      ∀ n acc', 1 ≤ n → n < stanzaNo e → stanzaAt sv.stanzas n = some acc' →
        ¬ FullMatch conf E now p text proxy acc' := by
  have hmem : ∀ {n : Nat} {acc : Stanza}, sv.stanzas[n]? = some acc → acc ∈ sv.stanzas :=
    fun h => List.mem_of_getElem? h
  by_cases hdrop : ∀ text proxy, Received conf p text proxy →
      ∀ d, src_check conf E sv.stanzas sv.cache p.src_ip text ≠ .ok d
  · rcases incoming_cases h with ⟨_, rfl⟩ | ⟨text, proxy, d, hr, hs, _⟩
    · exact .inl ⟨rfl, .inl hdrop⟩
    · exact absurd hs (hdrop text proxy hr d)
  have : ∃ text proxy d, Received conf p text proxy ∧
      src_check conf E sv.stanzas sv.cache p.src_ip text = .ok d := by
    refine Classical.byContradiction fun hn => hdrop fun text proxy hr d hs => hn ⟨text, proxy, d, hr, hs⟩
  obtain ⟨text, proxy, d, hr, hs⟩ := this
  have hp : process conf E now p open_ok sv text proxy d = .ok (sv', effs) := by
    obtain ⟨buf, hb, rfl⟩ := hr
    unfold incoming_spa at h
    rw [hb] at h
    dsimp only at h
    rw [hs] at h
    exact h
  obtain ⟨s', hl, _, rfl⟩ := process_cases hp
  have no_full : ∀ (k : Nat) (acc : Stanza), sv.stanzas[k]? = some acc →
      (∀ cyc c sp r, Acting conf E now p (addrsOf p proxy) text (1 + k) acc cyc c sp r → r.effects = []) →
      ¬ FullMatch conf E now p text proxy acc := by
    intro k acc hka hall hf
    have hac := hok acc (hmem hka)
    obtain ⟨c, sp, r, h1, h2⟩ := full_acting hnow hac.1 hac.2.1 hac.2.2 hf (1 + k) []
    exact h2 (hall [] c sp r h1)
  rcases loop_first (fun acc ha => ⟨(hok acc ha).1, (hok acc ha).2.1⟩) ho hl with
    ⟨he, hall⟩ | ⟨e, k, acc, cyc, c, sp, r, he, hka, hact, hre, hbefore⟩
  · refine .inl ⟨he, .inr ⟨text, proxy, hr, fun n acc hn hst => ?_⟩⟩
    exact no_full (n - 1) acc hst (hall (n - 1) acc hst)
  · have hno := act_effect_no hact.acted (e := e) (by rw [hre]; simp)
    obtain ⟨hd, ip, rest, hm, hsp, hmeets⟩ := acting_meets (hok acc (hmem hka)).1 hnow hact
    refine .inr ⟨e, text, proxy, acc, by simpa using he, hr, by omega, ?_, ⟨c, ip, rest, hact.auth, hact.sigs, hm,
      hmeets, ?_⟩, fun n acc' hn1 hlt hst => ?_⟩
    · unfold stanzaAt; rw [hno]; simpa using hka
    · subst hsp
      exact acts_permitted (c := c) rfl hact.acted (e := e) (by rw [hre]; simp)
    · exact no_full (n - 1) acc' hst (hbefore (n - 1) (by omega) acc' hst)

example : ∀ acc ∈ (sampleServer [sampleStanza, sampleStanzaH]).stanzas, KeysOk acc ∧ ClosingBuilds acc ∧ SudoOk acc := by
  intro acc h
  simp [sampleServer] at h
  rcases h with rfl | rfl <;> exact ⟨fun _ => by decide, fun h => absurd rfl h, fun h => by cases h⟩

/-- Three stanzas: the first is for another user, the second acts, the third would too. -/
example : (do let r ← serve {} sampleEnv (sampleServer [{ sampleStanza with require_username := some b!"root" },
      sampleStanza, sampleStanza]) [sampleArrival 1700000010 sampleText]
              return r.2.map (List.map stanzaNo)) = .ok [[2]] := by
  decide +kernel

/-! ## C32 -/

/-- **C32.** No effect comes from a stanza whose ACCESS_EXPIRE time is in the past. -/
theorem C32_expired_never_acts {conf : Conf} {E : Env} {now : Int} {p : Pkt} {open_ok : Nat → Bool}
    {sv sv' : Server} {effs : List Effect} (hk : ∀ acc ∈ sv.stanzas, KeysOk acc)
    (h : incoming_spa conf E now p open_ok sv = .ok (sv', effs)) {e : Effect} (he : e ∈ effs) {acc : Stanza}
    (hst : stanzaAt sv.stanzas (stanzaNo e) = some acc) :
    ¬ (acc.access_expire_time > 0 ∧ acc.access_expire_time < now) := by
  obtain ⟨acc', _, _, _, _, _, hc, _, hl, _⟩ := effect_meets hk h he
  have := hc.stanza
  rw [hst] at this
  cases this
  exact fun hx => hl ⟨hx.1, .inr hx.2⟩

/-- **C32.** Once a stanza has expired at some time, no packet that arrives at that time or later
makes it act, in any history; if the server has marked it, none does whatever the clock shows. -/
theorem C32_stays_expired {conf : Conf} {E : Env} {as : List Arrival} : ∀ {sv sv' : Server}
    {outs : List (List Effect)}, (∀ acc ∈ sv.stanzas, KeysOk acc) → serve conf E sv as = .ok (sv', outs) →
    ∀ {n : Nat} {acc : Stanza} {t : Int}, stanzaAt sv.stanzas n = some acc → Expired acc t →
    (acc.expired = true ∨ ∀ a ∈ as, t ≤ a.now) → ∀ o ∈ outs, ∀ e ∈ o, stanzaNo e ≠ n := by
  induction as with
  | nil => intro sv sv' outs _ h; cases h; simp
  | cons x xs ih =>
    intro sv sv' outs hk h n acc t hst hx hor o ho e he heq
    obtain ⟨sv1, o1, os, h1, h2, rfl⟩ := serve_cons h
    rcases List.mem_cons.1 ho with rfl | ho
    · obtain ⟨acc', _, _, _, _, _, hc, _, hl, _⟩ := effect_meets hk h1 he
      have := hc.stanza
      rw [heq, hst] at this
      cases this
      apply hl
      rcases hor with hor | hor
      · exact ⟨hx.1, .inl hor⟩
      · have := hor x (by simp)
        exact ⟨hx.1, hx.2.imp id fun h => by omega⟩
    · obtain ⟨acc', h1', h2'⟩ := (incoming_stanzas h1).2 _ _ hst
      have hx' : Expired acc' t := by
        rcases h2' with rfl | ⟨rfl, _⟩
        · exact hx
        · exact ⟨hx.1, .inl rfl⟩
      have hor' : acc'.expired = true ∨ ∀ a ∈ xs, t ≤ a.now := by
        rcases hor with hor | hor
        · left
          rcases h2' with rfl | ⟨rfl, _⟩
          · exact hor
          · rfl
        · exact .inr fun a ha => hor a (List.mem_cons_of_mem _ ha)
      exact ih (incoming_keys h1 hk) h2 h1' hx' hor' o ho e he heq

/-- A stanza that expired at 1700000000, and a clock that is then set back: the server has marked
the stanza. -/
example : counts {} [{ sampleStanza with access_expire_time := 1700000000 }]
    [sampleArrival 1700000010 sampleText, sampleArrival 1699999990 sampleText] = .ok [0, 0] ∧
    counts {} [{ sampleStanza with access_expire_time := 1700000000 }]
    [sampleArrival 1699999990 sampleText] = .ok [1] := by
  constructor <;> decide +kernel

/-! ## C33 -/

/-- The text the client sends for `5.6.7.8,tcp/22` five seconds after the epoch. -/
def oldText : Str :=
  b!"9zYWx0c2FsdEFIQERCSElDSENIREZJQ0DKm6a/isPNyMrcydvHwsPLNXkjPHcYHww0LgBaL0AzDMmi27eT/+jv0Mn3ucunxO8tRSxUdxgfDDQuAFovQDMMyaLbt5P/6O/Qyfe5y6fHvA"

example : packed b!"mbr" 5 none [.set (.message b!"5.6.7.8,tcp/22")] = .ok (some oldText) := by
  decide +kernel

/-- **C33 is false as stated** for clocks past 2038: the difference, over 68 years here, becomes
negative when it is stored in an `int`. -/
theorem C33_age_overflows :
    counts { aging := true, max_age := 120 } [sampleStanza] [sampleArrival (2 ^ 31 + 1000) oldText] = .ok [1] := by
  decide +kernel

/-- **C33** (partial: clock before 2038).  With packet aging on, a packet has an effect only if its
timestamp is within MAX_SPA_PACKET_AGE of the clock, before or after. -/
theorem C33_age_limit_partial {conf : Conf} {E : Env} {now : Int} {p : Pkt} {open_ok : Nat → Bool}
    {sv sv' : Server} {effs : List Effect} (hk : ∀ acc ∈ sv.stanzas, KeysOk acc)
    (hnow : 0 ≤ now ∧ now < 2 ^ 31) (hage : conf.aging = true)
    (h : incoming_spa conf E now p open_ok sv = .ok (sv', effs)) {e : Effect} (he : e ∈ effs) :
    ∃ acc text proxy c ip rest, Cause conf E p sv e acc text proxy c ip rest ∧
      now - c.timestamp ≤ conf.max_age ∧ c.timestamp - now ≤ conf.max_age := by
  obtain ⟨acc, text, proxy, c, ip, rest, hc, _, _, _, ha, ht, _⟩ := effect_meets hk h he
  exact ⟨acc, text, proxy, c, ip, rest, hc, (pkt_age_iff _ _ _ (by omega)).1 ha hage⟩

example : counts { aging := true, max_age := 120 } [sampleStanza] [sampleArrival 1700000121 sampleText] = .ok [0] ∧
    counts { aging := true, max_age := 120 } [sampleStanza] [sampleArrival 1700000120 sampleText] = .ok [1] ∧
    counts { aging := true, max_age := 120 } [sampleStanza] [sampleArrival 1699999879 sampleText] = .ok [0] := by
  refine ⟨?_, ?_, ?_⟩ <;> decide +kernel

/-! ## C34, C35 -/

/-- **C34.** A stanza with REQUIRE_USERNAME acts only on packets that carry exactly that name. -/
theorem C34_username {conf : Conf} {E : Env} {now : Int} {p : Pkt} {open_ok : Nat → Bool}
    {sv sv' : Server} {effs : List Effect} (hk : ∀ acc ∈ sv.stanzas, KeysOk acc)
    (h : incoming_spa conf E now p open_ok sv = .ok (sv', effs)) {e : Effect} (he : e ∈ effs) :
    ∃ acc text proxy c ip rest, Cause conf E p sv e acc text proxy c ip rest ∧
      ∀ u, acc.require_username = some u → c.username = some u := by
  obtain ⟨acc, text, proxy, c, ip, rest, hc, _, _, _, _, _, _, hu, _⟩ := effect_meets hk h he
  exact ⟨acc, text, proxy, c, ip, rest, hc, hu⟩

example : counts {} [{ sampleStanza with require_username := some b!"root" }]
      [sampleArrival 1700000010 sampleText] = .ok [0] ∧
    counts {} [{ sampleStanza with require_username := some b!"mbr" }]
      [sampleArrival 1700000010 sampleText] = .ok [1] := by
  constructor <;> decide +kernel

/-- **C35.** With REQUIRE_SOURCE_ADDRESS the wildcard address has no effect, and access is granted
to the address in the message or, for the wildcard, to the address the packet came from (`net`;
if X-Forwarded-For is honoured and was there, to that address). -/
theorem C35_address {conf : Conf} {E : Env} {now : Int} {p : Pkt} {open_ok : Nat → Bool}
    {sv sv' : Server} {effs : List Effect} (hk : ∀ acc ∈ sv.stanzas, KeysOk acc) (hsrc : p.src_ip < 2 ^ 32)
    (h : incoming_spa conf E now p open_ok sv = .ok (sv', effs)) {e : Effect} (he : e ∈ effs) :
    ∃ acc text proxy c ip rest, Cause conf E p sv e acc text proxy c ip rest ∧
      (acc.require_source_address = true → ip ≠ anyAddr) ∧
      ∀ n a sp, e = .access n a sp → a = acc ∧ sp.spa_message_remain = rest ∧
        ∃ net, IsAddr net p.src_ip ∧ sp.use_src_ip = grantee net proxy ip := by
  obtain ⟨acc, text, proxy, c, ip, rest, hc, _, _, _, _, _, hs, _, _, _, _, hcase⟩ := effect_meets hk h he
  refine ⟨acc, text, proxy, c, ip, rest, hc, hs, fun n a sp hsp => ?_⟩
  subst hsp
  rcases hcase with ⟨_, cmd, h⟩ | ⟨_, _, cmd, h, _⟩ | ⟨_, _, h⟩
  · cases h
  · cases h
  · injection h with h1 h2 h3
    subst h2 h3
    exact ⟨rfl, rfl, _, ntop_addr _ hsrc, rfl⟩

/-- Without HTTP there is no X-Forwarded-For address. -/
theorem received_no_proxy {conf : Conf} {p : Pkt} {text proxy : Str} (hx : conf.http = false ∨ conf.xff = false)
    (h : Received conf p text proxy) : proxy = [] := by
  obtain ⟨buf, hp, rfl⟩ := h
  unfold preprocess_spa_data at hp
  obtain ⟨_, _, hp⟩ := bind_eq_ok hp
  obtain ⟨_, _, hp⟩ := bind_eq_ok hp
  obtain ⟨_, _, hp⟩ := bind_eq_ok hp
  obtain ⟨_, _, hp⟩ := bind_eq_ok hp
  split at hp
  · rename_i hh
    rcases hx with hx | hx
    · simp [isHttp, hx] at hh
    · unfold httpRequest at hp
      rw [hx] at hp
      simp only [Bool.false_eq_true, if_false, bind_ok] at hp
      obtain ⟨_, _, hp⟩ := bind_eq_ok hp
      obtain ⟨_, _, hp⟩ := bind_eq_ok hp
      obtain ⟨_, _, hp⟩ := bind_eq_ok hp
      cases hp
      rfl
  · obtain ⟨_, _, hp⟩ := bind_eq_ok hp
    cases hp
    rfl

/-! ## C36 -/

theorem set_timeout_eq (acc : Stanza) (c : Ctx) (h : 0 ≤ acc.max_fw_timeout ∧ acc.max_fw_timeout < 2 ^ 31) :
    (set_timeout acc c.client_timeout : Int) = grantedTime acc c := by
  unfold set_timeout grantedTime
  have e : acc.max_fw_timeout % 2 ^ 32 = acc.max_fw_timeout := by omega
  rw [e]
  simp only [DEF_FW_ACCESS_TIMEOUT]
  split <;> split <;> omega

/-- What the firewall is told about an access request. -/
def grantedTimes (l : List Stanza) (a : Arrival) : Res (List Nat) := do
  let r ← incoming_spa {} sampleEnv a.now a.pkt a.open_ok (sampleServer l)
  return r.2.filterMap fun e => match e with
    | .access _ _ sp => some sp.fw_access_timeout
    | _ => none

/-- **C36 is false as stated**: a stanza's FW_ACCESS_TIMEOUT is used even when it exceeds the
stanza's MAX_FW_TIMEOUT. -/
theorem C36_stanza_timeout_not_capped :
    grantedTimes [{ sampleStanza with fw_access_timeout := 600, max_fw_timeout := 300 }]
      (sampleArrival 1700000010 sampleText) = .ok [600] := by
  decide +kernel

/-- **C36** (partial: the maximum bounds the client's timeout, not the stanza's own).  The time
access is granted for is the client's timeout when it gives one, cut to the stanza's maximum;
otherwise the stanza's, or 30 seconds. -/
theorem C36_access_time_partial {conf : Conf} {E : Env} {now : Int} {p : Pkt} {open_ok : Nat → Bool}
    {sv sv' : Server} {effs : List Effect} (hk : ∀ acc ∈ sv.stanzas, KeysOk acc)
    (h : incoming_spa conf E now p open_ok sv = .ok (sv', effs)) {n : Nat} {a : Stanza} {sp : SpaData}
    (he : .access n a sp ∈ effs) (hmax : 0 ≤ a.max_fw_timeout ∧ a.max_fw_timeout < 2 ^ 31) :
    ∃ text proxy c ip rest, Cause conf E p sv (.access n a sp) a text proxy c ip rest ∧
      (sp.fw_access_timeout : Int) = grantedTime a c ∧
      (0 < c.client_timeout → (sp.fw_access_timeout : Int) ≤ a.max_fw_timeout) := by
  obtain ⟨acc, text, proxy, c, ip, rest, hc, _, _, _, _, _, hs, _, _, _, _, hcase⟩ := effect_meets hk h he
  rcases hcase with ⟨_, cmd, h⟩ | ⟨_, _, cmd, h, _⟩ | ⟨_, _, h⟩
  · cases h
  · cases h
  · injection h with h1 h2 h3
    subst h2
    have := set_timeout_eq a c hmax
    refine ⟨text, proxy, c, ip, rest, hc, by rw [h3]; exact this, fun hpos => ?_⟩
    rw [h3]
    show (set_timeout a c.client_timeout : Int) ≤ _
    rw [this]
    unfold grantedTime
    rw [if_pos hpos]
    omega

example : check (packed b!"mbr" 1700000000 none [.set (.message b!"5.6.7.8,tcp/22"), .set (.timeout 1000)])
    (fun o => decide (grantedTimes [{ sampleStanza with fw_access_timeout := 600, max_fw_timeout := 300 }]
      (sampleArrival 1700000010 (o.getD [])) = .ok [300])) = true := by
  decide +kernel

/-! ## C37, C38 -/

theorem isRoot_iff (u : Str) : hasPrefixI b!"root" u = true ↔ IsRoot u := by
  unfold hasPrefixI IsRoot
  rw [lower_eq, List.isPrefixOf_iff_prefix]
  rfl

/-- The text of a packet with the command `id`. -/
def cmdText : Str :=
  (match packed b!"mbr" 1700000000 none [.set (.msgType 0), .set (.message b!"5.6.7.8,id")] with
    | .ok (some t) => t
    | _ => [])

/-- A stanza with ENABLE_CMD_EXEC and CMD_EXEC_USER. -/
def cmdStanza (user : Str) : Stanza :=
  { sampleStanza with enable_cmd_exec := true, cmd_exec_user := some user, cmd_exec_uid := 1001, cmd_exec_gid := 1002 }

def effectsOf (conf : Conf) (l : List Stanza) (t : Str) : Res (List Effect) := do
  let r ← incoming_spa conf sampleEnv 1700000010 (samplePkt t) (fun _ => true) (sampleServer l)
  return r.2

/-- **C37 is false as stated**: a user whose name merely starts with "root", in any case, is
taken for root and the command runs with the daemon's own identity. -/
theorem C37_rootly_runs_as_root :
    effectsOf {} [cmdStanza b!"Rootly"] cmdText = .ok [.command 1 b!"id" none] := by
  decide +kernel

theorem strlcat_fits {a b : Str} (h : a.length + b.length < 1400) : strlcat a b MAX_SPA_CMD_LEN = a ++ b := by
  unfold strlcat
  rw [if_neg (show ¬ a.length ≥ 1400 by omega)]
  rw [List.take_of_length_le (show b.length ≤ 1400 - 1 - a.length by omega)]

theorem sudoCmd_full {conf : Conf} {acc : Stanza} {rest u g : Str} (hu : acc.cmd_sudo_exec_user = some u)
    (hnu : ¬ IsRoot u) (hg : acc.cmd_sudo_exec_group = some g) (hng : ¬ IsRoot g) (hgg : acc.cmd_exec_group ≠ none)
    (hl : conf.sudo_exe.length + u.length + g.length + rest.length + 9 < 1400) :
    sudoCmd conf acc rest = .ok (conf.sudo_exe ++ b!" -u " ++ u ++ b!" -g " ++ g ++ b!" " ++ rest) := by
  obtain ⟨x, hx⟩ := Option.ne_none_iff_exists'.1 hgg
  unfold sudoCmd
  have hu' : ¬ (hasPrefixI b!"root" u = true) := by rw [isRoot_iff]; exact hnu
  have hg' : ¬ (hasPrefixI b!"root" g = true) := by rw [isRoot_iff]; exact hng
  simp only [hu, hg, hx]
  rw [if_neg hu', if_neg hg']
  rw [show strlcpy conf.sudo_exe MAX_SPA_CMD_LEN = conf.sudo_exe from
    List.take_of_length_le (show conf.sudo_exe.length ≤ 1399 by omega)]
  rw [strlcat_fits (b := b!" -u ") (by simp only [List.length_cons, List.length_nil]; omega),
    strlcat_fits (b := u) (by simp only [List.length_append, List.length_cons, List.length_nil]; omega),
    strlcat_fits (b := b!" -g ") (by simp only [List.length_append, List.length_cons, List.length_nil]; omega),
    strlcat_fits (b := g) (by simp only [List.length_append, List.length_cons, List.length_nil]; omega),
    strlcat_fits (b := b!" ") (by simp only [List.length_append, List.length_cons, List.length_nil]; omega),
    strlcat_fits (b := rest) (by simp only [List.length_append, List.length_cons, List.length_nil]; omega)]

/-- **C37** (partial: the name in CMD_EXEC_USER must not start with "root").  A command is executed
only for a command message, under a stanza with ENABLE_CMD_EXEC and not in test mode; without sudo
it is the text of the message, with sudo it is the text of the message after the path of sudo and
the options for the configured user and group (if it all fits the buffer); it runs with the user and group ids of the stanza.  A command
message never opens a port. -/
theorem C37_command_partial {conf : Conf} {E : Env} {now : Int} {p : Pkt} {open_ok : Nat → Bool}
    {sv sv' : Server} {effs : List Effect} (hk : ∀ acc ∈ sv.stanzas, KeysOk acc)
    (h : incoming_spa conf E now p open_ok sv = .ok (sv', effs)) {e : Effect} (he : e ∈ effs) :
    ∃ acc text proxy c ip rest, Cause conf E p sv e acc text proxy c ip rest ∧
      (∀ n cmd ids, e = .command n cmd ids → IsCommand c ∧ acc.enable_cmd_exec = true ∧ conf.test = false ∧
        (acc.enable_cmd_sudo_exec = false → cmd = rest) ∧
        (acc.enable_cmd_sudo_exec = true → ∀ u g, acc.cmd_sudo_exec_user = some u → ¬ IsRoot u →
          acc.cmd_sudo_exec_group = some g → ¬ IsRoot g → acc.cmd_exec_group ≠ none →
          conf.sudo_exe.length + u.length + g.length + rest.length + 9 < 1400 →
          cmd = conf.sudo_exe ++ b!" -u " ++ u ++ b!" -g " ++ g ++ b!" " ++ rest) ∧
        (∀ u, acc.cmd_exec_user = some u → ¬ IsRoot u → ids = some (acc.cmd_exec_uid, acc.cmd_exec_gid)) ∧
        (acc.cmd_exec_user = none → ids = none)) ∧
      (∀ n a sp, e = .access n a sp → ¬ IsCommand c) := by
  obtain ⟨text, proxy, acc, cyc, c, sp, r, hr, h1, hst, hka, hact, her⟩ := effect_cause hk h he
  obtain ⟨hd, ip, rest, hm, hlen, rfl, -⟩ := acting_request hka hact
  refine ⟨acc, text, proxy, c, ip, rest, ⟨hr, hst, hact.auth, hm⟩, ?_, ?_⟩
  · intro n cmd ids hcmd
    subst hcmd
    rcases act_effects hact.acted her with ⟨_, cmd, h2, _⟩ | ⟨_, h2, h3, h4, cmd', h5, h6⟩ | ⟨_, _, _, _, h3⟩
    · cases h2
    · injection h5 with _ h7 h8
      subst h7 h8
      refine ⟨h2, h3, h4, fun hs => ?_, fun hs u g hu hnu hg hng hgg hl => ?_, fun u hu hnr => ?_, fun hu => ?_⟩
      · rw [hs] at h6
        simp only [Bool.false_eq_true, if_false] at h6
        rw [h6]
        show rest.take 1399 = rest
        exact List.take_of_length_le (by omega)
      · rw [hs] at h6
        simp only [if_true] at h6
        exact Res.ok.inj ((sudoCmd_full hu hnu hg hng hgg hl).symm.trans h6).symm
      · unfold cmdIds
        rw [hu]
        simp only
        rw [if_neg (by rw [isRoot_iff]; exact hnr)]
      · unfold cmdIds; rw [hu]
    · cases h3
  · intro n a sp hsp
    subst hsp
    rcases act_effects hact.acted her with ⟨_, cmd, h2, _⟩ | ⟨_, _, _, _, cmd', h5, _⟩ | ⟨_, h2, _, _, _⟩
    · cases h2
    · cases h5
    · exact h2

example : effectsOf {} [sampleStanza] cmdText = .ok [] ∧
    effectsOf {} [cmdStanza b!"nobody"] cmdText = .ok [.command 1 b!"id" (some (1001, 1002))] := by
  constructor <;> decide +kernel

/-- A stanza that runs commands through sudo. -/
def sudoStanza : Stanza :=
  { cmdStanza b!"operator" with
    enable_cmd_sudo_exec := true
    cmd_exec_group := some b!"ops"
    cmd_sudo_exec_user := some b!"nobody"
    cmd_sudo_exec_group := some b!"nogroup" }

example : effectsOf { sudo_exe := b!"/usr/bin/sudo" } [sudoStanza] cmdText =
    .ok [.command 1 b!"/usr/bin/sudo -u nobody -g nogroup id" (some (1001, 1002))] := by decide +kernel

/-- **C38.** A packet that asks for forwarding (local NAT) has an effect only if forwarding (local
NAT) is switched on. -/
theorem C38_nat_only_when_enabled {conf : Conf} {E : Env} {now : Int} {p : Pkt} {open_ok : Nat → Bool}
    {sv sv' : Server} {effs : List Effect} (hk : ∀ acc ∈ sv.stanzas, KeysOk acc)
    (h : incoming_spa conf E now p open_ok sv = .ok (sv', effs)) {e : Effect} (he : e ∈ effs) :
    ∃ acc text proxy c ip rest, Cause conf E p sv e acc text proxy c ip rest ∧
      (WantsForward c → conf.forwarding = true) ∧ (WantsLocalNat c → conf.local_nat = true) := by
  obtain ⟨acc, text, proxy, c, ip, rest, hc, _, _, _, _, _, _, _, hf, hl, _⟩ := effect_meets hk h he
  exact ⟨acc, text, proxy, c, ip, rest, hc, hf, hl⟩

/-- The text of a packet that asks for forwarding. -/
def natText : Str :=
  (match packed b!"mbr" 1700000000 none [.set (.msgType 2), .set (.message b!"5.6.7.8,tcp/22"),
      .set (.natAccess b!"192.168.1.2,22")] with
    | .ok (some t) => t
    | _ => [])

example : counts {} [sampleStanza] [sampleArrival 1700000010 natText] = .ok [0] ∧
    counts { forwarding := true } [sampleStanza] [sampleArrival 1700000010 natText] = .ok [1] := by
  constructor <;> decide +kernel

/-! ## C56 -/

/-- **C56 is false as stated**: the commands of a command cycle are run in test mode. -/
theorem C56_cycle_runs_in_test_mode :
    effectsOf { test := true } [{ sampleStanza with cmd_cycle_open := some b!"/bin/open" }] sampleText
      = .ok [.cycle 1 b!"/bin/open"] := by
  decide +kernel

/-- **C56** (partial: not the stanzas with CMD_CYCLE_OPEN).  In test mode no packet has any other
effect: whatever it causes is a command of a command cycle. -/
theorem C56_test_mode_partial {conf : Conf} {E : Env} {now : Int} {p : Pkt} {open_ok : Nat → Bool}
    {sv sv' : Server} {effs : List Effect} (hk : ∀ acc ∈ sv.stanzas, KeysOk acc) (htest : conf.test = true)
    (hcyc : ∀ acc ∈ sv.stanzas, acc.cmd_cycle_open = none)
    (h : incoming_spa conf E now p open_ok sv = .ok (sv', effs)) : effs = [] ∧ sv'.cache = sv.cache := by
  have he : effs = [] := by
    refine List.eq_nil_iff_forall_not_mem.2 fun e he => ?_
    obtain ⟨acc, text, proxy, c, ip, rest, hc, _, _, _, _, _, _, _, _, _, hp, _⟩ := effect_meets hk h he
    have hno := hcyc acc (List.mem_of_getElem? hc.stanza)
    by_cases hcmd : IsCommand c
    · have := (hp.2.1 hno hcmd).2; rw [htest] at this; cases this
    · have := (hp.2.2 hno hcmd).2; rw [htest] at this; cases this
  refine ⟨he, ?_⟩
  rcases incoming_cases h with ⟨rfl, _⟩ | ⟨text, proxy, d, _, _, hp⟩
  · rfl
  · obtain ⟨s', hl, hcache, _⟩ := process_cases hp
    rw [hcache]
    exact loop_test_cache htest hl

example : effectsOf { test := true } [cmdStanza b!"nobody"] cmdText = .ok [] ∧
    effectsOf { test := true } [sampleStanza] sampleText = .ok [] := by
  constructor <;> decide +kernel

end Fwknop.Props
