import Verif.Spec.Knock
import Verif.Lemmas.Knock
import Verif.Lemmas.Pf
import Verif.Props.Client
import Verif.Props.Safe
import Verif.Props.Nat

/-!
# C100: a knock opens the door

From the command line of the client to the effect on the server and the rules of the firewall.
-/

namespace Fwknop.Props
open Fwknop Fwknop.Spec Fwknop.Res Fwknop.Base64

/-! ## The packet passes the first checks -/

theorem client_crypto (E : Env) (acc : Stanza) (CE : CliEnv) (o : CliOpts) (args : List CliArg) :
    client (E.crypto acc) CE o args = client E.K CE o args := rfl

theorem first_chars : ∀ k, 60 ≤ k → k ≤ 63 → b64Char k = 56 ∨ b64Char k = 57 ∨ b64Char k = 43 ∨ b64Char k = 47 := by
  intro k h1 h2
  have : k = 60 ∨ k = 61 ∨ k = 62 ∨ k = 63 := by omega
  rcases this with rfl | rfl | rfl | rfl <;> decide

/-- The text of a packet that is taken as it is: base64, and neither of the prefixes that clients leave
out. -/
structure SentText (t : Str) : Prop where
  chars : ∀ c ∈ t, IsB64Char c
  salt : ¬ B64_RIJNDAEL_SALT <+: t
  gpg : ¬ B64_GPG_PREFIX <+: t

theorem _root_.Fwknop.PacketShape.sent {plain tag : Nat} {t : Str} (h : PacketShape plain tag t) : SentText t := by
  obtain ⟨k, r, hk1, hk2, ht⟩ := h.first
  have hk := first_chars k hk1 hk2
  refine ⟨h.chars, ?_, ?_⟩
  · rw [ht, show B64_RIJNDAEL_SALT = 85 :: b!"2FsdGVkX1" from rfl, List.cons_prefix_cons]
    omega
  · rw [ht, show B64_GPG_PREFIX = 104 :: b!"Q" from rfl, List.cons_prefix_cons]
    omega

theorem shape_no {t : Str} (h : SentText t) : 0 ∉ t ∧ 61 ∉ t := by
  have hb : ∀ c, IsB64Char c → c ≠ 0 ∧ c ≠ 61 := by
    intro c hc; unfold IsB64Char at hc; omega
  exact ⟨fun h0 => (hb 0 (h.chars 0 h0)).1 rfl, fun h0 => (hb 61 (h.chars 61 h0)).2 rfl⟩

/-- A base64 text is no HTTP request. -/
theorem no_get {t : Str} (h : ∀ c ∈ t, IsB64Char c) : hasPrefixI b!"GET /" t = false := by
  have h32 : 32 ∉ t.map toLower := by
    intro hm
    obtain ⟨c, hc, e⟩ := List.mem_map.1 hm
    have := h c hc
    unfold IsB64Char at this
    unfold toLower at e
    split at e <;> omega
  unfold hasPrefixI
  rw [← Bool.not_eq_true, List.isPrefixOf_iff_prefix]
  intro hp
  exact h32 (hp.subset (by decide))

theorem shape_preprocess (conf : Conf) {t : Str} (h : SentText t) {p : Pkt}
    (hp : Holds p t) (h1 : 140 ≤ t.length) (h2 : t.length ≤ 1500) :
    preprocess_spa_data conf p.data p.len = .ok (p.data, []) ∧ cstr p.data = t := by
  obtain ⟨⟨rest, hd⟩, hl⟩ := hp
  have hc : cstr p.data = t := by rw [hd]; exact cstr_append (shape_no h).1 rest
  refine ⟨?_, hc⟩
  have hlen : t.length ≤ p.data.length := by rw [hd]; simp
  have c1 : constant_runtime_cmp p.data B64_RIJNDAEL_SALT 10 ≠ 0 := by
    intro e
    rw [cmp_prefix p.data B64_RIJNDAEL_SALT 10 rfl (by omega), hd] at e
    exact h.salt (List.prefix_of_prefix_length_le e (List.prefix_append _ _) (by simp; omega))
  have c2 : constant_runtime_cmp p.data B64_GPG_PREFIX 2 ≠ 0 := by
    intro e
    rw [cmp_prefix p.data B64_GPG_PREFIX 2 rfl (by omega), hd] at e
    exact h.gpg (List.prefix_of_prefix_length_le e (List.prefix_append _ _) (by simp; omega))
  have c3 : isHttp conf p.data = false := by
    unfold isHttp
    rw [hc, no_get h.chars, Bool.and_false]
  unfold preprocess_spa_data
  rw [c3, hl]
  have c4 : p.data.take t.length = t := by rw [hd]; simp
  rw [c4, is_base64_of h.chars]
  have g1 : decide (t.length < MIN_SPA_DATA_SIZE) = false := by simp; omega
  have g2 : decide (t.length > MAX_SPA_PACKET_LEN) = false := by simp; omega
  simp only [g1, g2, c1, c2, decide_false, Bool.and_false]
  rfl

theorem received_shape {conf : Conf} {t : Str} (h : SentText t) {p : Pkt}
    (hp : Holds p t) (h1 : 140 ≤ t.length) (h2 : t.length ≤ 1500) :
    Received conf p t [] ∧ ∀ text proxy, Received conf p text proxy → text = t ∧ proxy = [] := by
  obtain ⟨e1, e2⟩ := shape_preprocess conf h hp h1 h2
  refine ⟨⟨p.data, e1, e2.symm⟩, ?_⟩
  rintro text proxy ⟨buf, hb, rfl⟩
  rw [e1] at hb
  cases hb
  exact ⟨e2, rfl⟩

theorem raw_digest {E : Env} (hH : E.K.H.Lawful) {t : Str} (h1 : 140 ≤ t.length) (h2 : t.length < 1500) :
    get_raw_digest E t = .ok (b64NoPad (E.K.H 3 t)) := by
  unfold get_raw_digest
  rw [new_with_data_ok _ _ _ _ _ _ (by omega) (by omega) (by decide) (by decide)]
  simp only [Res.bind_ok]
  have : set_digest E.K.H ((startCtx t FKO_DEFAULT_ENC_MODE 0).setFlag FKO_CTX_INITIALIZED |>.encrypted_msg.getD [])
      FKO_DIGEST_SHA256 = some (b64NoPad (E.K.H 3 t)) := by
    show set_digest E.K.H t 3 = _
    unfold set_digest
    rw [if_neg (by simp only [MAX_SPA_ENCODED_MSG_SIZE]; omega), if_neg (by decide), digest_base64_eq hH]
  rw [this]

theorem src_check_ok {conf : Conf} {E : Env} (hH : E.K.H.Lawful) {t : Str} (h1 : 140 ≤ t.length) (h2 : t.length < 1500)
    {stanzas : List Stanza} {cache : List Str} {src dst : Nat}
    (hc : conf.persistence = true → ∀ e ∈ cache, e.length = 43 ∧ e ≠ b64NoPad (E.K.H 3 t))
    {acc : Stanza} (ha : acc ∈ stanzas) (hadd : AddressesOk acc src dst) :
    ∃ d, src_check conf E stanzas cache src t = .ok d := by
  unfold src_check
  rw [if_pos (List.any_eq_true.2 ⟨acc, ha, (addr_list_iff _ _).2 hadd.1⟩)]
  cases hp : conf.persistence with
  | false => exact ⟨none, rfl⟩
  | true =>
    rw [if_pos rfl, raw_digest hH h1 h2]
    have hlen : (b64NoPad (E.K.H 3 t)).length = 43 := by rw [b64NoPad_length, hH.len]; decide
    have : is_replay cache (b64NoPad (E.K.H 3 t)) = false := by
      unfold is_replay
      rw [List.any_eq_false]
      intro e he
      rw [hlen]
      have := hc hp e he
      simp only [decide_eq_true_eq]
      rw [cmp_eq_zero this.1 hlen]
      exact this.2
    simp [this]

/-! ## The server -/

theorem auth_shared {E : Env} {acc : Stanza} {p : Packed} {o : CliOpts} (hs : SharesKeys acc p o) {t : Str} {c : Ctx}
    (h1 : 140 ≤ t.length) (h2 : t.length < 400)
    (h : fko_new_with_data (E.crypto acc) t (some p.key) (if o.encryption_mode = 0 then 2 else o.encryption_mode) p.hmac
      (if p.hmac = none then 0 else o.hmac_type) = .ok c) :
    authenticate E acc t = .ok c ∧ handle_gpg_sigs E acc t c = .ok () := by
  have ht : fko_encryption_type t = FKO_ENCRYPTION_RIJNDAEL := by
    unfold fko_encryption_type
    have : min t.length MAX_SPA_ENCODED_MSG_SIZE = t.length := by simp only [MAX_SPA_ENCODED_MSG_SIZE]; omega
    simp only [this]
    rw [if_neg, if_neg (by omega)]
    have : is_valid_encoded_msg_len (t.length : Int) = true := by
      unfold is_valid_encoded_msg_len
      simp only [MIN_SPA_ENCODED_MSG_SIZE, Bool.not_eq_true', Bool.or_eq_false_iff, decide_eq_false_iff_not]
      omega
    rw [this]
    decide
  constructor
  · unfold authenticate triesRijndael
    rw [hs.rijndael, ht, hs.key, hs.mode, hs.hmac, hs.hmac_type]
    simp only [decide_true, Bool.true_or, Bool.and_self, if_true]
    rw [h]
  · unfold handle_gpg_sigs
    rw [ht, if_neg]
    rintro ⟨h, -⟩
    exact absurd h (by decide)

theorem openTo_check {acc : Stanza} {ports : Str} {ps : List (Nat × Nat)} (hreq : RequestPorts ports ps)
    (h : OpenTo acc ps) : acc_check_port_access acc ports = true := by
  obtain ⟨O, R, h1, h2, h3, h4, h5⟩ := h
  exact (port_access_lists acc ports ps O R hreq h1 h2 h3).2 ⟨h4, h5⟩

/-- When the request meets the demands of the stanza and is permitted, and no stanza in front decodes
the packet, then the stanza acts on it, and nothing else happens. -/
theorem acted_on {conf : Conf} {E : Env} (hH : E.K.H.Lawful) (hbc : E.K.bc.Lawful)
    (hsig : ∀ acc text fpr, E.gpgSig acc text = some fpr → 8 ≤ fpr.length) {now : Int} {pkt : Pkt} {open_ok : Nat → Bool}
    {sv : Server} {t : Str} (hshape : SentText t) (h1 : 140 ≤ t.length) (h2 : t.length < 1500)
    (hpkt : Holds pkt t) (hnow : 0 ≤ now ∧ now < 2 ^ 31) (ho : ∀ n, open_ok n = true)
    (hst : ∀ a ∈ sv.stanzas, StanzaSafe a ∧ ClosingBuilds a)
    (hcache : conf.persistence = true → ∀ e ∈ sv.cache, e.length = 43 ∧ e ≠ b64NoPad (E.K.H 3 t))
    {n : Nat} {acc : Stanza} (hn : 1 ≤ n) (hacc : stanzaAt sv.stanzas n = some acc) {c : Ctx} {ip rest : Str}
    (hauth : authenticate E acc t = .ok c) (hgpg : handle_gpg_sigs E acc t c = .ok ())
    (hm : Message c ip rest) (hmeets : Meets conf now pkt.src_ip pkt.dst_ip acc c ip)
    (hperm : Permitted conf acc c (requestOf acc (addrsOf pkt []) c ip rest) rest)
    (hbefore : ∀ m a, 1 ≤ m → m < n → stanzaAt sv.stanzas m = some a →
      ¬ AddressesOk a pkt.src_ip pkt.dst_ip ∨ Expired a now ∨ ∀ c, authenticate E a t ≠ .ok c) :
    ∃ sv' e cyc r, incoming_spa conf E now pkt open_ok sv = .ok (sv', [e]) ∧ r.effects = [e] ∧
      act conf now acc n (requestOf acc (addrsOf pkt []) c ip rest) cyc = .ok r := by
  obtain ⟨hrec, huniq⟩ := received_shape (conf := conf) hshape hpkt h1 (by omega)
  have hmem : acc ∈ sv.stanzas := List.mem_of_getElem? hacc
  have hfull : FullMatch conf E now pkt t [] acc := ⟨c, ip, rest, hauth, hgpg, hm, hmeets, hperm⟩
  obtain ⟨d, hd⟩ := src_check_ok (conf := conf) hH h1 h2 hcache hmem hmeets.addresses
  have hpre := shape_preprocess conf hshape hpkt h1 (by omega)
  have hub : incoming_spa conf E now pkt open_ok sv ≠ .ub := by
    refine C65_no_undefined_behaviour_partial hH hbc now pkt open_ok sv (by rw [hpre.1]; nofun) ?_ hsig
      (fun a ha => (hst a ha).1)
    intro text proxy hr
    rw [(huniq text proxy hr).1]
    exact (shape_no hshape).2
  have hproc : incoming_spa conf E now pkt open_ok sv = process conf E now pkt open_ok sv t [] d := by
    unfold incoming_spa
    rw [hpre.1]
    dsimp only
    rw [hpre.2, hd]
  have hkeys : ∀ a ∈ sv.stanzas, KeysOk a ∧ ClosingBuilds a := fun a ha => ⟨(hst a ha).1.keys, (hst a ha).2⟩
  cases hinc : incoming_spa conf E now pkt open_ok sv with
  | ub => exact absurd hinc hub
  | err =>
    exfalso
    rw [hproc] at hinc
    exact process_noErr _ _ _ _ _ _ _ _ _ hinc
  | ok x =>
    obtain ⟨sv', effs⟩ := x
    rw [hproc] at hinc
    obtain ⟨s', hl, -, rfl⟩ := process_cases hinc
    have hact := full_acting hnow (hkeys acc hmem).1 (hkeys acc hmem).2 (hst acc hmem).1.sudo hfull
    have hacc' : sv.stanzas[n - 1]? = some acc := hacc
    have hn1 : 1 + (n - 1) = n := by omega
    rcases loop_first hkeys ho hl with ⟨-, hall⟩ | ⟨e, k, acc1, cyc, c1, sp, r1, he, hk, hact1, hre, hbef⟩
    · exfalso
      obtain ⟨c', sp, r', ha, hne⟩ := hact (1 + (n - 1)) []
      exact hne (hall (n - 1) acc hacc' [] c' sp r' ha)
    · have hkn : k = n - 1 := by
        rcases Nat.lt_trichotomy k (n - 1) with hlt | h | hgt
        · exfalso
          rcases hbefore (1 + k) acc1 (by omega) (by omega) (by unfold stanzaAt; simpa using hk) with h | h | h
          · exact h hact1.addresses
          · exact hact1.live h
          · exact h c1 hact1.auth
        · exact h
        · exfalso
          obtain ⟨c', sp', r', ha, hne⟩ := hact (1 + (n - 1)) []
          exact hne (hbef (n - 1) hgt acc hacc' [] c' sp' r' ha)
      subst hkn
      rw [hacc'] at hk
      cases hk
      rw [hn1] at hact1
      obtain ⟨-, ip', rest', hm', hsp, -⟩ := acting_meets (hkeys acc hmem).1 hnow hact1
      have hcc : c1 = c := by
        have := hact1.auth
        rw [hauth] at this
        cases this
        rfl
      subst hcc
      obtain ⟨rfl, rfl⟩ := message_unique hm hm'
      refine ⟨sv', e, cyc, r1, by rw [he]; rfl, hre, ?_⟩
      rw [← hsp]
      exact hact1.acted

/-- The stanza's keys decode the packet: the request is carried out if the stanza expects it. -/
theorem answered {conf : Conf} {E : Env} (hH : E.K.H.Lawful) (hbc : E.K.bc.Lawful)
    (hsig : ∀ acc text fpr, E.gpgSig acc text = some fpr → 8 ≤ fpr.length) {now : Int} {pkt : Pkt} {open_ok : Nat → Bool}
    {sv : Server} {t : Str} (hshape : SentText t) (h1 : 140 ≤ t.length) (h2 : t.length < 1500)
    (hpkt : Holds pkt t) (htest : conf.test = false) (hnow : 0 ≤ now ∧ now < 2 ^ 31) (ho : ∀ n, open_ok n = true)
    (hst : ∀ a ∈ sv.stanzas, StanzaSafe a ∧ ClosingBuilds a)
    (hcache : conf.persistence = true → ∀ e ∈ sv.cache, e.length = 43 ∧ e ≠ b64NoPad (E.K.H 3 t))
    {n : Nat} {acc : Stanza} (hn : 1 ≤ n) (hacc : stanzaAt sv.stanzas n = some acc) {c : Ctx} {r : Request} {ip ports : Str}
    {ps : List (Nat × Nat)} (hauth : authenticate E acc t = .ok c) (hgpg : handle_gpg_sigs E acc t c = .ok ())
    (hc : Carries c r) (hmsg : r.msg = ip ++ 44 :: ports) (hip : IsIPv4 ip) (hreq : RequestPorts ports ps)
    (htype : r.type ≠ 0) (hexp : Expects conf now pkt.src_ip pkt.dst_ip acc r ip) (hopen : OpenTo acc ps)
    (hbefore : ∀ m a, 1 ≤ m → m < n → stanzaAt sv.stanzas m = some a →
      ¬ AddressesOk a pkt.src_ip pkt.dst_ip ∨ Expired a now ∨ ∀ c, authenticate E a t ≠ .ok c) :
    ∃ sv', incoming_spa conf E now pkt open_ok sv =
      .ok (sv', [.access n acc (requestOf acc (addrsOf pkt []) c ip ports)]) := by
  obtain ⟨-, c2, c3, -, c5, c6, c7, -, c9⟩ := hc
  have hm : Message c ip ports := ⟨hip, by rw [c6, hmsg]⟩
  have hmeets : Meets conf now pkt.src_ip pkt.dst_ip acc c ip :=
    { addresses := hexp.addresses
      live := hexp.live
      fresh := by rw [c3]; exact hexp.fresh
      user := fun u hu => by rw [c2, hexp.user u hu]
      source := hexp.source
      forward := fun hw => hexp.forward (by unfold WantsForward at hw; rw [c5] at hw; omega)
      localNat := fun hw => hexp.localNat (by unfold WantsLocalNat at hw; rw [c5] at hw; omega) }
  have hperm : Permitted conf acc c (requestOf acc (addrsOf pkt []) c ip ports) ports := by
    refine ⟨fun h => absurd hexp.noCycle h, fun _ h => ?_, fun _ _ => ⟨openTo_check hreq hopen, htest⟩⟩
    unfold IsCommand at h
    rw [c5] at h
    omega
  obtain ⟨sv', e, cyc, r1, q1, q2, q3⟩ := acted_on hH hbc hsig hshape h1 h2 hpkt hnow ho hst hcache hn hacc hauth hgpg hm hmeets hperm
    hbefore
  refine ⟨sv', ?_⟩
  rcases act_effects q3 (e := e) (by rw [q2]; simp) with ⟨h, -⟩ | ⟨-, h, -⟩ | ⟨-, -, -, -, h⟩
  · exact absurd hexp.noCycle h
  · exfalso
    have : c.message_type = 0 := h
    rw [c5] at this
    omega
  · rw [q1, h]

/-- The same for a command. -/
theorem answered_command {conf : Conf} {E : Env} (hH : E.K.H.Lawful) (hbc : E.K.bc.Lawful)
    (hsig : ∀ acc text fpr, E.gpgSig acc text = some fpr → 8 ≤ fpr.length) {now : Int} {pkt : Pkt} {open_ok : Nat → Bool}
    {sv : Server} {t : Str} (hshape : SentText t) (h1 : 140 ≤ t.length) (h2 : t.length < 1500)
    (hpkt : Holds pkt t) (htest : conf.test = false) (hnow : 0 ≤ now ∧ now < 2 ^ 31) (ho : ∀ n, open_ok n = true)
    (hst : ∀ a ∈ sv.stanzas, StanzaSafe a ∧ ClosingBuilds a)
    (hcache : conf.persistence = true → ∀ e ∈ sv.cache, e.length = 43 ∧ e ≠ b64NoPad (E.K.H 3 t))
    {n : Nat} {acc : Stanza} (hn : 1 ≤ n) (hacc : stanzaAt sv.stanzas n = some acc) {c : Ctx} {r : Request} {ip cmd : Str}
    (hauth : authenticate E acc t = .ok c) (hgpg : handle_gpg_sigs E acc t c = .ok ())
    (hc : Carries c r) (hmsg : r.msg = ip ++ 44 :: cmd) (hip : IsIPv4 ip)
    (htype : r.type = 0) (hexp : Expects conf now pkt.src_ip pkt.dst_ip acc r ip) (hexec : acc.enable_cmd_exec = true)
    (hsudo : acc.enable_cmd_sudo_exec = false) (hlen : cmd.length < 1400)
    (hbefore : ∀ m a, 1 ≤ m → m < n → stanzaAt sv.stanzas m = some a →
      ¬ AddressesOk a pkt.src_ip pkt.dst_ip ∨ Expired a now ∨ ∀ c, authenticate E a t ≠ .ok c) :
    ∃ sv', incoming_spa conf E now pkt open_ok sv = .ok (sv', [.command n cmd (cmdIds acc)]) := by
  obtain ⟨-, c2, c3, -, c5, c6, c7, -, c9⟩ := hc
  have hm : Message c ip cmd := ⟨hip, by rw [c6, hmsg]⟩
  have hmeets : Meets conf now pkt.src_ip pkt.dst_ip acc c ip :=
    { addresses := hexp.addresses
      live := hexp.live
      fresh := by rw [c3]; exact hexp.fresh
      user := fun u hu => by rw [c2, hexp.user u hu]
      source := hexp.source
      forward := fun hw => hexp.forward (by unfold WantsForward at hw; rw [c5] at hw; omega)
      localNat := fun hw => hexp.localNat (by unfold WantsLocalNat at hw; rw [c5] at hw; omega) }
  have hct : c.message_type = 0 := by rw [c5, htype]; rfl
  have hperm : Permitted conf acc c (requestOf acc (addrsOf pkt []) c ip cmd) cmd :=
    ⟨fun h => absurd hexp.noCycle h, fun _ _ => ⟨hexec, htest⟩, fun _ h => absurd hct h⟩
  obtain ⟨sv', e, cyc, r1, q1, q2, q3⟩ := acted_on hH hbc hsig hshape h1 h2 hpkt hnow ho hst hcache hn hacc hauth hgpg hm hmeets hperm
    hbefore
  refine ⟨sv', ?_⟩
  rcases act_effects q3 (e := e) (by rw [q2]; simp) with ⟨h, -⟩ | ⟨-, -, -, -, cmd', h, h'⟩ | ⟨-, h, -⟩
  · exact absurd hexp.noCycle h
  · rw [hsudo, if_neg (by decide)] at h'
    have : cmd' = cmd := by
      rw [h']
      show strlcpy cmd MAX_SPA_CMD_LEN = cmd
      unfold strlcpy
      exact List.take_of_length_le (by simp only [MAX_SPA_CMD_LEN]; omega)
    rw [q1, h, this]
  · exact absurd hct h

/-! ## The client -/

theorem knock_commaJoin (x : Str) : ∀ l : List Str, Spec.commaJoin (x :: l) = x ++ (l.map (44 :: ·)).flatten := by
  intro l
  induction l generalizing x with
  | nil => simp [Spec.commaJoin]
  | cons y l ih => rw [Spec.commaJoin, ih y]; simp

/-- What the client sends as ports is a list of ports for the server. -/
theorem accessMsg_ports {ip ports : Str} (hip : IsIPv4 ip) (h : IsAccessMsg (ip ++ 44 :: ports)) :
    ∃ ps, RequestPorts ports ps := by
  obtain ⟨ip', spec, specs, hip', h1, h2, h3, -⟩ := h
  have e : ports = Spec.commaJoin (spec :: specs) := by
    rw [knock_commaJoin]
    have h3' : ip ++ 44 :: ports = ip' ++ 44 :: (spec ++ (specs.map (44 :: ·)).flatten) := by rw [h3]; simp
    have := message_unique (c := { ({} : Ctx) with message := some (ip ++ 44 :: ports) }) ⟨hip, rfl⟩ ⟨hip', by rw [h3']⟩
    exact this.2
  have key : ∀ x : Str, IsProtoPort x → ∃ p : Nat × Nat, ProtoPort x p.1 p.2 := by
    rintro x ⟨proto, digits, hp, rfl, hl1, hl2, hd, hn1, hn2⟩
    have hne : digits ≠ [] := by intro h; rw [h] at hl1; simp at hl1
    rcases hp with rfl | rfl
    · exact ⟨(6, number 10 digits), b!"tcp", digits, rfl, .inl ⟨by decide, rfl⟩, hne, hd, rfl, hn2, by simp; omega⟩
    · exact ⟨(17, number 10 digits), b!"udp", digits, rfl, .inr ⟨by decide, rfl⟩, hne, hd, rfl, hn2, by simp; omega⟩
  have all : ∀ l : List Str, (∀ x ∈ l, IsProtoPort x) → ∃ items : List (List Nat × (Nat × Nat)),
      (∀ i ∈ items, ProtoPort i.1 i.2.1 i.2.2) ∧ l = items.map fun i => i.1 := by
    intro l
    induction l with
    | nil => exact fun _ => ⟨[], by simp, rfl⟩
    | cons x l ih =>
      intro h
      obtain ⟨q, hq⟩ := key x (h x (by simp))
      obtain ⟨items, h1, h2⟩ := ih fun y hy => h y (by simp [hy])
      refine ⟨(x, q) :: items, ?_, by rw [h2]; rfl⟩
      intro i hi
      rcases List.mem_cons.1 hi with rfl | hi
      · exact hq
      · exact h1 i hi
  obtain ⟨items, h4, h5⟩ := all (spec :: specs) (by
    intro x hx
    rcases List.mem_cons.1 hx with rfl | hx
    · exact h1
    · exact h2 x hx)
  exact ⟨items.map fun i => i.2, items, by intro h; rw [h] at h5; simp at h5, h4, by rw [e, h5], rfl⟩

theorem accessMsg_ip {s : Str} (h : IsAccessMsg s) : ∃ ip ports, s = ip ++ 44 :: ports ∧ IsIPv4 ip ∧ 13 ≤ s.length := by
  obtain ⟨ip, spec, specs, hip, ⟨proto, digits, hp, rfl, hl1, -⟩, -, rfl, -⟩ := h
  refine ⟨ip, proto ++ 47 :: digits ++ (specs.map (44 :: ·)).flatten, by simp, hip, ?_⟩
  have := (isIPv4_length hip).1
  have h3 : proto.length = 3 := by rcases hp with rfl | rfl <;> rfl
  simp
  omega

theorem digestLen_least (d : Int) : 22 ≤ b64DigestLen d := by
  unfold b64DigestLen
  repeat' split
  all_goals omega

theorem plain_least {r : Request} (hrand : r.rand.length = 16) (huser : r.user ≠ []) (hts : 10 ^ 9 ≤ r.ts)
    (hts2 : r.ts < 2 ^ 31) (hv : r.version = b!"3.0.0") (hm : 13 ≤ r.msg.length) (d : Int) : 80 ≤ plainLen r d := by
  unfold plainLen Request.wire
  have h1 := decimal_ten hts (by omega)
  have h2 : 1 ≤ r.user.length := List.length_pos_iff.2 huser
  have h3 : 1 ≤ (decimal r.type).length := by
    unfold decimal
    rw [List.length_map]
    exact Nat.length_toDigits_pos
  have h4 : 22 ≤ b64DigestLen d := digestLen_least d
  have h5 : r.version.length = 5 := by rw [hv]; rfl
  simp only [List.length_append, List.length_cons, b64NoPad_length]
  omega

theorem octet_char {x : List Nat} (hx : IsOctet x) : ∀ c ∈ x, 48 ≤ c ∧ c ≤ 57 := by
  intro c hc
  rcases hx.2 with ⟨_, hx, _⟩ | ⟨_, hx, _⟩
  · have := hx c hc; unfold IsDigitChar at this; omega
  · have := hx c hc; omega

theorem ipv4_text {s : Str} (h : IsIPv4 s) : IsText s := by
  obtain ⟨a, b, c, d, ha, hb, hc, hd, rfl, -⟩ := h
  intro x hx
  simp at hx
  rcases hx with h | h | h | h | h | h | h
  · have := octet_char ha x h; omega
  · omega
  · have := octet_char hb x h; omega
  · omega
  · have := octet_char hc x h; omega
  · omega
  · have := octet_char hd x h; omega

theorem ipv4_head {s : Str} (h : IsIPv4 s) : ∀ x, s.head? = some x → 48 ≤ x ∧ x ≤ 57 := by
  obtain ⟨a, b, c, d, ha, hb, hc, hd, rfl, -⟩ := h
  intro x hx
  have h0 := ha.1
  rcases a with _ | ⟨y, a⟩
  · exact absurd rfl h0
  · simp at hx
    subst hx
    exact octet_char ha y (by simp)

/-- The message of an access request: the address and the ports that were asked for. -/
theorem asked_access {CE : CliEnv} {args : List CliArg} {o o' : CliOpts} {r : Request}
    (hres : ∀ ip, CE.resolved = some ip → IsIPv4 ip) (hcmd : (given argCommand args).getD [] = [])
    (hm : Meant args o) (hset : Settled o o') (hchk : SendChecked o') (hask : Asks CE o' r) :
    o'.server_command = [] ∧ ∃ ip port ports ps, AskedIp CE o' ip ∧ AskedNatPort CE o' port ∧ AskedPorts o'.access_str port ports ∧
      r.msg = ip ++ 44 :: ports ∧ IsIPv4 ip ∧ RequestPorts ports ps ∧ 13 ≤ r.msg.length := by
  have hsc : o'.server_command = [] := by
    have := congrArg CliOpts.server_command hset.same
    rw [← this]
    show o.server_command = []
    rw [hm.command, hcmd]
  obtain ⟨ip, port, ports, hip1, hport, hports, hmsg, hamsg, -⟩ := hask.access hsc
  obtain ⟨ip', ports', hmsg', hip', hlen⟩ := accessMsg_ip hamsg
  have hip : IsIPv4 ip := by
    unfold AskedIp at hip1
    split at hip1
    · exact hres ip hip1
    · rcases hchk.allow with h | h | h
      · exfalso
        rw [h] at hip1
        rw [hmsg, hip1] at hmsg'
        have h7 := (isIPv4_length hip').1
        have hd := ipv4_head hip'
        rcases ip' with _ | ⟨x, y⟩
        · simp at h7
        · simp at hmsg'
          have := hd x rfl
          omega
      · exfalso
        rw [← hip1] at h
        obtain ⟨w, hw⟩ := h
        have h7 := (isIPv4_length hip').1
        have hd := ipv4_head hip'
        rcases ip' with _ | ⟨x, y⟩
        · simp at h7
        · rcases ip with _ | ⟨x', y'⟩
          · simp at hw
          · rw [hmsg] at hmsg'
            simp at hmsg' hw
            have := hd x rfl
            have h1 := hmsg'.1
            have h2 := hw.1
            subst h1
            unfold lower at h2
            split at h2 <;> omega
      · rw [hip1]; exact h
  rw [hmsg] at hamsg
  obtain ⟨ps, hps⟩ := accessMsg_ports hip hamsg
  exact ⟨hsc, ip, port, ports, ps, hip1, hport, hports, hmsg, hip, hps, hlen⟩

/-- **C100** (partial: symmetric encryption, an access request, a packet of fewer than 400 characters,
fields that fit the receiver's limits, a non-empty HMAC key, the client's clock after September 2001 and
the server's before 2038, and a server whose stanzas stay inside memory and whose replay cache file can be
opened).  Whatever command line the client is given: if a stanza of the server has the client's keys,
mode and HMAC type, expects the request and opens the ports to it, and no stanza in front of it decodes
the packet, then the packet, when it arrives and is not in the replay cache, has exactly one effect: the
stanza grants access to the address the client asked for, to the ports the client asked for, for the time
the client asked for (up to the stanza's limit). -/
theorem C100_knock_is_answered_partial {E : Env} (hH : E.K.H.Lawful) (hbc : E.K.bc.Lawful)
    (hsig : ∀ acc text fpr, E.gpgSig acc text = some fpr → 8 ≤ fpr.length) {CE : CliEnv}
    {args : List CliArg} (htext : ∀ a ∈ args, IsText (argText a))
    (hrand : 16 ≤ CE.rands.length ∧ 16 ≤ CE.rands2.length) (hsalt : CE.salt.length = 8 ∧ IsBytes CE.salt)
    (hres : ∀ ip, CE.resolved = some ip → IsIPv4 ip)
    (hcmd : (given argCommand args).getD [] = []) (hgpg : args.any asksGpg = false)
    {p : Packed} {t : Str} (h : client E.K CE {} args = .ok (p, t)) :
    ∃ o o' r ip port ports ps, Meant args o ∧ Settled o o' ∧ Asks CE o' r ∧ AskedIp CE o' ip ∧
      AskedNatPort CE o' port ∧ AskedPorts o'.access_str port ports ∧
      r.msg = ip ++ 44 :: ports ∧ IsIPv4 ip ∧ RequestPorts ports ps ∧
      (FitsReceiver r → 10 ^ 9 ≤ r.ts → p.hmac ≠ some [] →
        sentLength (plainLen r (if o'.digest_type = 0 then 3 else o'.digest_type))
          (if p.hmac = none then 0 else b64DigestLen o'.hmac_type) < 400 →
        ∀ (conf : Conf) (now : Int) (pkt : Pkt) (open_ok : Nat → Bool) (sv : Server) (n : Nat) (acc : Stanza),
          Holds pkt t → conf.test = false → (0 ≤ now ∧ now < 2 ^ 31) → (∀ n, open_ok n = true) →
          (∀ a ∈ sv.stanzas, StanzaSafe a ∧ ClosingBuilds a) →
          (conf.persistence = true → ∀ e ∈ sv.cache, e.length = 43 ∧ e ≠ b64NoPad (E.K.H 3 t)) →
          1 ≤ n → stanzaAt sv.stanzas n = some acc → SharesKeys acc p o' →
          Expects conf now pkt.src_ip pkt.dst_ip acc r ip → OpenTo acc ps →
          (0 ≤ acc.max_fw_timeout ∧ acc.max_fw_timeout < 2 ^ 31) →
          (∀ m a, 1 ≤ m → m < n → stanzaAt sv.stanzas m = some a →
            ¬ AddressesOk a pkt.src_ip pkt.dst_ip ∨ Expired a now ∨ ∀ c, authenticate E a t ≠ .ok c) →
          ∃ sv' sp, incoming_spa conf E now pkt open_ok sv = .ok (sv', [.access n acc sp]) ∧
            sp.use_src_ip = grantee (inet_ntop pkt.src_ip) [] ip ∧ sp.spa_message_remain = ports ∧
            sp.message_type = r.type ∧ sp.nat_access = r.nat ∧ sp.pkt_destination_ip = inet_ntop pkt.dst_ip ∧
            (sp.fw_access_timeout : Int) = timeFor acc r.timeout) := by
  obtain ⟨o, o', r, hm, hset, hok, hchk, hask, hall⟩ := client_reads hH hbc htext hrand hsalt
    (fun ip h => ⟨ipv4_text (hres ip h), (isIPv4_length (hres ip h)).2⟩) (fun hc => absurd hcmd hc) hgpg h
  obtain ⟨hsc, ip, port, ports, ps, hip1, hport, hports, hmsg, hip, hps, hlen⟩ := asked_access hres hcmd hm hset hchk hask
  refine ⟨o, o', r, ip, port, ports, ps, hm, hset, hask, hip1, hport, hports, hmsg, hip, hps, ?_⟩
  intro f1 f2 f3 f4 conf now pkt open_ok sv n acc g1 g2 g3 g4 g5 g6 g7 g8 g9 g10 g11 g12 g13
  have hdl := digestLen_least o'.hmac_type
  obtain ⟨s, h5, h6, h7⟩ := hall f1 f3 (by
    unfold sentLength at f4
    by_cases hh : p.hmac = none
    · rw [if_pos hh] at f4 ⊢; omega
    · rw [if_neg hh] at f4 ⊢; omega) (E.gpgDec acc)
  have h5 : fko_new_with_data (E.crypto acc) t (some p.key) (if o'.encryption_mode = 0 then 2 else o'.encryption_mode) p.hmac
      (if p.hmac = none then 0 else o'.hmac_type) = .ok s := h5
  have hdec := new_with_data_decoded _ _ _ _ _ _ s h5
  have huser : r.user ≠ [] := by
    obtain ⟨u, hu1, hu2⟩ := hdec.username
    rw [h6.2.1] at hu1
    cases hu1
    intro h0
    rw [h0] at hu2
    exact absurd hu2 (by decide)
  have hpl := plain_least (d := if o'.digest_type = 0 then 3 else o'.digest_type) hask.rand.1 huser f2 f1.ts hask.version hlen
  have hl1 : 140 ≤ t.length := by rw [h7.len]; omega
  have hl2 : t.length < 400 := by rw [h7.len]; exact f4
  obtain ⟨ha1, ha2⟩ := auth_shared g9 hl1 hl2 h5
  have htype : r.type ≠ 0 := by
    rw [hask.type]
    unfold askedType
    rw [if_neg (by simp [hsc])]
    repeat' split
    all_goals omega
  obtain ⟨sv', hsv⟩ := answered hH hbc hsig h7.sent hl1 (by omega) g1 g2 g3 g4 g5 g6 g7 g8 ha1 ha2 h6 hmsg hip hps htype g10 g11 g13
  refine ⟨sv', _, hsv, rfl, rfl, h6.2.2.2.2.1, h6.2.2.2.2.2.2.1, rfl, ?_⟩
  have := set_timeout_eq acc s g12
  show (set_timeout acc s.client_timeout : Int) = _
  rw [this]
  unfold grantedTime timeFor
  rw [h6.2.2.2.2.2.2.2.2]

/-- The ids of a command. -/
theorem cmdIds_spec (acc : Stanza) :
    (∀ u, acc.cmd_exec_user = some u → ¬ IsRoot u → cmdIds acc = some (acc.cmd_exec_uid, acc.cmd_exec_gid)) ∧
    (acc.cmd_exec_user = none → cmdIds acc = none) := by
  constructor
  · intro u hu hr
    unfold cmdIds
    rw [hu]
    dsimp only
    rw [if_neg (by rw [isRoot_iff]; exact hr)]
  · intro hu
    unfold cmdIds
    rw [hu]

/-- The address in front of a command is the one of -a. -/
theorem asked_command {o : CliOpts} {ip' rest' : Str} (hallow : o.allow_ip_str = [] ∨ IsResolve o.allow_ip_str ∨ IsIPv4 o.allow_ip_str)
    {cmd : Str} (hip' : IsIPv4 ip') (h : o.allow_ip_str ++ 44 :: cmd = ip' ++ 44 :: rest') : IsIPv4 o.allow_ip_str := by
  have h7 := (isIPv4_length hip').1
  have hd := ipv4_head hip'
  rcases hallow with e | e | e
  · exfalso
    rw [e] at h
    rcases ip' with _ | ⟨x, y⟩
    · simp at h7
    · simp at h
      have := hd x rfl
      omega
  · exfalso
    obtain ⟨w, hw⟩ := e
    generalize o.allow_ip_str = a at h hw
    rcases ip' with _ | ⟨x, y⟩
    · simp at h7
    · rcases a with _ | ⟨x', y'⟩
      · simp at hw
      · simp at h hw
        have := hd x rfl
        have h1 := h.1
        have h2 := hw.1
        subst h1
        unfold lower at h2
        split at h2 <;> omega
  · exact e

/-- **C100** (partial: symmetric encryption, no NAT and no timeout beside the command, a packet of 140 to
399 characters, fields that fit the receiver's limits, a non-empty HMAC key, the server's clock before
2038, no sudo, and a server whose stanzas stay inside memory and whose replay cache file can be opened).
Whatever command the client is told to send: if a stanza of the server has the client's keys, mode and
HMAC type, expects the request and allows commands, and no stanza in front of it decodes the packet, then
the packet, when it arrives and is not in the replay cache, has exactly one effect: that very command is
run, as the user that the stanza names. -/
theorem C100_command_is_run_partial {E : Env} (hH : E.K.H.Lawful) (hbc : E.K.bc.Lawful)
    (hsig : ∀ acc text fpr, E.gpgSig acc text = some fpr → 8 ≤ fpr.length) {CE : CliEnv}
    {args : List CliArg} (htext : ∀ a ∈ args, IsText (argText a))
    (hrand : 16 ≤ CE.rands.length ∧ 16 ≤ CE.rands2.length) (hsalt : CE.salt.length = 8 ∧ IsBytes CE.salt)
    (hres : ∀ ip, CE.resolved = some ip → IsIPv4 ip)
    {cmd : Str} (hcmd : given argCommand args = some cmd) (hne : cmd ≠ [])
    (hplain : CliArg.nat_local ∉ args ∧ given argNat args = none ∧ given argTimeout args = none)
    (hgpg : args.any asksGpg = false)
    {p : Packed} {t : Str} (h : client E.K CE {} args = .ok (p, t)) :
    ∃ o o' r ip, Meant args o ∧ Settled o o' ∧ Asks CE o' r ∧ ip = o'.allow_ip_str ∧ r.msg = ip ++ 44 :: cmd ∧
      (FitsReceiver r → p.hmac ≠ some [] →
        140 ≤ sentLength (plainLen r (if o'.digest_type = 0 then 3 else o'.digest_type))
          (if p.hmac = none then 0 else b64DigestLen o'.hmac_type) →
        sentLength (plainLen r (if o'.digest_type = 0 then 3 else o'.digest_type))
          (if p.hmac = none then 0 else b64DigestLen o'.hmac_type) < 400 →
        ∀ (conf : Conf) (now : Int) (pkt : Pkt) (open_ok : Nat → Bool) (sv : Server) (n : Nat) (acc : Stanza),
          Holds pkt t → conf.test = false → (0 ≤ now ∧ now < 2 ^ 31) → (∀ n, open_ok n = true) →
          (∀ a ∈ sv.stanzas, StanzaSafe a ∧ ClosingBuilds a) →
          (conf.persistence = true → ∀ e ∈ sv.cache, e.length = 43 ∧ e ≠ b64NoPad (E.K.H 3 t)) →
          1 ≤ n → stanzaAt sv.stanzas n = some acc → SharesKeys acc p o' →
          Expects conf now pkt.src_ip pkt.dst_ip acc r ip → acc.enable_cmd_exec = true → acc.enable_cmd_sudo_exec = false →
          (∀ m a, 1 ≤ m → m < n → stanzaAt sv.stanzas m = some a →
            ¬ AddressesOk a pkt.src_ip pkt.dst_ip ∨ Expired a now ∨ ∀ c, authenticate E a t ≠ .ok c) →
          IsIPv4 ip ∧ ∃ sv' ids, incoming_spa conf E now pkt open_ok sv = .ok (sv', [.command n cmd ids]) ∧
            (∀ u, acc.cmd_exec_user = some u → ¬ IsRoot u → ids = some (acc.cmd_exec_uid, acc.cmd_exec_gid)) ∧
            (acc.cmd_exec_user = none → ids = none)) := by
  obtain ⟨o, o', r, hm, hset, hok, hchk, hask, hall⟩ := client_reads hH hbc htext hrand hsalt
    (fun ip h => ⟨ipv4_text (hres ip h), (isIPv4_length (hres ip h)).2⟩) (fun _ => hplain) hgpg h
  have hsc : o'.server_command = cmd := by
    have := congrArg CliOpts.server_command hset.same
    rw [← this]
    show o.server_command = cmd
    rw [hm.command, hcmd]
    rfl
  have hmsg := hask.command (by rw [hsc]; exact hne)
  rw [hsc] at hmsg
  refine ⟨o, o', r, _, hm, hset, hask, rfl, hmsg, ?_⟩
  intro f1 f3 f5 f4 conf now pkt open_ok sv n acc g1 g2 g3 g4 g5 g6 g7 g8 g9 g10 g11 g12 g13
  have hdl := digestLen_least o'.hmac_type
  obtain ⟨s, h5, h6, h7⟩ := hall f1 f3 (by
    unfold sentLength at f4
    by_cases hh : p.hmac = none
    · rw [if_pos hh] at f4 ⊢; omega
    · rw [if_neg hh] at f4 ⊢; omega) (E.gpgDec acc)
  have h5 : fko_new_with_data (E.crypto acc) t (some p.key) (if o'.encryption_mode = 0 then 2 else o'.encryption_mode) p.hmac
      (if p.hmac = none then 0 else o'.hmac_type) = .ok s := h5
  have hdec := new_with_data_decoded _ _ _ _ _ _ s h5
  obtain ⟨ip', rest', i1, i2, i3, -⟩ := hdec.message
  rw [h6.2.2.2.2.2.1, hmsg] at i2
  have i2 := Option.some.inj i2
  have hip : IsIPv4 o'.allow_ip_str := asked_command hchk.allow i1 i2
  have hrest : cmd = rest' := by
    have := message_unique (c := { ({} : Ctx) with message := some (o'.allow_ip_str ++ 44 :: cmd) }) ⟨hip, rfl⟩ ⟨i1, by rw [i2]⟩
    exact this.2
  have hl1 : 140 ≤ t.length := by rw [h7.len]; exact f5
  have hl2 : t.length < 400 := by rw [h7.len]; exact f4
  obtain ⟨ha1, ha2⟩ := auth_shared g9 hl1 hl2 h5
  have htype : r.type = 0 := by
    rw [hask.type]
    unfold askedType
    rw [if_pos (by rw [hsc]; exact hne)]
  obtain ⟨sv', hsv⟩ := answered_command hH hbc hsig h7.sent hl1 (by omega) g1 g2 g3 g4 g5 g6 g7 g8 ha1 ha2 h6 hmsg hip htype g10 g11
    g12 (by rw [hrest]; omega) g13
  exact ⟨hip, sv', _, hsv, cmdIds_spec acc⟩

/-- RequestPorts is ProtoPorts without white space. -/
theorem protoPorts_of_request {s : Str} {ps : List (Nat × Nat)} (h : RequestPorts s ps) : ProtoPorts s ps := by
  obtain ⟨items, h1, h2, h3, h4⟩ := h
  refine ⟨items.map fun i => ([], i.1, i.2), by simpa using h1, ?_, ?_, ?_⟩
  · intro i hi
    obtain ⟨j, hj, rfl⟩ := List.mem_map.1 hi
    exact ⟨by simp, h2 j hj⟩
  · rw [h3, List.map_map]; rfl
  · rw [h4, List.map_map]; rfl

/-- **C100** (partial, with what is missing above and in C39: no NAT, the chains in place, no output chain,
no rules put in front, and no port asked for twice).  The knock opens the door: after the packet has been
handled, the input chain of the firewall has rules that match exactly the packets from the address the
client asked for to the ports the client asked for (and to the destination of the SPA packet, if
ENABLE_DESTINATION_RULE is set). -/
theorem C100_knock_opens_the_door_partial {E : Env} (hH : E.K.H.Lawful) (hbc : E.K.bc.Lawful)
    (hsig : ∀ acc text fpr, E.gpgSig acc text = some fpr → 8 ≤ fpr.length) {CE : CliEnv}
    {args : List CliArg} (htext : ∀ a ∈ args, IsText (argText a))
    (hrand : 16 ≤ CE.rands.length ∧ 16 ≤ CE.rands2.length) (hsalt : CE.salt.length = 8 ∧ IsBytes CE.salt)
    (hres : ∀ ip, CE.resolved = some ip → IsIPv4 ip)
    (hcmd : (given argCommand args).getD [] = []) (hgpg : args.any asksGpg = false)
    {p : Packed} {t : Str} (h : client E.K CE {} args = .ok (p, t)) :
    ∃ o o' r ip port ports ps, Meant args o ∧ Settled o o' ∧ Asks CE o' r ∧ AskedIp CE o' ip ∧
      AskedNatPort CE o' port ∧ AskedPorts o'.access_str port ports ∧
      r.msg = ip ++ 44 :: ports ∧ IsIPv4 ip ∧ RequestPorts ports ps ∧
      (FitsReceiver r → 10 ^ 9 ≤ r.ts → p.hmac ≠ some [] →
        sentLength (plainLen r (if o'.digest_type = 0 then 3 else o'.digest_type))
          (if p.hmac = none then 0 else b64DigestLen o'.hmac_type) < 400 →
        ∀ (conf : Conf) (now : Int) (pkt : Pkt) (open_ok : Nat → Bool) (sv : Server) (n : Nat) (acc : Stanza),
          Holds pkt t → conf.test = false → (0 ≤ now ∧ now < 2 ^ 31) → (∀ n, open_ok n = true) →
          (∀ a ∈ sv.stanzas, StanzaSafe a ∧ ClosingBuilds a) →
          (conf.persistence = true → ∀ e ∈ sv.cache, e.length = 43 ∧ e ≠ b64NoPad (E.K.H 3 t)) →
          1 ≤ n → stanzaAt sv.stanzas n = some acc → SharesKeys acc p o' →
          Expects conf now pkt.src_ip pkt.dst_ip acc r ip → OpenTo acc ps →
          (0 ≤ acc.max_fw_timeout ∧ acc.max_fw_timeout < 2 ^ 31) →
          (∀ m a, 1 ≤ m → m < n → stanzaAt sv.stanzas m = some a →
            ¬ AddressesOk a pkt.src_ip pkt.dst_ip ∨ Expired a now ∨ ∀ c, authenticate E a t ≠ .ok c) →
          ∀ (print : Host) (cf : FwConf) (s : FwSt (Tables × List Fate)) (K : Tables) (e : Nat) (c : Word)
            (rs fr : List Rule) (dst : Str),
            s.world = (K, []) → ps.Nodup → ¬ ForNat acc.force_nat r.type →
            (e : Int) = now + timeFor acc r.timeout → e < 2 ^ 32 →
            dst = (if cf.use_destination then inet_ntop pkt.dst_ip else b!"0.0.0.0/0") →
            RequestOk cf (s.at IPT_INPUT_ACCESS) (grantee (inet_ntop pkt.src_ip) [] ip) dst →
            (s.at IPT_OUTPUT_ACCESS).to_chain = [] → cf.prepend = false →
            (s.at IPT_INPUT_ACCESS).to_chain = c → (s.at IPT_INPUT_ACCESS).from_chain ≠ c →
            K (s.at IPT_INPUT_ACCESS).table c = some rs →
            K (s.at IPT_INPUT_ACCESS).table (s.at IPT_INPUT_ACCESS).from_chain = some fr → [b!"-j", c] ∈ fr →
            (∀ q ∈ ps, inputRule q.1 (grantee (inet_ntop pkt.src_ip) [] ip) dst q.2 e (s.at IPT_INPUT_ACCESS).target ∉ rs) →
            grantee (inet_ntop pkt.src_ip) [] ip ≠ b!"0.0.0.0/0" → inet_ntop pkt.dst_ip ≠ b!"0.0.0.0/0" →
            ∃ sv' sp s' new, incoming_spa conf E now pkt open_ok sv = .ok (sv', [.access n acc sp]) ∧
              process_spa_request cf (iptTool print) acc sp now s = .ok s' ∧
              s'.world.1 (s.at IPT_INPUT_ACCESS).table c = some (rs ++ new) ∧
              ∀ pk : Packet, (∃ rule ∈ new, ruleMatches pk rule = true) ↔
                pk.src = grantee (inet_ntop pkt.src_ip) [] ip ∧ (cf.use_destination = true → pk.dst = inet_ntop pkt.dst_ip) ∧
                  (pk.proto, pk.dport) ∈ ps) := by
  obtain ⟨o, o', r, ip, port, ports, ps, h1, h2, h3, h4, h5, h6, h7, h8, h9, hall⟩ :=
    C100_knock_is_answered_partial hH hbc hsig htext hrand hsalt hres hcmd hgpg h
  refine ⟨o, o', r, ip, port, ports, ps, h1, h2, h3, h4, h5, h6, h7, h8, h9, ?_⟩
  intro f1 f2 f3 f4 conf now pkt open_ok sv n acc g1 g2 g3 g4 g5 g6 g7 g8 g9 g10 g11 g12 g13
  intro print cf s K e c rs fr dst w1 w2 w3 w4 w5 w6 w7 w8 w9 w10 w11 w12 w13 w14 w15 w16 w17
  obtain ⟨sv', sp, i1, i2, i3, i4, -, i6, i7⟩ := hall f1 f2 f3 f4 conf now pkt open_ok sv n acc g1 g2 g3 g4 g5 g6 g7 g8 g9
    g10 g11 g12 g13
  have hdst : dstOf cf sp = dst := by rw [w6]; unfold dstOf; rw [i6]
  obtain ⟨s', new, j1, j2, j3⟩ := C39_lets_in_partial print cf acc sp now s K w1 ps (by rw [i3]; exact protoPorts_of_request h9)
    (by rw [i4]; exact w3) e (by rw [i7]; exact w4) w5 (by rw [i2, hdst]; exact w7) w8 w9 _ _ c rfl rfl w10 w11 rs fr w12
    w13 w14 (by rw [i2, hdst]; exact w15) w2 (by rw [i2]; exact w16) (fun _ => by rw [i6]; exact w17)
  rw [i2, i6] at j3
  exact ⟨sv', sp, s', new, i1, j1, j2, j3⟩

/-- The sample server with a stanza in front that has other keys, and the one for the sample client. -/
def knockServer (acc : Stanza) : Server := sampleServer [{ sampleStanzaH with key := some b!"other" }, acc]

/-- An access that was granted. -/
structure Granted where
  stanza : Nat
  ip : Str
  ports : Str
  type : Int
  nat : Option Str
  time : Nat
  deriving DecidableEq

/-- What the packet of a command line does to it. -/
def knock (acc : Stanza) (args : List CliArg) : Res (List Granted) := do
  let x ← client toyCrypto cliEnv {} args
  let y ← incoming_spa { forwarding := true } sampleEnv 1700000010 (samplePkt x.2) (fun _ => true) (knockServer acc)
  return y.2.filterMap fun
    | .access n _ sp => some ⟨n, sp.use_src_ip, sp.spa_message_remain, sp.message_type, sp.nat_access, sp.fw_access_timeout⟩
    | _ => none

/-- Three knocks: ports, NAT with a timeout beyond the stanza's maximum, and the address the packet comes from. -/
example : knock sampleStanzaH cliArgs = .ok [⟨2, b!"5.6.7.8", b!"tcp/22", 1, none, 30⟩] ∧
    knock sampleStanzaH (cliArgs ++ [.nat_access b!"10.0.0.5:80", .nat_port b!"4000", .fw_timeout b!"600"]) =
      .ok [⟨2, b!"5.6.7.8", b!"tcp/4000", 4, some b!"10.0.0.5,80", 300⟩] ∧
    knock sampleStanzaH (cliArgs ++ [.source_ip]) = .ok [⟨2, b!"10.0.0.1", b!"tcp/22", 1, none, 30⟩] := by
  decide +kernel

/-- The sample stanza expects such a request. -/
example : Expects {} 1700000010 0x0A000001 0x0A000002 sampleStanzaH
    ⟨List.replicate 16 55, b!"mbr", 1700000000, b!"3.0.0", 1, b!"5.6.7.8,tcp/22", none, none, 0⟩ b!"5.6.7.8" where
  addresses := ⟨⟨_, List.mem_singleton.2 rfl, by decide⟩, .inl rfl⟩
  live := fun h => absurd h.1 (by decide)
  fresh := fun _ => by decide
  user := nofun
  source := nofun
  forward := by decide
  localNat := by decide
  noCycle := rfl

example : OpenTo sampleStanzaH [(6, 22)] := ⟨[], [], rfl, rfl, by simp, by simp, .inl rfl⟩

example (t : Str) (h : t.length ≤ 1500) : Holds (samplePkt t) t :=
  ⟨⟨List.replicate (1500 - t.length) 0, by
    unfold samplePkt
    rw [show 1501 - t.length = (1500 - t.length) + 1 by omega, List.replicate_succ]⟩, rfl⟩

/-- A request for ten ports, with an HMAC of type SHA512. -/
def longArgs : List CliArg :=
  cliArgs ++ [.access (b!"tcp/22222" ++ (List.replicate 9 b!",tcp/22222").flatten), .hmac_digest b!"sha512"]

/-- **C100 fails for long packets with an HMAC**: the server judges the encryption by the length of the
packet with its HMAC.  This packet of 418 characters is read by the library with the right keys, but
the server takes it for a GnuPG packet and drops it, unless the stanza has ENABLE_CMD_EXEC. -/
theorem C100_long_packets_are_lost :
    packetLength longArgs = .ok 418 ∧ isErr (serverReads longArgs 2 5) = false ∧
    knock { sampleStanzaH with hmac_type := 5 } longArgs = .ok [] ∧
    (do let l ← knock { sampleStanzaH with hmac_type := 5, enable_cmd_exec := true } longArgs
        return l.length) = .ok 1 := by
  decide +kernel

/-- What the packet of a command line makes a server run. -/
def commandsOf (acc : Stanza) (args : List CliArg) : Res (List Effect) := do
  let x ← client toyCrypto cliEnv {} args
  let y ← incoming_spa {} sampleEnv 1700000010 (samplePkt x.2) (fun _ => true) (knockServer acc)
  return y.2

/-- A command, with and without a user to run it; none without ENABLE_CMD_EXEC. -/
example : commandsOf { sampleStanzaH with enable_cmd_exec := true } (cliArgs ++ [.server_cmd b!"id -u, please"]) =
      .ok [.command 2 b!"id -u, please" none] ∧
    commandsOf { sampleStanzaH with enable_cmd_exec := true, cmd_exec_user := some b!"nobody", cmd_exec_uid := 99, cmd_exec_gid := 98 }
      (cliArgs ++ [.server_cmd b!"id"]) = .ok [.command 2 b!"id" (some (99, 98))] ∧
    commandsOf sampleStanzaH (cliArgs ++ [.server_cmd b!"id"]) = .ok [] := by
  decide +kernel

/-- A short command without an HMAC. -/
def shortArgs (digest : Str) : List CliArg :=
  [.allow_ip b!"5.6.7.8", .destination b!"spa.example.org", .key b!"key", .digest digest, .server_cmd b!"id"]

/-- **C100 fails for short commands**: with an MD5 digest and no HMAC the packet for `id` has 118
characters, and the server takes no packet of fewer than 140.  With SHA-256 the command is run. -/
theorem C100_short_commands_are_lost :
    packetLength (shortArgs b!"md5") = .ok 118 ∧
    commandsOf { sampleStanzaH with enable_cmd_exec := true, hmac_key := none, hmac_type := 0 } (shortArgs b!"md5") = .ok [] ∧
    commandsOf { sampleStanzaH with enable_cmd_exec := true, hmac_key := none, hmac_type := 0 } (shortArgs b!"sha256") =
      .ok [.command 2 b!"id" none] := by
  decide +kernel

/-- The input chain of the sample firewall after the packet of a command line. -/
def chainAfter (args : List CliArg) : Res (Option (List Rule)) := do
  let x ← client toyCrypto cliEnv {} args
  let y ← incoming_spa {} sampleEnv 1700000010 (samplePkt x.2) (fun _ => true) (knockServer sampleStanzaH)
  match y.2 with
  | [.access _ acc sp] => do
    let s ← process_spa_request fwSample ipt acc sp 1700000010 ⟨defaultChains, (inPlace, [])⟩
    return s.world.1 b!"filter" b!"FWKNOP_INPUT"
  | _ => .err

/-- From the command line to the rules. -/
example : chainAfter (cliArgs ++ [.access b!"tcp/22,udp/53", .fw_timeout b!"60"]) =
    .ok (some ([[b!"-j", b!"LOG"],
      inputRule 6 b!"5.6.7.8" b!"0.0.0.0/0" 22 1700000070 b!"ACCEPT",
      inputRule 17 b!"5.6.7.8" b!"0.0.0.0/0" 53 1700000070 b!"ACCEPT"])) := by
  decide +kernel

end Fwknop.Props
