import Verif.Lemmas.Post
import Verif.Lemmas.Replay
import Verif.Spec.Incoming

/-!
# Lemmas on the handling of packets
-/

namespace Fwknop

open Res Spec

/-! ## The simple checks -/

theorem addr_list_iff (l : List AddrEnt) (x : Nat) : compare_addr_list l x = true ↔ InList l x := by
  induction l with
  | nil => simp [compare_addr_list, InList]
  | cons e es ih =>
    unfold compare_addr_list
    split
    · rename_i h; exact ⟨fun _ => ⟨e, by simp, h⟩, fun _ => rfl⟩
    · rename_i h
      rw [ih]
      unfold InList
      simp [h]

theorem src_dst_iff (acc : Stanza) (src dst : Nat) :
    src_dst_check acc src dst = true ↔ AddressesOk acc src dst := by
  unfold src_dst_check AddressesOk
  rw [← addr_list_iff, ← addr_list_iff]
  cases compare_addr_list acc.source_list src <;> cases compare_addr_list acc.destination_list dst <;>
    by_cases h : acc.destination_list = [] <;> simp [h]

theorem expiration_iff (now : Int) (acc : Stanza) :
    (check_stanza_expiration now acc).2 = true ↔ ¬ Expired acc now := by
  unfold check_stanza_expiration Expired
  by_cases h1 : acc.access_expire_time > 0
  · simp only [h1, if_true]
    by_cases h2 : acc.expired = true
    · simp [h2]
    · by_cases h3 : now > acc.access_expire_time
      · simp [h2, h3]
      · simp only [h2, h3, if_false]; simp
  · simp [h1]

/-- The stanza after the check. -/
theorem expiration_fst (now : Int) (acc : Stanza) :
    (check_stanza_expiration now acc).1 = acc ∨
      (check_stanza_expiration now acc).1 = { acc with expired := true } := by
  unfold check_stanza_expiration
  split
  · split
    · exact .inl rfl
    · split
      · exact .inr rfl
      · exact .inl rfl
  · exact .inl rfl

theorem expiration_fst_of_live {now : Int} {acc : Stanza} (h : (check_stanza_expiration now acc).2 = true) :
    (check_stanza_expiration now acc).1 = acc := by
  unfold check_stanza_expiration at *
  split
  · rename_i h1
    rw [if_pos h1] at h
    split
    · rfl
    · rename_i h2
      rw [if_neg h2] at h
      split
      · rename_i h3; rw [if_pos h3] at h; simp at h
      · rfl
  · rfl

theorem toInt32_of_small (x : Int) (h : -(2 ^ 31) ≤ x ∧ x < 2 ^ 31) : toInt32 x = x := by
  unfold toInt32; omega

theorem pkt_age_iff (conf : Conf) (now t : Int) (h : now - t < 2 ^ 31 ∧ t - now < 2 ^ 31) :
    check_pkt_age conf now t = true ↔
      (conf.aging = true → now - t ≤ conf.max_age ∧ t - now ≤ conf.max_age) := by
  unfold check_pkt_age
  rw [toInt32_of_small _ (by omega)]
  by_cases ha : conf.aging = true
  · simp only [ha, if_true, gt_iff_lt, Bool.not_eq_true', decide_eq_false_iff_not, true_implies]
    omega
  · simp [ha]

theorem nat_types_iff (conf : Conf) (c : Ctx) :
    check_nat_access_types conf c.message_type = true ↔
      (WantsForward c → conf.forwarding = true) ∧ (WantsLocalNat c → conf.local_nat = true) := by
  unfold check_nat_access_types WantsForward WantsLocalNat
  simp only [FKO_NAT_ACCESS_MSG, FKO_CLIENT_TIMEOUT_NAT_ACCESS_MSG, FKO_LOCAL_NAT_ACCESS_MSG,
    FKO_CLIENT_TIMEOUT_LOCAL_NAT_ACCESS_MSG]
  split
  · rename_i h
    constructor
    · intro hf; exact ⟨fun _ => hf, fun h2 => by omega⟩
    · exact fun hf => hf.1 h
  · rename_i h
    split
    · rename_i h2
      constructor
      · intro hf; exact ⟨fun h3 => absurd h3 h, fun _ => hf⟩
      · exact fun hf => hf.2 h2
    · rename_i h2
      exact ⟨fun _ => ⟨fun h3 => absurd h3 h, fun h3 => absurd h3 h2⟩, fun _ => rfl⟩

theorem username_iff (acc : Stanza) (u : Str) :
    check_username acc (some u) = .ok true ∧ (∀ v, acc.require_username = some v → some u = some v) ∨
    check_username acc (some u) = .ok false ∧ ¬ (∀ v, acc.require_username = some v → some u = some v) := by
  unfold check_username
  split
  · rename_i h; left; simp [h]
  · rename_i v h
    by_cases hu : u = v
    · left; simp [h, hu]
    · right; simp [h, hu]

theorem useSrcIp_eq (a : Addrs) (ip : Str) : useSrcIp a ip = grantee a.src a.xff ip := by
  unfold useSrcIp grantee anyAddr
  by_cases h : ip = b!"0.0.0.0"
  · simp [h]
  · simp [h]

/-! ## Judging a decoded packet -/

/-- The request handed on for a decoded packet. -/
def requestOf (acc : Stanza) (a : Addrs) (c : Ctx) (ip rest : Str) : SpaData :=
  { spaFields acc a c with
    spa_message_src_ip := ip, spa_message_remain := rest, use_src_ip := grantee a.src a.xff ip }

theorem isIPv4_length {ip : Str} (h : IsIPv4 ip) : 7 ≤ ip.length ∧ ip.length ≤ 15 := by
  obtain ⟨a, b, c, d, ha, hb, hc, hd, rfl, hl⟩ := h
  have := List.length_pos_iff.2 ha.1
  have := List.length_pos_iff.2 hb.1
  have := List.length_pos_iff.2 hc.1
  have := List.length_pos_iff.2 hd.1
  simp at hl ⊢
  omega

theorem judgeRest_eq (conf : Conf) (acc : Stanza) (a : Addrs) {c : Ctx} (hd : Decoded c) (ip rest : Str) :
    (judgeRest conf acc a c ip rest = .ok (.go (requestOf acc a c ip rest)) ∧
      ((acc.require_source_address = true → ip ≠ anyAddr) ∧
        (∀ u, acc.require_username = some u → c.username = some u) ∧
        (WantsForward c → conf.forwarding = true) ∧ (WantsLocalNat c → conf.local_nat = true))) ∨
    (judgeRest conf acc a c ip rest = .ok .next ∧
      ¬ ((acc.require_source_address = true → ip ≠ anyAddr) ∧
        (∀ u, acc.require_username = some u → c.username = some u) ∧
        (WantsForward c → conf.forwarding = true) ∧ (WantsLocalNat c → conf.local_nat = true))) := by
  obtain ⟨u, hu, -⟩ := hd.username
  unfold judgeRest
  rw [show b!"0.0.0.0" = anyAddr from rfl]
  by_cases h1 : ip = anyAddr ∧ acc.require_source_address = true
  · right
    rw [if_pos h1]
    exact ⟨rfl, fun h => h.1 h1.2 h1.1⟩
  · rw [if_neg h1]
    rw [hu]
    rcases username_iff acc u with ⟨e, h2⟩ | ⟨e, h2⟩
    · rw [e]
      by_cases h3 : check_nat_access_types conf c.message_type = true
      · left
        refine ⟨?_, fun hr hip => h1 ⟨hip, hr⟩, h2, (nat_types_iff conf c).1 h3⟩
        simp only [Res.bind_ok, h3]
        simp [requestOf, useSrcIp_eq]
      · right
        refine ⟨?_, fun h => h3 ((nat_types_iff conf c).2 h.2.2)⟩
        simp only [Res.bind_ok, h3]
        simp
    · right
      rw [e]
      exact ⟨by simp, fun h => h2 h.2.1⟩

/-- Judging a decoded packet: never undefined, never a stop, and a request exactly when the demands
are met. -/
theorem judge_eq (conf : Conf) (now : Int) (acc : Stanza) (a : Addrs) {c : Ctx} (hd : Decoded c) :
    ∃ ip rest, Message c ip rest ∧ rest.length < 256 ∧
    ((judge conf now acc a c = .ok (.go (requestOf acc a c ip rest)) ∧
      (check_pkt_age conf now c.timestamp = true ∧ (acc.require_source_address = true → ip ≠ anyAddr) ∧
        (∀ u, acc.require_username = some u → c.username = some u) ∧
        (WantsForward c → conf.forwarding = true) ∧ (WantsLocalNat c → conf.local_nat = true))) ∨
    (judge conf now acc a c = .ok .next ∧
      ¬ (check_pkt_age conf now c.timestamp = true ∧ (acc.require_source_address = true → ip ≠ anyAddr) ∧
        (∀ u, acc.require_username = some u → c.username = some u) ∧
        (WantsForward c → conf.forwarding = true) ∧ (WantsLocalNat c → conf.local_nat = true)))) := by
  obtain ⟨ip, rest, h1, h2, h3, h4, h5⟩ := hd.message
  refine ⟨ip, rest, ⟨h1, h2⟩, h3, ?_⟩
  unfold judge
  by_cases ha : check_pkt_age conf now c.timestamp = true
  · have hl := isIPv4_length h1
    have hv : is_valid_ipv4_addr ip ip.length = true := (valid_ipv4_iff ip hl.2).2 h1
    rw [h2]
    simp only [ha, Bool.not_true, Bool.false_eq_true, if_false]
    rw [strchr_split ip rest 44 (ipv4_no_comma ip h1)]
    simp only
    rw [if_neg (by simp only [MIN_IPV4_STR_LEN, MAX_IPV4_STR_LEN]; omega),
      mem_of_not (by simp only [MAX_IPV4_STR_LEN]; omega)]
    simp only [Res.bind_ok, List.take_left, hv]
    rw [show (ip ++ 44 :: rest).drop (ip.length + 1) = rest from by simp [List.drop_append],
      List.take_of_length_le (by omega)]
    simp only [Bool.not_true, Bool.false_eq_true, if_false, true_and]
    exact judgeRest_eq conf acc a hd ip rest
  · right
    simp [ha]

/-! ## Authentication -/

theorem authGpg_decoded (E : Env) (acc : Stanza) (text : Str) : Post (authGpg E acc text) Decoded := by
  unfold authGpg
  split
  · refine post_bind _ (new_with_data_timeout _ text _ _ _) fun c hc => post_guard fun _ =>
      decrypt_post _ c _ hc
  · exact post_err

theorem authenticate_decoded (E : Env) (acc : Stanza) (text : Str) (hk : KeysOk acc) :
    Post (authenticate E acc text) Decoded := by
  unfold authenticate
  split
  · rename_i ht
    have hkey := hk (by unfold triesRijndael at ht; simp at ht; exact ht.1)
    obtain ⟨k, hk⟩ := Option.ne_none_iff_exists'.1 hkey
    rw [hk]
    have := new_with_data_decoded (E.crypto acc) text k acc.encryption_mode acc.hmac_key acc.hmac_type
    split
    · exact post_ub
    · rename_i c hc; exact post_ok (this c hc)
    · exact authGpg_decoded E acc text
  · exact authGpg_decoded E acc text


/-! ## Carrying out a request -/

/-- What an effect of `act` is. -/
theorem act_effects {conf : Conf} {now : Int} {acc : Stanza} {n : Nat} {sp : SpaData} {cyc : List CycleEnt}
    {r : Acted} (h : act conf now acc n sp cyc = .ok r) {e : Effect} (he : e ∈ r.effects) :
    (acc.cmd_cycle_open ≠ none ∧ ∃ cmd, e = .cycle n cmd ∧
      build_cmd sp (acc.cmd_cycle_open.getD []) acc.cmd_cycle_timer = .ok (some cmd)) ∨
    (acc.cmd_cycle_open = none ∧ sp.message_type = 0 ∧ acc.enable_cmd_exec = true ∧ conf.test = false ∧
      ∃ cmd, e = .command n cmd (cmdIds acc) ∧
        (if acc.enable_cmd_sudo_exec then sudoCmd conf acc sp.spa_message_remain = .ok cmd
          else cmd = strlcpy sp.spa_message_remain MAX_SPA_CMD_LEN)) ∨
    (acc.cmd_cycle_open = none ∧ sp.message_type ≠ 0 ∧ acc_check_port_access acc sp.spa_message_remain = true ∧
      conf.test = false ∧ e = .access n acc sp) := by
  unfold act at h
  by_cases h1 : acc.cmd_cycle_open ≠ none
  · left
    rw [if_pos h1] at h
    unfold actCycle at h
    obtain ⟨o, ho, h⟩ := bind_eq_ok h
    cases h
    refine ⟨h1, ?_⟩
    unfold cmd_cycle_open at ho
    obtain ⟨b, hb, ho⟩ := bind_eq_ok ho
    cases b with
    | none => cases ho; simp at he
    | some cmd =>
      have : o.ran = some cmd := by
        dsimp only at ho
        split at ho
        · obtain ⟨l2, -, ho⟩ := bind_eq_ok ho
          split at ho <;> cases ho <;> rfl
        · cases ho; rfl
      simp [this] at he
      exact ⟨cmd, he, hb⟩
  · rw [if_neg h1] at h
    simp only [ne_eq, Decidable.not_not] at h1
    by_cases h2 : sp.message_type = FKO_COMMAND_MSG
    · right; left
      rw [if_pos h2] at h
      unfold actCommand at h
      obtain ⟨x, hx, h⟩ := bind_eq_ok h
      cases x with
      | none => cases h; simp at he
      | some y =>
        cases h
        simp only [List.mem_singleton] at he
        unfold process_cmd_msg at hx
        cases h3 : acc.enable_cmd_exec with
        | false => simp [h3] at hx
        | true =>
          cases h4 : conf.test with
          | true => simp [h3, h4] at hx
          | false =>
            simp only [h3, h4, Bool.not_true, Bool.false_eq_true, if_false] at hx
            cases h5 : acc.enable_cmd_sudo_exec with
            | true =>
              simp only [h5, if_true] at hx
              obtain ⟨cmd, hc, hx⟩ := bind_eq_ok hx
              cases hx
              exact ⟨h1, h2, rfl, rfl, cmd, he, by simpa using hc⟩
            | false =>
              simp only [h5, Bool.false_eq_true, if_false] at hx
              cases hx
              exact ⟨h1, h2, rfl, rfl, _, he, by simp⟩
    · right; right
      rw [if_neg h2] at h
      cases h
      unfold actAccess at he
      cases h3 : acc_check_port_access acc sp.spa_message_remain with
      | false => simp [h3] at he
      | true =>
        cases h4 : conf.test with
        | true => simp [h3, h4] at he
        | false =>
          simp [h3, h4] at he
          exact ⟨h1, h2, rfl, rfl, he⟩

theorem act_stops {conf : Conf} {now : Int} {acc : Stanza} {n : Nat} {sp : SpaData} {cyc : List CycleEnt}
    {r : Acted} (hc : ClosingBuilds acc) (h : act conf now acc n sp cyc = .ok r) (he : r.effects ≠ []) :
    r.stop = true ∧ r.effects.length = 1 := by
  unfold act at h
  by_cases h1 : acc.cmd_cycle_open ≠ none
  · rw [if_pos h1] at h
    unfold actCycle at h
    obtain ⟨o, ho, h⟩ := bind_eq_ok h
    cases h
    unfold cmd_cycle_open at ho
    obtain ⟨b, hb, ho⟩ := bind_eq_ok ho
    cases b with
    | none => cases ho; simp at he
    | some cmd =>
      dsimp only at ho
      split at ho
      · rename_i hdo
        obtain ⟨l2, hl, ho⟩ := bind_eq_ok ho
        unfold add_cmd_close at hl
        obtain ⟨b2, hb2, hl⟩ := bind_eq_ok hl
        cases b2 with
        | none =>
          obtain ⟨cmd2, h2⟩ := hc h1 hdo sp cmd hb
          rw [hb2] at h2; cases h2
        | some c2 => cases hl; cases ho; exact ⟨rfl, rfl⟩
      · cases ho; exact ⟨rfl, rfl⟩
  · rw [if_neg h1] at h
    split at h
    · unfold actCommand at h
      obtain ⟨x, hx, h⟩ := bind_eq_ok h
      cases x with
      | none => cases h; simp at he
      | some y => cases h; exact ⟨rfl, rfl⟩
    · cases h
      unfold actAccess at *
      split
      · rename_i hh; rw [if_pos hh] at he; simp at he
      · rename_i hh
        rw [if_neg hh] at he
        split
        · rename_i hh2; rw [if_pos hh2] at he; simp at he
        · exact ⟨rfl, rfl⟩

theorem cycle_open_cases {now : Int} {acc : Stanza} {sp : SpaData} {n : Nat} {l : List CycleEnt} {o : CycleOpened}
    (h : cmd_cycle_open now acc sp n l = .ok o) :
    (o.ran = none → o.ret = false) ∧
    ∀ l', ∃ o', cmd_cycle_open now acc sp n l' = .ok o' ∧ o'.ran = o.ran ∧ o'.ret = o.ret := by
  unfold cmd_cycle_open at *
  obtain ⟨b, hb, h⟩ := bind_eq_ok h
  rw [hb]
  cases b with
  | none => cases h; exact ⟨fun _ => rfl, fun l' => ⟨_, rfl, rfl, rfl⟩⟩
  | some cmd =>
    simp only [Res.bind_ok] at h ⊢
    by_cases hd : acc.cmd_cycle_do_close = true
    · rw [if_pos hd] at h
      simp only [if_pos hd]
      unfold add_cmd_close at *
      obtain ⟨l2, h2, h⟩ := bind_eq_ok h
      obtain ⟨b2, h3, h2⟩ := bind_eq_ok h2
      rw [h3]
      cases b2 with
      | none => cases h2; cases h; exact ⟨nofun, fun l' => ⟨_, rfl, rfl, rfl⟩⟩
      | some _ => cases h2; cases h; exact ⟨nofun, fun l' => ⟨_, rfl, rfl, rfl⟩⟩
    · rw [if_neg hd] at h
      simp only [if_neg hd]
      cases h
      exact ⟨nofun, fun l' => ⟨_, rfl, rfl, rfl⟩⟩

/-- A request that has no effect does not end the loop, and the effects do not depend on the
pending closings. -/
theorem act_indep {conf : Conf} {now : Int} {acc : Stanza} {n : Nat} {sp : SpaData} {cyc : List CycleEnt}
    {r : Acted} (h : act conf now acc n sp cyc = .ok r) :
    (r.effects = [] → r.stop = false) ∧
    ∀ cyc', ∃ r', act conf now acc n sp cyc' = .ok r' ∧ r'.effects = r.effects := by
  unfold act at *
  by_cases h1 : acc.cmd_cycle_open ≠ none
  · rw [if_pos h1] at h
    simp only [if_pos h1]
    unfold actCycle at *
    obtain ⟨o, ho, h⟩ := bind_eq_ok h
    obtain ⟨c1, c2⟩ := cycle_open_cases ho
    cases h
    constructor
    · intro he
      apply c1
      cases hr : o.ran with
      | none => rfl
      | some x => simp [hr] at he
    · intro cyc'
      obtain ⟨o', q1, q2, q3⟩ := c2 cyc'
      rw [q1]
      exact ⟨_, rfl, by simp [q2]⟩
  · rw [if_neg h1] at h
    simp only [if_neg h1]
    by_cases h2 : sp.message_type = FKO_COMMAND_MSG
    · rw [if_pos h2] at h
      simp only [if_pos h2]
      unfold actCommand at *
      obtain ⟨x, hx, h⟩ := bind_eq_ok h
      rw [hx]
      cases x with
      | none => cases h; exact ⟨fun _ => rfl, fun _ => ⟨_, rfl, rfl⟩⟩
      | some _ => cases h; exact ⟨fun h => by simp at h, fun _ => ⟨_, rfl, rfl⟩⟩
    · rw [if_neg h2] at h
      simp only [if_neg h2]
      cases h
      unfold actAccess
      by_cases h3 : (!acc_check_port_access acc sp.spa_message_remain) = true
      · simp only [if_pos h3]; exact ⟨fun _ => trivial, fun _ => ⟨_, rfl, rfl⟩⟩
      · simp only [if_neg h3]
        by_cases h4 : conf.test = true
        · simp only [if_pos h4]; exact ⟨fun _ => trivial, fun _ => ⟨_, rfl, rfl⟩⟩
        · simp only [if_neg h4]; exact ⟨fun h => by simp at h, fun _ => ⟨_, rfl, rfl⟩⟩

/-! ## One stanza -/

/-- Stanza `n` passed every check and its request was carried out. -/
structure Acting (conf : Conf) (E : Env) (now : Int) (p : Pkt) (a : Addrs) (text : Str) (n : Nat)
    (acc : Stanza) (cyc : List CycleEnt) (c : Ctx) (sp : SpaData) (r : Acted) : Prop where
  addresses : AddressesOk acc p.src_ip p.dst_ip
  live : ¬ Expired acc now
  auth : authenticate E acc text = .ok c
  sigs : handle_gpg_sigs E acc text c = .ok ()
  judged : judge conf now acc a c = .ok (.go sp)
  acted : act conf now acc n sp cyc = .ok r

section
variable {conf : Conf} {E : Env} {now : Int} {p : Pkt} {a : Addrs} {text : Str} {digest : Option Str}
  {open_ok : Bool} {n : Nat} {acc : Stanza}

theorem add_replay_cache_frame (i : ReplayInfo) (s : Loop) :
    (add_replay_cache conf open_ok i digest s).1.effects = s.effects ∧
    (add_replay_cache conf open_ok i digest s).1.cycles = s.cycles ∧
    (∀ d ∈ s.cache, d ∈ (add_replay_cache conf open_ok i digest s).1.cache) ∧
    ((add_replay_cache conf open_ok i digest s).1.added = true →
      s.added = true ∨ digest.getD [] ∈ (add_replay_cache conf open_ok i digest s).1.cache) ∧
    ((add_replay_cache conf open_ok i digest s).2 = true → conf.test = false → conf.persistence = true →
      (add_replay_cache conf open_ok i digest s).1.added = true) ∧
    (open_ok = true → (add_replay_cache conf open_ok i digest s).2 = true) ∧
    (s.added = true → (add_replay_cache conf open_ok i digest s).1.added = true) := by
  unfold add_replay_cache add_replay
  by_cases h : (!conf.test) = true ∧ (!s.added) = true ∧ conf.persistence = true
  · simp only [h.1, h.2.1, h.2.2]
    cases open_ok <;> simp <;> (have := h.2.1; cases hs : s.added <;> simp_all)
  · simp only [if_neg h]
    refine ⟨trivial, trivial, fun _ h => h, fun h => .inl h, fun _ h1 h2 => ?_, fun _ => trivial, fun h => h⟩
    simp only [h1, h2] at h
    cases hs : s.added <;> simp [hs] at h ⊢

/-- A pass of the loop either changes no effect, or the stanza acted. -/
theorem try_cases {s s' : Loop} {acc' : Stanza} {stop : Bool} (hk : KeysOk acc)
    (h : tryStanza conf E now p a text digest open_ok n acc s = .ok (acc', s', stop)) :
    (s'.effects = s.effects ∧ s'.cycles = s.cycles ∧ stop = false) ∨
    ∃ c sp r, Acting conf E now p a text n acc s.cycles c sp r ∧ s'.effects = s.effects ++ r.effects ∧
      s'.cycles = r.cycles ∧ stop = r.stop ∧
      (conf.test = false → conf.persistence = true → s'.added = true) := by
  unfold tryStanza at h
  by_cases h1 : src_dst_check acc p.src_ip p.dst_ip = true
  case neg =>
    rw [if_pos (by simpa using h1)] at h
    cases h; exact .inl ⟨rfl, rfl, rfl⟩
  rw [if_neg (by simpa using h1)] at h
  dsimp only at h
  by_cases h2 : (check_stanza_expiration now acc).2 = true
  case neg =>
    rw [if_pos (by simpa using h2)] at h
    cases h; exact .inl ⟨rfl, rfl, rfl⟩
  rw [if_neg (by simpa using h2)] at h
  split at h
  · cases h
  · cases h; exact .inl ⟨rfl, rfl, rfl⟩
  · rename_i c hc
    obtain ⟨q, hq, h⟩ := bind_eq_ok h
    cases h
    unfold afterAuth at hq
    dsimp only at hq
    have hf := add_replay_cache_frame (conf := conf) (open_ok := open_ok) (digest := digest)
      ⟨p.proto, p.src_ip, p.dst_ip, p.src_port, p.dst_port, now⟩ s
    split at hq
    · cases hq; exact .inl ⟨hf.1, hf.2.1, rfl⟩
    · rename_i hadd
      split at hq
      · cases hq
      · cases hq; exact .inl ⟨hf.1, hf.2.1, rfl⟩
      · rename_i hs
        obtain ⟨v, hv, hq⟩ := bind_eq_ok hq
        obtain ⟨ip, rest, -, -, hj⟩ := judge_eq conf now acc a (authenticate_decoded E acc text hk c hc)
        rcases hj with ⟨hj, -⟩ | ⟨hj, -⟩
        · rw [hj] at hv
          cases hv
          unfold carryOut at hq
          obtain ⟨r, hr, hq⟩ := bind_eq_ok hq
          cases hq
          rw [hf.2.1] at hr
          refine .inr ⟨c, _, r, ⟨(src_dst_iff _ _ _).1 h1, (expiration_iff _ _).1 h2, hc, hs, hj, hr⟩, ?_, rfl, rfl, ?_⟩
          · show _ ++ _ = _; rw [hf.1]
          · exact hf.2.2.2.2.1 (by simpa using hadd)
        · rw [hj] at hv
          cases hv
          cases hq
          exact .inl ⟨hf.1, hf.2.1, rfl⟩

/-- If the stanza passes every check and the replay cache can be written, it acts. -/
theorem try_complete {c : Ctx} {sp : SpaData} {r : Acted} (s : Loop)
    (h : Acting conf E now p a text n acc s.cycles c sp r) (ho : open_ok = true) :
    ∃ s', tryStanza conf E now p a text digest open_ok n acc s = .ok (acc, s', r.stop) ∧
      s'.effects = s.effects ++ r.effects := by
  unfold tryStanza
  rw [if_neg (by simpa using (src_dst_iff _ _ _).2 h.addresses)]
  dsimp only
  have hl := (expiration_iff _ _).2 h.live
  rw [if_neg (by simpa using hl), h.auth]
  dsimp only
  have hf := add_replay_cache_frame (conf := conf) (open_ok := open_ok) (digest := digest)
      ⟨p.proto, p.src_ip, p.dst_ip, p.src_port, p.dst_port, now⟩ s
  unfold afterAuth
  dsimp only
  rw [if_neg (by simpa using hf.2.2.2.2.2.1 ho), h.sigs]
  dsimp only
  rw [h.judged]
  unfold carryOut
  simp only [Res.bind_ok]
  rw [hf.2.1, h.acted]
  refine ⟨_, by simp only [Res.bind_ok, expiration_fst_of_live hl]; rfl, ?_⟩
  show _ ++ _ = _; rw [hf.1]

/-- The cache only grows, and the mark says that the digest is in it. -/
theorem try_cache {s s' : Loop} {acc' : Stanza} {stop : Bool} (hk : KeysOk acc)
    (h : tryStanza conf E now p a text digest open_ok n acc s = .ok (acc', s', stop)) :
    (∀ d ∈ s.cache, d ∈ s'.cache) ∧ (s'.added = true → s.added = true ∨ digest.getD [] ∈ s'.cache) ∧
      (s.added = true → s'.added = true) := by
  unfold tryStanza at h
  split at h
  · cases h; exact ⟨fun _ h => h, .inl, id⟩
  dsimp only at h
  split at h
  · cases h; exact ⟨fun _ h => h, .inl, id⟩
  split at h
  · cases h
  · cases h; exact ⟨fun _ h => h, .inl, id⟩
  · rename_i c hc
    obtain ⟨q, hq, h⟩ := bind_eq_ok h
    cases h
    unfold afterAuth at hq
    dsimp only at hq
    have hf := add_replay_cache_frame (conf := conf) (open_ok := open_ok) (digest := digest)
      ⟨p.proto, p.src_ip, p.dst_ip, p.src_port, p.dst_port, now⟩ s
    split at hq
    · cases hq; exact ⟨hf.2.2.1, hf.2.2.2.1, hf.2.2.2.2.2.2⟩
    · split at hq
      · cases hq
      · cases hq; exact ⟨hf.2.2.1, hf.2.2.2.1, hf.2.2.2.2.2.2⟩
      · obtain ⟨v, hv, hq⟩ := bind_eq_ok hq
        obtain ⟨ip, rest, -, -, hj⟩ := judge_eq conf now acc a (authenticate_decoded E acc text hk c hc)
        rcases hj with ⟨hj, -⟩ | ⟨hj, -⟩ <;> rw [hj] at hv <;> cases hv
        · unfold carryOut at hq
          obtain ⟨r, hr, hq⟩ := bind_eq_ok hq
          cases hq
          exact ⟨hf.2.2.1, hf.2.2.2.1, hf.2.2.2.2.2.2⟩
        · cases hq; exact ⟨hf.2.2.1, hf.2.2.2.1, hf.2.2.2.2.2.2⟩

/-- What happens to the stanza itself. -/
theorem try_stanza {s s' : Loop} {acc' : Stanza} {stop : Bool}
    (h : tryStanza conf E now p a text digest open_ok n acc s = .ok (acc', s', stop)) :
    (acc' = acc ∨ acc' = { acc with expired := true } ∧ Expired acc now) ∧
      (AddressesOk acc p.src_ip p.dst_ip → Expired acc now → acc'.expired = true) := by
  have key : ∀ x : Stanza, x = (check_stanza_expiration now acc).1 →
      (x = acc ∨ x = { acc with expired := true } ∧ Expired acc now) ∧ (Expired acc now → x.expired = true) := by
    rintro x rfl
    by_cases hl : (check_stanza_expiration now acc).2 = true
    · have := (expiration_iff now acc).1 hl
      exact ⟨.inl (expiration_fst_of_live hl), fun h => absurd h this⟩
    · have hex : Expired acc now := by
        by_cases hx : Expired acc now
        · exact hx
        · exact absurd ((expiration_iff now acc).2 hx) hl
      constructor
      · rcases expiration_fst now acc with h | h
        · exact .inl h
        · exact .inr ⟨h, hex⟩
      · intro _
        unfold check_stanza_expiration
        rw [if_pos hex.1]
        split
        · assumption
        · rename_i h2
          rw [if_pos]
          rcases hex.2 with h | h
          · exact absurd h h2
          · exact h
  unfold tryStanza at h
  by_cases h1 : src_dst_check acc p.src_ip p.dst_ip = true
  case neg =>
    rw [if_pos (by simpa using h1)] at h
    cases h
    exact ⟨.inl rfl, fun h => absurd ((src_dst_iff _ _ _).2 h) h1⟩
  rw [if_neg (by simpa using h1)] at h
  dsimp only at h
  have : acc' = (check_stanza_expiration now acc).1 := by
    split at h
    · cases h; rfl
    · split at h
      · cases h
      · cases h; rfl
      · obtain ⟨q, hq, h⟩ := bind_eq_ok h
        cases h; rfl
  exact ⟨(key acc' this).1, fun _ => (key acc' this).2⟩

end

/-! ## The loop -/

section
variable {conf : Conf} {E : Env} {now : Int} {p : Pkt} {a : Addrs} {text : Str} {digest : Option Str}
  {open_ok : Nat → Bool}

/-- One step of the loop. -/
theorem loop_cons {n : Nat} {acc : Stanza} {rest sts' : List Stanza} {s s' : Loop}
    (h : stanzaLoop conf E now p a text digest open_ok n (acc :: rest) s = .ok (sts', s')) :
    ∃ acc1 s1 stop, tryStanza conf E now p a text digest (open_ok n) n acc s = .ok (acc1, s1, stop) ∧
      ((stop = true ∧ sts' = acc1 :: rest ∧ s' = s1) ∨
       (stop = false ∧ ∃ rest', sts' = acc1 :: rest' ∧
          stanzaLoop conf E now p a text digest open_ok (n + 1) rest s1 = .ok (rest', s'))) := by
  rw [stanzaLoop] at h
  obtain ⟨⟨acc1, s1, stop⟩, h1, h⟩ := bind_eq_ok h
  refine ⟨acc1, s1, stop, h1, ?_⟩
  cases stop with
  | true =>
    simp only [if_true] at h
    cases h; exact .inl ⟨rfl, rfl, rfl⟩
  | false =>
    simp only [Bool.false_eq_true, if_false] at h
    obtain ⟨q, hq, h⟩ := bind_eq_ok h
    cases h
    exact .inr ⟨rfl, q.1, rfl, hq⟩

/-- Every new effect was caused by a stanza that passed every check. -/
theorem loop_effects {sts : List Stanza} : ∀ {n : Nat} {sts' : List Stanza} {s s' : Loop},
    (∀ acc ∈ sts, KeysOk acc) →
    stanzaLoop conf E now p a text digest open_ok n sts s = .ok (sts', s') →
    ∃ new, s'.effects = s.effects ++ new ∧ ∀ e ∈ new, ∃ k acc cyc c sp r, sts[k]? = some acc ∧
      Acting conf E now p a text (n + k) acc cyc c sp r ∧ e ∈ r.effects := by
  induction sts with
  | nil => intro n sts' s s' _ h; cases h; exact ⟨[], by simp, by simp⟩
  | cons acc rest ih =>
    intro n sts' s s' hk h
    obtain ⟨acc1, s1, stop, h1, h2⟩ := loop_cons h
    have first : ∃ new, s1.effects = s.effects ++ new ∧ ∀ e ∈ new, ∃ k acc' cyc c sp r, (acc :: rest)[k]? = some acc' ∧
        Acting conf E now p a text (n + k) acc' cyc c sp r ∧ e ∈ r.effects := by
      rcases try_cases (hk acc (by simp)) h1 with ⟨he, -, -⟩ | ⟨c, sp, r, hA, he, -⟩
      · exact ⟨[], by simp [he], by simp⟩
      · exact ⟨r.effects, he, fun e hm => ⟨0, acc, _, c, sp, r, by simp, hA, hm⟩⟩
    obtain ⟨new1, e1, f1⟩ := first
    rcases h2 with ⟨-, -, rfl⟩ | ⟨-, rest', -, h2⟩
    · exact ⟨new1, e1, f1⟩
    · obtain ⟨new2, e2, f2⟩ := ih (fun x hx => hk x (by simp [hx])) h2
      refine ⟨new1 ++ new2, by rw [e2, e1, List.append_assoc], fun e he => ?_⟩
      rcases List.mem_append.1 he with he | he
      · exact f1 e he
      · obtain ⟨k, acc', cyc, c, sp, r, q1, q2, q3⟩ := f2 e he
        exact ⟨k + 1, acc', cyc, c, sp, r, by simpa using q1, by rw [show n + (k + 1) = n + 1 + k from by omega]; exact q2, q3⟩

/-- The first stanza that passes every check acts, and no other. -/
theorem loop_first {sts : List Stanza} : ∀ {n : Nat} {sts' : List Stanza} {s s' : Loop},
    (∀ acc ∈ sts, KeysOk acc ∧ ClosingBuilds acc) → (∀ n, open_ok n = true) →
    stanzaLoop conf E now p a text digest open_ok n sts s = .ok (sts', s') →
    (s'.effects = s.effects ∧ ∀ k acc, sts[k]? = some acc → ∀ cyc c sp r,
      Acting conf E now p a text (n + k) acc cyc c sp r → r.effects = []) ∨
    ∃ e k acc cyc c sp r, s'.effects = s.effects ++ [e] ∧ sts[k]? = some acc ∧
      Acting conf E now p a text (n + k) acc cyc c sp r ∧ r.effects = [e] ∧
      ∀ j < k, ∀ acc', sts[j]? = some acc' → ∀ cyc c sp r,
        Acting conf E now p a text (n + j) acc' cyc c sp r → r.effects = [] := by
  induction sts with
  | nil => intro n sts' s s' _ _ h; cases h; exact .inl ⟨rfl, by simp⟩
  | cons acc rest ih =>
    intro n sts' s s' hk ho h
    obtain ⟨acc1, s1, stop, h1, h2⟩ := loop_cons h
    have step : (s1.effects = s.effects ∧ stop = false ∧
          ∀ cyc c sp r, Acting conf E now p a text n acc cyc c sp r → r.effects = []) ∨
        ∃ e c sp r, s1.effects = s.effects ++ [e] ∧ Acting conf E now p a text n acc s.cycles c sp r ∧
          r.effects = [e] ∧ stop = true := by
      have hcyc : ∀ cyc c sp r, Acting conf E now p a text n acc cyc c sp r → r.effects ≠ [] →
          ∃ r', Acting conf E now p a text n acc s.cycles c sp r' ∧ r'.effects ≠ [] := by
        intro cyc c sp r hA hne
        obtain ⟨r', q1, q2⟩ := (act_indep hA.acted).2 s.cycles
        exact ⟨r', ⟨hA.addresses, hA.live, hA.auth, hA.sigs, hA.judged, q1⟩, by rw [q2]; exact hne⟩
      rcases try_cases (hk acc (by simp)).1 h1 with ⟨he, -, hst⟩ | ⟨c, sp, r, hA, he, -, hst, -⟩
      · left
        refine ⟨he, hst, fun cyc c sp r hA => ?_⟩
        by_cases hne : r.effects = []
        · exact hne
        · obtain ⟨r', hA', hne'⟩ := hcyc cyc c sp r hA hne
          obtain ⟨s2, t1, t2⟩ := try_complete (digest := digest) s hA' (ho n)
          rw [t1] at h1
          cases h1
          rw [t2] at he
          exact absurd (by simpa using he) hne'
      · by_cases hne : r.effects = []
        · left
          have hstop : stop = false ∧ ∀ cyc c sp r, Acting conf E now p a text n acc cyc c sp r → r.effects = [] := by
            have hnone : ∀ cyc c' sp' r', Acting conf E now p a text n acc cyc c' sp' r' → r'.effects = [] := by
              intro cyc c' sp' r' hA'
              by_cases hne' : r'.effects = []
              · exact hne'
              · obtain ⟨r2, hA2, hne2⟩ := hcyc cyc c' sp' r' hA' hne'
                have e1 : c' = c := by have := hA2.auth.symm.trans hA.auth; cases this; rfl
                subst e1
                have e2 : sp' = sp := by have := hA2.judged.symm.trans hA.judged; cases this; rfl
                subst e2
                have e3 : r2 = r := by have := hA2.acted.symm.trans hA.acted; cases this; rfl
                subst e3
                exact absurd hne hne2
            exact ⟨by rw [hst]; exact (act_indep hA.acted).1 hne, hnone⟩
          exact ⟨by rw [he, hne, List.append_nil], hstop.1, hstop.2⟩
        · right
          have hs := act_stops (hk acc (by simp)).2 hA.acted hne
          obtain ⟨e, hre⟩ := List.length_eq_one_iff.1 hs.2
          exact ⟨e, c, sp, r, by rw [he, hre], hA, hre, by rw [hst, hs.1]⟩
    rcases step with ⟨he, hst, hno⟩ | ⟨e, c, sp, r, he, hA, hre, hst⟩
    · rcases h2 with ⟨hst', -, -⟩ | ⟨-, rest', -, h2⟩
      · rw [hst] at hst'; cases hst'
      · rcases ih (fun x hx => hk x (by simp [hx])) ho h2 with ⟨q1, q2⟩ | ⟨e, k, acc', cyc, c, sp, r, q1, q2, q3, q4, q5⟩
        · left
          refine ⟨by rw [q1, he], fun k acc' hacc cyc c sp r hA => ?_⟩
          cases k with
          | zero => simp at hacc; subst hacc; exact hno cyc c sp r hA
          | succ k =>
            exact q2 k acc' (by simpa using hacc) cyc c sp r (by rw [show n + 1 + k = n + (k + 1) from by omega]; exact hA)
        · right
          refine ⟨e, k + 1, acc', cyc, c, sp, r, by rw [q1, he], by simpa using q2,
            by rw [show n + (k + 1) = n + 1 + k from by omega]; exact q3, q4, fun j hj acc'' hacc cyc c sp r hA => ?_⟩
          cases j with
          | zero => simp at hacc; subst hacc; exact hno cyc c sp r hA
          | succ j =>
            exact q5 j (by omega) acc'' (by simpa using hacc) cyc c sp r
              (by rw [show n + 1 + j = n + (j + 1) from by omega]; exact hA)
    · rcases h2 with ⟨-, -, rfl⟩ | ⟨hst', -⟩
      · right
        exact ⟨e, 0, acc, _, c, sp, r, he, by simp, hA, hre, fun j hj => by omega⟩
      · rw [hst] at hst'; cases hst'

/-- The cache only grows, and new effects mean that the digest is in it. -/
theorem loop_cache {sts : List Stanza} : ∀ {n : Nat} {sts' : List Stanza} {s s' : Loop},
    (∀ acc ∈ sts, KeysOk acc) →
    stanzaLoop conf E now p a text digest open_ok n sts s = .ok (sts', s') →
    (∀ d ∈ s.cache, d ∈ s'.cache) ∧ (s'.added = true → s.added = true ∨ digest.getD [] ∈ s'.cache) ∧
      (s.added = true → s'.added = true) ∧
      (s'.effects ≠ s.effects → conf.test = false → conf.persistence = true → s'.added = true) := by
  induction sts with
  | nil => intro n sts' s s' _ h; cases h; exact ⟨fun _ h => h, .inl, id, fun h => absurd rfl h⟩
  | cons acc rest ih =>
    intro n sts' s s' hk h
    obtain ⟨acc1, s1, stop, h1, h2⟩ := loop_cons h
    have hc := try_cache (hk acc (by simp)) h1
    have he : s1.effects ≠ s.effects → conf.test = false → conf.persistence = true → s1.added = true := by
      intro hne
      rcases try_cases (hk acc (by simp)) h1 with ⟨he, -⟩ | ⟨c, sp, r, -, -, -, -, hq⟩
      · exact absurd he hne
      · exact hq
    rcases h2 with ⟨-, -, rfl⟩ | ⟨-, rest', -, h2⟩
    · exact ⟨hc.1, hc.2.1, hc.2.2, he⟩
    · obtain ⟨i1, i2, i3, i4⟩ := ih (fun x hx => hk x (by simp [hx])) h2
      refine ⟨fun d hd => i1 d (hc.1 d hd), fun hs => ?_, fun hs => i3 (hc.2.2 hs), fun hne ht hp => ?_⟩
      · rcases i2 hs with h | h
        · rcases hc.2.1 h with h | h
          · exact .inl h
          · exact .inr (i1 _ h)
        · exact .inr h
      · by_cases hq : s1.effects = s.effects
        · exact i4 (by rw [hq]; exact hne) ht hp
        · exact i3 (he hq ht hp)

/-- What happens to the stanzas. -/
theorem loop_stanzas {sts : List Stanza} : ∀ {n : Nat} {sts' : List Stanza} {s s' : Loop},
    stanzaLoop conf E now p a text digest open_ok n sts s = .ok (sts', s') →
    sts'.length = sts.length ∧ ∀ (k : Nat) (acc : Stanza), sts[k]? = some acc →
      ∃ acc', sts'[k]? = some acc' ∧ (acc' = acc ∨ acc' = { acc with expired := true } ∧ Expired acc now) := by
  induction sts with
  | nil => intro n sts' s s' h; cases h; simp
  | cons acc rest ih =>
    intro n sts' s s' h
    obtain ⟨acc1, s1, stop, h1, h2⟩ := loop_cons h
    have ha := (try_stanza h1).1
    rcases h2 with ⟨-, rfl, -⟩ | ⟨-, rest', rfl, h2⟩
    · refine ⟨by simp, fun k acc' hk => ?_⟩
      cases k with
      | zero => simp at hk; subst hk; exact ⟨acc1, by simp, ha⟩
      | succ k => exact ⟨acc', by simpa using hk, .inl rfl⟩
    · obtain ⟨i1, i2⟩ := ih h2
      refine ⟨by simp [i1], fun k acc' hk => ?_⟩
      cases k with
      | zero => simp at hk; subst hk; exact ⟨acc1, by simp, ha⟩
      | succ k => simpa using i2 k acc' (by simpa using hk)

end

end Fwknop
