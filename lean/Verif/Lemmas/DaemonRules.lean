import Verif.Lemmas.Daemon
import Verif.Lemmas.Leftovers
import Verif.Props.IptInit
import Verif.Props.Incoming
import Verif.Props.Access

/-!
# Lemmas: where the rules of the daemon's chains come from
-/

namespace Fwknop

open Spec Res Props

/-! ## The address a proxy tells -/

theorem mem_false {c : Bool} {u : Unit} (h : Res.mem c = .ok u) : c = false := by
  cases c with
  | false => rfl
  | true => cases h

theorem takeWhile_set_nul (l : Str) (n : Nat) (h : n < (cstr l).length) : cstr (l.set n 0) = (cstr l).take n := by
  induction l generalizing n with
  | nil => simp [cstr] at h
  | cons c l ih =>
    by_cases hc : c = 0
    · subst hc; simp [cstr] at h
    · cases n with
      | zero => simp [cstr]
      | succ n =>
        have e : cstr (c :: l) = c :: cstr l := by simp [cstr, hc]
        rw [e] at h ⊢
        simp only [List.length_cons, Nat.add_lt_add_iff_right] at h
        rw [List.set_cons_succ, List.take_succ_cons, ← ih n h]
        simp [cstr, hc]

theorem xffStore_proxy {buf : Str} {p i : Nat} {x : Str × Str} (h : xffStore buf p i = .ok x)
    (hi : i = 0 ∨ (cstr (buf.drop p)).length = i - 1) : x.2 = [] ∨ IsIPv4 x.2 := by
  unfold xffStore at h
  split at h
  · cases h
  · rename_i a ha
    unfold cstrAt at ha
    split at ha
    · cases ha
      split at h
      · cases h; exact .inl rfl
      · rename_i hv
        obtain ⟨u, hu, h⟩ := bind_eq_ok h
        have hu := mem_false hu
        cases h
        dsimp only
        rcases hi with rfl | hi
        · exact .inl (by simp)
        · right
          have hi' : ((buf.drop p).takeWhile (· ≠ 0)).length = i - 1 := hi
          rw [List.take_of_length_le (by omega)]
          simp only [Bool.not_eq_true, Bool.not_eq_false', Bool.not_eq_eq_eq_not, Bool.not_true] at hv
          by_cases h0 : i = 0
          · rw [h0] at hi'
            simp only [Nat.zero_le, Nat.sub_eq_zero_of_le] at hi'
            rw [List.length_eq_zero_iff.1 hi'] at hv
            exact absurd hv (by decide)
          · have hm : ¬ (i ≠ 0 ∧ min ((buf.drop p).takeWhile (· ≠ 0)).length (i - 1) + 1 > MAX_IPV4_STR_LEN) := by simpa using hu
            have : MAX_IPV4_STR_LEN = 16 := rfl
            refine (valid_ipv4_iff _ ?_).1 (by simpa using hv)
            omega
    · cases ha

theorem drop_drop_one (l : Str) (p : Nat) (c : Nat) (t : Str) (h : l.drop p = c :: t) : l.drop (p + 1) = t := by
  rw [← List.drop_drop, h]; rfl

/-- The address told by a proxy is an address, if there is one. -/
theorem received_proxy {conf : Conf} {p : Pkt} {text proxy : Str} (h : Received conf p text proxy) : proxy = [] ∨ IsIPv4 proxy := by
  obtain ⟨buf, hp, -⟩ := h
  unfold preprocess_spa_data at hp
  obtain ⟨_, _, hp⟩ := bind_eq_ok hp
  obtain ⟨_, _, hp⟩ := bind_eq_ok hp
  obtain ⟨_, _, hp⟩ := bind_eq_ok hp
  obtain ⟨_, _, hp⟩ := bind_eq_ok hp
  split at hp
  · unfold httpRequest at hp
    obtain ⟨_, _, hp⟩ := bind_eq_ok hp
    obtain ⟨x, hx, hp⟩ := bind_eq_ok hp
    obtain ⟨_, _, hp⟩ := bind_eq_ok hp
    obtain ⟨_, _, hp⟩ := bind_eq_ok hp
    cases hp
    split at hx
    · unfold xffHeader at hx
      split at hx
      · cases hx; exact .inl rfl
      · rename_i off _
        unfold xffValue at hx
        dsimp only at hx
        split at hx
        · rename_i hn
          refine xffStore_proxy hx (.inr ?_)
          rw [List.drop_set, if_neg (by omega), show off + 17 + _ - (off + 17) = _ from Nat.add_sub_cancel_left ..,
            takeWhile_set_nul _ _ hn, List.length_take]
          omega
        · rename_i hn
          refine xffStore_proxy hx ?_
          have hle := (List.takeWhile_prefix (fun c => !isSpace c) (l := cstr (List.drop (off + 17) p.data))).length_le
          cases hd : List.drop (off + 17) p.data with
          | nil => left; simp [cstr]
          | cons c t =>
            by_cases hc : c = 0
            · left; subst hc; simp [cstr]
            · right
              rw [drop_drop_one _ _ _ _ hd]
              rw [hd] at hn hle
              have e : cstr (c :: t) = c :: cstr t := by simp [cstr, hc]
              rw [e] at hn hle ⊢
              simp only [List.length_cons] at hn hle
              omega
    · cases hx; exact .inl rfl
  · obtain ⟨_, _, hp⟩ := bind_eq_ok hp
    cases hp
    exact .inl rfl

theorem ntop_ipv4 (v : Nat) : IsIPv4 (inet_ntop v) := by
  have h : inet_ntop v = inet_ntop (v % 2 ^ 32) := by
    unfold inet_ntop
    have h1 : v / 2 ^ 24 % 256 = v % 2 ^ 32 / 2 ^ 24 % 256 := by omega
    have h2 : v / 2 ^ 16 % 256 = v % 2 ^ 32 / 2 ^ 16 % 256 := by omega
    have h3 : v / 2 ^ 8 % 256 = v % 2 ^ 32 / 2 ^ 8 % 256 := by omega
    have h4 : v % 256 = v % 2 ^ 32 % 256 := by omega
    rw [h1, h2, h3, h4]
  rw [h]
  exact addr_ipv4 (ntop_addr _ (Nat.mod_lt _ (by decide)))

/-! ## The ports of a request -/

theorem expandLoop_mem {α : Type} {add : Str → Option α} {s : Str} : ∀ {cur : Str} {l : List α}, expandLoop add s cur = some l →
    ∀ x ∈ l, ∃ t, add t = some x := by
  induction s with
  | nil =>
    intro cur l h x hx
    simp only [expandLoop, Option.bind_eq_bind, Option.pure_def] at h
    obtain ⟨e, -, h⟩ := Option.bind_eq_some_iff.1 h
    obtain ⟨y, hy, h⟩ := Option.bind_eq_some_iff.1 h
    cases h
    rw [List.mem_singleton] at hx
    exact ⟨e, hx ▸ hy⟩
  | cons c cs ih =>
    intro cur l h x hx
    simp only [expandLoop, Option.bind_eq_bind, Option.pure_def] at h
    split at h
    · obtain ⟨e, -, h⟩ := Option.bind_eq_some_iff.1 h
      obtain ⟨y, hy, h⟩ := Option.bind_eq_some_iff.1 h
      obtain ⟨r, hr, h⟩ := Option.bind_eq_some_iff.1 h
      cases h
      rcases List.mem_cons.1 hx with rfl | hx
      · exact ⟨e, hy⟩
      · exact ih hr x hx
    · exact ih h x hx

theorem port_range {s : Str} {l : List PortEnt} (h : expand_acc_port_list s = some l) :
    ∀ p ∈ l, (p.proto = 6 ∨ p.proto = 17) ∧ 0 ≤ p.port ∧ p.port ≤ 65535 := by
  intro p hp
  obtain ⟨t, ht⟩ := expandLoop_mem h p hp
  unfold parse_proto_and_port at ht
  split at ht
  · cases ht
  · split at ht
    · cases ht
    · dsimp only at ht
      split at ht
      · rename_i hr
        obtain ⟨pr, hpr, rfl⟩ := Option.map_eq_some_iff.1 ht
        refine ⟨?_, ?_⟩
        · unfold protoOf at hpr
          split at hpr
          · cases hpr; exact .inl rfl
          · split at hpr
            · cases hpr; exact .inr rfl
            · cases hpr
        · have := strtol_wrapper_range _ _ _ _ (Prod.ext rfl hr)
          exact ⟨this.1, this.2.1 (by decide)⟩
      · cases ht

/-! ## The ports that were checked are the ports that are opened -/

theorem parse_head {s : Str} {p : PortEnt} (h : parse_proto_and_port s = some p) : s.dropWhile isSpace = s := by
  unfold parse_proto_and_port at h
  split at h
  · cases h
  · rename_i n _
    split at h
    · cases h
    · dsimp only at h
      split at h
      · obtain ⟨pr, hpr, -⟩ := Option.map_eq_some_iff.1 h
        cases s with
        | nil => rfl
        | cons c s =>
          have hns : isSpace c = false := by
            have key : ∀ t : Str, (List.take n (c :: s)).map toLower = t.map toLower → t.map toLower ≠ [] →
                (t.map toLower).head? = some (toLower c) := by
              intro t ht hne
              rw [← ht]
              cases n with
              | zero => rw [← ht] at hne; simp at hne
              | succ n => rfl
            have hsp : ∀ x, isSpace x = true → toLower x = x := by
              intro x hx
              have hb : x ≤ 32 := by
                simp only [isSpace, Bool.or_eq_true, Bool.and_eq_true, decide_eq_true_eq] at hx
                omega
              have : ∀ y ≤ 32, toLower y = y := by decide
              exact this x hb
            cases hc : isSpace c with
            | false => rfl
            | true =>
              exfalso
              have e := hsp c hc
              unfold protoOf at hpr
              split at hpr
              · rename_i ht
                have := key _ (of_decide_eq_true ht) (by decide)
                rw [e] at this
                have : c = 116 := (Option.some.inj this).symm
                rw [this] at hc
                exact absurd hc (by decide)
              · split at hpr
                · rename_i ht
                  have := key _ (of_decide_eq_true ht) (by decide)
                  rw [e] at this
                  have : c = 117 := (Option.some.inj this).symm
                  rw [this] at hc
                  exact absurd hc (by decide)
                · cases hpr
          rw [List.dropWhile_cons, hns]
          rfl
      · cases h

/-- A text the check could read is read in the same way when the rules are made. -/
theorem requestPorts_expand : ∀ (s cur : Str) (ctr : Nat) (l : List PortEnt), requestPorts s cur ctr = some l →
    expandLoop parse_proto_and_port s cur = some l
  | [], cur, ctr, l, h => by
    unfold requestPorts at h
    split at h
    · cases h
    · rename_i hn
      obtain ⟨p, hp, rfl⟩ := Option.map_eq_some_iff.1 h
      have hd := parse_head hp
      unfold expandLoop listItem
      rw [hd]
      simp only [Option.bind_eq_bind]
      rw [if_neg (by omega)]
      show (parse_proto_and_port cur).bind _ = _
      rw [hp]
      rfl
  | c :: cs, cur, ctr, l, h => by
    unfold requestPorts at h
    unfold expandLoop
    split at h
    · rename_i hc
      rw [if_pos hc]
      split at h
      · cases h
      · rename_i hn
        cases hp : parse_proto_and_port cur with
        | none => rw [hp] at h; cases h
        | some p =>
          rw [hp] at h
          obtain ⟨r, hr, rfl⟩ := Option.map_eq_some_iff.1 h
          unfold listItem
          rw [parse_head hp]
          simp only [Option.bind_eq_bind]
          rw [if_neg (by omega)]
          show (parse_proto_and_port cur).bind _ = _
          rw [hp]
          show (expandLoop parse_proto_and_port cs []).bind _ = _
          rw [requestPorts_expand cs [] 1 r hr]
          rfl
    · rename_i hc
      rw [if_neg hc]
      exact requestPorts_expand cs _ _ l h

/-- When the lists allow a request, the ports it opens are open ones and not restricted ones. -/
theorem allowed_ports {acc : Stanza} {rest : Str} (h : acc_check_port_access acc rest = true) :
    ∃ l, expand_acc_port_list rest = some l ∧ (∀ ps, RequestPorts rest ps → l = ps.map toEnt) ∧ (∀ p ∈ l, p ∉ acc.rport_list) ∧
      (acc.oport_list ≠ [] → acc.oport_list.Nodup → ∀ p ∈ l, p ∈ acc.oport_list) := by
  obtain ⟨l, hl, hne, hr⟩ := C30_allowed_not_restricted acc rest h
  refine ⟨l, requestPorts_expand _ _ _ _ hl, fun ps hps => ?_, hr, fun ho hn => ?_⟩
  · have := (request_parse hps).1
    rw [hl] at this
    exact Option.some.inj this
  · unfold acc_check_port_access at h
    rw [hl] at h
    dsimp only at h
    split at h
    · cases h
    · split at h
      · cases h
      · rename_i h2
        have : compare_port_list_all l acc.oport_list = true := by
          cases hc : compare_port_list_all l acc.oport_list with
          | true => rfl
          | false => exact absurd ⟨ho, by rw [hc]; rfl⟩ h2
        rw [compare_all_iff, (sum_count_nodup _ _ hn).2] at this
        exact this

/-! ## A whole history -/

/-- The stanzas are the configured ones, some of them marked as expired. -/
def Marked (S l : List Stanza) : Prop :=
  ∀ acc ∈ l, ∃ acc0 ∈ S, acc = acc0 ∨ acc = { acc0 with expired := true } ∧ 0 < acc0.access_expire_time

theorem Marked.refl (S : List Stanza) : Marked S S := fun acc h => ⟨acc, h, .inl rfl⟩

theorem Marked.step {conf : Conf} {E : Env} {now : Int} {p : Pkt} {open_ok : Nat → Bool} {sv sv' : Server} {effs : List Effect} {S : List Stanza}
    (h : incoming_spa conf E now p open_ok sv = .ok (sv', effs)) (hm : Marked S sv.stanzas) : Marked S sv'.stanzas := by
  intro acc ha
  obtain ⟨hl, hs⟩ := incoming_stanzas h
  obtain ⟨k, hk⟩ := List.mem_iff_getElem?.1 ha
  have hlt : k < sv.stanzas.length := by
    have := (List.getElem?_eq_some_iff.1 hk).1
    omega
  obtain ⟨acc2, hk2, hor2⟩ := hs k _ (List.getElem?_eq_getElem hlt)
  rw [hk] at hk2
  cases hk2
  obtain ⟨acc0, h0, hor⟩ := hm _ (List.getElem_mem hlt)
  refine ⟨acc0, h0, ?_⟩
  rcases hor with h1 | ⟨h1, ht⟩ <;> rcases hor2 with h2 | ⟨h2, he⟩
  · exact .inl (by rw [h2, h1])
  · exact .inr ⟨by rw [h2, h1], by rw [← h1]; exact he.1⟩
  · exact .inr ⟨by rw [h2, h1], ht⟩
  · exact .inr ⟨by rw [h2, h1], ht⟩

/-- What is needed of the stanzas: no NAT is forced, the times are of 32 bits, and there are keys. -/
structure StanzasOk (S : List Stanza) : Prop where
  keys : ∀ acc ∈ S, KeysOk acc
  nat : ∀ acc ∈ S, acc.force_nat = false
  time : ∀ acc ∈ S, acc.fw_access_timeout < 2 ^ 31 ∧ 0 ≤ acc.max_fw_timeout ∧ acc.max_fw_timeout < 2 ^ 31

theorem grantee_ipv4 {conf : Conf} {p : Pkt} {text proxy : Str} (h : Received conf p text proxy) {c : Ctx} {ip rest : Str} (hm : Message c ip rest) :
    IsIPv4 (grantee (inet_ntop p.src_ip) proxy ip) := by
  unfold grantee
  split
  · exact hm.1
  · split
    · rename_i hp
      exact (received_proxy h).resolve_left hp
    · exact ntop_ipv4 _

end Fwknop
