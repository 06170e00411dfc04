import Verif.Lemmas.Http
import Verif.Lemmas.CmdCycle

/-!
# Lemmas: handling a packet stays inside memory
-/

namespace Fwknop

open Spec Res

/-! ## Cycle commands -/

/-- The values of the variables are at most 19 characters long. -/
def ShortVals (v : CycleVals) : Prop :=
  v.ip.length ≤ 19 ∧ v.pkt_src.length ≤ 19 ∧ v.dst.length ≤ 19 ∧ v.port.length ≤ 19 ∧ v.proto.length ≤ 19 ∧
    v.timeout.length ≤ 19 ∧ v.client_timeout.length ≤ 19

theorem cycleVar_short {v : CycleVals} (hv : ShortVals v) {s x : Str} {n : Nat} (h : cycleVar v s = some (n, x)) :
    2 ≤ n ∧ x.length ≤ 19 ∧ n ≤ s.length := by
  obtain ⟨h1, h2, h3, h4, h5, h6, h7⟩ := hv
  have hp : ∀ {lit : Str}, hasPrefix lit s = true → lit.length ≤ s.length := by
    intro lit h
    obtain ⟨r, rfl⟩ := (hasPrefix_iff _ _).1 h
    simp
  unfold cycleVar at h
  repeat' split at h
  all_goals cases h
  all_goals rename_i hpre
  all_goals have hl := hp hpre
  all_goals simp only [List.length_cons, List.length_nil] at hl
  all_goals exact ⟨by omega, by assumption, by omega⟩

theorem buildLoop_safe {v : CycleVals} (hv : ShortVals v) (t : Str) : ∀ (fuel i idx : Nat) (buf : Str),
    idx + (t.drop i).length + 16 * (t.drop i).count 36 ≤ 255 → buildLoop v t fuel i idx buf ≠ .ub := by
  intro fuel
  induction fuel with
  | zero => intro i idx buf _; unfold buildLoop; nofun
  | succ fuel ih =>
    intro i idx buf h
    unfold buildLoop
    split
    · rename_i hi
      have hi : i < t.length := by omega
      have hd : t.drop i = t[i] :: t.drop (i + 1) := (List.getElem_cons_drop (h := hi)).symm
      have hg : t.getD i 0 = t[i] := by simp [List.getD_eq_getElem?_getD, hi]
      rw [hd, List.length_cons, List.count_cons] at h
      rw [hg]
      split
      · rename_i h36
        rw [h36] at h
        simp only [beq_self_eq_true, if_true] at h
        split
        · rename_i n x hx
          obtain ⟨h2, h19, hn⟩ := cycleVar_short hv hx
          refine ih _ _ _ ?_
          have e : t.drop (i + n + 1) = (t.drop (i + 1)).drop n := by
            rw [List.drop_drop]; congr 1; omega
          have hc : (t.drop (i + n + 1)).count 36 ≤ (t.drop (i + 1)).count 36 := by
            rw [e]; exact (List.drop_sublist _ _).count_le _
          have hl : (t.drop (i + n + 1)).length = (t.drop (i + 1)).length - n := by
            rw [e, List.length_drop]
          rw [hl]
          omega
        · exact ih _ _ _ (by omega)
      · rw [Res.mem_of_not (by simp only [CMD_CYCLE_BUFSIZE]; omega)]
        simp only [Res.bind_ok]
        split
        · nofun
        · refine ih _ _ _ ?_
          split at h <;> omega
    · nofun

theorem build_safe {sp : SpaData} {timer : Int} (t : Str) (h1 : sp.use_src_ip.length ≤ 15)
    (h2 : sp.pkt_source_ip.length ≤ 15) (h3 : sp.pkt_destination_ip.length ≤ 15)
    (ht : t.length + 16 * t.count 36 ≤ 255) : build_cmd sp t timer ≠ .ub := by
  unfold build_cmd
  cases hp : expand_acc_port_list sp.spa_message_remain with
  | none => nofun
  | some l =>
    cases l with
    | nil => exact absurd rfl (expandLoop_ne_nil _ _ _ _ hp)
    | cons p ps =>
      simp only
      refine buildLoop_safe ⟨?_, ?_, ?_, ?_, ?_, ?_, ?_⟩ t _ _ _ _ (by simpa using ht)
      all_goals simp only [cycleVals, List.length_take]
      all_goals omega

/-! ## Decoding -/

theorem new_none_sat {K : Crypto} (hH : K.H.Lawful) (msg : Str) (mode : Int) (hk : Option Str) (ht : Int)
    (h0 : 0 ∉ msg) (h61 : 61 ∉ msg) :
    Sat (fko_new_with_data K msg none mode hk ht) fun c3 => ∃ x, c3.encrypted_msg = some x ∧
      c3.encrypted_msg_len = x.length ∧ 36 ≤ x.length ∧ 0 ∉ x ∧ 61 ∉ x := by
  rcases new_with_data_eq K msg none mode hk ht with h | ⟨⟨h36, -⟩, h⟩
  · rw [h]; trivial
  rw [h]
  refine sat_bind (fun c3 => ∃ x, c3.encrypted_msg = some x ∧ c3.encrypted_msg_len = x.length ∧
      36 ≤ x.length ∧ 0 ∉ x ∧ 61 ∉ x) ?_ fun c3 hc => hc
  have hstart : Sat (Res.ok (startCtx msg mode ht)) fun c3 => ∃ x, c3.encrypted_msg = some x ∧
      c3.encrypted_msg_len = x.length ∧ 36 ≤ x.length ∧ 0 ∉ x ∧ 61 ∉ x :=
    ⟨msg, rfl, rfl, h36, h0, h61⟩
  cases hk with
  | none => exact hstart
  | some k =>
    simp only
    split
    · rcases verify_hmac_cases hH (startCtx msg mode ht) k msg rfl rfl rfl rfl with
        e | ⟨body, c', e, hb, hbl, hb64, -, hver⟩
      · rw [e]; trivial
      · rw [e]
        have hsub : ∀ v ∈ restored (isGpgMode (startCtx msg mode ht).encryption_mode) body,
            v ∈ msg ∨ v ≠ 61 ∧ v ≠ 0 := by
          intro v hv
          rcases restored_mem hv with hv | hv
          · left; rw [hb]; exact List.mem_append_left _ hv
          · exact Or.inr hv
        refine ⟨_, hver.msg, hver.len, ?_, fun h => (hsub 0 h).elim h0 fun h => h.2 rfl,
          fun h => (hsub 61 h).elim h61 fun h => h.1 rfl⟩
        have := (restored_length (isGpgMode (startCtx msg mode ht).encryption_mode) body).1
        omega
    · exact hstart

theorem authGpg_safe {E : Env} (hH : E.K.H.Lawful) (hbc : E.K.bc.Lawful) (acc : Stanza) {text : Str}
    (h0 : 0 ∉ text) (h61 : 61 ∉ text) : authGpg E acc text ≠ .ub := by
  unfold authGpg
  split
  · refine (sat_bind (Q := fun _ => True) _ (new_none_sat (K := E.crypto acc) hH text _ _ _ h0 h61)
      fun c ⟨x, a1, a2, a3, a4, a5⟩ => sat_guard fun _ =>
        decrypt_spa_sat (K := E.crypto acc) hH hbc c _ x a1 a2 a3 a4 a5).ne_ub
  · nofun

theorem authenticate_safe {E : Env} (hH : E.K.H.Lawful) (hbc : E.K.bc.Lawful) (acc : Stanza) {text : Str}
    (h0 : 0 ∉ text) (h61 : 61 ∉ text) : authenticate E acc text ≠ .ub := by
  have hg := authGpg_safe hH hbc acc h0 h61
  unfold authenticate
  split
  · have := (new_with_data_sat (K := E.crypto acc) hH hbc text acc.key acc.encryption_mode acc.hmac_key
      acc.hmac_type h0 h61).ne_ub
    split
    · rename_i h; exact absurd h this
    · nofun
    · exact hg
  · exact hg

theorem src_check_safe {conf : Conf} {E : Env} (hH : E.K.H.Lawful) (sts : List Stanza) (cache : List Str) (src : Nat)
    {text : Str} (h0 : 0 ∉ text) (h61 : 61 ∉ text) : src_check conf E sts cache src text ≠ .ub := by
  unfold src_check
  split
  · split
    · have : get_raw_digest E text ≠ .ub := by
        unfold get_raw_digest
        have := (new_none_sat (K := E.K) hH text FKO_DEFAULT_ENC_MODE none 0 h0 h61).ne_ub
        split
        · rename_i h; exact absurd h this
        · nofun
        · split <;> nofun
      cases h : get_raw_digest E text with
      | ub => exact absurd h this
      | err => nofun
      | ok d =>
        simp only [Res.bind_ok]
        cases is_replay cache d <;> nofun
    · nofun
  · nofun

/-! ## One stanza -/

/-- The addresses fit. -/
def AddrsOk (a : Addrs) : Prop := a.src.length ≤ 15 ∧ a.dst.length ≤ 15 ∧ a.xff.length ≤ 15

theorem act_safe {conf : Conf} (now : Int) {acc : Stanza} (n : Nat) {sp : SpaData} (cyc : List CycleEnt)
    (hs : StanzaSafe acc) (h1 : sp.use_src_ip.length ≤ 15)
    (h2 : sp.pkt_source_ip.length ≤ 15) (h3 : sp.pkt_destination_ip.length ≤ 15) :
    act conf now acc n sp cyc ≠ .ub := by
  unfold act
  split
  · rename_i ho
    obtain ⟨t, ht⟩ := Option.ne_none_iff_exists'.1 ho
    have hb : ∀ tm, build_cmd sp (acc.cmd_cycle_open.getD []) tm ≠ .ub := fun tm =>
      build_safe _ h1 h2 h3 (by rw [ht]; exact hs.opening t ht)
    have hb2 : ∀ tm, build_cmd sp (acc.cmd_cycle_close.getD []) tm ≠ .ub := fun tm => by
      refine build_safe _ h1 h2 h3 ?_
      cases hc : acc.cmd_cycle_close with
      | none => simp
      | some u => exact hs.closing u ho hc
    unfold actCycle
    have : cmd_cycle_open now acc sp n cyc ≠ .ub := by
      unfold cmd_cycle_open
      cases h : build_cmd sp (acc.cmd_cycle_open.getD []) acc.cmd_cycle_timer with
      | ub => exact absurd h (hb _)
      | err => nofun
      | ok r =>
        simp only [Res.bind_ok]
        cases r with
        | none => nofun
        | some cmd =>
          simp only
          split
          · unfold add_cmd_close
            cases h : build_cmd sp (acc.cmd_cycle_close.getD []) acc.cmd_cycle_timer with
            | ub => exact absurd h (hb2 _)
            | err => nofun
            | ok r =>
              simp only [Res.bind_ok]
              cases r <;> nofun
          · nofun
    cases h : cmd_cycle_open now acc sp n cyc with
    | ub => exact absurd h this
    | err => nofun
    | ok r => nofun
  · split
    · unfold actCommand
      have : process_cmd_msg conf acc sp.spa_message_remain ≠ .ub := by
        unfold process_cmd_msg
        split
        · nofun
        · split
          · nofun
          · split
            · rename_i hsu
              have : sudoCmd conf acc sp.spa_message_remain ≠ .ub := by
                unfold sudoCmd
                simp only
                split
                · nofun
                · rename_i g hg
                  have := hs.sudo hsu (by rw [hg]; nofun)
                  split
                  · contradiction
                  · nofun
              cases h : sudoCmd conf acc sp.spa_message_remain with
              | ub => exact absurd h this
              | err => nofun
              | ok r => nofun
            · nofun
      cases h : process_cmd_msg conf acc sp.spa_message_remain with
      | ub => exact absurd h this
      | err => nofun
      | ok r => cases r <;> nofun
    · nofun

theorem try_safe {conf : Conf} {E : Env} (hH : E.K.H.Lawful) (hbc : E.K.bc.Lawful) (now : Int) (p : Pkt) {a : Addrs}
    {text : Str} (h0 : 0 ∉ text) (h61 : 61 ∉ text) (ha : AddrsOk a)
    (hsig : ∀ acc fpr, E.gpgSig acc text = some fpr → 8 ≤ fpr.length)
    (digest : Option Str) (open_ok : Bool) (n : Nat) {acc : Stanza} (hs : StanzaSafe acc) (s : Loop) :
    tryStanza conf E now p a text digest open_ok n acc s ≠ .ub := by
  unfold tryStanza
  split
  · nofun
  · simp only
    split
    · nofun
    · split
      · rename_i h; exact absurd h (authenticate_safe hH hbc acc h0 h61)
      · nofun
      · rename_i c hc
        have hd := authenticate_decoded E acc text hs.keys c hc
        have : ∀ i, afterAuth conf E now a text digest i open_ok n acc c s ≠ .ub := by
          intro i
          unfold afterAuth
          simp only
          split
          · nofun
          · split
            · rename_i h
              exfalso
              unfold handle_gpg_sigs at h
              split at h
              · split at h
                · cases h
                · split at h
                  · cases h
                  · rename_i fpr hf
                    rw [Res.mem_of_not (by have := hsig _ _ hf; omega)] at h
                    simp only [Res.bind_ok] at h
                    revert h
                    generalize (decide (acc.gpg_remote_fpr_list ≠ []) && !acc.gpg_remote_fpr_list.contains fpr) = b1
                    generalize (decide (acc.gpg_remote_id_list ≠ []) && !acc.gpg_remote_id_list.contains _) = b2
                    cases b1 <;> cases b2 <;> nofun
              · cases h
            · nofun
            · obtain ⟨ip, rest, hm, -, hj⟩ := judge_eq conf now acc a hd
              rcases hj with ⟨hj, -⟩ | ⟨hj, -⟩
              · rw [hj]
                simp only [Res.bind_ok, carryOut]
                have hip : (grantee a.src a.xff ip).length ≤ 15 := by
                  unfold grantee
                  have := (isIPv4_length hm.1).2
                  split
                  · exact this
                  · split
                    · exact ha.2.2
                    · exact ha.1
                have := act_safe (conf := conf) now n (sp := requestOf acc a c ip rest)
                  (add_replay_cache conf open_ok i digest s).1.cycles hs hip ha.1 ha.2.1
                cases h : act conf now acc n (requestOf acc a c ip rest)
                  (add_replay_cache conf open_ok i digest s).1.cycles with
                | ub => exact absurd h this
                | err => nofun
                | ok r => nofun
              · rw [hj]
                nofun
        cases h : afterAuth conf E now a text digest
          ⟨p.proto, p.src_ip, p.dst_ip, p.src_port, p.dst_port, now⟩ open_ok n acc c s with
        | ub => exact absurd h (this _)
        | err => nofun
        | ok r => nofun

theorem loop_safe {conf : Conf} {E : Env} (hH : E.K.H.Lawful) (hbc : E.K.bc.Lawful) (now : Int) (p : Pkt) {a : Addrs}
    {text : Str} (h0 : 0 ∉ text) (h61 : 61 ∉ text) (ha : AddrsOk a)
    (hsig : ∀ acc fpr, E.gpgSig acc text = some fpr → 8 ≤ fpr.length)
    (digest : Option Str) (open_ok : Nat → Bool) : ∀ (sts : List Stanza) (n : Nat) (s : Loop),
    (∀ acc ∈ sts, StanzaSafe acc) → stanzaLoop conf E now p a text digest open_ok n sts s ≠ .ub := by
  intro sts
  induction sts with
  | nil => intro n s _; nofun
  | cons acc rest ih =>
    intro n s hs
    unfold stanzaLoop
    cases h : tryStanza conf E now p a text digest (open_ok n) n acc s with
    | ub => exact absurd h (try_safe hH hbc now p h0 h61 ha hsig digest _ n (hs acc (by simp)) s)
    | err => nofun
    | ok r =>
      simp only [Res.bind_ok]
      split
      · nofun
      · cases h : stanzaLoop conf E now p a text digest open_ok (n + 1) rest r.2.1 with
        | ub => exact absurd h (ih _ _ fun acc h => hs acc (by simp [h]))
        | err => nofun
        | ok r => nofun

/-! ## The X-Forwarded-For address -/

theorem forwarded_short {conf : Conf} {buf : Str} {len : Nat} {x : Str × Str}
    (h : preprocess_spa_data conf buf len = .ok x) : x.2.length ≤ 15 := by
  have hst : ∀ {b : Str} {q i : Nat} {y : Str × Str}, xffStore b q i = .ok y → y.2.length ≤ 15 := by
    intro b q i y h
    unfold xffStore at h
    split at h
    · cases h
    · rename_i a ha
      split at h
      · cases h; simp
      · obtain ⟨_, hm, h⟩ := bind_eq_ok h
        cases h
        have hn : ¬ (i ≠ 0 ∧ min a.length (i - 1) + 1 > MAX_IPV4_STR_LEN) := by
          intro hc
          rw [decide_eq_true hc] at hm
          cases hm
        simp only [MAX_IPV4_STR_LEN] at hn
        simp only [List.length_take]
        omega
  have hreq : ∀ {y : Str × Str}, httpRequest conf buf len = .ok y → y.2.length ≤ 15 := by
    intro y h
    unfold httpRequest at h
    obtain ⟨_, _, h⟩ := bind_eq_ok h
    obtain ⟨z, hz, h⟩ := bind_eq_ok h
    obtain ⟨_, _, h⟩ := bind_eq_ok h
    obtain ⟨_, _, h⟩ := bind_eq_ok h
    cases h
    simp only
    split at hz
    · unfold xffHeader at hz
      split at hz
      · cases hz; simp
      · unfold xffValue at hz
        simp only at hz
        split at hz <;> exact hst hz
    · cases hz; simp
  unfold preprocess_spa_data at h
  obtain ⟨_, _, h⟩ := bind_eq_ok h
  obtain ⟨_, _, h⟩ := bind_eq_ok h
  obtain ⟨_, _, h⟩ := bind_eq_ok h
  obtain ⟨_, _, h⟩ := bind_eq_ok h
  split at h
  · exact hreq h
  · obtain ⟨_, _, h⟩ := bind_eq_ok h
    cases h; simp

theorem ntop_short (v : Nat) : (inet_ntop v).length ≤ 15 := by
  have h : ∀ n : Nat, (decStr (n % 256)).length ≤ 3 := fun n =>
    decStr_length_le _ 3 (by decide) (by have := Nat.mod_lt n (show 256 > 0 by decide); omega)
  have h1 := h (v / 2 ^ 24); have h2 := h (v / 2 ^ 16); have h3 := h (v / 2 ^ 8); have h4 := h v
  unfold inet_ntop
  simp only [List.length_append, List.length_cons]
  omega

theorem cstr_no_nul (b : Str) : 0 ∉ cstr b := by
  intro h
  have := List.all_eq_true.1 (List.all_takeWhile (p := fun c => decide (c ≠ 0)) (l := b)) 0 h
  simp at this

theorem safe_kept {conf : Conf} {E : Env} {now : Int} {p : Pkt} {open_ok : Nat → Bool} {sv : Server}
    {r : Server × List Effect} (h : incoming_spa conf E now p open_ok sv = .ok r)
    (hs : ∀ acc ∈ sv.stanzas, StanzaSafe acc) : ∀ acc ∈ r.1.stanzas, StanzaSafe acc := by
  obtain ⟨hlen, hst⟩ := incoming_stanzas h
  intro acc' ha
  obtain ⟨k, hkl, hk'⟩ := List.mem_iff_getElem.1 ha
  have hlt : k < sv.stanzas.length := by omega
  obtain ⟨acc'', h1, h2⟩ := hst k sv.stanzas[k] (List.getElem?_eq_getElem hlt)
  rw [List.getElem?_eq_getElem hkl, hk'] at h1
  cases h1
  have := hs _ (List.getElem_mem hlt)
  rcases h2 with h2 | ⟨h2, _⟩ <;> rw [h2]
  · exact this
  · exact ⟨this.keys, this.sudo, this.opening, this.closing⟩

end Fwknop
