import Verif.Lemmas.AccessInv
import Verif.Props.Access

/-! # Instances of the invariants -/

namespace Fwknop
open Spec

/-- Nothing is claimed. -/
theorem trivialRules (env : AccEnv) : RootRules env (fun _ => True) (fun _ => True) (fun _ => True) :=
  ⟨⟨fun _ => trivial, fun _ _ _ _ _ _ => trivial, fun _ _ _ _ _ _ => trivial, fun _ _ => trivial⟩,
   fun _ _ _ _ => trivial, fun _ _ => trivial⟩

/-- What holds of a stanza while it is read. -/
structure RawRange (e : AccEnt) : Prop where
  keys : KeysPresent e.st
  timeout : 0 ≤ e.st.fw_access_timeout ∧ e.st.fw_access_timeout ≤ 2 ^ 23
  max_timeout : 0 ≤ e.st.max_fw_timeout ∧ e.st.max_fw_timeout ≤ 2 ^ 23
  mode : e.st.encryption_mode ∈ ([0, 1, 2, 3, 5, 6, 7, 8] : List Int)
  hmac_type : 0 ≤ e.st.hmac_type ∧ e.st.hmac_type ≤ 7
  nat : e.st.force_nat_port ≤ 65535 ∧ (∀ ip, e.st.force_nat_ip = some ip → IsIPv4 ip) ∧ ∀ ip, e.st.force_snat_ip = some ip → IsIPv4 ip
  cycle : 0 ≤ e.st.cmd_cycle_timer ∧ e.st.cmd_cycle_timer ≤ 2 ^ 23

theorem digest_strtoint_range (s : Str) : digest_strtoint s ≤ 7 := by
  unfold digest_strtoint
  repeat (first | decide | split)

theorem enc_mode_range (s : Str) (h : 0 ≤ enc_mode_strtoint s) :
    enc_mode_strtoint s ∈ ([0, 1, 2, 3, 5, 6, 7, 8] : List Int) := by
  unfold enc_mode_strtoint at h ⊢
  split at h
  · rename_i e he
    have h1 := List.mem_of_find?_eq_some he
    have h2 := List.find?_some he
    simp only [Bool.and_eq_true] at h2
    simp only [fko_enc_mode_strs, List.mem_cons, List.not_mem_nil, or_false] at h1
    rcases h1 with rfl | rfl | rfl | rfl | rfl | rfl | rfl | rfl <;> revert h2 <;> simp
  · omega

theorem acc_force_nat_port {val : Str} {n : Str × Nat} (h : acc_force_nat val = some n) : n.2 ≤ 65535 := by
  unfold acc_force_nat at h
  split at h
  · cases h
  · split at h
    · cases h
    · simp only at h
      split at h
      · cases h
      · rename_i hp
        split at h
        · simp only [Option.some.injEq] at h
          subst h
          simp only [MAX_PORT] at hp ⊢
          omega
        · cases h

theorem scanStr_length {w : Nat} {s t r : Str} (h : scanStr w s = some (t, r)) : t.length ≤ w := by
  unfold scanStr at h
  dsimp only at h
  split at h
  · cases h
  · cases h
    simp only [List.length_take]
    omega

theorem acc_force_nat_ip {val : Str} {n : Str × Nat} (h : acc_force_nat val = some n) : IsIPv4 n.1 := by
  unfold acc_force_nat at h
  split at h
  · cases h
  · rename_i ip rest hs
    split at h
    · cases h
    · dsimp only at h
      split at h
      · cases h
      · split at h
        · rename_i hv
          cases h
          exact (valid_ipv4_iff _ (scanStr_length hs)).1 hv
        · cases h

theorem acc_force_snat_ip {val ip : Str} (h : acc_force_snat val = some ip) : IsIPv4 ip := by
  unfold acc_force_snat at h
  split at h
  · cases h
  · rename_i ip rest hs
    split at h
    · rename_i hv
      cases h
      exact (valid_ipv4_iff _ (scanStr_length hs)).1 hv
    · cases h

theorem keysPresent_same {a b : Stanza} (h : KeysPresent a) (h1 : b.use_rijndael = a.use_rijndael) (h2 : b.key = a.key)
    (h3 : b.gpg_decrypt_pw = a.gpg_decrypt_pw) (h4 : b.use_gpg = a.use_gpg) (h5 : b.gpg_allow_no_pw = a.gpg_allow_no_pw) :
    KeysPresent b :=
  ⟨by rw [h1, h2]; exact h.1, by rw [h3, h4]; exact h.2, by rw [h5, h4]; exact h.3⟩

theorem rawRange_opt (env : AccEnv) (o : Opt) (val : Str) (x : Pw × AccEnt) (h : RawRange x.2) :
    Res.Sat (setOption env o val x) fun x' => RawRange x'.2 := by
  unfold setOption
  simp only
  split
  · trivial
  · obtain ⟨hk, h1, h2, h3, h4, h5, h6⟩ := h
    cases o with
    | key => exact ⟨⟨by simp, hk.2, hk.3⟩, h1, h2, h3, h4, h5, h6⟩
    | key_base64 =>
      (refine Res.sat_bind _ (accB64_safe val) ?_; intro k _; exact ⟨⟨by simp, hk.2, hk.3⟩, h1, h2, h3, h4, h5, h6⟩)
    | hmac_digest_type =>
      refine Res.sat_bind _ (accName_sat _) ?_
      rintro t ⟨rfl, ht⟩
      exact ⟨⟨hk.1, hk.2, hk.3⟩, h1, h2, h3, ⟨ht, digest_strtoint_range val⟩, h5, h6⟩
    | hmac_key_base64 => (refine Res.sat_bind _ (accB64_safe val) ?_; intro k _; exact ⟨⟨hk.1, hk.2, hk.3⟩, h1, h2, h3, h4, h5, h6⟩)
    | fw_access_timeout =>
      refine Res.sat_bind _ (accNum_sat _ _ _) ?_
      intro n hn
      obtain ⟨a, b, c⟩ := strtol_wrapper_range _ _ _ _ hn
      refine ⟨⟨hk.1, hk.2, hk.3⟩, ⟨?_, ?_⟩, h2, h3, h4, h5, h6⟩ <;> simp only [RCHK_MAX_FW_TIMEOUT] at * <;> omega
    | max_fw_timeout =>
      refine Res.sat_bind _ (accNum_sat _ _ _) ?_
      intro n hn
      obtain ⟨a, b, c⟩ := strtol_wrapper_range _ _ _ _ hn
      refine ⟨⟨hk.1, hk.2, hk.3⟩, h1, ⟨?_, ?_⟩, h3, h4, h5, h6⟩ <;> simp only [RCHK_MAX_FW_TIMEOUT] at * <;> omega
    | encryption_mode =>
      refine Res.sat_bind _ (accName_sat _) ?_
      rintro t ⟨rfl, ht⟩
      exact ⟨⟨hk.1, hk.2, hk.3⟩, h1, h2, enc_mode_range val ht, h4, h5, h6⟩
    | cmd_cycle_timer =>
      refine Res.sat_bind _ (accNum_sat _ _ _) ?_
      intro n hn
      obtain ⟨a, b, c⟩ := strtol_wrapper_range _ _ _ _ hn
      refine ⟨⟨hk.1, hk.2, hk.3⟩, h1, h2, h3, h4, h5, ⟨?_, ?_⟩⟩ <;>
        simp only [RCHK_MIN_CMD_CYCLE_TIMER, RCHK_MAX_CMD_CYCLE_TIMER] at * <;> omega
    | gpg_decrypt_pw => exact ⟨⟨hk.1, by simp, by simp⟩, h1, h2, h3, h4, h5, h6⟩
    | gpg_allow_no_pw =>
      simp only
      split
      · exact ⟨⟨hk.1, by simp, by simp⟩, h1, h2, h3, h4, h5, h6⟩
      · exact ⟨⟨hk.1, hk.2, by simp⟩, h1, h2, h3, h4, h5, h6⟩
    | force_nat =>
      apply Res.sat_guard; intro _
      refine Res.sat_bind _ (orFail_sat _) ?_
      intro n hn
      exact ⟨⟨hk.1, hk.2, hk.3⟩, h1, h2, h3, h4, ⟨acc_force_nat_port hn, fun ip hip => by cases hip; exact acc_force_nat_ip hn, h5.2.2⟩, h6⟩
    | force_snat =>
      apply Res.sat_guard; intro _
      refine Res.sat_bind _ (orFail_sat _) ?_
      intro n hn
      exact ⟨⟨hk.1, hk.2, hk.3⟩, h1, h2, h3, h4, ⟨h5.1, h5.2.1, fun ip hip => by cases hip; exact acc_force_snat_ip hn⟩, h6⟩
    | gpg_home_dir =>
      apply Res.sat_guard; intro _
      exact ⟨⟨hk.1, hk.2, hk.3⟩, h1, h2, h3, h4, h5, h6⟩
    | _ => first
      | exact ⟨⟨hk.1, hk.2, hk.3⟩, h1, h2, h3, h4, h5, h6⟩
      | (refine Res.sat_bind _ (orFail_sat _) ?_; intro n hn; exact ⟨⟨hk.1, hk.2, hk.3⟩, h1, h2, h3, h4, h5, h6⟩)


/-! ## The check of a stanza -/

/-- The members `acc_data_is_valid` sets. -/
def needsNat (a : Stanza) : Bool := (a.force_snat ∨ a.force_masquerade) ∧ !a.force_nat

def closeOff (a : Stanza) : Bool :=
  a.cmd_cycle_open ≠ none ∧ ∃ c ∈ a.cmd_cycle_close, hasPrefix b!"NONE" c = true

def gidFrom (pw : Option Nat) (uid gid : Nat) : Nat :=
  match pw with
  | some g => if uid ≠ 0 ∧ gid = 0 then g else gid
  | none => gid

structure ValidImage (u s : Option Nat) (a b : Stanza) : Prop where
  keys : noKeys a = false
  differ : sameKeys (legacyKey a) = false
  eq : b = { a with
    key := (legacyKey a).key
    force_nat := if needsNat a then true else a.force_nat
    force_nat_ip := if needsNat a then some b!"0.0.0.0" else a.force_nat_ip
    force_nat_port := if needsNat a then 0 else a.force_nat_port
    cmd_exec_gid := gidFrom u a.cmd_exec_uid a.cmd_exec_gid
    cmd_sudo_exec_gid := gidFrom s a.cmd_sudo_exec_uid a.cmd_sudo_exec_gid
    cmd_cycle_do_close := if closeOff a then false else a.cmd_cycle_do_close }
  forward : needsNat a = true → a.forward_all = true
  both : a.cmd_cycle_open ≠ none ↔ a.cmd_cycle_close ≠ none
  open_fits : ∀ t, a.cmd_cycle_open = some t → t.length < CMD_CYCLE_BUFSIZE
  close_fits : ∀ t, a.cmd_cycle_close = some t → t.length < CMD_CYCLE_BUFSIZE
  timer : b.cmd_cycle_open ≠ none → b.cmd_cycle_do_close = true → b.cmd_cycle_timer ≠ 0

theorem legacyKey_eq (a : Stanza) : legacyKey a = { a with key := (legacyKey a).key } := by
  unfold legacyKey
  split
  · split <;> rfl
  · rfl

theorem setGids_eq (u s : Option Nat) (a : Stanza) : setGids u s a =
    { a with
      cmd_exec_gid := gidFrom u a.cmd_exec_uid a.cmd_exec_gid
      cmd_sudo_exec_gid := gidFrom s a.cmd_sudo_exec_uid a.cmd_sudo_exec_gid } := by
  unfold setGids gidFrom
  cases u with
  | none =>
    cases s with
    | none => rfl
    | some h =>
      simp only
      split <;> rfl
  | some g =>
    simp only
    by_cases h1 : a.cmd_exec_uid ≠ 0 ∧ a.cmd_exec_gid = 0
    · cases s with
      | none => rw [if_pos h1, if_pos h1]
      | some h =>
        rw [if_pos h1, if_pos h1]
        simp only
        split <;> rfl
    · cases s with
      | none => rw [if_neg h1, if_neg h1]
      | some h =>
        rw [if_neg h1, if_neg h1]
        simp only
        split <;> rfl

theorem cycleCheck_eq (a b : Stanza) (h : cycleCheck a = some b) :
    b = { a with cmd_cycle_do_close := if closeOff a then false else a.cmd_cycle_do_close } ∧
    (a.cmd_cycle_open ≠ none ↔ a.cmd_cycle_close ≠ none) ∧
    (∀ t, a.cmd_cycle_open = some t → t.length < CMD_CYCLE_BUFSIZE) ∧
    (∀ t, a.cmd_cycle_close = some t → t.length < CMD_CYCLE_BUFSIZE) ∧
    (b.cmd_cycle_open ≠ none → b.cmd_cycle_do_close = true → b.cmd_cycle_timer ≠ 0) := by
  unfold cycleCheck at h
  cases ho : a.cmd_cycle_open with
  | none =>
    cases hc : a.cmd_cycle_close with
    | none =>
      simp only [ho, hc, Option.some.injEq] at h
      subst h
      have hoff : closeOff a = false := by simp [closeOff, ho]
      refine ⟨?_, by simp, by simp, by simp, fun h => absurd ho h⟩
      simp only [hoff, Bool.false_eq_true, if_false]
      cases a
      simp only at ho hc
      subst ho hc
      rfl
    | some c => simp [ho, hc] at h
  | some o =>
    cases hc : a.cmd_cycle_close with
    | none => simp [ho, hc] at h
    | some c =>
      simp only [ho, hc] at h
      have hoff : closeOff a = hasPrefix b!"NONE" c := by
        simp [closeOff, ho, hc]
      by_cases hp : hasPrefix b!"NONE" c = true
      · rw [hp] at hoff
        simp only [hp, if_true] at h
        split at h
        · cases h
        · rename_i r hr
          split at hr
          · cases hr
          · split at hr
            · cases hr
            · rename_i hlen
              injection hr with hr
              subst hr
              simp only [hc, ho] at h
              simp only [reduceCtorEq, if_false] at h
              split at h
              · cases h
              · rename_i hlen2
                injection h with h
                subst h
                simp [hoff, ho]
                omega
      · simp only [Bool.not_eq_true] at hp
        rw [hp] at hoff
        simp only [hp, Bool.false_eq_true, if_false] at h
        split at h
        · cases h
        · rename_i r hr
          split at hr
          · cases hr
          · rename_i htim
            split at hr
            · cases hr
            · rename_i hlen
              injection hr with hr
              subst hr
              simp only [hc, ho] at h
              simp only [reduceCtorEq, if_false] at h
              split at h
              · cases h
              · rename_i hlen2
                injection h with h
                subst h
                simp [hoff, ho]
                refine ⟨?_, by omega, by omega, fun hd ht => htim ⟨ht, hd⟩⟩
                cases a
                simp only at ho hc
                subst ho hc
                rfl

theorem valid_image {u s : Option Nat} {a b : Stanza} (h : acc_data_is_valid u s a = some b) : ValidImage u s a b := by
  unfold acc_data_is_valid at h
  split at h
  · cases h
  · rename_i hk
    simp only at h
    split at h
    · cases h
    · rename_i hd
      cases hf : forceNatDefault (legacyKey a) with
      | none => simp [hf] at h
      | some c =>
        simp only [hf] at h
        rw [setGids_eq] at h
        have hc : c = { legacyKey a with
            force_nat := if needsNat a then true else a.force_nat
            force_nat_ip := if needsNat a then some b!"0.0.0.0" else a.force_nat_ip
            force_nat_port := if needsNat a then 0 else a.force_nat_port } ∧ (needsNat a = true → a.forward_all = true) := by
          unfold forceNatDefault at hf
          rw [legacyKey_eq] at hf ⊢
          simp only at hf
          by_cases hn : needsNat a = true
          · have hn' : ((a.force_snat = true ∨ a.force_masquerade = true) ∧ (!a.force_nat) = true) := by
              simpa [needsNat] using hn
            rw [if_pos hn'] at hf
            split at hf
            · rename_i hfa
              injection hf with hf
              subst hf
              simp [hn, hfa]
            · cases hf
          · have hn' : ¬ ((a.force_snat = true ∨ a.force_masquerade = true) ∧ (!a.force_nat) = true) := by
              simpa [needsNat] using hn
            rw [if_neg hn'] at hf
            injection hf with hf
            subst hf
            simp [hn]
        obtain ⟨hc, hfa⟩ := hc
        have hl := legacyKey_eq a
        generalize hlk : (legacyKey a).key = lk at hl
        rw [hl] at hc
        subst hc
        obtain ⟨h1, h2, h3, h4, h5⟩ := cycleCheck_eq _ _ h
        refine ⟨by simpa using hk, by simpa using hd, ?_, hfa, h2, h3, h4, h5⟩
        rw [hlk]
        exact h1

theorem legacyKey_none (a : Stanza) : (legacyKey a).key = none ↔ a.key = none := by
  unfold legacyKey
  split
  · rename_i k hk
    split <;> simp [hk]
  · rfl

theorem rawRange_valid {fr : AccFrame} {s : AccState} {e e' : AccEnt} (h : RawRange e) (hv : validEnt fr s e = some e') :
    RawRange e' ∧ Usable e'.st := by
  unfold validEnt at hv
  cases hb : acc_data_is_valid (if fr.user then some s.gid else none) (if fr.sudo then some s.gid else none) e.st with
  | none => rw [hb] at hv; cases hv
  | some b =>
    rw [hb] at hv
    simp only [Option.map_some, Option.some.injEq] at hv
    subst hv
    obtain ⟨h1, h2, rfl, h3, _, _, _, _⟩ := valid_image hb
    obtain ⟨⟨k1, k2, k3⟩, r1, r2, r3, r4, r5, r6⟩ := h
    refine ⟨⟨⟨?_, k2, k3⟩, r1, r2, r3, r4, ?_, r6⟩, ⟨?_, ?_⟩⟩
    · simp only
      rw [k1, ne_eq, ne_eq, legacyKey_none]
    · simp only
      refine ⟨by split <;> omega, fun ip hip => ?_, r5.2.2⟩
      split at hip
      · cases hip
        exact (valid_ipv4_iff _ (by decide)).1 (by decide)
      · exact r5.2.1 ip hip
    · simp only
      have hne : ∀ k, e.st.key = some k → k ≠ [] → ∃ k', (legacyKey e.st).key = some k' ∧ k' ≠ [] := by
        intro k hk hkn
        unfold legacyKey
        rw [hk]
        simp only
        split
        · refine ⟨_, rfl, ?_⟩
          cases k with
          | nil => exact absurd rfl hkn
          | cons a t => simp
        · exact ⟨k, hk, hkn⟩
      simp only [noKeys, Bool.not_eq_true', decide_eq_false_iff_not, not_or, not_and, Bool.not_eq_false] at h1
      by_cases hkey : e.st.key.getD [] = []
      · right
        by_cases hpw : e.st.gpg_decrypt_pw.getD [] = []
        · have hallow : e.st.gpg_allow_no_pw = true := h1.1 hkey hpw
          exact ⟨k3 hallow, .inr hallow⟩
        · cases hp : e.st.gpg_decrypt_pw with
          | none => rw [hp] at hpw; exact absurd rfl hpw
          | some p =>
            rw [hp] at hpw
            exact ⟨k2 (by simp [hp]), .inl ⟨p, rfl, by simpa using hpw⟩⟩
      · left
        cases hk : e.st.key with
        | none => rw [hk] at hkey; exact absurd rfl hkey
        | some k =>
          rw [hk] at hkey
          exact ⟨k1.2 (by simp [hk]), hne k hk (by simpa using hkey)⟩
    · simp only
      intro h hh hn hk
      have hl := legacyKey_eq e.st
      have hsame : sameKeys (legacyKey e.st) = true := by
        have hhk : (legacyKey e.st).hmac_key = some h := by rw [hl]; exact hh
        unfold sameKeys
        rw [hhk, hk]
        simp [hn]
      rw [hsame] at h2
      cases h2

/-! ## The end of a file -/

theorem expand_image {e e' : AccEnt} (h : expandEnt e = some e') :
    ∃ src dst op rp ids fprs,
      expand_acc_int_list e.source = some src ∧
      expandOpt expand_acc_int_list e.st.destination e.st.destination_list = some dst ∧
      expandOpt expand_acc_port_list e.open_ports e.st.oport_list = some op ∧
      expandOpt expand_acc_port_list e.restrict_ports e.st.rport_list = some rp ∧
      expandOpt (fun s => expandStr s []) e.gpg_remote_id e.st.gpg_remote_id_list = some ids ∧
      expandOpt (fun s => expandStr s []) e.gpg_remote_fpr e.st.gpg_remote_fpr_list = some fprs ∧
      e' = { e with
        st := { e.st with
          source_list := e.st.source_list ++ src
          destination_list := dst
          oport_list := op
          rport_list := rp
          gpg_remote_id_list := ids
          gpg_remote_fpr_list := fprs } } := by
  unfold expandEnt at h
  simp only [Option.bind_eq_bind, Option.bind_eq_some_iff, Option.map_eq_some_iff, Option.pure_def, Option.some.injEq] at h
  obtain ⟨_, ⟨src, h1, rfl⟩, dst, h2, op, h3, rp, h4, ids, h5, fprs, h6, rfl⟩ := h
  exact ⟨src, dst, op, rp, ids, fprs, h1, h2, h3, h4, h5, h6, rfl⟩

theorem finish_image {home : Str} {e e' : AccEnt} (h : finishEnt home e = some e') :
    ∃ e1, expandEnt e = some e1 ∧ set_acc_defaults home e1.st = some e'.st ∧ e' = { e1 with st := e'.st } := by
  unfold finishEnt at h
  simp only [Option.bind_eq_bind, Option.bind_eq_some_iff, Option.pure_def, Option.some.injEq] at h
  obtain ⟨e1, h1, st, h2, rfl⟩ := h
  exact ⟨e1, h1, h2, rfl⟩

theorem defaults_range {home : Str} {a b : Stanza} (h : set_acc_defaults home a = some b) (hr : RawRange { st := a }) :
    InRange b := by
  obtain ⟨⟨k1, k2, k3⟩, r1, r2, r3, r4, r5, r6⟩ := hr
  simp only at *
  have hm : (if a.encryption_mode = 0 then FKO_DEFAULT_ENC_MODE else a.encryption_mode) ∈
      ([1, 2, 3, 5, 6, 7, 8] : List Int) := by
    simp only [List.mem_cons, List.not_mem_nil, or_false] at r3 ⊢
    split
    · decide
    · rename_i h0
      omega
  rcases Props.defaults_cases home a b h with ⟨hp, h⟩ | ⟨hp, hs, h⟩
  all_goals
    subst h
    constructor
    all_goals simp only [modeDefaults, timeoutDefaults, DEF_FW_ACCESS_TIMEOUT, DEF_MAX_FW_TIMEOUT,
      FKO_DEFAULT_HMAC_MODE]
  · exact ⟨k1, k2, k3⟩
  · split <;> omega
  · split <;> omega
  · exact hm
  · split
    · decide
    · exact r4
  · intro k hk hne
    split
    · decide
    · rename_i hc
      simp [hk, hne] at hc
      omega
  · exact r5
  · exact r6
  · intro h; exact absurd hp h
  · exact ⟨k1, k2, k3⟩
  · split <;> omega
  · split <;> omega
  · exact hm
  · split
    · decide
    · exact r4
  · intro k hk hne
    split
    · decide
    · rename_i hc
      simp [hk, hne] at hc
      omega
  · exact r5
  · exact r6
  · intro _ hd
    refine ⟨by cases a.gpg_require_sig <;> simp [hd], ?_⟩
    by_cases h1 : a.gpg_remote_id_list = []
    · by_cases h2 : a.gpg_remote_fpr_list = []
      · exact absurd ⟨by simp [hd], h1, h2⟩ hs
      · exact .inr h2
    · exact .inl h1

theorem defaults_usable {home : Str} {a b : Stanza} (h : set_acc_defaults home a = some b) (hu : Usable a) : Usable b := by
  obtain ⟨h1, h2⟩ := hu
  rcases Props.defaults_cases home a b h with ⟨_, h⟩ | ⟨_, _, h⟩ <;> subst h <;> exact ⟨h1, h2⟩

theorem raw_of_range {e : AccEnt} (h : InRange e.st) : RawRange e := by
  obtain ⟨k, h1, h2, h3, h4, _, h5, h6, _⟩ := h
  refine ⟨k, by omega, by omega, ?_, h4, h5, h6⟩
  simp only [List.mem_cons, List.not_mem_nil, or_false] at h3 ⊢
  omega

theorem range_finish {home : Str} {e e' : AccEnt} (h : RawRange e) (hf : finishEnt home e = some e') : InRange e'.st := by
  obtain ⟨e1, h1, h2, _⟩ := finish_image hf
  obtain ⟨_, _, _, _, _, _, _, _, _, _, _, _, rfl⟩ := expand_image h1
  apply defaults_range h2
  obtain ⟨⟨k1, k2, k3⟩, r1, r2, r3, r4, r5, r6⟩ := h
  exact ⟨⟨k1, k2, k3⟩, r1, r2, r3, r4, r5, r6⟩

theorem usable_finish {home : Str} {e e' : AccEnt} (h : Usable e.st) (hf : finishEnt home e = some e') : Usable e'.st := by
  obtain ⟨e1, h1, h2, _⟩ := finish_image hf
  obtain ⟨_, _, _, _, _, _, _, _, _, _, _, _, rfl⟩ := expand_image h1
  exact defaults_usable h2 ⟨h.1, h.2⟩

theorem rawRange_fresh (v : Str) : RawRange { source := v } :=
  ⟨⟨by simp, by simp, by simp⟩, by simp, by simp, by simp, by simp, by simp, by simp⟩

theorem rangeRules (env : AccEnv) : RootRules env RawRange RawRange (fun e => InRange e.st) :=
  ⟨⟨rawRange_fresh, fun o v x _ h hs => (rawRange_opt env o v x h).of_ok hs, fun _ _ _ _ h hv => (rawRange_valid h hv).1, fun _ h => h⟩,
   fun _ _ h hf => range_finish h hf, fun _ h => raw_of_range h⟩

theorem usableRules (env : AccEnv) : RootRules env RawRange (fun e => RawRange e ∧ Usable e.st) (fun e => InRange e.st ∧ Usable e.st) :=
  ⟨⟨rawRange_fresh, fun o v x _ h hs => (rawRange_opt env o v x h).of_ok hs, fun _ _ _ _ h hv => rawRange_valid h hv, fun _ h => h.1⟩,
   fun _ _ h hf => ⟨range_finish h.1 hf, usable_finish h.2 hf⟩, fun _ h => ⟨raw_of_range h.1, h.2⟩⟩

end Fwknop
