import Verif.Lemmas.AccessRange

/-! # The stanza as it is read -/

namespace Fwknop
open Spec

theorem lastEntry_snoc (ns : List Str) (es : List Entry) (n v : Str) :
    lastEntry ns (es ++ [(n, v)]) = if n ∈ ns then some (n, v) else lastEntry ns es := by
  unfold lastEntry
  rw [List.filter_append]
  by_cases h : n ∈ ns
  · rw [if_pos h, List.filter_cons_of_pos (by simpa using h)]
    simp
  · rw [if_neg h, List.filter_cons_of_neg (by simpa using h)]
    simp

theorem lastOf_eq (ns : List Str) (es : List Entry) : lastOf ns es = (lastEntry ns es).map (·.2) := rfl

theorem lastOf_snoc (ns : List Str) (es : List Entry) (n v : Str) :
    lastOf ns (es ++ [(n, v)]) = if n ∈ ns then some v else lastOf ns es := by
  rw [lastOf_eq, lastOf_eq, lastEntry_snoc]
  split <;> rfl

theorem gpgPw_snoc (es : List Entry) (n v : Str) :
    gpgPw (es ++ [(n, v)]) = if n = b!"GPG_DECRYPT_PW" then some v
      else if n = b!"GPG_ALLOW_NO_PW" ∧ yes (some v) = true then some [] else gpgPw es := by
  unfold gpgPw
  rw [List.filter_append]
  by_cases h : n = b!"GPG_DECRYPT_PW"
  · rw [if_pos h, List.filter_cons_of_pos (by simp [h])]
    simp [h]
  · rw [if_neg h]
    by_cases h2 : n = b!"GPG_ALLOW_NO_PW" ∧ yes (some v) = true
    · rw [if_pos h2, List.filter_cons_of_pos (by simp [h2])]
      simp [h]
    · rw [if_neg h2, List.filter_cons_of_neg (by simp [h]; simpa using h2)]
      simp

theorem yes_bool (v : Str) : acc_bool v = yes (some v) := by
  unfold acc_bool yes
  cases v with
  | nil => rfl
  | cons c t =>
    have key : toLower c = 121 ↔ c = 89 ∨ c = 121 := by
      unfold toLower
      by_cases h : 65 ≤ c ∧ c ≤ 90
      · rw [if_pos (by simp [h])]; omega
      · rw [if_neg (by simpa using h)]; omega
    rw [Bool.eq_iff_iff]
    simp only [hasPrefixI, List.map_cons, List.map_nil, decide_eq_true_eq]
    rw [← key]
    have : toLower 89 = 121 := by decide
    rw [this]
    simp only [List.isPrefixOf, Bool.and_true, beq_iff_eq]
    exact eq_comm

/-- The options of a stanza as written. -/
def rawOf (env : AccEnv) (src : Str) (es : List Entry) : AccEnt :=
  { source := src
    open_ports := lastOf [b!"OPEN_PORTS"] es
    restrict_ports := lastOf [b!"RESTRICT_PORTS"] es
    gpg_remote_id := lastOf [b!"GPG_REMOTE_ID"] es
    gpg_remote_fpr := lastOf [b!"GPG_FINGERPRINT_ID"] es
    st := {
      destination := lastOf [b!"DESTINATION"] es
      key := keyOf b!"KEY" b!"KEY_BASE64" es
      use_rijndael := (lastEntry [b!"KEY", b!"KEY_BASE64"] es).isSome
      hmac_key := keyOf b!"HMAC_KEY" b!"HMAC_KEY_BASE64" es
      hmac_type := ((lastOf [b!"HMAC_DIGEST_TYPE"] es).map digest_strtoint).getD 0
      encryption_mode := ((lastOf [b!"ENCRYPTION_MODE"] es).map enc_mode_strtoint).getD 0
      fw_access_timeout := ((lastOf [b!"FW_ACCESS_TIMEOUT"] es).map fun v => (strtol_wrapper v 0 RCHK_MAX_FW_TIMEOUT).1).getD 0
      max_fw_timeout := ((lastOf [b!"MAX_FW_TIMEOUT"] es).map fun v => (strtol_wrapper v 0 RCHK_MAX_FW_TIMEOUT).1).getD 0
      enable_cmd_exec := yes (lastOf [b!"ENABLE_CMD_EXEC"] es)
      enable_cmd_sudo_exec := yes (lastOf [b!"ENABLE_CMD_SUDO_EXEC"] es)
      cmd_sudo_exec_user := lastOf [b!"CMD_SUDO_EXEC_USER"] es
      cmd_sudo_exec_uid := (((lastOf [b!"CMD_SUDO_EXEC_USER"] es).bind env.passwd).map (·.1)).getD 0
      cmd_sudo_exec_group := lastOf [b!"CMD_SUDO_EXEC_GROUP"] es
      cmd_sudo_exec_gid := (((lastOf [b!"CMD_SUDO_EXEC_GROUP"] es).bind env.passwd).map (·.2)).getD 0
      cmd_exec_user := lastOf [b!"CMD_EXEC_USER"] es
      cmd_exec_uid := (((lastOf [b!"CMD_EXEC_USER"] es).bind env.passwd).map (·.1)).getD 0
      cmd_exec_group := lastOf [b!"CMD_EXEC_GROUP"] es
      cmd_exec_gid := (((lastOf [b!"CMD_EXEC_GROUP"] es).bind env.passwd).map (·.2)).getD 0
      cmd_cycle_open := lastOf [b!"CMD_CYCLE_OPEN"] es
      cmd_cycle_do_close := (lastOf [b!"CMD_CYCLE_OPEN"] es).isSome
      cmd_cycle_close := lastOf [b!"CMD_CYCLE_CLOSE"] es
      cmd_cycle_timer := ((lastOf [b!"CMD_CYCLE_TIMER"] es).map fun v =>
        (strtol_wrapper v RCHK_MIN_CMD_CYCLE_TIMER RCHK_MAX_CMD_CYCLE_TIMER).1).getD 0
      require_username := lastOf [b!"REQUIRE_USERNAME"] es
      require_source_address := yes (lastOf [b!"REQUIRE_SOURCE_ADDRESS", b!"REQUIRE_SOURCE"] es)
      gpg_home_dir := lastOf [b!"GPG_HOME_DIR"] es
      gpg_exe := lastOf [b!"GPG_EXE"] es
      gpg_decrypt_id := lastOf [b!"GPG_DECRYPT_ID"] es
      gpg_decrypt_pw := gpgPw es
      use_gpg := (gpgPw es).isSome
      gpg_allow_no_pw := yes (lastOf [b!"GPG_ALLOW_NO_PW"] es)
      gpg_require_sig := yes (lastOf [b!"GPG_REQUIRE_SIG"] es)
      gpg_disable_sig := yes (lastOf [b!"GPG_DISABLE_SIG"] es)
      gpg_ignore_sig_error := yes (lastOf [b!"GPG_IGNORE_SIG_VERIFY_ERROR"] es)
      access_expire_time := match lastEntry [b!"ACCESS_EXPIRE", b!"ACCESS_EXPIRE_EPOCH"] es with
        | none => 0
        | some e => if e.1 = b!"ACCESS_EXPIRE" then (acc_expire_time env.mktime e.2).getD 0 else (acc_expire_epoch e.2).getD 0
      force_nat := (lastOf [b!"FORCE_NAT"] es).isSome
      force_nat_ip := ((lastOf [b!"FORCE_NAT"] es).bind acc_force_nat).map (·.1)
      force_nat_port := (((lastOf [b!"FORCE_NAT"] es).bind acc_force_nat).map (·.2)).getD 0
      force_snat := Spec.snat es
      force_snat_ip := (lastOf [b!"FORCE_SNAT"] es).bind acc_force_snat
      force_masquerade := yes (lastOf [b!"FORCE_MASQUERADE"] es)
      disable_dnat := yes (lastOf [b!"DISABLE_DNAT"] es)
      forward_all := yes (lastOf [b!"FORWARD_ALL"] es) } }

theorem rawOf_nil (env : AccEnv) (src : Str) : rawOf env src [] = { source := src } := rfl

theorem keyOf_snoc (p b : Str) (es : List Entry) (n v : Str) :
    keyOf p b (es ++ [(n, v)]) = if n = p then some v else if n = b then Base64.b64_decode v else keyOf p b es := by
  unfold keyOf
  rw [lastEntry_snoc]
  by_cases h1 : n = p
  · subst h1; simp
  · by_cases h2 : n = b
    · subst h2; simp [h1]
    · simp [h1, h2]

theorem snat_snoc (es : List Entry) (n v : Str) :
    snat (es ++ [(n, v)]) = if n = b!"FORCE_SNAT" then true else if n = b!"FORCE_MASQUERADE" then yes (some v) else snat es := by
  unfold snat
  rw [lastEntry_snoc]
  by_cases h1 : n = b!"FORCE_SNAT"
  · subst h1; simp
  · by_cases h2 : n = b!"FORCE_MASQUERADE"
    · subst h2; simp
    · simp [h1, h2]

theorem accB64_ok {v k : Str} (h : accB64 v = .ok k) : Base64.b64_decode v = some k := by
  unfold accB64 orFail at h
  cases hb : Base64.b64_decode v with
  | none => rw [hb] at h; cases h
  | some k' =>
    rw [hb] at h
    simp only [Res.bind_ok] at h
    unfold Res.mem at h
    split at h
    · cases h
    · simp only [Res.bind_ok, Res.pure_eq, Res.ok.injEq] at h
      rw [h]

theorem accNum_ok {v : Str} {a b n : Int} (h : accNum v a b = .ok n) : strtol_wrapper v a b = (n, true) := by
  unfold accNum at h
  simp only at h
  split at h
  · rename_i h2
    injection h with h
    exact Prod.ext h h2
  · cases h

theorem accName_ok {n m : Int} (h : accName n = .ok m) : m = n ∧ 0 ≤ n := by
  unfold accName at h
  split at h
  · cases h
  · injection h with h
    exact ⟨h.symm, by omega⟩

theorem orFail_ok {α : Type} {o : Option α} {a : α} (h : orFail o = .ok a) : o = some a := by
  cases o with
  | none => cases h
  | some b => injection h with h; rw [h]

theorem optOf_cases {var : Str} {o : Opt} (h : optOf var = some o) : (var, o) ∈ optNames := by
  unfold optOf at h
  cases hf : optNames.find? (fun e => e.1 = var) with
  | none => rw [hf] at h; cases h
  | some e =>
    rw [hf] at h
    simp only [Option.map_some, Option.some.injEq] at h
    have h1 := List.mem_of_find?_eq_some hf
    have h2 := List.find?_some hf
    simp only [decide_eq_true_eq] at h2
    subst h
    rw [← h2]
    exact h1

theorem optOf_none {var : Str} (h : optOf var = none) : ∀ e ∈ optNames, var ≠ e.1 := by
  unfold optOf at h
  simp only [Option.map_eq_none_iff, List.find?_eq_none, decide_eq_true_eq] at h
  intro e he hv
  exact h e he hv.symm

theorem raw_unknown (env : AccEnv) (src : Str) (es : List Entry) {var : Str} (v : Str) (h : optOf var = none) :
    rawOf env src (es ++ [(var, v)]) = rawOf env src es := by
  have hn := optOf_none h
  simp only [optNames, List.forall_mem_cons] at hn
  simp only [rawOf, lastOf_snoc, lastEntry_snoc, keyOf_snoc, gpgPw_snoc, snat_snoc, List.mem_cons, List.not_mem_nil,
    hn, if_false, false_and, or_self]

theorem ite_ok {α : Type} {c : Prop} [Decidable c] {b : α} {r : Res α} (h : (if c then .err else r) = .ok b) :
    ¬ c ∧ r = .ok b := by
  split at h
  · cases h
  · exact ⟨by assumption, h⟩

theorem bind_ok_inv {α β : Type} {r : Res α} {k : α → Res β} {b : β} (h : r >>= k = .ok b) : ∃ a, r = .ok a ∧ k a = .ok b := by
  cases r with
  | ub => cases h
  | err => cases h
  | ok a => exact ⟨a, rfl, h⟩

theorem guard_ok {c : Bool} {u : Unit} (h : Res.guard c = .ok u) : c = false := by
  unfold Res.guard at h
  split at h
  · cases h
  · simp_all

set_option maxHeartbeats 2000000 in
theorem raw_known (env : AccEnv) (src : Str) (es : List Entry) {var : Str} {o : Opt} (v : Str) (ho : optOf var = some o)
    {pw : Pw} {x : Pw × AccEnt} (h : setOption env o v (pw, rawOf env src es) = .ok x) :
    x.2 = rawOf env src (es ++ [(var, v)]) := by
  have hm := optOf_cases ho
  simp only [optNames, List.mem_cons, List.not_mem_nil, or_false, Prod.mk.injEq] at hm
  rcases hm with ⟨rfl, rfl⟩ | ⟨rfl, rfl⟩ | ⟨rfl, rfl⟩ | ⟨rfl, rfl⟩ | ⟨rfl, rfl⟩ | ⟨rfl, rfl⟩ | ⟨rfl, rfl⟩ | ⟨rfl, rfl⟩ | ⟨rfl, rfl⟩ |
    ⟨rfl, rfl⟩ | ⟨rfl, rfl⟩ | ⟨rfl, rfl⟩ | ⟨rfl, rfl⟩ | ⟨rfl, rfl⟩ | ⟨rfl, rfl⟩ | ⟨rfl, rfl⟩ | ⟨rfl, rfl⟩ | ⟨rfl, rfl⟩ |
    ⟨rfl, rfl⟩ | ⟨rfl, rfl⟩ | ⟨rfl, rfl⟩ | ⟨rfl, rfl⟩ | ⟨rfl, rfl⟩ | ⟨rfl, rfl⟩ | ⟨rfl, rfl⟩ | ⟨rfl, rfl⟩ | ⟨rfl, rfl⟩ |
    ⟨rfl, rfl⟩ | ⟨rfl, rfl⟩ | ⟨rfl, rfl⟩ | ⟨rfl, rfl⟩ | ⟨rfl, rfl⟩ | ⟨rfl, rfl⟩ | ⟨rfl, rfl⟩ | ⟨rfl, rfl⟩ | ⟨rfl, rfl⟩ |
    ⟨rfl, rfl⟩ | ⟨rfl, rfl⟩ | ⟨rfl, rfl⟩ | ⟨rfl, rfl⟩
  all_goals unfold setOption at h
  all_goals simp only at h
  all_goals replace h := (ite_ok h).2
  all_goals try obtain ⟨k, hk, h⟩ := bind_ok_inv h
  all_goals try (replace hk := accB64_ok hk)
  all_goals try (replace hk := accName_ok hk)
  all_goals try (replace hk := accNum_ok hk)
  all_goals try (obtain ⟨k', hk, h⟩ := bind_ok_inv h)
  all_goals try (replace hk := orFail_ok hk)
  all_goals try split at h
  all_goals simp only [Res.ok.injEq, Res.pure_eq] at h
  all_goals subst h
  all_goals simp [rawOf, lastOf_snoc, lastEntry_snoc, keyOf_snoc, gpgPw_snoc, snat_snoc, yes_bool]
  all_goals try first
    | (obtain ⟨rfl, _⟩ := hk; rfl)
    | (rw [hk]; done)
    | (rw [hk]; rfl)
    | (simp [hk]; done)
    | (rename_i hy; rw [yes_bool] at hy; simp [hy]; done)

end Fwknop
