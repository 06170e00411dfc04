import Verif.Lemmas.SrvConfInit
import Verif.Lemmas.AccessConf
import Verif.Lemmas.AccessLine

/-!
# The configuration of the server: memory, numbers and chains
-/

namespace Fwknop
open Fwknop.Spec

/-- No variable is empty. -/
def NonEmpty (c : SrvVars) : Prop := ∀ n v, c n = some v → v ≠ []

/-- The chain settings fit in a line. -/
def ShortChains (c : SrvVars) : Prop := ∀ d ∈ chainDefaults, ∀ v, c d.1 = some v → v.length ≤ 1023

theorem nonEmpty_set {c : SrvVars} (h : NonEmpty c) {n v : Str} (hv : v ≠ []) : NonEmpty (set_config_entry c n v) := by
  intro m w hw
  rw [set_eq] at hw
  split at hw
  · cases hw; exact hv
  · exact h m w hw

theorem short_set {c : SrvVars} (h : ShortChains c) {n v : Str} (hv : (∃ d ∈ chainDefaults, d.1 = n) → v.length ≤ 1023) :
    ShortChains (set_config_entry c n v) := by
  intro d hd w hw
  rw [set_eq] at hw
  split at hw
  · rename_i hq
    cases hw
    exact hv ⟨d, hd, hq⟩
  · exact h d hd w hw

theorem chop_le (v : Str) : (chop_whitespace v).length ≤ v.length := by
  cases v with
  | nil => simp [chop_whitespace]
  | cons c cs =>
    rw [chop_whitespace]
    split
    · exact Nat.le_refl _
    · simp only [List.length_cons, List.length_reverse]
      have := (List.dropWhile_sublist (p := isSpace) (l := cs.reverse)).length_le
      rw [List.length_reverse] at this
      omega

theorem chop_ne {v : Str} (h : v ≠ []) : chop_whitespace v ≠ [] := by
  cases v with
  | nil => exact absurd rfl h
  | cons c cs =>
    rw [chop_whitespace]
    split <;> simp

/-- An entry keeps the variables from being empty and the chain settings short. -/
theorem confEntry_keeps {var val : Str} (hv : val ≠ []) (hl : val.length ≤ 1023) (c : SrvVars) (t : ConfTmp) :
    (NonEmpty c → NonEmpty (confEntry var val c t).1) ∧ (ShortChains c → ShortChains (confEntry var val c t).1) := by
  have hset : (NonEmpty c → NonEmpty (set_config_entry c var val)) ∧ (ShortChains c → ShortChains (set_config_entry c var val)) :=
    ⟨fun h => nonEmpty_set h hv, fun h => short_set h fun _ => hl⟩
  unfold confEntry
  split
  · split
    · dsimp only
      split
      · split
        · rename_i v hq
          rw [take_take_append]
          refine ⟨fun h => nonEmpty_set h ?_, fun h => short_set h fun _ => by simp [List.length_take]; omega⟩
          unfold config_entry at hq
          split at hq
          · have := h _ _ hq
            cases v with
            | nil => exact absurd rfl this
            | cons a v => simp
          · cases hq
        · exact ⟨id, id⟩
      · exact hset
    · exact hset
  · exact ⟨id, id⟩

/-- Reading a line stays inside the arrays. -/
theorem confLine_safe (line : Str) (hlen : line.length < MAX_LINE_LEN) (c : SrvVars) (t : ConfTmp) :
    ∃ r, confLine line c t = .ok r ∧ (NonEmpty c → NonEmpty r.1) ∧ (ShortChains c → ShortChains r.1) := by
  unfold confLine
  simp only
  split
  · exact ⟨_, rfl, id, id⟩
  · cases h : scanLine (cstr line) with
    | none => exact ⟨_, rfl, id, id⟩
    | some p =>
      obtain ⟨var, val⟩ := p
      simp only
      have hc : (cstr line).length ≤ line.length := by
        unfold cstr
        exact (List.takeWhile_sublist _).length_le
      unfold scanLine at h
      simp only at h
      split at h
      · simp at h
      · rename_i hne
        simp only [Option.some.injEq, Prod.mk.injEq] at h
        obtain ⟨h1, h2⟩ := h
        have hv : val ≠ [] := by
          rw [← h2]
          exact fun hq => hne (.inr hq)
        have l1 : var.length ≤ (cstr line).length := by
          rw [← h1]
          exact Nat.le_trans (List.takeWhile_sublist _).length_le (List.dropWhile_sublist _).length_le
        have l2 : val.length ≤ (cstr line).length := by
          rw [← h2]
          refine Nat.le_trans (List.takeWhile_sublist _).length_le ?_
          refine Nat.le_trans (List.dropWhile_sublist _).length_le ?_
          exact Nat.le_trans (List.drop_sublist _ _).length_le (List.dropWhile_sublist _).length_le
        have : (var.length + 1 > MAX_LINE_LEN ∨ val.length + 1 > MAX_LINE_LEN) ↔ False := by
          simp only [MAX_LINE_LEN] at hlen ⊢
          exact iff_of_false (by omega) id
        simp only [this, decide_false, Res.mem_false]
        refine ⟨_, rfl, confEntry_keeps (chop_ne hv) ?_ c t⟩
        have := chop_le val
        simp only [MAX_LINE_LEN] at hlen
        omega

theorem confLoop_safe : ∀ (ls : List Str), (∀ l ∈ ls, l.length < MAX_LINE_LEN) → ∀ (c : SrvVars) (t : ConfTmp),
    ∃ c', confLoop ls c t = .ok c' ∧ (NonEmpty c → NonEmpty c') ∧ (ShortChains c → ShortChains c')
  | [], _, c, t => ⟨c, rfl, id, id⟩
  | l :: ls, h, c, t => by
    obtain ⟨r, h1, h2, h3⟩ := confLine_safe l (h l (by simp)) c t
    obtain ⟨c', h4, h5, h6⟩ := confLoop_safe ls (fun x hx => h x (by simp [hx])) r.1 r.2
    unfold confLoop
    rw [h1]
    exact ⟨c', h4, h5 ∘ h2, h6 ∘ h3⟩

theorem parse_safe (env : SrvEnv) (f : Str) (c : SrvVars) :
    parse_config_file env f c ≠ .ub ∧ ∀ c', parse_config_file env f c = .ok c' → (NonEmpty c → NonEmpty c') ∧ (ShortChains c → ShortChains c') := by
  unfold parse_config_file
  cases env.file f with
  | none => exact ⟨nofun, nofun⟩
  | some content =>
    obtain ⟨c1, h1, h2, h3⟩ := confLoop_safe (fgetsLines content.length content) (fgetsLines_length _ _) c {}
    dsimp only
    rw [h1]
    refine ⟨nofun, fun c' h => ?_⟩
    cases h
    exact ⟨h2, h3⟩

theorem parseAll_safe (env : SrvEnv) : ∀ (fs : List Str) (c : SrvVars),
    parseFiles env fs c ≠ .ub ∧ ∀ c', parseFiles env fs c = .ok c' → (NonEmpty c → NonEmpty c') ∧ (ShortChains c → ShortChains c')
  | [], c => ⟨nofun, fun c' h => by cases h; exact ⟨id, id⟩⟩
  | f :: fs, c => by
    obtain ⟨h1, h2⟩ := parse_safe env f c
    unfold parseFiles
    cases hq : parse_config_file env f c with
    | ub => exact absurd hq h1
    | err => exact ⟨nofun, nofun⟩
    | ok c1 =>
      obtain ⟨h3, h4⟩ := h2 c1 hq
      obtain ⟨h5, h6⟩ := parseAll_safe env fs c1
      exact ⟨h5, fun c' h => ⟨(h6 c' h).1 ∘ h3, (h6 c' h).2 ∘ h4⟩⟩

theorem readConfig_safe (env : SrvEnv) (args : List SrvArg) :
    readConfig env args ≠ .ub ∧ ∀ c, readConfig env args = .ok c → (NonEmpty (before env args) → NonEmpty c) ∧ ShortChains c := by
  have hb : ShortChains (before env args) := by
    intro d hd v hv
    have : ∀ d ∈ chainDefaults, d.1 ≠ b!"FIREWALL_EXE" ∧ d.1 ≠ b!"CONFIG_FILE" ∧ d.1 ≠ b!"OVERRIDE_CONFIG" := by decide
    obtain ⟨h1, h2, h3⟩ := this d hd
    unfold before at hv
    rw [if_neg h1, if_neg h2, if_neg h3] at hv
    cases hv
  unfold readConfig
  simp only [before_eq]
  obtain ⟨h1, h2⟩ := parse_safe env ((before env args b!"CONFIG_FILE").getD []) (before env args)
  cases hq : parse_config_file env ((before env args b!"CONFIG_FILE").getD []) (before env args) with
  | ub => exact absurd hq h1
  | err => exact ⟨nofun, nofun⟩
  | ok c1 =>
    obtain ⟨h3, h4⟩ := h2 c1 hq
    simp only [Res.bind_ok]
    cases c1 b!"OVERRIDE_CONFIG" with
    | none =>
      refine ⟨nofun, fun c h => ?_⟩
      cases h
      exact ⟨h3, h4 hb⟩
    | some l =>
      obtain ⟨h5, h6⟩ := parseAll_safe env (splitComma (strlcpy l MAX_LINE_LEN)) c1
      exact ⟨h5, fun c h => ⟨(h6 c h).1 ∘ h3, (h6 c h).2 (h4 hb)⟩⟩

theorem bind_safe {α β : Type} {x : Res α} {f : α → Res β} (h1 : x ≠ .ub) (h2 : ∀ a, x = .ok a → f a ≠ .ub) : (x >>= f) ≠ .ub := by
  cases x with
  | ub => exact absurd rfl h1
  | err => exact nofun
  | ok a => exact h2 a rfl

theorem guard_safe (c : Bool) : Res.guard c ≠ .ub := by cases c <;> exact nofun

theorem srvArg_safe (env : SrvEnv) (a : SrvArg) (o : SrvOpts) : srvArg env a o ≠ .ub := by
  cases a
  all_goals
    unfold srvArg
    first
      | exact bind_safe (guard_safe _) fun _ _ => nofun
      | exact nofun

theorem srvArgs_safe (env : SrvEnv) : ∀ (as : List SrvArg) (o : SrvOpts), srvArgs env as o ≠ .ub
  | [], _ => nofun
  | a :: as, o => bind_safe (srvArg_safe env a o) fun o' _ => srvArgs_safe env as o'

theorem range_safe (c : SrvVars) (n : Str) (a b : Int) : range_check c n a b ≠ .ub :=
  bind_safe (guard_safe _) fun _ _ => nofun

theorem ranges_safe (o : SrvOpts) : validate_int_var_ranges o ≠ .ub := by
  unfold validate_int_var_ranges
  iterate 8 refine bind_safe (range_safe _ _ _ _) fun _ _ => ?_
  exact nofun

theorem chainChecks_safe : ∀ (ds : List (Str × Str)) (c : SrvVars), chainChecks ds c ≠ .ub
  | [], _ => nofun
  | _ :: ds, _ => bind_safe (guard_safe _) fun _ _ => chainChecks_safe ds _

theorem defaultsIpt_safe (c : SrvVars) : defaultsIpt c ≠ .ub := by
  unfold defaultsIpt
  exact bind_safe (guard_safe _) fun _ _ => bind_safe (chainChecks_safe _ _) fun _ _ => nofun

theorem orRunFile_safe {dir : Str} (h : dir ≠ []) (n f : Str) (c : SrvVars) : orRunFile n dir f c ≠ .ub := by
  unfold orRunFile
  cases c n with
  | some v => exact nofun
  | none =>
    refine bind_safe ?_ fun _ _ => nofun
    unfold runFile
    cases dir with
    | nil => exact absurd rfl h
    | cons a d => exact nofun

theorem runDir_eq (env : SrvEnv) (c : SrvVars) :
    (orDefault b!"FWKNOP_RUN_DIR" env.run_dir (orDefault b!"ACCESS_FILE" (env.conf_dir ++ b!"/access.conf")
      (orDefault b!"FWKNOP_CONF_DIR" env.conf_dir c)) b!"FWKNOP_RUN_DIR").getD [] = (c b!"FWKNOP_RUN_DIR").getD env.run_dir := by
  simp only [orDefault_eq]
  rw [if_neg (by decide), if_neg (by decide), if_pos trivial, Option.or_none, Option.or_none]
  cases c b!"FWKNOP_RUN_DIR" <;> rfl

theorem defaults1_safe {env : SrvEnv} {c : SrvVars} (h : (c b!"FWKNOP_RUN_DIR").getD env.run_dir ≠ []) : defaults1 env c ≠ .ub := by
  unfold defaults1
  dsimp only
  rw [runDir_eq]
  exact bind_safe (orRunFile_safe h _ _ _) fun _ _ => bind_safe (orRunFile_safe h _ _ _) fun _ _ => nofun

theorem srvValidate_safe {env : SrvEnv} {o : SrvOpts} (h : (o.config b!"FWKNOP_RUN_DIR").getD env.run_dir ≠ []) : srvValidate env o ≠ .ub := by
  unfold srvValidate srvDefaults
  refine bind_safe (bind_safe (defaults1_safe h) fun _ _ => bind_safe (defaultsIpt_safe _) fun _ _ => nofun) fun _ _ => ?_
  refine bind_safe (ranges_safe _) fun o' _ => ?_
  dsimp only
  split
  · exact nofun
  · exact bind_safe (guard_safe _) fun _ _ => bind_safe (guard_safe _) fun _ _ => nofun

/-- The run directory is never empty if nothing on the command line or in the build is. -/
theorem srvConfig_safe {env : SrvEnv} {args : List SrvArg} (hb : NonEmpty (before env args)) (hr : env.run_dir ≠ [])
    (ha : argValue b!"FWKNOP_RUN_DIR" args ≠ some []) : srvConfig env args ≠ .ub := by
  unfold srvConfig
  obtain ⟨h1, h2⟩ := readConfig_safe env args
  refine bind_safe h1 fun c hc => bind_safe ?_ fun v _ => bind_safe (srvArgs_safe _ _ _) fun o ho => srvValidate_safe ?_
  · unfold confVerbose
    cases c b!"VERBOSE" with
    | none => exact nofun
    | some s => exact bind_safe (guard_safe _) fun _ _ => nofun
  · rw [srvArgs_value _ ho]
    dsimp only
    have hn := (h2 c hc).1 hb
    cases hq : argValue b!"FWKNOP_RUN_DIR" args with
    | some v =>
      rw [hq] at ha
      intro hx
      exact ha (congrArg some hx)
    | none =>
      cases hc' : c b!"FWKNOP_RUN_DIR" with
      | none => exact hr
      | some v => exact hn _ _ hc'

/-! ## Numbers -/

theorem range_ok {c : SrvVars} {n : Str} {a b x : Int} (hb : 0 ≤ b) (h : range_check c n a b = .ok x) :
    a ≤ x ∧ x ≤ b ∧ ∀ v k, c n = some v → Decimal v k → k < 2 ^ 31 → x = k := by
  unfold range_check at h
  obtain ⟨_, hg, h⟩ := Res.bind_eq_ok h
  cases h
  have hg := Res.guard_inv hg
  rw [Bool.not_eq_false'] at hg
  have := wrapper_range _ _ _ hg
  refine ⟨this.1, this.2.1 hb, fun v k hv hd hk => ?_⟩
  rw [hv]
  exact number_read hd hk _ _

theorem ranges_ok {o o' : SrvOpts} (h : validate_int_var_ranges o = .ok o') :
    ∀ r ∈ numVars, r.low ≤ r.number o' ∧ r.number o' ≤ r.high ∧ ∀ v k, o'.config r.name = some v → Decimal v k → k < 2 ^ 31 → r.number o' = k := by
  simp only [validate_int_var_ranges, res_bind_iff, Res.pure_eq, Res.ok.injEq] at h
  obtain ⟨_, h1, _, h2, _, h3, _, h4, _, h5, _, h6, _, h7, _, h8, rfl⟩ := h
  intro r hr
  simp only [numVars, List.mem_cons, List.not_mem_nil, or_false] at hr
  rcases hr with rfl | rfl | rfl | rfl | rfl | rfl | rfl | rfl
  · exact range_ok (by decide) h1
  · exact range_ok (by decide) h2
  · exact range_ok (by decide) h3
  · exact range_ok (by decide) h4
  · exact range_ok (by decide) h5
  · exact range_ok (by decide) h6
  · exact range_ok (by decide) h7
  · exact range_ok (by decide) h8

/-! ## Chains -/

theorem chainFields_cons (a : Nat) (s : Str) :
    chainFields (a :: s) = if a = 32 then chainFields s else if a = 44 then [] :: chainFields s else (chainFields s).modifyHead (a :: ·) := by
  unfold chainFields
  by_cases h : a = 32
  · subst h
    rw [if_pos rfl]
    rfl
  · rw [if_neg h, List.filter_cons_of_pos (by simpa using h), List.splitOn, List.splitOn, List.splitOnP_cons_eq_if_modifyHead]
    by_cases h2 : a = 44
    · rw [if_pos h2, if_pos (by simpa using h2)]
    · rw [if_neg h2, if_neg (by simpa using h2)]

theorem chainFields_ne (s : Str) : chainFields s ≠ [] := List.splitOnP_ne_nil _ _

theorem chainLoop_ok (s : Str) : ∀ (fields : List Str) (field : Str) (i : Nat), s.all (fun c => c = 32 || c = 44 || c = 95 || isAlnum c) = true →
    i + s.length ≤ 1023 → fields.length + (s.filter (· = 44)).length ≤ 5 →
    chainLoop s fields field i = .ok (fields.reverse ++ (chainFields s).modifyHead (field.reverse ++ ·)) := by
  induction s with
  | nil =>
    intro fields field i _ hi _
    unfold chainLoop
    simp only [List.length_nil] at hi
    have : (i ≥ MAX_LINE_LEN) ↔ False := iff_of_false (by simp only [MAX_LINE_LEN]; omega) id
    simp only [this, decide_false, Res.mem_false, Res.bind_ok, Res.pure_eq]
    simp [chainFields]
  | cons a s ih =>
    intro fields field i hall hi hc
    have hall' := hall
    rw [List.all_cons, Bool.and_eq_true] at hall'
    obtain ⟨ha, hs⟩ := hall'
    simp only [List.length_cons] at hi
    rw [chainLoop, chainFields_cons]
    by_cases h32 : a = 32
    · subst h32
      rw [if_pos rfl, if_pos rfl]
      exact ih _ _ _ hs (by omega) hc
    · rw [if_neg h32, if_neg h32]
      have hm : (i ≥ MAX_LINE_LEN) ↔ False := iff_of_false (by simp only [MAX_LINE_LEN]; omega) id
      simp only [hm, decide_false, Res.mem_false, Res.bind_ok]
      by_cases h44 : a = 44
      · subst h44
        rw [List.filter_cons_of_pos (by decide), List.length_cons] at hc
        have hf : (fields.length + 1 ≥ FW_NUM_CHAIN_FIELDS) ↔ False := iff_of_false (by simp only [FW_NUM_CHAIN_FIELDS]; omega) id
        rw [if_pos rfl, if_pos rfl]
        simp only [hf, decide_false, Res.mem_false, Res.bind_ok]
        rw [ih _ _ _ hs (by omega) (by simp only [List.length_cons]; omega)]
        cases hq : chainFields s with
        | nil => exact absurd hq (chainFields_ne s)
        | cons w ws => simp
      · rw [if_neg h44, if_neg h44]
        rw [List.filter_cons_of_neg (by simpa using h44)] at hc
        have hg : (¬ (a = 95 ∨ isAlnum a = true)) ↔ False := by
          simp [h32, h44] at ha
          exact iff_of_false (by rintro h; exact h ha) id
        simp only [hg, decide_false, Res.guard]
        rw [show ∀ f : Unit → Res (List Str), ((if false = true then Res.err else Res.ok ()) >>= f) = f () from fun _ => rfl]
        rw [ih _ _ _ hs (by omega) hc]
        cases hq : chainFields s with
        | nil => exact absurd hq (chainFields_ne s)
        | cons w ws => simp

theorem chainFields_count (s : Str) : (chainFields s).length = (s.filter (· = 44)).length + 1 := by
  induction s with
  | nil => rfl
  | cons a s ih =>
    rw [chainFields_cons]
    by_cases h32 : a = 32
    · subst h32
      rw [if_pos rfl, ih]
      rfl
    · rw [if_neg h32]
      by_cases h44 : a = 44
      · subst h44
        rw [if_pos rfl, List.length_cons, ih]
        rfl
      · rw [if_neg h44, List.length_modifyHead, ih, List.filter_cons_of_neg (by simpa using h44)]

/-- A chain setting that has been checked and fits in a line means a chain, or its numbers are refused. -/
theorem chain_conf {s : Str} (hv : validate_ipt_chain_conf s = true) (hl : s.length ≤ 1023) :
    set_fw_chain_conf s ≠ .ub ∧ ∀ ch, set_fw_chain_conf s = .ok ch → ChainMeans s ch := by
  unfold validate_ipt_chain_conf at hv
  rw [Bool.and_eq_true, decide_eq_true_eq] at hv
  obtain ⟨h1, h2⟩ := hv
  have h2 : (s.filter (· = 44)).length = 5 := by simp only [FW_NUM_CHAIN_FIELDS] at h2; omega
  have hloop := chainLoop_ok s [] [] 0 h1 (by omega) (by simp only [List.length_nil]; omega)
  have hid : (chainFields s).modifyHead (([] : Str).reverse ++ ·) = chainFields s := by
    cases chainFields s <;> rfl
  rw [hid, List.reverse_nil, List.nil_append] at hloop
  have hlen := chainFields_count s
  rw [h2] at hlen
  obtain ⟨f0, f1, f2, f3, f4, f5, hf⟩ : ∃ f0 f1 f2 f3 f4 f5, chainFields s = [f0, f1, f2, f3, f4, f5] := by
    match chainFields s, hlen with
    | [f0, f1, f2, f3, f4, f5], _ => exact ⟨f0, f1, f2, f3, f4, f5, rfl⟩
  unfold set_fw_chain_conf
  rw [hloop, Res.bind_ok, hf]
  constructor
  · exact bind_safe (guard_safe _) fun _ _ => bind_safe (guard_safe _) fun _ _ => bind_safe (guard_safe _) fun _ _ => nofun
  · intro ch h
    obtain ⟨_, _, h⟩ := Res.bind_eq_ok h
    obtain ⟨_, hp, h⟩ := Res.bind_eq_ok h
    obtain ⟨_, _, h⟩ := Res.bind_eq_ok h
    cases h
    have hp := Res.guard_inv hp
    rw [Bool.not_eq_false'] at hp
    have hr := wrapper_range _ _ _ hp
    exact ⟨f0, f1, f2, f3, f4, f5, hf, _, rfl, hr.1, hr.2.1 (by decide), fun n hd hn => number_read hd hn _ _⟩

theorem chainChecks_valid : ∀ (ds : List (Str × Str)) {c c' : SrvVars}, chainChecks ds c = .ok c' →
    ∀ d ∈ ds, ∃ v, c' d.1 = some v ∧ validate_ipt_chain_conf v = true
  | [], _, _, _, _, hd => by cases hd
  | d :: ds, c, c', h, e, he => by
    unfold chainChecks at h
    obtain ⟨_, hg, h2⟩ := Res.bind_eq_ok h
    rcases List.mem_cons.1 he with rfl | he
    · have hg := Res.guard_inv hg
      rw [Bool.not_eq_false'] at hg
      obtain ⟨v, hv⟩ : ∃ v, orDefault e.1 e.2 c e.1 = some v := by
        rw [orDefault_eq, if_pos rfl]
        cases c e.1 with
        | none => exact ⟨_, rfl⟩
        | some v => exact ⟨v, rfl⟩
      rw [hv] at hg
      refine ⟨v, ?_, hg⟩
      rw [chainChecks_ok _ h2, fold_defaults, hv]
      rfl
    · exact chainChecks_valid ds h2 e he

theorem keeps_default {n v : Str} {c : SrvVars} {m w : Str} (h : c m = some w) : orDefault n v c m = some w := by
  rw [orDefault_eq, h]
  rfl

theorem keeps_default2 {env : SrvEnv} {c : SrvVars} {m w : Str} (h : c m = some w) : defaults2 env c m = some w := by
  unfold defaults2
  iterate 15 refine keeps_default ?_
  exact h

theorem srvDefaults_chains {env : SrvEnv} {c c' : SrvVars} (h : srvDefaults env c = .ok c') (hc : ShortChains c) :
    ∀ d ∈ chainDefaults, ∃ v, c' d.1 = some v ∧ validate_ipt_chain_conf v = true ∧ v.length ≤ 1023 := by
  intro d hd
  have hw := srvDefaults_ok h
  unfold srvDefaults at h
  obtain ⟨c1, h1, h⟩ := Res.bind_eq_ok h
  obtain ⟨c2, h2, h⟩ := Res.bind_eq_ok h
  cases h
  unfold defaultsIpt at h2
  obtain ⟨_, _, h2⟩ := Res.bind_eq_ok h2
  obtain ⟨c3, h3, h2⟩ := Res.bind_eq_ok h2
  cases h2
  obtain ⟨v, hv, hval⟩ := chainChecks_valid _ h3 d hd
  have hv' := keeps_default2 (env := env) (keeps_default (n := b!"ENABLE_IPT_COMMENT_CHECK") (v := b!"Y") hv)
  refine ⟨v, hv', hval, ?_⟩
  rw [hw] at hv'
  unfold withDefaults at hv'
  cases hq : c d.1 with
  | some w =>
    rw [hq] at hv'
    cases hv'
    exact hc d hd _ hq
  | none =>
    rw [hq, Option.none_or] at hv'
    have : ∀ d ∈ chainDefaults, (((defaultsOf env c).find? fun e => e.1 = d.1).map (·.2)) = some d.2 ∧ d.2.length ≤ 1023 := by
      intro d hd
      simp only [chainDefaults, List.mem_cons, List.not_mem_nil, or_false] at hd
      rcases hd with rfl | rfl | rfl | rfl | rfl | rfl <;> exact ⟨rfl, by decide⟩
    obtain ⟨h4, h5⟩ := this d hd
    rw [h4] at hv'
    cases hv'
    exact h5

theorem isOn_iff (c : SrvVars) (n : Str) : isOn c n = true ↔ On c n := by
  unfold isOn On
  cases c n with
  | none => simp [hasPrefixI]
  | some v =>
    cases v with
    | nil => simp [hasPrefixI]
    | cons a v =>
      have : toLower a = 121 ↔ a = 89 ∨ a = 121 := by
        unfold toLower
        simp only [Bool.and_eq_true, decide_eq_true_eq]
        split <;> omega
      have h121 : toLower 89 = 121 := by decide
      simp [hasPrefixI, h121, eq_comm (a := 121), this]
      constructor
      · rintro (rfl | rfl)
        · exact ⟨v, .inl ⟨rfl, rfl⟩⟩
        · exact ⟨v, .inr ⟨rfl, rfl⟩⟩
      · rintro ⟨t, ⟨rfl, -⟩ | ⟨rfl, -⟩⟩
        · exact .inl rfl
        · exact .inr rfl

theorem arg_chain (args : List SrvArg) : ∀ d ∈ chainDefaults, argValue d.1 args = none := by
  intro d hd
  induction args with
  | nil => rfl
  | cons a as ih =>
    rw [argValue, ih, Option.none_or]
    have : ∀ n v, argSets a = some (n, v) → n ≠ d.1 := by
      intro n v h
      simp only [chainDefaults, List.mem_cons, List.not_mem_nil, or_false] at hd
      cases a <;> simp only [argSets, Option.some.injEq, Prod.mk.injEq, reduceCtorEq] at h <;>
        (obtain ⟨rfl, -⟩ := h; rcases hd with rfl | rfl | rfl | rfl | rfl | rfl <;> decide)
    cases hq : argSets a with
    | none => rfl
    | some p =>
      obtain ⟨n, v⟩ := p
      simp only
      rw [if_neg (this n v hq)]

theorem srvConfig_chains {env : SrvEnv} {args : List SrvArg} {o : SrvOpts} (h : srvConfig env args = .ok o) :
    ∀ d ∈ chainDefaults, ∃ v, o.config d.1 = some v ∧ validate_ipt_chain_conf v = true ∧ v.length ≤ 1023 := by
  unfold srvConfig at h
  obtain ⟨c, h1, h⟩ := Res.bind_eq_ok h
  obtain ⟨_, _, h⟩ := Res.bind_eq_ok h
  obtain ⟨o1, h2, h⟩ := Res.bind_eq_ok h
  obtain ⟨c2, h3, h4, _, _⟩ := srvValidate_ok h
  have hs := ((readConfig_safe env args).2 c h1).2
  rw [ranges_config h4]
  refine srvDefaults_chains h3 ?_
  intro d hd v hv
  rw [srvArgs_value _ h2, arg_chain args d hd] at hv
  exact hs d hd v hv

theorem chainIf_conf {c : SrvVars} {on : Bool} {name : Str} (hc : ∃ v, c name = some v ∧ validate_ipt_chain_conf v = true ∧ v.length ≤ 1023)
    {p : Prop} (hp : on = true ↔ p) :
    chainIf on c name ≠ .ub ∧ ∀ ch, chainIf on c name = .ok ch → (p ∧ ∃ s, c name = some s ∧ ChainMeans s ch) ∨ (¬ p ∧ ch = {}) := by
  obtain ⟨v, h1, h2, h3⟩ := hc
  obtain ⟨h4, h5⟩ := chain_conf h2 h3
  unfold chainIf
  rw [h1]
  cases on with
  | true => exact ⟨h4, fun ch h => .inl ⟨hp.1 rfl, v, rfl, h5 ch h⟩⟩
  | false =>
    refine ⟨nofun, fun ch h => .inr ⟨fun hq => (by cases hp.2 hq), ?_⟩⟩
    cases h
    rfl

/-- The chains of the firewall are those of the configuration. -/
theorem fwInit_conf {c : SrvVars} (hc : ∀ d ∈ chainDefaults, ∃ v, c d.1 = some v ∧ validate_ipt_chain_conf v = true ∧ v.length ≤ 1023) :
    fw_config_init c ≠ .ub ∧ ∀ chs, fw_config_init c = .ok chs → chs.length = (chainSlots c).length ∧
      ∀ x ∈ (chainSlots c).zip chs, (x.1.2 ∧ ∃ s, c x.1.1 = some s ∧ ChainMeans s x.2) ∨ (¬ x.1.2 ∧ x.2 = {}) := by
  have hnat : (isOn c b!"ENABLE_IPT_FORWARDING" || isOn c b!"ENABLE_IPT_LOCAL_NAT") = true ↔
      (On c b!"ENABLE_IPT_FORWARDING" ∨ On c b!"ENABLE_IPT_LOCAL_NAT") := by
    rw [Bool.or_eq_true, isOn_iff, isOn_iff]
  have hsnat : ((isOn c b!"ENABLE_IPT_FORWARDING" || isOn c b!"ENABLE_IPT_LOCAL_NAT") && isOn c b!"ENABLE_IPT_SNAT") = true ↔
      ((On c b!"ENABLE_IPT_FORWARDING" ∨ On c b!"ENABLE_IPT_LOCAL_NAT") ∧ On c b!"ENABLE_IPT_SNAT") := by
    rw [Bool.and_eq_true, hnat, isOn_iff]
  have hm : ∀ n, n ∈ chainDefaults.map Prod.fst → ∃ v, c n = some v ∧ validate_ipt_chain_conf v = true ∧ v.length ≤ 1023 := by
    intro n hn
    obtain ⟨d, hd, rfl⟩ := List.mem_map.1 hn
    exact hc d hd
  obtain ⟨a1, a2⟩ := chainIf_conf (on := true) (hm b!"IPT_INPUT_ACCESS" (by decide)) (p := True) (by simp)
  obtain ⟨b1, b2⟩ := chainIf_conf (hm b!"IPT_OUTPUT_ACCESS" (by decide)) (isOn_iff c b!"ENABLE_IPT_OUTPUT")
  obtain ⟨c1, c2⟩ := chainIf_conf (hm b!"IPT_FORWARD_ACCESS" (by decide)) hnat
  obtain ⟨d1, d2⟩ := chainIf_conf (hm b!"IPT_DNAT_ACCESS" (by decide)) hnat
  obtain ⟨e1, e2⟩ := chainIf_conf (hm b!"IPT_MASQUERADE_ACCESS" (by decide)) hsnat
  obtain ⟨f1, f2⟩ := chainIf_conf (hm b!"IPT_SNAT_ACCESS" (by decide)) hsnat
  constructor
  · unfold fw_config_init
    exact bind_safe a1 fun _ _ => bind_safe b1 fun _ _ => bind_safe c1 fun _ _ => bind_safe d1 fun _ _ => bind_safe e1 fun _ _ =>
      bind_safe f1 fun _ _ => nofun
  · intro chs h
    simp only [fw_config_init, res_bind_iff, Res.pure_eq, Res.ok.injEq] at h
    obtain ⟨_, h1, _, h2, _, h3, _, h4, _, h5, _, h6, rfl⟩ := h
    refine ⟨rfl, fun x hx => ?_⟩
    simp only [chainSlots, List.zip_cons_cons, List.zip_nil_left, List.mem_cons, List.not_mem_nil, or_false] at hx
    rcases hx with rfl | rfl | rfl | rfl | rfl | rfl
    · exact a2 _ h1
    · exact b2 _ h2
    · exact c2 _ h3
    · exact d2 _ h4
    · exact f2 _ h6
    · exact e2 _ h5

end Fwknop
