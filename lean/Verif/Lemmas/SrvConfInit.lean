import Verif.Lemmas.SrvConf

/-!
# The variables of the server after the files, the command line and the defaults
-/

namespace Fwknop
open Fwknop.Spec

theorem res_bind_iff {α β : Type} {x : Res α} {f : α → Res β} {b : β} : (x >>= f) = .ok b ↔ ∃ a, x = .ok a ∧ f a = .ok b :=
  ⟨Res.bind_eq_ok, fun ⟨_, h1, h2⟩ => by rw [h1]; exact h2⟩

theorem parse_items {env : SrvEnv} {items : Str → Option (List ConfItem)} (h : FilesHold env items) (f : Str) (c : SrvVars) :
    parse_config_file env f c = ((items f).map (applyItems c)).elim .err .ok := by
  unfold parse_config_file
  rcases h f with ⟨h1, h2⟩ | ⟨content, is, h1, h2, h3⟩
  · rw [h1, h2]; rfl
  · rw [h1, h2]
    exact conf_file h3 c {}

theorem parse_all {env : SrvEnv} {items : Str → Option (List ConfItem)} (h : FilesHold env items) :
    ∀ (fs : List Str) (c : SrvVars), parseFiles env fs c = (readFiles items fs c).elim .err .ok
  | [], _ => rfl
  | f :: fs, c => by
    unfold parseFiles readFiles
    rw [parse_items h]
    cases items f with
    | none => rfl
    | some is => exact parse_all h fs (applyItems c is)

theorem splitComma_eq (s : Str) : splitComma s = names s := by
  unfold names
  induction s with
  | nil => rfl
  | cons a s ih =>
    rw [List.splitOn] at ih ⊢
    rw [List.splitOnP_cons_eq_if_modifyHead]
    by_cases h : a = 44
    · subst h
      rw [splitComma, ih]
      rfl
    · rw [splitComma.eq_3 _ _ (by simpa using h), ih]
      rw [if_neg (by simpa using h)]
      cases hq : List.splitOnP (· == 44) s with
      | nil => exact absurd hq (List.splitOnP_ne_nil _ _)
      | cons w ws => rfl

theorem set_eq (c : SrvVars) (n v m : Str) : set_config_entry c n v m = if m = n then some v else c m := rfl

theorem filePass_eq (as : List SrvArg) (c : SrvVars) (g : Bool) (m : Str) :
    filePass as c g m = if m = b!"CONFIG_FILE" then (mainFile as).or (c m)
      else if m = b!"OVERRIDE_CONFIG" then (lastOverride as).or (if g then c m else (firstMain as).or (c m)) else c m := by
  induction as generalizing c g with
  | nil => cases g <;> simp [filePass, mainFile, lastOverride, firstMain]
  | cons a as ih =>
    have hne : b!"OVERRIDE_CONFIG" ≠ b!"CONFIG_FILE" := by decide
    cases a
    case config_file v =>
      rw [filePass]
      cases g
      · rw [if_neg (by decide), ih]
        by_cases h1 : m = b!"CONFIG_FILE"
        · subst h1
          simp [mainFile, lastOverride, firstMain, set_eq, hne.symm, Option.or_assoc]
        · by_cases h2 : m = b!"OVERRIDE_CONFIG"
          · subst h2
            simp [mainFile, lastOverride, firstMain, set_eq, hne]
          · simp [mainFile, lastOverride, firstMain, set_eq, h1, h2]
      · rw [if_pos rfl, ih]
        by_cases h1 : m = b!"CONFIG_FILE"
        · subst h1
          simp [mainFile, lastOverride, firstMain, set_eq, Option.or_assoc]
        · by_cases h2 : m = b!"OVERRIDE_CONFIG"
          · subst h2
            simp [mainFile, lastOverride, firstMain, set_eq, hne]
          · simp [mainFile, lastOverride, firstMain, set_eq, h1, h2]
    case override_config v =>
      rw [filePass, ih]
      by_cases h1 : m = b!"CONFIG_FILE"
      · subst h1
        simp [mainFile, lastOverride, firstMain, set_eq, hne.symm]
      · by_cases h2 : m = b!"OVERRIDE_CONFIG"
        · subst h2
          cases g <;> simp [mainFile, lastOverride, firstMain, set_eq, hne, Option.or_assoc]
        · simp [mainFile, lastOverride, firstMain, set_eq, h1, h2]
    all_goals
      simp only [filePass, ih, mainFile, lastOverride, firstMain, Option.or_none]

theorem orDefault_eq (n v : Str) (c : SrvVars) (m : Str) : orDefault n v c m = (c m).or (if n = m then some v else none) := by
  unfold orDefault
  by_cases h : m = n
  · subst h
    rw [if_pos rfl, if_pos rfl]
    cases c m <;> rfl
  · rw [if_neg h, if_neg (Ne.symm h), Option.or_none]

theorem orDefault_match (n v : Str) (c : SrvVars) : orDefault n v c = match c n with
    | none => set_config_entry c n v
    | some _ => c := by
  funext m
  rw [orDefault_eq]
  by_cases h : n = m
  · subst h
    cases hc : c n with
    | none => simp [set_eq]
    | some x => simp [hc]
  · cases hc : c n with
    | none => simp [set_eq, h, Ne.symm h]
    | some x => simp [h]

/-- The variables before the files. -/
theorem before_eq (env : SrvEnv) (args : List SrvArg) :
    orDefault b!"CONFIG_FILE" (env.conf_dir ++ b!"/fwknopd.conf")
      (filePass args (set_config_entry (fun _ => none) b!"FIREWALL_EXE" env.firewall_exe) false) = before env args := by
  funext m
  rw [orDefault_eq, filePass_eq]
  unfold before
  have h1 : b!"FIREWALL_EXE" ≠ b!"CONFIG_FILE" := by decide
  have h2 : b!"FIREWALL_EXE" ≠ b!"OVERRIDE_CONFIG" := by decide
  have h3 : b!"CONFIG_FILE" ≠ b!"OVERRIDE_CONFIG" := by decide
  by_cases hf : m = b!"FIREWALL_EXE"
  · subst hf
    rw [if_neg h1, if_neg h2, if_pos rfl, set_eq, if_pos rfl]
    rfl
  · rw [if_neg hf]
    by_cases hc : m = b!"CONFIG_FILE"
    · subst hc
      rw [if_pos rfl, if_pos rfl, if_pos rfl, set_eq, if_neg h1.symm]
      cases mainFile args <;> rfl
    · rw [if_neg hc, if_neg hc, if_neg (Ne.symm hc), Option.or_none]
      by_cases ho : m = b!"OVERRIDE_CONFIG"
      · subst ho
        rw [if_pos rfl, if_pos rfl, if_neg (by decide), set_eq, if_neg h2.symm, Option.or_none]
      · rw [if_neg ho, if_neg ho, set_eq, if_neg hf]

/-- The files are read in the order of the specification. -/
theorem readConfig_eq {env : SrvEnv} {items : Str → Option (List ConfItem)} (h : FilesHold env items) (args : List SrvArg) :
    readConfig env args = (afterFiles items env args).elim .err .ok := by
  unfold readConfig afterFiles
  simp only [before_eq]
  rw [parse_items h, show ∀ f c, readFiles items [f] c = (items f).bind fun is => some (applyItems c is) from fun _ _ => rfl]
  cases items (((before env args) b!"CONFIG_FILE").getD []) with
  | none => rfl
  | some is =>
    simp only [Option.map_some, Option.elim_some, Res.bind_ok, Option.bind_some]
    cases applyItems (before env args) is b!"OVERRIDE_CONFIG" with
    | none => rfl
    | some l =>
      dsimp only
      rw [parse_all h, splitComma_eq]
      rfl

theorem chop_noSlash (s : Str) : chop_sep s = noSlash s := rfl

theorem srvArg_value {env : SrvEnv} {a : SrvArg} {o o' : SrvOpts} (h : srvArg env a o = .ok o') (m : Str) :
    o'.config m = (match argSets a with
      | some (n, v) => if n = m then some v else none
      | none => none).or (o.config m) := by
  have hset : ∀ (n v : Str), (o.set n v).config m = (if n = m then some v else none).or (o.config m) := by
    intro n v
    show (if m = n then some v else o.config m) = _
    by_cases hq : m = n
    · subst hq; simp
    · rw [if_neg hq, if_neg (Ne.symm hq)]; rfl
  cases a
  all_goals
    simp only [srvArg, res_bind_iff, Res.pure_eq, Res.ok.injEq] at h
    first
      | (obtain rfl := h; first | exact (hset _ _) | rfl)
      | (obtain ⟨_, _, rfl⟩ := h; first | exact (hset _ _) | rfl)

theorem srvArgs_value {env : SrvEnv} : ∀ (as : List SrvArg) {o o' : SrvOpts}, srvArgs env as o = .ok o' → ∀ m,
    o'.config m = (argValue m as).or (o.config m)
  | [], o, o', h, m => by cases h; rfl
  | a :: as, o, o', h, m => by
    unfold srvArgs at h
    obtain ⟨o1, h1, h2⟩ := Res.bind_eq_ok h
    rw [srvArgs_value as h2, srvArg_value h1, argValue, Option.or_assoc]
    rfl

theorem fold_defaults (ds : List (Str × Str)) (c : SrvVars) (m : Str) :
    ds.foldl (fun c d => orDefault d.1 d.2 c) c m = (c m).or ((ds.find? fun d => d.1 = m).map (·.2)) := by
  induction ds generalizing c with
  | nil => simp
  | cons d ds ih =>
    rw [List.foldl_cons, ih, orDefault_eq, Option.or_assoc]
    congr 1
    by_cases hd : d.1 = m
    · rw [if_pos hd, List.find?_cons_of_pos (by simpa using hd)]; rfl
    · rw [if_neg hd, List.find?_cons_of_neg (by simpa using hd)]; rfl

theorem strlcat_path {a b : Str} (h : a.length ≤ 1023) : strlcat a b MAX_PATH_LEN = (a ++ b).take 1023 := by
  unfold strlcat
  simp only [MAX_PATH_LEN]
  rw [if_neg (by omega), List.take_append, List.take_of_length_le h]

theorem runFile_ok {dir name p : Str} (h : runFile dir name = .ok p) : p = inDir dir name := by
  simp only [runFile, res_bind_iff, Res.pure_eq, Res.ok.injEq] at h
  obtain ⟨_, _, rfl⟩ := h
  unfold inDir strlcpy
  simp only [show MAX_PATH_LEN - 1 = 1023 from rfl]
  have hl : (dir.take 1023).length ≤ 1023 := by simp [List.length_take]; omega
  split
  · exact strlcat_path hl
  · rw [strlcat_path hl, strlcat_path (by simp [List.length_take]; omega)]

theorem chainChecks_ok : ∀ (ds : List (Str × Str)) {c c' : SrvVars}, chainChecks ds c = .ok c' →
    c' = ds.foldl (fun c d => orDefault d.1 d.2 c) c
  | [], c, c', h => by cases h; rfl
  | d :: ds, c, c', h => by
    unfold chainChecks at h
    obtain ⟨_, _, h2⟩ := Res.bind_eq_ok h
    rw [chainChecks_ok ds h2]
    rfl

/-- The first part of the defaults. -/
def list1 (env : SrvEnv) (c : SrvVars) : List (Str × Str) := (defaultsOf env c).take 17

theorem defaults1_ok {env : SrvEnv} {c c' : SrvVars} (h : defaults1 env c = .ok c') :
    c' = (list1 env c).foldl (fun c d => orDefault d.1 d.2 c) c := by
  unfold defaults1 at h
  dsimp only at h
  have hdir : (orDefault b!"FWKNOP_RUN_DIR" env.run_dir (orDefault b!"ACCESS_FILE" (env.conf_dir ++ b!"/access.conf")
      (orDefault b!"FWKNOP_CONF_DIR" env.conf_dir c)) b!"FWKNOP_RUN_DIR").getD [] = (c b!"FWKNOP_RUN_DIR").getD env.run_dir := by
    simp only [orDefault_eq]
    rw [if_neg (by decide), if_neg (by decide), if_pos trivial, Option.or_none, Option.or_none]
    cases c b!"FWKNOP_RUN_DIR" <;> rfl
  rw [hdir] at h
  obtain ⟨c1, h1, h⟩ := Res.bind_eq_ok h
  obtain ⟨c2, h2, h⟩ := Res.bind_eq_ok h
  have e1 : ∀ {c c1 : SrvVars} {n d f : Str}, orRunFile n d f c = .ok c1 → c1 = orDefault n (inDir d f) c := by
    intro c c1 n d f h
    unfold orRunFile at h
    rw [orDefault_match]
    cases hc : c n with
    | none =>
      rw [hc] at h
      obtain ⟨p, hp, h⟩ := Res.bind_eq_ok h
      cases h
      rw [runFile_ok hp]
    | some v =>
      rw [hc] at h
      cases h
      rfl
  have h1 := e1 h1
  have h2 := e1 h2
  subst h1 h2
  cases h
  unfold list1 defaultsOf
  simp only [List.take_succ_cons, List.take_zero, List.foldl_cons, List.foldl_nil]
  congr 6
  simp only [orDefault_eq]
  simp only [show ¬ b!"FWKNOP_CONF_DIR" = b!"PCAP_FILE" by decide, show ¬ b!"ACCESS_FILE" = b!"PCAP_FILE" by decide,
    show ¬ b!"FWKNOP_RUN_DIR" = b!"PCAP_FILE" by decide, show ¬ b!"FWKNOP_PID_FILE" = b!"PCAP_FILE" by decide,
    show ¬ b!"DIGEST_FILE" = b!"PCAP_FILE" by decide, show ¬ b!"PCAP_INTF" = b!"PCAP_FILE" by decide,
    show ¬ b!"ENABLE_PCAP_PROMISC" = b!"PCAP_FILE" by decide, show ¬ b!"PCAP_DISPATCH_COUNT" = b!"PCAP_FILE" by decide,
    show ¬ b!"PCAP_LOOP_SLEEP" = b!"PCAP_FILE" by decide, show ¬ b!"EXIT_AT_INTF_DOWN" = b!"PCAP_FILE" by decide,
    show ¬ b!"PCAP_FILTER" = b!"PCAP_FILE" by decide, if_false, Option.or_none]
  cases c b!"PCAP_FILE" <;> rfl

theorem defaultsIpt_ok {c c' : SrvVars} (h : defaultsIpt c = .ok c') :
    c' = ([(b!"ENABLE_IPT_FORWARDING", b!"N"), (b!"ENABLE_IPT_LOCAL_NAT", b!"N"),
      (b!"ENABLE_IPT_SNAT", b!"N"), (b!"ENABLE_IPT_OUTPUT", b!"N"), (b!"FLUSH_IPT_AT_INIT", b!"Y"), (b!"FLUSH_IPT_AT_EXIT", b!"Y")] ++
      chainDefaults ++ [(b!"ENABLE_IPT_COMMENT_CHECK", b!"Y")]).foldl (fun c d => orDefault d.1 d.2 c) c := by
  unfold defaultsIpt at h
  obtain ⟨_, _, h⟩ := Res.bind_eq_ok h
  obtain ⟨c1, h1, h⟩ := Res.bind_eq_ok h
  rw [chainChecks_ok _ h1] at h
  cases h
  rfl

/-- The variables after the defaults. -/
theorem srvDefaults_ok {env : SrvEnv} {c c' : SrvVars} (h : srvDefaults env c = .ok c') : c' = withDefaults env c := by
  unfold srvDefaults at h
  obtain ⟨c1, h1, h⟩ := Res.bind_eq_ok h
  obtain ⟨c2, h2, h⟩ := Res.bind_eq_ok h
  rw [defaults1_ok h1] at h2
  rw [defaultsIpt_ok h2] at h
  cases h
  funext m
  unfold withDefaults
  rw [← fold_defaults]
  rfl

theorem ranges_config {o o' : SrvOpts} (h : validate_int_var_ranges o = .ok o') : o'.config = o.config := by
  simp only [validate_int_var_ranges, res_bind_iff, Res.pure_eq, Res.ok.injEq] at h
  obtain ⟨_, _, _, _, _, _, _, _, _, _, _, _, _, _, _, _, rfl⟩ := h
  rfl

theorem srvValidate_ok {env : SrvEnv} {o o' : SrvOpts} (h : srvValidate env o = .ok o') :
    ∃ c, srvDefaults env o.config = .ok c ∧ validate_int_var_ranges { o with config := c } = .ok o' ∧ o'.config = withDefaults env o.config ∧
      o'.dump_config + o'.kill + o'.restart + o'.status ≤ 1 := by
  unfold srvValidate at h
  obtain ⟨c, h1, h⟩ := Res.bind_eq_ok h
  obtain ⟨o2, h2, h⟩ := Res.bind_eq_ok h
  have hc := ranges_config h2
  dsimp only at h
  have : o' = o2 ∧ o2.dump_config + o2.kill + o2.restart + o2.status ≤ 1 := by
    split at h
    · cases h; exact ⟨rfl, by omega⟩
    · obtain ⟨_, hg, h⟩ := Res.bind_eq_ok h
      obtain ⟨_, _, h⟩ := Res.bind_eq_ok h
      cases h
      have := Res.guard_inv hg
      refine ⟨rfl, ?_⟩
      simp at this
      omega
  obtain ⟨rfl, hn⟩ := this
  exact ⟨c, h1, h2, by rw [hc, ← srvDefaults_ok h1], hn⟩

/-- The configuration is what the files, the command line and the defaults say. -/
theorem srvConfig_value {env : SrvEnv} {items : Str → Option (List ConfItem)} (hf : FilesHold env items) {args : List SrvArg} {o : SrvOpts}
    (h : srvConfig env args = .ok o) :
    ∃ c, afterFiles items env args = some c ∧ o.config = withDefaults env fun n => (argValue n args).or (c n) := by
  unfold srvConfig at h
  rw [readConfig_eq hf] at h
  cases hc : afterFiles items env args with
  | none => rw [hc] at h; cases h
  | some c =>
    rw [hc] at h
    refine ⟨c, rfl, ?_⟩
    simp only [Option.elim_some, Res.bind_ok] at h
    obtain ⟨v, _, h⟩ := Res.bind_eq_ok h
    obtain ⟨o1, h1, h⟩ := Res.bind_eq_ok h
    obtain ⟨_, _, _, h3, _⟩ := srvValidate_ok h
    rw [h3]
    congr 1
    funext m
    exact srvArgs_value _ h1 m

/-! ## Files without references -/

theorem lastText_append (n : Str) (a b : List ConfItem) : lastText n (a ++ b) = (lastText n b).or (lastText n a) := by
  induction a with
  | nil => rw [List.nil_append, lastText, Option.or_none]
  | cons i a ih => rw [List.cons_append, lastText, ih, lastText, Option.or_assoc]

theorem noRefs_append {a b : List ConfItem} (h : NoRefs (a ++ b)) : NoRefs a ∧ NoRefs b :=
  ⟨fun n m s hm => h n m s (List.mem_append_left _ hm), fun n m s hm => h n m s (List.mem_append_right _ hm)⟩

theorem apply_text {is : List ConfItem} (h : NoRefs is) (c : SrvVars) (m : Str) : applyItems c is m = (settingOf is m).or (c m) := by
  unfold applyItems settingOf
  induction is generalizing c with
  | nil => by_cases hm : m ∈ config_map <;> simp [hm, lastText]
  | cons i is ih =>
    rw [List.foldl_cons, ih (fun n k s hk => h n k s (by simp [hk]))]
    have hi : applyItem c i m = (if m ∈ config_map then textOf m i else none).or (c m) := by
      cases i with
      | skip => simp [applyItem, textOf]
      | set n v =>
        cases v with
        | ref k s => exact absurd (List.mem_cons_self) (h n k s)
        | text t =>
          unfold applyItem textOf
          by_cases hn : n = m
          · subst hn
            by_cases hm : n ∈ config_map <;> simp [hm, Vars.put]
          · by_cases hk : n ∈ config_map
            · simp [hk, Vars.put, hn, Ne.symm hn]
            · simp [hk, hn]
    rw [hi, lastText]
    by_cases hm : m ∈ config_map
    · simp only [hm, if_true, Option.or_assoc]
    · simp only [hm, if_false, Option.none_or]

theorem readFiles_text {items : Str → Option (List ConfItem)} : ∀ (fs : List Str) (c c' : SrvVars), readFiles items fs c = some c' →
    ∃ is, contents items fs = some is ∧ (NoRefs is → ∀ m, c' m = (settingOf is m).or (c m))
  | [], c, c', h => by
    cases h
    exact ⟨[], rfl, fun _ m => by simp [settingOf, lastText]⟩
  | f :: fs, c, c', h => by
    unfold readFiles at h
    cases hf : items f with
    | none => rw [hf] at h; cases h
    | some a =>
      rw [hf] at h
      obtain ⟨is, h1, h2⟩ := readFiles_text fs _ _ h
      refine ⟨a ++ is, by rw [contents, hf, h1]; rfl, fun hn m => ?_⟩
      obtain ⟨ha, hb⟩ := noRefs_append hn
      rw [h2 hb, apply_text ha, ← Option.or_assoc]
      congr 1
      unfold settingOf
      by_cases hm : m ∈ config_map
      · simp only [hm, if_true, lastText_append]
      · simp only [hm, if_false, Option.none_or]

/-- Without references, and if the configuration file does not choose its own overrides, each variable has the text of its
last line. -/
theorem afterFiles_text {items : Str → Option (List ConfItem)} {env : SrvEnv} {args : List SrvArg} {c : SrvVars}
    (h : afterFiles items env args = some c)
    (hno : ∀ is, items ((mainFile args).getD (env.conf_dir ++ b!"/fwknopd.conf")) = some is → NoRefs is ∧ lastText b!"OVERRIDE_CONFIG" is = none) :
    ∃ is, contents items (filesRead env args) = some is ∧ (NoRefs is → ∀ m, c m = (settingOf is m).or (before env args m)) := by
  unfold afterFiles at h
  have hb1 : before env args b!"CONFIG_FILE" = some ((mainFile args).getD (env.conf_dir ++ b!"/fwknopd.conf")) := rfl
  have hb2 : before env args b!"OVERRIDE_CONFIG" = (lastOverride args).or (firstMain args) := rfl
  simp only [hb1, Option.getD_some] at h
  obtain ⟨c1, h1, h2⟩ := Option.bind_eq_some_iff.1 h
  unfold readFiles at h1
  obtain ⟨is0, h3, h4⟩ := Option.bind_eq_some_iff.1 h1
  cases h4
  obtain ⟨hn0, ho⟩ := hno is0 h3
  rw [apply_text hn0] at h2
  have : settingOf is0 b!"OVERRIDE_CONFIG" = none := by
    unfold settingOf
    rw [ho]
    split <;> rfl
  rw [this, Option.none_or, hb2] at h2
  unfold filesRead
  cases hq : (lastOverride args).or (firstMain args) with
  | none =>
    rw [hq] at h2
    cases h2
    refine ⟨is0, by rw [contents, h3]; simp [contents], fun _ m => apply_text hn0 _ m⟩
  | some l =>
    rw [hq] at h2
    obtain ⟨is, h5, h6⟩ := readFiles_text _ _ _ h2
    refine ⟨is0 ++ is, by rw [contents, h3]; simp [h5], fun hn m => ?_⟩
    rw [h6 (noRefs_append hn).2, apply_text hn0, ← Option.or_assoc]
    congr 1
    unfold settingOf
    by_cases hm : m ∈ config_map
    · simp only [hm, if_true, lastText_append]
    · simp only [hm, if_false, Option.none_or]

end Fwknop
