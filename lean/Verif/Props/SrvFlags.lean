import Verif.Props.SrvConf

/-!
# C96, C97, C98: names, flags, verbosity and switches
-/

namespace Fwknop.Props

open Spec

/-- **C96.** The variables that a file can set are those of the manual. -/
theorem C96_names (n : Str) : n ∈ config_map ↔ n ∈ documented := Iff.rfl

theorem srvArg_flags {env : SrvEnv} {a : SrvArg} {o o' : SrvOpts} (h : srvArg env a o = .ok o') :
    ∀ f ∈ flags, (f.1 o' = true ↔ a ∈ f.2 ∨ f.1 o = true) := by
  cases a
  all_goals
    simp only [srvArg, res_bind_iff, Res.pure_eq, Res.ok.injEq] at h
    first
      | obtain rfl := h
      | obtain ⟨_, _, rfl⟩ := h
    simp [flags, SrvOpts.set]

theorem srvArgs_flags {env : SrvEnv} : ∀ (as : List SrvArg) {o o' : SrvOpts}, srvArgs env as o = .ok o' → ∀ f ∈ flags,
    (f.1 o' = true ↔ (∃ a ∈ f.2, a ∈ as) ∨ f.1 o = true)
  | [], o, o', h, f, hf => by cases h; simp
  | a :: as, o, o', h, f, hf => by
    unfold srvArgs at h
    obtain ⟨o1, h1, h2⟩ := Res.bind_eq_ok h
    rw [srvArgs_flags as h2 f hf, srvArg_flags h1 f hf]
    constructor
    · rintro (⟨x, hx, hm⟩ | hx | hx)
      · exact .inl ⟨x, hx, List.mem_cons_of_mem _ hm⟩
      · exact .inl ⟨a, hx, List.mem_cons_self⟩
      · exact .inr hx
    · rintro (⟨x, hx, hm⟩ | hx)
      · rcases List.mem_cons.1 hm with rfl | hm
        · exact .inr (.inl hx)
        · exact .inl ⟨x, hx, hm⟩
      · exact .inr (.inr hx)

theorem srvArg_verbose {env : SrvEnv} {a : SrvArg} {o o' : SrvOpts} (h : srvArg env a o = .ok o') :
    o'.verbose = o.verbose + if a = .verbose then 1 else 0 := by
  cases a
  all_goals
    simp only [srvArg, res_bind_iff, Res.pure_eq, Res.ok.injEq] at h
    first
      | obtain rfl := h
      | obtain ⟨_, _, rfl⟩ := h
    simp [SrvOpts.set]

theorem srvArgs_verbose {env : SrvEnv} : ∀ (as : List SrvArg) {o o' : SrvOpts}, srvArgs env as o = .ok o' →
    o'.verbose = o.verbose + as.count .verbose
  | [], o, o', h => by cases h; simp
  | a :: as, o, o', h => by
    unfold srvArgs at h
    obtain ⟨o1, h1, h2⟩ := Res.bind_eq_ok h
    rw [srvArgs_verbose as h2, srvArg_verbose h1, List.count_cons]
    by_cases hq : a = .verbose
    · subst hq; simp; omega
    · simp [hq]

theorem ranges_flags {o o' : SrvOpts} (h : validate_int_var_ranges o = .ok o') :
    (∀ f ∈ flags, f.1 o' = f.1 o) ∧ o'.verbose = o.verbose ∧ o'.packet_ctr_limit = o.packet_ctr_limit := by
  simp only [validate_int_var_ranges, res_bind_iff, Res.pure_eq, Res.ok.injEq] at h
  obtain ⟨_, h1, _, h2, _, h3, _, h4, _, h5, _, h6, _, h7, _, h8, rfl⟩ := h
  refine ⟨?_, rfl, rfl⟩
  simp [flags]

/-- **C96.** In an accepted configuration a flag is set if and only if one of its options is on the command line. -/
theorem C96_flags (env : SrvEnv) (args : List SrvArg) (o : SrvOpts) (h : srvConfig env args = .ok o) :
    ∀ f ∈ flags, (f.1 o = true ↔ ∃ a ∈ f.2, a ∈ args) := by
  unfold srvConfig at h
  obtain ⟨c, h1, h⟩ := Res.bind_eq_ok h
  obtain ⟨v, h2, h⟩ := Res.bind_eq_ok h
  obtain ⟨o1, h3, h⟩ := Res.bind_eq_ok h
  obtain ⟨c2, _, h4, _, _⟩ := srvValidate_ok h
  intro f hf
  have hset : ∀ g ∈ flags, g.1 { o1 with config := c2 } = g.1 o1 := by simp [flags]
  have hnew : ∀ g ∈ flags, g.1 { config := c, verbose := v : SrvOpts } = false := by simp [flags]
  rw [(ranges_flags h4).1 f hf, hset f hf, srvArgs_flags args h3 f hf, hnew f hf]
  simp

/-- **C97.** The verbosity of an accepted configuration is the number that the files give for VERBOSE, none being 0, and one
more for each -v. -/
theorem C97_verbosity_partial (env : SrvEnv) (items : Str → Option (List ConfItem)) (hf : FilesHold env items) (args : List SrvArg)
    (o : SrvOpts) (h : srvConfig env args = .ok o) :
    ∃ c, afterFiles items env args = some c ∧
      (c b!"VERBOSE" = none → o.verbose = args.count .verbose) ∧
      (∀ v n, c b!"VERBOSE" = some v → Decimal v n → n < 2 ^ 31 → o.verbose = n + args.count .verbose) := by
  unfold srvConfig at h
  rw [readConfig_eq hf] at h
  cases hc : afterFiles items env args with
  | none => rw [hc] at h; cases h
  | some c =>
    rw [hc] at h
    simp only [Option.elim_some, Res.bind_ok] at h
    obtain ⟨v, h2, h⟩ := Res.bind_eq_ok h
    obtain ⟨o1, h3, h⟩ := Res.bind_eq_ok h
    obtain ⟨c2, _, h4, _, _⟩ := srvValidate_ok h
    have hv : o.verbose = v + args.count .verbose := by
      rw [(ranges_flags h4).2.1]
      exact srvArgs_verbose args h3
    unfold confVerbose at h2
    refine ⟨c, rfl, fun hn => ?_, fun w n hw hd hn => ?_⟩
    · rw [hn] at h2
      cases h2
      rw [hv]; simp
    · rw [hw] at h2
      dsimp only at h2
      obtain ⟨_, hg, h2⟩ := Res.bind_eq_ok h2
      cases h2
      rw [hv, number_read hd hn]

/-- The hypotheses are met: VERBOSE 2 and -v twice. -/
example : numberIn (srvConfig (confFiles [(b!"/etc/fwknop/fwknopd.conf", b!"VERBOSE 2\n")]) [.verbose, .test, .verbose]) (·.verbose) = some 4 ∧
    refused (srvConfig (confFiles [(b!"/etc/fwknop/fwknopd.conf", b!"VERBOSE -2\n")]) []) = true := by
  decide +kernel

/-- **C98.** What the functions of the firewall get to see are the variables of these names. -/
theorem C98_switches (o : SrvOpts) :
    ((fwConfOf o).prepend = true ↔ On o.config b!"ENABLE_RULE_PREPEND") ∧
    ((fwConfOf o).use_destination = true ↔ On o.config b!"ENABLE_DESTINATION_RULE") ∧
    ((fwConfOf o).snat = true ↔ On o.config b!"ENABLE_IPT_SNAT") ∧
    ((fwConfOf o).nat_dns = true ↔ On o.config b!"ENABLE_NAT_DNS") ∧
    (∀ ip, (fwConfOf o).snat_translate_ip = some ip ↔ o.config b!"SNAT_TRANSLATE_IP" = some ip) ∧
    (∀ exe, o.config b!"FIREWALL_EXE" = some exe → exe.length < 1024 → (fwConfOf o).fw_command = exe) := by
  refine ⟨isOn_iff _ _, isOn_iff _ _, isOn_iff _ _, isOn_iff _ _, fun ip => Iff.rfl, fun exe he hl => ?_⟩
  unfold fwConfOf strlcpy
  rw [he]
  exact List.take_of_length_le (by simp only [Option.getD_some, MAX_PATH_LEN]; omega)

end Fwknop.Props
