import Verif.Lemmas.SrvConfChain
import Verif.Props.IptInit

/-!
# Properties of the configuration of the server (C96, C97, C98, C99)
-/

namespace Fwknop.Props

open Fwknop Spec Res

/-! ## C96: every variable has the value that files, command line and defaults give it -/

/-- **C96** (part): if the daemon accepts its configuration, every variable has the value that the command line gives it,
otherwise the one that it has after the files have been read line by line, otherwise its default.  What is
missing: files with lines of more than 1022 characters or without a newline at the end, and references without
a suffix (`C96_false_stale_suffix`); what the files say about the order is in `afterFiles`, with the surprises of
`C96_false_two_files`, `C96_false_own_override` and `C96_false_read_twice`. -/
theorem C96_values_partial (env : SrvEnv) (items : Str → Option (List ConfItem)) (hf : FilesHold env items) (args : List SrvArg) (o : SrvOpts)
    (h : srvConfig env args = .ok o) :
    ∃ c, afterFiles items env args = some c ∧ o.config = withDefaults env fun n => (argValue n args).or (c n) :=
  srvConfig_value hf h

/-- **C96** (part): without references, and if the configuration file names no override files, the last line for a
variable counts, in the configuration file and then the files of -O. -/
theorem C96_last_line_partial (env : SrvEnv) (items : Str → Option (List ConfItem)) (hf : FilesHold env items) (args : List SrvArg) (o : SrvOpts)
    (h : srvConfig env args = .ok o) (hrefs : ∀ f is, items f = some is → NoRefs is)
    (hown : ∀ is, items ((mainFile args).getD (env.conf_dir ++ b!"/fwknopd.conf")) = some is → lastText b!"OVERRIDE_CONFIG" is = none) :
    ∃ is, contents items (filesRead env args) = some is ∧
      o.config = withDefaults env fun n => (argValue n args).or ((settingOf is n).or (before env args n)) := by
  obtain ⟨c, h1, h2⟩ := srvConfig_value hf h
  obtain ⟨is, h3, h4⟩ := afterFiles_text h1 fun is hq => ⟨hrefs _ is hq, hown is hq⟩
  refine ⟨is, h3, ?_⟩
  have hn : NoRefs is := by
    clear h4
    generalize filesRead env args = fs at h3
    induction fs generalizing is with
    | nil => cases h3; exact fun _ _ _ hm => nomatch hm
    | cons f fs ih =>
      unfold contents at h3
      obtain ⟨a, ha, h3⟩ := Option.bind_eq_some_iff.1 h3
      obtain ⟨b, hb, rfl⟩ := Option.map_eq_some_iff.1 h3
      intro n m s hm
      rcases List.mem_append.1 hm with hm | hm
      · exact hrefs f a ha n m s hm
      · exact ih b hb n m s hm
  rw [h2]
  congr 1
  funext m
  rw [h4 hn]

/-- **C96** (part): the same for one configuration file, with -c or without: although with -c the file is read twice, the
last line for a variable counts. -/
theorem C96_one_file_partial (env : SrvEnv) (items : Str → Option (List ConfItem)) (hf : FilesHold env items) (args : List SrvArg) (o : SrvOpts)
    (h : srvConfig env args = .ok o) (file : Str) (is : List ConfItem)
    (hfile : (∀ a ∈ args, (∀ f, a ≠ .config_file f) ∧ ∀ l, a ≠ .override_config l) ∧ file = env.conf_dir ++ b!"/fwknopd.conf" ∨
      (mainFile args = some file ∧ firstMain args = some file ∧ lastOverride args = none ∧ 44 ∉ file ∧ file.length ≤ 1023))
    (hi : items file = some is) (hrefs : NoRefs is) (hown : lastText b!"OVERRIDE_CONFIG" is = none) :
    o.config = withDefaults env fun n => (argValue n args).or ((settingOf is n).or (before env args n)) := by
  obtain ⟨c, h1, h2⟩ := srvConfig_value hf h
  have hmain : (mainFile args).getD (env.conf_dir ++ b!"/fwknopd.conf") = file ∧
      (filesRead env args = [file] ∨ filesRead env args = [file, file]) := by
    rcases hfile with ⟨ha, rfl⟩ | ⟨hm, hfm, hlo, hc, hl⟩
    · have : mainFile args = none ∧ firstMain args = none ∧ lastOverride args = none := by
        clear h h1 h2 c
        induction args with
        | nil => exact ⟨rfl, rfl, rfl⟩
        | cons a as ih =>
          obtain ⟨h1, h2, h3⟩ := ih fun x hx => ha x (List.mem_cons_of_mem _ hx)
          have := ha a List.mem_cons_self
          cases a <;> simp_all [mainFile, firstMain, lastOverride]
      obtain ⟨e1, e2, e3⟩ := this
      refine ⟨by rw [e1]; rfl, .inl ?_⟩
      unfold filesRead
      rw [e1, e2, e3]
      rfl
    · refine ⟨by rw [hm]; rfl, .inr ?_⟩
      unfold filesRead
      rw [hm, hfm, hlo]
      show file :: names (file.take 1023) = _
      rw [List.take_of_length_le hl]
      unfold names
      rw [List.splitOn, List.splitOnP_eq_single]
      intro x hx
      rw [beq_eq_false_iff_ne]
      exact fun hq => hc (hq ▸ hx)
  obtain ⟨is', h3, h4⟩ := afterFiles_text h1 fun js hq => by
    rw [hmain.1, hi] at hq
    cases hq
    exact ⟨hrefs, hown⟩
  rw [h2]
  congr 1
  funext m
  congr 1
  rcases hmain.2 with hq | hq
  · rw [hq] at h3
    simp only [contents, hi, Option.bind_some, Option.map_some, List.append_nil, Option.some.injEq] at h3
    subst h3
    exact h4 hrefs m
  · rw [hq] at h3
    simp only [contents, hi, Option.bind_some, Option.map_some, List.append_nil, Option.some.injEq] at h3
    subst h3
    rw [h4 (fun n k s hm => by
      rcases List.mem_append.1 hm with hm | hm <;> exact hrefs n k s hm) m]
    unfold settingOf
    split
    · rw [lastText_append]
      cases lastText m is <;> rfl
    · rfl

/-- The value of a variable after a start that succeeds. -/
def valueIn (r : Res SrvOpts) (n : Str) : Option Str :=
  match r with
  | .ok o => o.config n
  | _ => none

/-- Some files. -/
def confFiles (fs : List (Str × Str)) : SrvEnv where
  file := fun n => (fs.find? fun p => p.1 = n).map (·.2)

/-- The full C96 is false: a reference without a suffix gets the suffix of an earlier line. -/
theorem C96_false_stale_suffix :
    valueIn (srvConfig (confFiles [(b!"/etc/fwknop/fwknopd.conf",
      b!"FWKNOP_CONF_DIR /c\nDIGEST_FILE $FWKNOP_CONF_DIR/foo\nFWKNOP_RUN_DIR $FWKNOP_CONF_DIR\n")]) []) b!"FWKNOP_RUN_DIR" = some b!"/c/foo" := by
  decide +kernel

/-- With -c the file is read twice, so that a line can refer to a later one; without -c it cannot. -/
theorem C96_false_read_twice :
    valueIn (srvConfig (confFiles [(b!"/f", b!"PCAP_INTF $LOCALE/x\nLOCALE en\n")]) [.config_file b!"/f"]) b!"PCAP_INTF" = some b!"en/x" ∧
    valueIn (srvConfig (confFiles [(b!"/etc/fwknop/fwknopd.conf", b!"PCAP_INTF $LOCALE/x\nLOCALE en\n")]) []) b!"PCAP_INTF" = some b!"eth0" := by
  decide +kernel

/-- With -c twice, both files are read, and the lines of the first count. -/
theorem C96_false_two_files :
    valueIn (srvConfig (confFiles [(b!"/a", b!"PCAP_INTF first\n"), (b!"/b", b!"PCAP_INTF second\n")])
      [.config_file b!"/a", .config_file b!"/b"]) b!"PCAP_INTF" = some b!"first" := by
  decide +kernel

/-- The override files that the configuration file names are read instead of those of -O. -/
theorem C96_false_own_override :
    valueIn (srvConfig (confFiles [(b!"/etc/fwknop/fwknopd.conf", b!"OVERRIDE_CONFIG /b\n"), (b!"/a", b!"PCAP_INTF asked\n"),
      (b!"/b", b!"PCAP_INTF own\n")]) [.override_config b!"/a"]) b!"PCAP_INTF" = some b!"own" := by
  decide +kernel

/-- A file of four lines. -/
def confSample : SrvEnv :=
  confFiles [(b!"/etc/fwknop/fwknopd.conf", b!"# fwknopd\n\tPCAP_INTF  wlan0 ;\nMAX_SPA_PACKET_AGE 60\nDIGEST_FILE $FWKNOP_RUN_DIR/d\n"),
    (b!"/o", b!"FWKNOP_RUN_DIR /r\n")]

/-- What it says. -/
def sampleItems : Str → Option (List ConfItem) := fun f =>
  if f = b!"/etc/fwknop/fwknopd.conf" then
    some [.skip, .set b!"PCAP_INTF" (.text b!"wlan0"), .set b!"MAX_SPA_PACKET_AGE" (.text b!"60"),
      .set b!"DIGEST_FILE" (.ref b!"FWKNOP_RUN_DIR" b!"/d")]
  else if f = b!"/o" then some [.set b!"FWKNOP_RUN_DIR" (.text b!"/r")]
  else none

theorem confSample_holds : FilesHold confSample sampleItems := by
  intro f
  by_cases h1 : f = b!"/etc/fwknop/fwknopd.conf"
  · subst h1
    refine .inr ⟨_, _, rfl, rfl, [(b!"# fwknopd", _), (b!"\tPCAP_INTF  wlan0 ;", _), (b!"MAX_SPA_PACKET_AGE 60", _),
      (b!"DIGEST_FILE $FWKNOP_RUN_DIR/d", _)], by decide, rfl, ?_⟩
    intro p hp
    simp only [List.mem_cons, List.not_mem_nil, or_false] at hp
    rcases hp with rfl | rfl | rfl | rfl
    · exact ⟨.comment _ _ (.inl rfl), by unfold IsText; decide, by decide, by decide⟩
    · exact ⟨.set b!"\t" b!"PCAP_INTF" b!"  " b!"wlan0" b!" " b!";" (.text b!"wlan0") (by unfold SpTab; decide) (by decide) (by decide)
        (by unfold NotBlank; decide) (by decide) (by unfold SpTab; decide) (.text _ _ (by intro h; cases h)) (by unfold NotBlank; decide)
        (by unfold NotBlank; decide) (by decide) (by unfold SpTab; decide) (by decide) (.inr ⟨[], rfl⟩), by unfold IsText; decide, by decide, by decide⟩
    · exact ⟨.set [] b!"MAX_SPA_PACKET_AGE" b!" " b!"60" [] [] (.text b!"60") (by unfold SpTab; decide) (by decide) (by decide)
        (by unfold NotBlank; decide) (by decide) (by unfold SpTab; decide) (.text _ _ (by intro h; cases h)) (by unfold NotBlank; decide)
        (by unfold NotBlank; decide) (by decide) (by unfold SpTab; decide) (by decide) (.inl rfl), by unfold IsText; decide, by decide, by decide⟩
    · exact ⟨.set [] b!"DIGEST_FILE" b!" " b!"$FWKNOP_RUN_DIR/d" [] [] (.ref b!"FWKNOP_RUN_DIR" b!"/d") (by unfold SpTab; decide) (by decide) (by decide)
        (by unfold NotBlank; decide) (by decide) (by unfold SpTab; decide)
        (.ref _ _ (by decide) (by unfold NameChar; decide) (by unfold NotBlank; decide) ⟨47, b!"d", rfl, by unfold NameChar; decide⟩)
        (by unfold NotBlank; decide) (by unfold NotBlank; decide) (by decide) (by unfold SpTab; decide) (by decide) (.inl rfl),
        by unfold IsText; decide, by decide, by decide⟩
  · by_cases h2 : f = b!"/o"
    · subst h2
      refine .inr ⟨_, _, rfl, rfl, [(b!"FWKNOP_RUN_DIR /r", _)], by decide, rfl, ?_⟩
      intro p hp
      simp only [List.mem_cons, List.not_mem_nil, or_false] at hp
      subst hp
      exact ⟨.set [] b!"FWKNOP_RUN_DIR" b!" " b!"/r" [] [] (.text b!"/r") (by unfold SpTab; decide) (by decide) (by decide)
        (by unfold NotBlank; decide) (by decide) (by unfold SpTab; decide) (.text _ _ (by intro h; cases h)) (by unfold NotBlank; decide)
        (by unfold NotBlank; decide) (by decide) (by unfold SpTab; decide) (by decide) (.inl rfl), by unfold IsText; decide, by decide, by decide⟩
    · refine .inl ⟨?_, by unfold sampleItems; rw [if_neg h1, if_neg h2]⟩
      unfold confSample confFiles
      dsimp only
      rw [List.find?_cons_of_neg (by simpa using Ne.symm h1), List.find?_cons_of_neg (by simpa using Ne.symm h2)]
      rfl

/-- A start with -O and -d is accepted; files, command line and defaults all play a part. -/
example : valueIn (srvConfig confSample [.override_config b!"/o", .digest_file b!"/x", .digest_file b!"/y"]) b!"DIGEST_FILE" = some b!"/y" ∧
    valueIn (srvConfig confSample [.override_config b!"/o"]) b!"FWKNOP_PID_FILE" = some b!"/r/fwknopd.pid" ∧
    valueIn (srvConfig confSample [.override_config b!"/o"]) b!"PCAP_INTF" = some b!"wlan0" := by decide +kernel

/-! ## C97: numbers -/

/-- **C97** (part): in an accepted configuration every number is within its bounds, and is the one that is written if that
is a decimal number below 2^31.  What is missing: other texts (`C97_false_wraps`, `C97_false_junk`). -/
theorem C97_numbers_partial (env : SrvEnv) (args : List SrvArg) (o : SrvOpts) (h : srvConfig env args = .ok o) :
    ∀ r ∈ numVars, r.low ≤ r.number o ∧ r.number o ≤ r.high ∧
      ∀ v n, o.config r.name = some v → Decimal v n → n < 2 ^ 31 → r.number o = n := by
  unfold srvConfig at h
  obtain ⟨c, h1, h⟩ := Res.bind_eq_ok h
  obtain ⟨_, _, h⟩ := Res.bind_eq_ok h
  obtain ⟨o1, h2, h⟩ := Res.bind_eq_ok h
  obtain ⟨c2, h3, h4, _, _⟩ := srvValidate_ok h
  exact ranges_ok h4

/-- A number of an accepted configuration. -/
def numberIn (r : Res SrvOpts) (f : SrvOpts → Int) : Option Int :=
  match r with
  | .ok o => some (f o)
  | _ => none

/-- The configuration is refused. -/
def refused {α : Type} (r : Res α) : Bool :=
  match r with
  | .err => true
  | _ => false

/-- The full C97 is false: numbers are read modulo 2^32, so that 4294967416 passes as 120. -/
theorem C97_false_wraps :
    numberIn (srvConfig (confFiles [(b!"/etc/fwknop/fwknopd.conf", b!"MAX_SPA_PACKET_AGE 4294967416\n")]) []) (·.max_spa_packet_age) = some 120 := by
  decide +kernel

/-- What follows the digits is ignored. -/
theorem C97_false_junk :
    numberIn (srvConfig (confFiles [(b!"/etc/fwknop/fwknopd.conf", b!"MAX_SPA_PACKET_AGE 60 minutes\n")]) []) (·.max_spa_packet_age) = some 60 := by
  decide +kernel

/-- The bound for ports is not that of ports. -/
theorem C97_false_port :
    numberIn (srvConfig (confFiles [(b!"/etc/fwknop/fwknopd.conf", b!"TCPSERV_PORT 70000\n")]) []) (·.tcpserv_port) = some 70000 := by
  decide +kernel

/-- Numbers in bounds are accepted, one out of bounds is refused. -/
example : numberIn (srvConfig confSample []) (·.max_spa_packet_age) = some 60 ∧ Decimal b!"60" 60 ∧
    refused (srvConfig (confFiles [(b!"/etc/fwknop/fwknopd.conf", b!"MAX_SPA_PACKET_AGE 100001\n")]) []) = true := by
  refine ⟨by decide +kernel, ?_, by decide +kernel⟩
  unfold Decimal IsDigitChar
  decide

/-! ## C98: chains -/

/-- **C98** (part): with an accepted configuration, whatever the files hold, the chains are made without touching memory that
is not theirs; and if no number in them is refused, the chains in use are those that are switched on, each with
the fields of its setting, cut to 63 characters.  What is missing: longer names (`C98_false_long_name`) and positions that
are no decimal numbers below 2^31. -/
theorem C98_chains_partial (env : SrvEnv) (args : List SrvArg) (o : SrvOpts) (h : srvConfig env args = .ok o) :
    fw_config_init o.config ≠ .ub ∧ ∀ chs, fw_config_init o.config = .ok chs → chs.length = (chainSlots o.config).length ∧
      ∀ x ∈ (chainSlots o.config).zip chs, (x.1.2 ∧ ∃ s, o.config x.1.1 = some s ∧ ChainMeans s x.2) ∨ (¬ x.1.2 ∧ x.2 = {}) :=
  fwInit_conf (srvConfig_chains h)

/-- The six chains of the defaults. -/
def dfltChain (target table from_ to : Str) : FwChain := { target := target, table := table, from_chain := from_, jump_rule_pos := 1, to_chain := to }

def dIn : FwChain := dfltChain b!"ACCEPT" b!"filter" b!"INPUT" b!"FWKNOP_INPUT"
def dOut : FwChain := dfltChain b!"ACCEPT" b!"filter" b!"OUTPUT" b!"FWKNOP_OUTPUT"
def dFwd : FwChain := dfltChain b!"ACCEPT" b!"filter" b!"FORWARD" b!"FWKNOP_FORWARD"
def dDnat : FwChain := dfltChain b!"DNAT" b!"nat" b!"PREROUTING" b!"FWKNOP_PREROUTING"
def dSnat : FwChain := dfltChain b!"SNAT" b!"nat" b!"POSTROUTING" b!"FWKNOP_POSTROUTING"
def dMasq : FwChain := dfltChain b!"MASQUERADE" b!"nat" b!"POSTROUTING" b!"FWKNOP_MASQUERADE"

/-- The chains of the defaults that are switched on. -/
def dChains (out nat snat : Bool) : List FwChain :=
  [dIn, if out then dOut else {}, if nat then dFwd else {}, if nat then dDnat else {}, if nat && snat then dSnat else {},
   if nat && snat then dMasq else {}]

theorem default_init {c : SrvVars} (hd : ∀ d ∈ chainDefaults, c d.1 = some d.2) :
    fw_config_init c = .ok (dChains (isOn c b!"ENABLE_IPT_OUTPUT") (isOn c b!"ENABLE_IPT_FORWARDING" || isOn c b!"ENABLE_IPT_LOCAL_NAT")
      (isOn c b!"ENABLE_IPT_SNAT")) := by
  have hm : ∀ n v, (n, v) ∈ chainDefaults → c n = some v := fun n v h => hd (n, v) h
  have h1 := hm b!"IPT_INPUT_ACCESS" _ (.head _)
  have h2 := hm b!"IPT_OUTPUT_ACCESS" _ (.tail _ (.head _))
  have h3 := hm b!"IPT_FORWARD_ACCESS" _ (.tail _ (.tail _ (.head _)))
  have h4 := hm b!"IPT_DNAT_ACCESS" _ (.tail _ (.tail _ (.tail _ (.head _))))
  have h5 := hm b!"IPT_SNAT_ACCESS" _ (.tail _ (.tail _ (.tail _ (.tail _ (.head _)))))
  have h6 := hm b!"IPT_MASQUERADE_ACCESS" _ (.tail _ (.tail _ (.tail _ (.tail _ (.tail _ (.head _))))))
  have e1 : set_fw_chain_conf b!"ACCEPT, filter, INPUT, 1, FWKNOP_INPUT, 1" = .ok dIn := by decide +kernel
  have e2 : set_fw_chain_conf b!"ACCEPT, filter, OUTPUT, 1, FWKNOP_OUTPUT, 1" = .ok dOut := by decide +kernel
  have e3 : set_fw_chain_conf b!"ACCEPT, filter, FORWARD, 1, FWKNOP_FORWARD, 1" = .ok dFwd := by decide +kernel
  have e4 : set_fw_chain_conf b!"DNAT, nat, PREROUTING, 1, FWKNOP_PREROUTING, 1" = .ok dDnat := by decide +kernel
  have e5 : set_fw_chain_conf b!"SNAT, nat, POSTROUTING, 1, FWKNOP_POSTROUTING, 1" = .ok dSnat := by decide +kernel
  have e6 : set_fw_chain_conf b!"MASQUERADE, nat, POSTROUTING, 1, FWKNOP_MASQUERADE, 1" = .ok dMasq := by decide +kernel
  unfold fw_config_init chainIf
  rw [h1, h2, h3, h4, h5, h6]
  generalize isOn c b!"ENABLE_IPT_OUTPUT" = a
  generalize isOn c b!"ENABLE_IPT_FORWARDING" = b
  generalize isOn c b!"ENABLE_IPT_LOCAL_NAT" = d
  generalize isOn c b!"ENABLE_IPT_SNAT" = e
  simp only [Option.getD_some, e1, e2, e3, e4, e5, e6, Res.bind_ok]
  cases a <;> cases b <;> cases d <;> cases e <;> rfl

theorem dChains_natOk {cf : FwConf} (hexe : PlainWord cf.fw_command) (hlen : cf.fw_command.length ≤ 59) {out nat snat : Bool} {ch : FwChain}
    (h : ch ∈ dChains out nat snat) (ht : ch.target ≠ []) : NatOk cf ch := by
  have : ch = dIn ∨ ch = dOut ∨ ch = dFwd ∨ ch = dDnat ∨ ch = dSnat ∨ ch = dMasq := by
    revert ht h
    cases out <;> cases nat <;> cases snat <;>
      simp only [dChains, Bool.and_true, Bool.and_false, if_true, if_false, List.mem_cons, List.not_mem_nil, or_false, Bool.false_eq_true] <;>
      (intro h ht; rcases h with rfl | rfl | rfl | rfl | rfl | rfl <;> first | exact absurd rfl ht | simp)
  rcases this with rfl | rfl | rfl | rfl | rfl | rfl <;>
    exact ⟨hexe, by unfold PlainWord IsBlank; decide, by unfold PlainWord IsBlank; decide,
      by unfold RuleWord PlainWord IsBlank; decide, by unfold RuleWord PlainWord IsBlank; decide, by decide,
      by simp only [dIn, dOut, dFwd, dDnat, dSnat, dMasq, dfltChain, List.length_cons, List.length_nil]; omega⟩

/-- **C98** (part): an accepted configuration with the default chain settings, whatever is switched on, makes chains under
which all that is proved about start, run and end of the daemon (C94, C95) holds.  What is missing: other
settings. -/
theorem C98_default_chains_partial (env : SrvEnv) (o : SrvOpts)
    (hd : ∀ n ∈ chainNames, o.config n = withDefaults env (fun _ => none) n)
    (exe : Str) (hexe : o.config b!"FIREWALL_EXE" = some exe) (hplain : PlainWord exe) (hlen : exe.length ≤ 59) :
    ∃ chs, fw_config_init o.config = .ok chs ∧ ConfOk (fwConfOf o) chs := by
  have hd' : ∀ d ∈ chainDefaults, o.config d.1 = some d.2 := by
    intro d hm
    simp only [chainDefaults, List.mem_cons, List.not_mem_nil, or_false] at hm
    rcases hm with rfl | rfl | rfl | rfl | rfl | rfl <;> exact hd _ (by decide)
  refine ⟨_, default_init hd', ?_⟩
  have hcmd : (fwConfOf o).fw_command = exe := by
    unfold fwConfOf strlcpy
    rw [hexe]
    exact List.take_of_length_le (by simp only [Option.getD_some, MAX_PATH_LEN]; omega)
  generalize isOn o.config b!"ENABLE_IPT_OUTPUT" = a
  generalize (isOn o.config b!"ENABLE_IPT_FORWARDING" || isOn o.config b!"ENABLE_IPT_LOCAL_NAT") = b
  generalize isOn o.config b!"ENABLE_IPT_SNAT" = c
  refine ⟨fun ch hch ht => dChains_natOk (hcmd ▸ hplain) (hcmd ▸ hlen) hch ht, ⟨?_, ?_, ?_⟩, ?_, ?_, ?_⟩ <;>
    cases a <;> cases b <;> cases c <;> decide

/-- The default configuration meets the hypotheses, and has one chain; with ENABLE_IPT_FORWARDING and ENABLE_IPT_SNAT it has five. -/
example : (∀ n ∈ chainNames, valueIn (srvConfig confSample []) n = withDefaults confSample (fun _ => none) n) ∧
    valueIn (srvConfig confSample []) b!"FIREWALL_EXE" = some b!"/sbin/iptables" ∧
    numberIn (srvConfig confSample []) (fun o => match fw_config_init o.config with
      | .ok chs => (chs.filter (·.target ≠ [])).length
      | _ => -1) = some 1 ∧
    numberIn (srvConfig (confFiles [(b!"/f", b!"ENABLE_IPT_FORWARDING Y\nENABLE_IPT_SNAT yes\n")]) [.config_file b!"/f"])
      (fun o => match fw_config_init o.config with
      | .ok chs => (chs.filter (·.target ≠ [])).length
      | _ => -1) = some 5 := by decide +kernel

/-- A chain setting of the administrator. -/
example : ChainMeans b!"ACCEPT, filter, INPUT, 12, MY_CHAIN, 1" { target := b!"ACCEPT", table := b!"filter", from_chain := b!"INPUT", jump_rule_pos := 12, to_chain := b!"MY_CHAIN" } := by
  refine ⟨_, _, _, b!"12", _, b!"1", rfl, 12, rfl, by decide, by decide, fun n h _ => ?_⟩
  have : number 10 b!"12" = n := h.2.2
  have h2 : number 10 b!"12" = 12 := by decide
  omega

/-- A name of 64 characters is cut, so that the chain is not the one that was asked for. -/
theorem C98_false_long_name :
    numberIn (srvConfig (confFiles [(b!"/f", b!"IPT_INPUT_ACCESS ACCEPT, filter, INPUT, 1, " ++ List.replicate 64 65 ++ b!", 1\n")])
      [.config_file b!"/f"]) (fun o => match fw_config_init o.config with
      | .ok chs => (chs.getD 0 {}).to_chain.length
      | _ => -1) = some 63 := by decide +kernel

/-! ## C99: memory -/

/-- **C99** (part): whatever the files hold and whatever the command line says, reading the configuration touches no memory
that is not its own, unless a name on the command line or of the build is empty (`C99_false_empty_run_dir`). -/
theorem C99_memory_partial (env : SrvEnv) (args : List SrvArg) (hexe : env.firewall_exe ≠ []) (hrun : env.run_dir ≠ [])
    (hargs : ∀ a ∈ args, a ≠ .config_file [] ∧ a ≠ .override_config [] ∧ a ≠ .run_dir []) : srvConfig env args ≠ .ub := by
  refine srvConfig_safe ?_ hrun ?_
  · intro n v hv
    unfold before at hv
    split at hv
    · cases hv; exact hexe
    · split at hv
      · cases hv
        cases hq : mainFile args with
        | none => simp
        | some f =>
          have : ∀ as : List SrvArg, mainFile as = some [] → .config_file [] ∈ as := by
            intro as
            induction as with
            | nil => intro h; cases h
            | cons a as ih =>
              intro h
              unfold mainFile at h
              cases hm : mainFile as with
              | some w => rw [hm] at h; cases h; exact List.mem_cons_of_mem _ (ih hm)
              | none =>
                rw [hm, Option.none_or] at h
                cases a <;> cases h
                exact List.mem_cons_self
          rintro hf
          simp only [Option.getD_some] at hf
          subst hf
          exact (hargs _ (this args hq)).1 rfl
      · split at hv
        · have h1 : ∀ as : List SrvArg, lastOverride as = some [] → .override_config [] ∈ as := by
            intro as
            induction as with
            | nil => intro h; cases h
            | cons a as ih =>
              intro h
              unfold lastOverride at h
              cases hm : lastOverride as with
              | some w => rw [hm] at h; cases h; exact List.mem_cons_of_mem _ (ih hm)
              | none =>
                rw [hm, Option.none_or] at h
                cases a <;> cases h
                exact List.mem_cons_self
          have h2 : ∀ as : List SrvArg, firstMain as = some [] → .config_file [] ∈ as := by
            intro as
            induction as with
            | nil => intro h; cases h
            | cons a as ih =>
              intro h
              cases a
              case config_file w => cases h; exact List.mem_cons_self
              all_goals exact List.mem_cons_of_mem _ (ih h)
          rintro rfl
          cases hq : lastOverride args with
          | some w => rw [hq] at hv; cases hv; exact (hargs _ (h1 args hq)).2.1 rfl
          | none => rw [hq, Option.none_or] at hv; exact (hargs _ (h2 args hv)).1 rfl
        · cases hv
  · have : ∀ as : List SrvArg, argValue b!"FWKNOP_RUN_DIR" as = some [] → .run_dir [] ∈ as := by
      intro as
      induction as with
      | nil => intro h; cases h
      | cons a as ih =>
        intro h
        unfold argValue at h
        cases hm : argValue b!"FWKNOP_RUN_DIR" as with
        | some w => rw [hm] at h; cases h; exact List.mem_cons_of_mem _ (ih hm)
        | none =>
          rw [hm, Option.none_or] at h
          cases a
          case run_dir w => cases h; exact List.mem_cons_self
          all_goals (first | cases h | (simp only [argSets] at h; rw [if_neg (by decide)] at h; cases h))
    exact fun h => (hargs _ (this args h)).2.2 rfl

/-- It happens. -/
def outside {α : Type} (r : Res α) : Bool :=
  match r with
  | .ub => true
  | _ => false

/-- The full C99 is false: with `-r ""` a byte before an array is read. -/
theorem C99_false_empty_run_dir : outside (srvConfig confSample [.run_dir []]) = true := by decide +kernel

/-- The same without -r: the file sets the run directory to the empty list of -O. -/
theorem C99_false_empty_override : outside (srvConfig (confFiles [(b!"/etc/fwknop/fwknopd.conf", b!"FWKNOP_RUN_DIR $OVERRIDE_CONFIG\n"), ([], [])])
    [.override_config []]) = true := by decide +kernel

/-- The sample meets the hypotheses. -/
example : confSample.firewall_exe ≠ [] ∧ confSample.run_dir ≠ [] ∧
    ∀ a ∈ [SrvArg.override_config b!"/o", .run_dir b!"/r", .foreground], a ≠ .config_file [] ∧ a ≠ .override_config [] ∧ a ≠ .run_dir [] := by decide

end Fwknop.Props
