import Verif.Lemmas.FwdRequest
import Verif.Lemmas.FwdExpiry

/-!
# Lemmas: start and end with the firewalld back end
-/

namespace Fwknop

open Spec Res Fwknop.Props

/-- The chains that are configured are usable and leave room for the longer command. -/
def FdInit (cf : FwConf) (chs : List FwChain) : Prop := ∀ ch ∈ chs, ch.target ≠ [] → NatOk cf ch ∧
  cf.fw_command.length + ch.table.length + ch.from_chain.length + ch.to_chain.length + ch.target.length ≤ 73

theorem FdInit.init {cf : FwConf} {chs : List FwChain} (h : FdInit cf chs) : InitOk cf chs := fun ch hc ht => (h ch hc ht).1

theorem NatOk.fdOk {cf : FwConf} {ch : FwChain} (h : NatOk cf ch)
    (hr : cf.fw_command.length + ch.table.length + ch.from_chain.length + ch.to_chain.length + ch.target.length ≤ 73) : FdOk cf ch :=
  ⟨h.exe, h.table, h.from_chain, h.chain.1, h.target.1.2, h.pos, hr⟩

theorem FdInit.fd {cf : FwConf} {chs : List FwChain} (h : FdInit cf chs) {ch : FwChain} (hc : ch ∈ chs) (ht : ch.target ≠ []) : FdOk cf ch :=
  (h ch hc ht).1.fdOk (h ch hc ht).2

theorem iptCmd_both (F : FirewalldHost) {cf : FwConf} {t : Str} (h : FitsCmd cf t) (K : Tables) : ∃ b b' K',
    iptCmd cf (iptTool F.ipt) t (K, []) = .ok (⟨true, b⟩, (K', [])) ∧
    iptCmd (fdConf cf) (fwdTool F).toTool t (K, []) = .ok (⟨true, b'⟩, (K', [])) := cmd_both F h CMD_BUFSIZE K

section
variable (F : FirewalldHost) {cf : FwConf} {ch : FwChain} (h : FdOk cf ch)
include h

theorem fits_D1 : FitsCmd cf (b!" -t " ++ ch.table ++ b!" -D " ++ ch.from_chain ++ b!" 1") := by
  have hr := h.room
  refine ⟨h.exe, ⟨_, rfl⟩, ?_, ?_⟩
  · simp only [List.length_append, List.length_cons, List.length_nil]; omega
  · simp only [blanks_append, blanks_plain h.table.2, blanks_plain h.from_chain.2]; decide

theorem delJumps_both : ∀ (n : Nat) (K : Tables), ∃ K', delJumps cf (iptTool F.ipt) true ch n (K, []) = .ok (K', []) ∧
    fdDelJumps (fdConf cf) (fwdTool F).toTool ch n (K, []) = .ok (K', [])
  | 0, K => ⟨K, rfl, rfl⟩
  | n + 1, K => by
    have hr := h.room
    unfold delJumps fdDelJumps jumpRuleExists
    rw [if_pos rfl, fd_jump_rule_exists_eq F h.fd]
    obtain ⟨b, K1, hj⟩ := jump_rule_exists_world F h.fd K
    rw [hj, bind_ok, bind_ok]
    cases b with
    | false => exact ⟨K1, rfl, rfl⟩
    | true =>
      simp only [if_true]
      have hf : FitsCmd cf (b!" -t " ++ ch.table ++ b!" -D " ++ ch.from_chain ++ b!" -j " ++ ch.to_chain) := by
        refine ⟨h.exe, ⟨_, rfl⟩, ?_, ?_⟩
        · simp only [List.length_append, List.length_cons, List.length_nil]; omega
        · simp only [blanks_append, blanks_plain h.table.2, blanks_plain h.from_chain.2, blanks_plain h.chain.2]; decide
      obtain ⟨b, b', K2, h1, h2⟩ := iptCmd_both F hf K1
      rw [h1, h2, bind_ok, bind_ok]
      exact delJumps_both n K2

theorem deleteChain_both (K : Tables) : ∃ K', deleteChain cf (iptTool F.ipt) true ch (K, []) = .ok (K', []) ∧
    fdDeleteChain (fdConf cf) (fwdTool F).toTool ch (K, []) = .ok (K', []) := by
  have hr := h.room
  unfold deleteChain fdDeleteChain
  by_cases ht : ch.target = []
  · rw [if_pos ht, if_pos ht]; exact ⟨K, rfl, rfl⟩
  rw [if_neg ht, if_neg ht]
  obtain ⟨K1, h1, h2⟩ := delJumps_both F h CMD_LOOP_TRIES K
  rw [h1, h2, bind_ok, bind_ok]
  have hf : ∀ op, op = b!" -F " ∨ op = b!" -X " → FitsCmd cf (b!" -t " ++ ch.table ++ op ++ ch.to_chain) := by
    intro op ho
    refine ⟨h.exe, ⟨_, rfl⟩, ?_, ?_⟩
    · rcases ho with rfl | rfl <;> (simp only [List.length_append, List.length_cons, List.length_nil]; omega)
    · rcases ho with rfl | rfl <;> (simp only [blanks_append, blanks_plain h.table.2, blanks_plain h.chain.2]; decide)
  obtain ⟨b, b', K2, g1, g2⟩ := iptCmd_both F (hf b!" -F " (.inl rfl)) K1
  rw [g1, g2, bind_ok, bind_ok]
  obtain ⟨b, b', K3, k1, k2⟩ := iptCmd_both F (hf b!" -X " (.inr rfl)) K2
  dsimp only
  rw [k1, k2]
  exact ⟨K3, rfl, rfl⟩

theorem mkChain_both (K : Tables) : ∃ n K', mkChain cf (iptTool F.ipt) true ch (K, []) = .ok (n, (K', [])) ∧
    fdMkChain (fdConf cf) (fwdTool F).toTool ch (K, []) = .ok (n, (K', [])) := by
  obtain ⟨e, he1, he2⟩ := fd_chain_exists_run F h.fd K
  obtain ⟨-, -, c1, c2⟩ := fd_create_run F h.fd K
  have hw : fdMkChain (fdConf cf) (fwdTool F).toTool ch (K, []) = (do
      let j ← fd_jump_rule_exists (fdConf cf) (fwdTool F).toTool ch (K.make ch.table ch.to_chain, [])
      if j.1 then return (0, j.2)
      else do
        let r ← iptCmd (fdConf cf) (fwdTool F).toTool (b!" -t " ++ ch.table ++ b!" -I " ++ ch.from_chain ++ b!" " ++ decStrInt ch.jump_rule_pos ++ b!" -j " ++
          ch.to_chain) j.2
        return (0 + if r.1.success then 0 else 1, r.2)) := by
    unfold fdMkChain
    rw [he1, bind_ok]
    cases e with
    | true => rw [he2 rfl]; rfl
    | false =>
      simp only [Bool.false_eq_true, if_false]
      rw [c2, bind_ok]
  rw [hw]
  unfold mkChain
  rw [chain_exists_run F h.fd, bind_ok]
  simp only [Bool.false_eq_true, if_false]
  rw [c1, bind_ok, fd_jump_rule_exists_eq F h.fd]
  unfold jumpRuleExists
  rw [if_pos rfl]
  obtain ⟨b, K1, hj⟩ := jump_rule_exists_world F h.fd (K.make ch.table ch.to_chain)
  rw [hj, bind_ok, bind_ok]
  cases b with
  | true => exact ⟨0, K1, rfl, rfl⟩
  | false =>
    simp only [Bool.false_eq_true, if_false]
    obtain ⟨b, b', K2, g1, g2⟩ := iptCmd_both F (fits_jump h.fd) K1
    rw [g1, g2]
    exact ⟨_, K2, rfl, rfl⟩

theorem chk_support_both (K : Tables) :
    firewd_chk_support (fdConf cf) (fwdTool F).toTool ch (K, []) = ipt_chk_support cf (iptTool F.ipt) ch (K, []) := by
  have hr := h.room
  have hi : FitsCmd cf (b!" -t " ++ ch.table ++ b!" -I " ++ ch.from_chain ++ b!" 1 -s " ++ DUMMY_IP ++ b!" -p udp -j " ++ ch.target) := by
    refine ⟨h.exe, ⟨_, rfl⟩, ?_, ?_⟩
    · simp only [List.length_append, List.length_cons, List.length_nil]; omega
    · simp only [blanks_append, blanks_plain h.table.2, blanks_plain h.from_chain.2, blanks_plain h.target]; decide
  have hc : FitsCmd cf (b!" -t " ++ ch.table ++ b!" -C " ++ ch.from_chain ++ b!" -s " ++ DUMMY_IP ++ b!" -p udp -j " ++ ch.target) := by
    refine ⟨h.exe, ⟨_, rfl⟩, ?_, ?_⟩
    · simp only [List.length_append, List.length_cons, List.length_nil]; omega
    · simp only [blanks_append, blanks_plain h.table.2, blanks_plain h.from_chain.2, blanks_plain h.target]; decide
  unfold firewd_chk_support ipt_chk_support
  obtain ⟨b, b', K1, g1, g2⟩ := iptCmd_both F hi K
  rw [g1, g2, bind_ok, bind_ok]
  obtain ⟨W, -, k1, k2⟩ := run_both F hc CMD_BUFSIZE K1
  dsimp only
  unfold iptCmd at *
  rw [k1, k2, bind_ok, bind_ok]
  dsimp only
  obtain ⟨b, b', K3, d1, d2⟩ := iptCmd_both F (fits_D1 h) ((callOf W).perform F.ipt K1).2
  unfold iptCmd at d1 d2
  rw [d1, d2, bind_ok, bind_ok, exists_eq]

end

theorem delete_all_both (F : FirewalldHost) {cf : FwConf} : ∀ (chs : List FwChain), (∀ ch ∈ chs, ch.target ≠ [] → FdOk cf ch) → ∀ K : Tables, ∃ K',
    delete_all_chains cf (iptTool F.ipt) true chs (K, []) = .ok (K', []) ∧
    fd_delete_all_chains (fdConf cf) (fwdTool F).toTool chs (K, []) = .ok (K', [])
  | [], _, K => ⟨K, rfl, rfl⟩
  | ch :: chs, hok, K => by
    unfold delete_all_chains fd_delete_all_chains
    by_cases ht : ch.target = []
    · unfold deleteChain fdDeleteChain
      rw [if_pos ht, if_pos ht, bind_ok, bind_ok]
      exact delete_all_both F chs (fun c hc => hok c (List.mem_cons_of_mem _ hc)) K
    · obtain ⟨K1, h1, h2⟩ := deleteChain_both F (hok ch List.mem_cons_self ht) K
      rw [h1, h2, bind_ok, bind_ok]
      exact delete_all_both F chs (fun c hc => hok c (List.mem_cons_of_mem _ hc)) K1

theorem create_both (F : FirewalldHost) {cf : FwConf} : ∀ (chs : List FwChain), (∀ ch ∈ chs, ch.target ≠ [] → FdOk cf ch) → ∀ K : Tables, ∃ n K',
    create_fw_chains cf (iptTool F.ipt) true chs (K, []) = .ok (n, (K', [])) ∧
    fd_create_fw_chains (fdConf cf) (fwdTool F).toTool chs (K, []) = .ok (n, (K', []))
  | [], _, K => ⟨0, K, rfl, rfl⟩
  | ch :: chs, hok, K => by
    unfold create_fw_chains fd_create_fw_chains
    by_cases ht : ch.target = []
    · rw [if_pos ht, if_pos ht]
      exact create_both F chs (fun c hc => hok c (List.mem_cons_of_mem _ hc)) K
    · rw [if_neg ht, if_neg ht]
      obtain ⟨n, K1, h1, h2⟩ := mkChain_both F (hok ch List.mem_cons_self ht) K
      rw [h1, h2, bind_ok, bind_ok]
      obtain ⟨m, K2, g1, g2⟩ := create_both F chs (fun c hc => hok c (List.mem_cons_of_mem _ hc)) K1
      dsimp only
      rw [g1, g2]
      exact ⟨_, K2, rfl, rfl⟩

/-- A text whose first lines contain the comment. -/
theorem comment_text {A r : Str} (hin : TMP_COMMENT <:+: A) (hlen : A.length ≤ 4000) :
    strIn (chop_newline (truncate_partial_line ((A ++ 10 :: r).take (STANDARD_CMD_OUT_BUFSIZE - 1)))) TMP_COMMENT = true := by
  rw [List.take_append, List.take_of_length_le (by show A.length ≤ 4095; omega),
    show STANDARD_CMD_OUT_BUFSIZE - 1 - A.length = (4094 - A.length) + 1 from by
      show 4095 - A.length = _; omega, List.take_succ_cons]
  obtain ⟨r1, h1⟩ := truncate_keeps A (r.take (4094 - A.length))
  rw [h1]
  obtain ⟨r2, h2⟩ := chop_keeps A r1
  rw [h2]
  exact strIn_of_infix (hin.trans ⟨[], r2, by simp⟩)

theorem iptables_first_quiet {print : Host} {exe t f : Word} {ws : List Word} {K : Tables} (hw : ∀ w ∈ ws, RuleWord w) {fr : List Rule}
    (hf : K t f = some fr) : iptables print (exe :: b!"-t" :: t :: b!"-I" :: f :: b!"1" :: ws) K = ([], K.put t f (ws :: fr)) := by
  unfold iptables
  simp only [List.tail_cons, List.foldl_cons]
  have h : Call.feed (Call.feed (Call.feed (Call.feed (Call.feed {} b!"-t") t) b!"-I") f) b!"1" =
      ⟨.word, t, .insert, f, some 1, []⟩ := by
    rw [show b!"1" = decimal 1 from by decide]
    simp [Call.feed, Call.plain, isNumber_decimal, number_decimal]
  rw [h, feed_rule ws hw]
  simp [Call.perform, hf]

theorem fd_comment_match_run (F : FirewalldHost) {cf : FwConf} {ch : FwChain} (h : NatOk cf ch)
    (hr : cf.fw_command.length + ch.table.length + ch.from_chain.length + ch.to_chain.length + ch.target.length ≤ 73)
    (hc : PrintsComment F.ipt ch.target) {K : Tables} {fr : List Rule} (hf : K ch.table ch.from_chain = some fr) :
    fd_comment_match_exists (fdConf cf) (fwdTool F) ch (K, []) = .ok (true, (K, [])) := by
  have hd := h.fdOk hr
  obtain ⟨-, hp⟩ := probe_words h.target
  -- the three commands
  have hi : FitsCmd cf (b!" -t " ++ ch.table ++ b!" -I " ++ ch.from_chain ++ b!" 1 -s " ++ DUMMY_IP ++ b!" -m comment --comment " ++ TMP_COMMENT ++
      b!" -j " ++ ch.target) := by
    refine ⟨h.exe, ⟨_, rfl⟩, ?_, ?_⟩
    · simp only [List.length_append, List.length_cons, List.length_nil]; omega
    · simp only [blanks_append, blanks_plain hd.table.2, blanks_plain hd.from_chain.2, blanks_plain hd.target]; decide
  have hl : FitsCmd cf (b!" -t " ++ ch.table ++ b!" -L " ++ ch.from_chain ++ b!" --line-numbers -n") := by
    refine ⟨h.exe, ⟨_, rfl⟩, ?_, ?_⟩
    · simp only [List.length_append, List.length_cons, List.length_nil]; omega
    · simp only [blanks_append, blanks_plain hd.table.2, blanks_plain hd.from_chain.2]; decide
  have wi := fd_argv (W := b!"-t" :: ch.table :: b!"-I" :: ch.from_chain :: b!"1" :: commentProbe ch.target) hi (by
    have hlen := hi.room
    rw [cmdBuf, cmdBuf_short (by rw [List.length_append]; omega)]
    rw [show cf.fw_command ++ (b!" -t " ++ ch.table ++ b!" -I " ++ ch.from_chain ++ b!" 1 -s " ++ DUMMY_IP ++ b!" -m comment --comment " ++ TMP_COMMENT ++
      b!" -j " ++ ch.target) = spaced (cf.fw_command :: b!"-t" :: ch.table :: b!"-I" :: ch.from_chain :: b!"1" :: commentProbe ch.target) from by
        simp [spaced, commentProbe]]
    refine strtoargv_spaced ?_ (by simp [commentProbe])
    intro w hw
    have hpl : PlainWord w := by
      rcases List.mem_cons.1 hw with rfl | hw
      · exact h.exe
      · refine five_plain h.table h.from_chain plain_I ?_ w hw
        intro w hw
        rcases List.mem_cons.1 hw with rfl | hw
        · exact plain_1
        · exact (hp w hw).1
    refine ⟨hpl, ?_⟩
    simp only [commentProbe, List.mem_cons, List.not_mem_nil, or_false] at hw
    show w.length < 1024
    rcases hw with rfl | rfl | rfl | rfl | rfl | rfl | rfl | rfl | rfl | rfl | rfl | rfl | rfl | rfl <;> first | omega | decide)
  have wl := fd_argv (W := [b!"-t", ch.table, b!"-L", ch.from_chain, b!"--line-numbers", b!"-n"]) hl (by
    have := strtoargv_list (cf := cf) (ch := { ch with to_chain := ch.from_chain }) ⟨h.exe, h.table, h.from_chain⟩ (by dsimp only; omega)
    dsimp only at this
    rw [← this]
    simp)
  have ri := iptables_first_quiet (print := F.ipt) (exe := cf.fw_command) hp hf
  have rl := iptables_list (print := F.ipt) (exe := cf.fw_command) (t := ch.table) (c := ch.from_chain) (put_get K ch.table ch.from_chain (commentProbe ch.target :: fr))
  -- what firewall-cmd does with the first two
  have ki : (callOf (b!"-t" :: ch.table :: b!"-I" :: ch.from_chain :: b!"1" :: commentProbe ch.target)).worked F.ipt K = true := by
    unfold Call.worked
    rw [iptables_callOf F.ipt cf.fw_command, ri]
    rfl
  have ci : firewallCmd F (cf.fw_command :: (fdWords ++ (b!"-t" :: ch.table :: b!"-I" :: ch.from_chain :: b!"1" :: commentProbe ch.target))) K =
      (successLine, K.put ch.table ch.from_chain (commentProbe ch.target :: fr)) := by
    rw [firewallCmd_words]
    unfold FirewalldHost.report
    dsimp only
    rw [if_pos ki, iptables_callOf F.ipt cf.fw_command, ri]
    rfl
  have hne : listing F.ipt ch.from_chain (commentProbe ch.target :: fr) ≠ [] := by
    obtain ⟨x, hx⟩ := listing_head F.ipt ch.from_chain (commentProbe ch.target :: fr); rw [hx]; simp
  have cl : firewallCmd F (cf.fw_command :: (fdWords ++ [b!"-t", ch.table, b!"-L", ch.from_chain, b!"--line-numbers", b!"-n"]))
      (K.put ch.table ch.from_chain (commentProbe ch.target :: fr)) =
      (listing F.ipt ch.from_chain (commentProbe ch.target :: fr) ++ 10 :: successLine, K.put ch.table ch.from_chain (commentProbe ch.target :: fr)) := by
    rw [firewallCmd_words]
    unfold FirewalldHost.report Call.worked
    dsimp only
    rw [iptables_callOf F.ipt cf.fw_command, rl]
    have hk : (callOf [b!"-t", ch.table, b!"-L", ch.from_chain, b!"--line-numbers", b!"-n"]).op = .list ∧
        (callOf [b!"-t", ch.table, b!"-L", ch.from_chain, b!"--line-numbers", b!"-n"]).table = ch.table ∧
        (callOf [b!"-t", ch.table, b!"-L", ch.from_chain, b!"--line-numbers", b!"-n"]).chain = ch.from_chain := by
      simp [callOf, Call.feed, Call.plain]
    rw [hk.1, hk.2.1, hk.2.2, put_get, if_pos (by simp), if_neg hne]
  have htext : strIn (chop_newline (truncate_partial_line ((listing F.ipt ch.from_chain (commentProbe ch.target :: fr) ++ 10 :: successLine).take
      (STANDARD_CMD_OUT_BUFSIZE - 1)))) TMP_COMMENT = true := by
    have hA : ∃ r, listing F.ipt ch.from_chain (commentProbe ch.target :: fr) ++ 10 :: successLine =
        (header ch.from_chain ++ 10 :: line F.ipt 1 (commentProbe ch.target)) ++ 10 :: r := by
      unfold listing
      rw [lines]
      cases fr with
      | nil => exact ⟨10 :: successLine, by simp [lines]⟩
      | cons r fr => exact ⟨line F.ipt 2 r ++ lines F.ipt 3 fr ++ [10] ++ 10 :: successLine, by simp [lines]⟩
    obtain ⟨r, hA⟩ := hA
    have hd : decimal 1 = b!"1" := by decide
    rw [hA]
    refine comment_text ?_ ?_
    · obtain ⟨a, b, hab⟩ := hc.shown
      refine ⟨header ch.from_chain ++ 10 :: (decimal 1 ++ List.replicate (4 - (decimal 1).length) 32 ++ 32 :: a), b, ?_⟩
      rw [line, ← hab]
      simp
    · have := hc.short
      simp only [header, line, hd, List.length_append, List.length_cons, List.length_nil, List.length_replicate]
      omega
  have e1 : ∀ cmd : Str, cmd ++ b!" -t " ++ ch.table ++ b!" -L " ++ ch.from_chain ++ b!" --line-numbers -n" =
    cmd ++ (b!" -t " ++ ch.table ++ b!" -L " ++ ch.from_chain ++ b!" --line-numbers -n") := by intro cmd; simp
  unfold fd_comment_match_exists
  dsimp only
  have hst : cmdStatus0 (fwdTool F) (cmdBuf ((fdConf cf).fw_command ++ (b!" -t " ++ ch.table ++ b!" -I " ++ ch.from_chain ++ b!" 1 -s " ++ DUMMY_IP ++
      b!" -m comment --comment " ++ TMP_COMMENT ++ b!" -j " ++ ch.target))) (K, []) = true := by
    unfold cmdStatus0
    rw [wi]
    simp only [fwdTool, firewallCmdStatus0]
    rw [Bool.and_eq_true]
    exact ⟨rfl, ki⟩
  rw [run_words _ wi, bind_ok, hst]
  simp only [fwdTool, firewallCmdUnder, ci, Bool.not_true, Bool.false_eq_true, or_self, if_false]
  rw [e1, run_words _ wl, bind_ok]
  simp only [firewallCmdUnder, cl]
  rw [if_pos htext]
  obtain ⟨W, -, -, d2⟩ := run_both F (fits_D1 hd) CMD_BUFSIZE (K.put ch.table ch.from_chain (commentProbe ch.target :: fr))
  obtain ⟨b, b', K3, d1, d3⟩ := iptCmd_both F (fits_D1 hd) (K.put ch.table ch.from_chain (commentProbe ch.target :: fr))
  have hdel := iptCmd_run (print := F.ipt) (cf := cf) (args := b!" -t " ++ ch.table ++ b!" -D " ++ ch.from_chain ++ b!" 1")
    (ws := [b!"-t", ch.table, b!"-D", ch.from_chain, b!"1"]) (by simp [spaced]) h.exe
    (five_plain h.table h.from_chain plain_D (by
      intro w hw
      rw [List.mem_singleton] at hw
      exact hw ▸ plain_1))
    (by simp only [List.length_append, List.length_cons, List.length_nil]; omega) (by simp) (K.put ch.table ch.from_chain (commentProbe ch.target :: fr))
  rw [show b!"1" = decimal 1 from by decide, iptables_delete (put_get _ _ _ _) (Nat.le_refl _) (by simp), put_put] at hdel
  simp only [List.eraseIdx_zero, Nat.sub_self, List.tail_cons] at hdel
  rw [put_same hf, show decimal 1 = b!"1" from by decide, d1] at hdel
  simp only [Res.ok.injEq, Prod.mk.injEq, and_true] at hdel
  rw [hdel.2] at d3
  exact (congrArg (fun r => r >>= fun r3 => Res.ok (true, r3.2)) d3 :)

/-- **A start**: what the iptables back end would have made is made. -/
theorem fd_init_run (F : FirewalldHost) (cf : FwConf) (o : FwInit) (hchk : o.disable_check = false) (chs : List FwChain) (hok : FdInit cf chs)
    (ha : Apart (hooks chs)) (hin : (chs.getD 0 {}).target ≠ []) (hp : PrintsComment F.ipt (chs.getD 0 {}).target) (K : Tables)
    (hK : Tidy (hooks chs) K) {fr : List Rule} (hf : K (chs.getD 0 {}).table (chs.getD 0 {}).from_chain = some fr) :
    fd_fw_initialize (fdConf cf) o (fwdTool F) chs (K, []) = .ok (some (true, (madeAll chs (atInit o chs K), []))) := by
  have hmem : chs.getD 0 {} ∈ chs := by
    cases chs with
    | nil => exact absurd rfl hin
    | cons c cs => exact List.mem_cons_self
  have hok0 := hok _ hmem hin
  have hm0 := mem_hooks hmem hin
  unfold fd_fw_initialize
  rw [if_neg (by rw [hchk]; decide), chk_support_both F (hok.fd hmem hin), chk_support_run hok0.1 hf, bind_ok]
  simp only [Bool.not_true, Bool.false_eq_true, if_false]
  have hthere : ∃ fr, atInit o chs K (chs.getD 0 {}).table (chs.getD 0 {}).from_chain = some fr := by
    unfold atInit
    cases o.flush_at_init with
    | true => simp only [if_true]; exact without_there ha hm0 hf
    | false => exact ⟨fr, hf⟩
  have hrest : (do
      let r ← fd_create_fw_chains (fdConf cf) (fwdTool F).toTool chs (atInit o chs K, [])
      if o.comment_check = true then do
          let m ← fd_comment_match_exists (fdConf cf) (fwdTool F) (chs.getD IPT_INPUT_ACCESS {}) r.snd
          pure (some (r.fst == 0 && m.fst, m.snd))
        else pure (some (r.fst == 0, r.snd))) = Res.ok (some (true, (madeAll chs (atInit o chs K), []))) := by
    obtain ⟨n, K1, c1, c2⟩ := create_both F chs (fun ch hc ht => hok.fd hc ht) (atInit o chs K)
    rw [create_run chs hok.init] at c1
    simp only [Res.ok.injEq, Prod.mk.injEq, and_true] at c1
    rw [c2, ← c1.1, ← c1.2, bind_ok]
    cases hcc : o.comment_check with
    | false => rfl
    | true =>
      simp only [if_true]
      obtain ⟨fr2, hf2⟩ := made_there (cs := chs.filter (·.target ≠ [])) hthere
      rw [fd_comment_match_run F hok0.1 hok0.2 hp (K := madeAll chs (atInit o chs K)) (fr := fr2) hf2, bind_ok]
      rfl
  cases hfl : o.flush_at_init with
  | true =>
    simp only [if_true]
    obtain ⟨K1, d1, d2⟩ := delete_all_both F chs (fun ch hc ht => hok.fd hc ht) K
    rw [delete_all_run chs hok.init ha.builtin K hK] at d1
    simp only [Res.ok.injEq, Prod.mk.injEq, and_true] at d1
    rw [d2, ← d1, bind_ok]
    have hat : atInit o chs K = without (hooks chs) K := by unfold atInit; rw [hfl, if_pos rfl]
    rw [hat] at hrest ⊢
    exact hrest
  | false =>
    simp only [Bool.false_eq_true, if_false]
    have hat : atInit o chs K = K := by unfold atInit; rw [hfl, if_neg (by decide)]
    rw [hat] at hrest ⊢
    exact hrest

/-- **The end**: what the iptables back end would have removed is removed. -/
theorem fd_cleanup_eq (F : FirewalldHost) (cf : FwConf) (o : FwInit) (chs : List FwChain) (hok : FdInit cf chs) (K : Tables) :
    fd_fw_cleanup (fdConf cf) o (fwdTool F).toTool chs (K, []) = fw_cleanup cf o (iptTool F.ipt) true chs (K, []) := by
  unfold fd_fw_cleanup fw_cleanup
  split
  · rfl
  · obtain ⟨K1, d1, d2⟩ := delete_all_both F chs (fun ch hc ht => hok.fd hc ht) K
    rw [d1, d2]

end Fwknop
