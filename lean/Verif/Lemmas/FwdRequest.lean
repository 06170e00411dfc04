import Verif.Lemmas.Firewalld
import Verif.Lemmas.DaemonRules

/-!
# Lemmas: a request is handled alike by the firewalld and the iptables back end
-/

namespace Fwknop

open Spec Res

/-- A text that is no longer than an address, without blanks. -/
def Short (w : Str) : Prop := (∀ c ∈ w, ¬ IsBlank c) ∧ w.length ≤ 15

/-- What is asked of a chain of the configuration: words without blanks that leave room in the command. -/
structure FdOk (cf : FwConf) (ch : FwChain) : Prop where
  exe : PlainWord cf.fw_command
  table : PlainWord ch.table
  from_chain : PlainWord ch.from_chain
  chain : PlainWord ch.to_chain
  target : ∀ c ∈ ch.target, ¬ IsBlank c
  pos : 0 ≤ ch.jump_rule_pos ∧ ch.jump_rule_pos < 2 ^ 31
  room : cf.fw_command.length + ch.table.length + ch.from_chain.length + ch.to_chain.length + ch.target.length ≤ 73

theorem FdOk.fd {cf : FwConf} {ch : FwChain} (h : FdOk cf ch) : FdChain cf ch :=
  ⟨h.exe, h.table, h.from_chain, h.chain, h.pos, by have := h.room; omega⟩

theorem FdOk.bare {cf : FwConf} {a b : FwChain} (h : a.bare = b.bare) (hb : FdOk cf b) : FdOk cf a := by
  obtain ⟨h1, h2, h3, h4, h5⟩ := bare_fields h
  exact ⟨hb.exe, h2 ▸ hb.table, h3 ▸ hb.from_chain, h5 ▸ hb.chain, h1 ▸ hb.target, h4 ▸ hb.pos, by rw [h1, h2, h3, h5]; exact hb.room⟩

theorem decStr_blanks (n : Nat) : blanks (decStr n) = 0 := by
  have := decStrInt_plain (n : Int)
  rwa [decStrInt, if_neg (by omega), Int.natAbs_natCast] at this

theorem port_short {n : Int} (h : 0 ≤ n ∧ n ≤ 65535) : (decStrInt n).length ≤ 5 := by
  rw [decStrInt, if_neg (by omega)]
  exact decStr_length_le _ 5 (by decide) (by omega)

theorem proto_short {n : Nat} (h : n = 6 ∨ n = 17) : (decStr n).length ≤ 2 :=
  decStr_length_le _ 2 (by decide) (by omega)

theorem expTs_short (now : Int) (t : Nat) : (decStr (expTs now t)).length ≤ 10 := by
  refine decStr_length_le _ 10 (by decide) ?_
  unfold expTs
  omega

section
variable (F : FirewalldHost) {cf : FwConf} {s : FwSt (Tables × List Fate)} {i : Nat} (h : FdOk cf (s.at i)) (hs : s.world.2 = [])
include h hs

/-- One rule, with what the next one needs. -/
theorem rule_both {rule : Str} (hr : rule.length ≤ 147 + (s.at i).table.length + (s.at i).target.length) (hb : blanks rule ≤ 21) (e : Nat) (now : Int) : ∃ s',
    ipt_rule cf (iptTool F.ipt) i rule e now s = .ok s' ∧ firewd_rule (fdConf cf) (fwdTool F).toTool i rule e now s = .ok s' ∧
    s'.world.2 = [] ∧ s'.chain.map FwChain.bare = s.chain.map FwChain.bare := by
  have hroom := h.room
  have h0 : 1 ≤ (s.at i).from_chain.length := by
    rcases hl : (s.at i).from_chain with _ | ⟨x, l⟩
    · exact absurd hl h.from_chain.1
    · simp
  obtain ⟨h1, s', h2, h3⟩ := firewd_rule_eq F h.fd (rule := rule) (by omega) hb hs e now
  exact ⟨s', h2, h1.trans h2, h3, ipt_rule_bare h2⟩

end

theorem at_of_bare {σ : Type} {s s' : FwSt σ} (h : s'.chain.map FwChain.bare = s.chain.map FwChain.bare) (i : Nat) : (s'.at i).bare = (s.at i).bare :=
  getD_bare h i

/-- The ends of the loops agree. -/
def Both (F : FirewalldHost) (s : FwSt (Tables × List Fate)) (a b : Res (FwSt (Tables × List Fate))) : Prop :=
  ∃ s', a = .ok s' ∧ b = .ok s' ∧ s'.world.2 = [] ∧ s'.chain.map FwChain.bare = s.chain.map FwChain.bare

theorem Both.refl (F : FirewalldHost) {s : FwSt (Tables × List Fate)} (h : s.world.2 = []) : Both F s (.ok s) (.ok s) := ⟨s, rfl, rfl, h, rfl⟩

theorem Both.bind {F : FirewalldHost} {s : FwSt (Tables × List Fate)} {a b : Res (FwSt (Tables × List Fate))}
    {f g : FwSt (Tables × List Fate) → Res (FwSt (Tables × List Fate))} (h : Both F s a b)
    (hfg : ∀ s', s'.world.2 = [] → s'.chain.map FwChain.bare = s.chain.map FwChain.bare → Both F s' (f s') (g s')) :
    Both F s (a >>= f) (b >>= g) := by
  obtain ⟨s', rfl, rfl, h1, h2⟩ := h
  obtain ⟨s'', h3, h4, h5, h6⟩ := hfg s' h1 h2
  exact ⟨s'', h3, h4, h5, h6.trans h2⟩

section
variable (F : FirewalldHost) {cf : FwConf} {sp : SpaData} (hsrc : Short sp.use_src_ip) (hdst : Short (dstOf cf sp)) (now : Int)
include hsrc hdst

theorem input_both {s : FwSt (Tables × List Fate)} (h : FdOk cf (s.at IPT_INPUT_ACCESS)) (hs : s.world.2 = []) {proto : Nat} {port : Int}
    (hp : proto = 6 ∨ proto = 17) (hq : 0 ≤ port ∧ port ≤ 65535) :
    Both F s (ipt_rule cf (iptTool F.ipt) IPT_INPUT_ACCESS (iptRuleArgs (s.at IPT_INPUT_ACCESS) proto sp.use_src_ip (dstOf cf sp) port
        (expTs now sp.fw_access_timeout)) (expTs now sp.fw_access_timeout) now s)
      (firewd_rule (fdConf cf) (fwdTool F).toTool IPT_INPUT_ACCESS (iptRuleArgs (s.at IPT_INPUT_ACCESS) proto sp.use_src_ip (dstOf cf sp) port
        (expTs now sp.fw_access_timeout)) (expTs now sp.fw_access_timeout) now s) := by
  have h1 := hsrc.2; have h2 := hdst.2; have h3 := port_short hq; have h4 := proto_short hp; have h5 := expTs_short now sp.fw_access_timeout
  refine rule_both F h hs ?_ ?_ _ _
  · simp only [iptRuleArgs, ruleEnd, List.length_append, List.length_cons, List.length_nil]; omega
  · simp only [iptRuleArgs, ruleEnd, blanks_append, blanks_plain h.table.2, blanks_plain h.target, blanks_plain hsrc.1, blanks_plain hdst.1, decStr_blanks,
      decStrInt_plain]
    decide

theorem output_both {s : FwSt (Tables × List Fate)} (h : FdOk cf (s.at IPT_OUTPUT_ACCESS)) (hs : s.world.2 = []) {proto : Nat} {port : Int}
    (hp : proto = 6 ∨ proto = 17) (hq : 0 ≤ port ∧ port ≤ 65535) :
    Both F s (ipt_rule cf (iptTool F.ipt) IPT_OUTPUT_ACCESS (iptOutRuleArgs (s.at IPT_OUTPUT_ACCESS) proto sp.use_src_ip (dstOf cf sp) port
        (expTs now sp.fw_access_timeout)) (expTs now sp.fw_access_timeout) now s)
      (firewd_rule (fdConf cf) (fwdTool F).toTool IPT_OUTPUT_ACCESS (iptOutRuleArgs (s.at IPT_OUTPUT_ACCESS) proto sp.use_src_ip (dstOf cf sp) port
        (expTs now sp.fw_access_timeout)) (expTs now sp.fw_access_timeout) now s) := by
  have h1 := hsrc.2; have h2 := hdst.2; have h3 := port_short hq; have h4 := proto_short hp; have h5 := expTs_short now sp.fw_access_timeout
  refine rule_both F h hs ?_ ?_ _ _
  · simp only [iptOutRuleArgs, ruleEnd, List.length_append, List.length_cons, List.length_nil]; omega
  · simp only [iptOutRuleArgs, ruleEnd, blanks_append, blanks_plain h.table.2, blanks_plain h.target, blanks_plain hsrc.1, blanks_plain hdst.1, decStr_blanks,
      decStrInt_plain]
    decide

theorem forward_both {acc : Stanza} {s : FwSt (Tables × List Fate)} (h : FdOk cf (s.at IPT_FORWARD_ACCESS)) (hs : s.world.2 = []) {proto : Nat} {port : Int}
    (hp : proto = 6 ∨ proto = 17) (hq : 0 ≤ port ∧ port ≤ 65535) :
    Both F s (forward_access_rule cf (iptTool F.ipt) acc port proto sp (expTs now sp.fw_access_timeout) now s)
      (fd_forward_access_rule (fdConf cf) (fwdTool F).toTool acc port proto sp (expTs now sp.fw_access_timeout) now s) := by
  have h1 := hsrc.2; have h3 := port_short hq; have h4 := proto_short hp; have h5 := expTs_short now sp.fw_access_timeout
  refine rule_both F h hs ?_ ?_ _ _
  · split <;> (simp only [ruleEnd, List.length_append, List.length_cons, List.length_nil]; omega)
  · split <;> (simp only [ruleEnd, blanks_append, blanks_plain h.table.2, blanks_plain h.target, blanks_plain hsrc.1, decStr_blanks, decStrInt_plain]; decide)

theorem dnat_both {acc : Stanza} {s : FwSt (Tables × List Fate)} (h : FdOk cf (s.at IPT_DNAT_ACCESS)) (hs : s.world.2 = []) {p : PortEnt} {port : Int} {ip : Str}
    (hp : (p.proto = 6 ∨ p.proto = 17) ∧ 0 ≤ p.port ∧ p.port ≤ 65535) (hq : 0 ≤ port ∧ port ≤ 65535) (hip : Short ip) :
    Both F s (dnat_rule cf (iptTool F.ipt) acc ip port p sp (expTs now sp.fw_access_timeout) now s)
      (fd_dnat_rule (fdConf cf) (fwdTool F).toTool acc ip port p sp (expTs now sp.fw_access_timeout) now s) := by
  have h1 := hsrc.2; have h2 := hdst.2; have h3 := port_short hq; have h4 := proto_short hp.1; have h5 := expTs_short now sp.fw_access_timeout
  have h6 := port_short hp.2; have h7 := hip.2
  refine rule_both F h hs ?_ ?_ _ _
  · split <;> (simp only [ruleEnd, List.length_append, List.length_cons, List.length_nil]; omega)
  · split <;> (simp only [ruleEnd, blanks_append, blanks_plain h.table.2, blanks_plain h.target, blanks_plain hsrc.1, blanks_plain hdst.1, blanks_plain hip.1,
      decStr_blanks, decStrInt_plain]; decide)

omit hdst in
theorem snat_both {acc : Stanza} {s : FwSt (Tables × List Fate)} {p : PortEnt} (h : FdOk cf (s.at (snatTarget cf acc p.port).1)) (hs : s.world.2 = [])
    {port : Int} {ip : Str} (hp : (p.proto = 6 ∨ p.proto = 17) ∧ 0 ≤ p.port ∧ p.port ≤ 65535) (hq : 0 ≤ port ∧ port ≤ 65535) (hip : Short ip)
    (h1 : ∀ a, acc.force_snat_ip = some a → Short a) (h2 : ∀ a, cf.snat_translate_ip = some a → Short a) :
    Both F s (snat_rule cf (iptTool F.ipt) acc ip port p sp (expTs now sp.fw_access_timeout) now s)
      (fd_snat_rule (fdConf cf) (fwdTool F).toTool acc ip port p sp (expTs now sp.fw_access_timeout) now s) := by
  have h3 := port_short hq; have h4 := proto_short hp.1; have h5 := expTs_short now sp.fw_access_timeout
  have h6 := port_short hp.2; have h7 := hip.2; have h8 := hsrc.2
  have ht : (snatTarget cf acc p.port).2.length ≤ 27 ∧ blanks (snatTarget cf acc p.port).2 ≤ 1 := by
    have hk : ∀ o : Option Str, (∀ a, o = some a → Short a) → (o.getD []).length ≤ 15 ∧ blanks (o.getD []) = 0 := by
      intro o ho
      cases o with
      | none => exact ⟨by simp, rfl⟩
      | some a => exact ⟨(ho a rfl).2, blanks_plain (ho a rfl).1⟩
    have k1 := hk _ h1
    have k2 := hk _ h2
    unfold snatTarget
    split
    · simp only [List.length_append, List.length_cons, List.length_nil, blanks_append, k1.2]; exact ⟨by omega, by decide⟩
    · split
      · simp only [List.length_append, List.length_cons, List.length_nil, blanks_append, decStrInt_plain]; exact ⟨by omega, by decide⟩
      · split
        · simp only [List.length_append, List.length_cons, List.length_nil, blanks_append, k2.2]; exact ⟨by omega, by decide⟩
        · split
          · exact ⟨by decide, by decide⟩
          · simp only [List.length_append, List.length_cons, List.length_nil, blanks_append, decStrInt_plain]; exact ⟨by omega, by decide⟩
  have hst : snatTarget (fdConf cf) acc p.port = snatTarget cf acc p.port := rfl
  unfold snat_rule fd_snat_rule
  rw [hst]
  refine rule_both F h hs ?_ ?_ _ _
  · split <;> (simp only [ruleEnd, List.length_append, List.length_cons, List.length_nil]; omega)
  · have := ht.2
    split
    · simp only [ruleEnd, blanks_append, blanks_plain h.table.2, blanks_plain h.target, blanks_plain hsrc.1, decStr_blanks, decStrInt_plain]
      rw [show blanks b!"-t " = 1 from by decide, show blanks b!" -s " = 2 from by decide, show blanks b!" -m comment --comment _exp_" = 4 from by decide,
        show blanks b!" -j " = 2 from by decide, show blanks b!" " = 1 from by decide]
      omega
    · simp only [ruleEnd, blanks_append, blanks_plain h.table.2, blanks_plain h.target, blanks_plain hip.1, decStr_blanks, decStrInt_plain]
      rw [show blanks b!"-t " = 1 from by decide, show blanks b!" -p " = 2 from by decide, show blanks b!" -d " = 2 from by decide,
        show blanks b!" --dport " = 2 from by decide, show blanks b!" -m comment --comment _exp_" = 4 from by decide,
        show blanks b!" -j " = 2 from by decide, show blanks b!" " = 1 from by decide]
      omega

theorem portLoop_both (ps : List PortEnt) : ∀ {s : FwSt (Tables × List Fate)}, FdOk cf (s.at IPT_INPUT_ACCESS) →
    ((s.at IPT_OUTPUT_ACCESS).to_chain ≠ [] → FdOk cf (s.at IPT_OUTPUT_ACCESS)) → s.world.2 = [] →
    (∀ p ∈ ps, (p.proto = 6 ∨ p.proto = 17) ∧ 0 ≤ p.port ∧ p.port ≤ 65535) →
    Both F s (portLoopRules cf (iptTool F.ipt) sp (expTs now sp.fw_access_timeout) now ps s)
      (fdPortLoop (fdConf cf) (fwdTool F).toTool sp (expTs now sp.fw_access_timeout) now ps s) := by
  induction ps with
  | nil => intro s _ _ hs _; exact Both.refl F hs
  | cons p ps ih =>
    intro s hi ho hs hp
    have hpp := hp p List.mem_cons_self
    unfold portLoopRules fdPortLoop
    refine Both.bind ?_ fun s' hw hb => ih (FdOk.bare (at_of_bare hb _) hi) (fun hn => FdOk.bare (at_of_bare hb _) (ho ?_)) hw
      fun q hq => hp q (List.mem_cons_of_mem _ hq)
    · unfold portRules fdPortRules
      refine Both.bind (input_both F hsrc hdst now hi hs hpp.1 hpp.2) fun s' hw hb => ?_
      by_cases hn : (s'.at IPT_OUTPUT_ACCESS).to_chain ≠ []
      · rw [if_pos hn, if_pos hn]
        refine output_both F hsrc hdst now (FdOk.bare (at_of_bare hb _) (ho ?_)) hw hpp.1 hpp.2
        rw [← (bare_fields (at_of_bare hb IPT_OUTPUT_ACCESS)).2.2.2.2]; exact hn
      · rw [if_neg hn, if_neg hn]
        exact Both.refl F hw
    · rw [← (bare_fields (at_of_bare hb IPT_OUTPUT_ACCESS)).2.2.2.2]; exact hn

end

/-- What is asked of the configuration and of a request. -/
structure FdRequest (cf : FwConf) (acc : Stanza) (sp : SpaData) (s : FwSt (Tables × List Fate)) : Prop where
  src : Short sp.use_src_ip
  dst : Short (dstOf cf sp)
  input : FdOk cf (s.at IPT_INPUT_ACCESS)
  output : (s.at IPT_OUTPUT_ACCESS).to_chain ≠ [] → FdOk cf (s.at IPT_OUTPUT_ACCESS)
  other : wantsNat acc sp = true → ∀ i ∈ [IPT_FORWARD_ACCESS, IPT_DNAT_ACCESS], (s.at i).to_chain ≠ [] → FdOk cf (s.at i)
  source : wantsNat acc sp = true → acc.force_snat = true ∨ cf.snat = true →
    (∀ fst more, expand_acc_port_list sp.spa_message_remain = some (fst :: more) → FdOk cf (s.at (snatTarget cf acc fst.port).1)) ∧
    (∀ a, acc.force_snat_ip = some a → Short a) ∧ (∀ a, cf.snat_translate_ip = some a → Short a)
  to : wantsNat acc sp = true → ∀ ip port, natTarget cf acc sp = .ok (some (ip, port)) → Short ip ∧ 0 ≤ port ∧ port ≤ 65535

/-- **A request**: the two back ends do the same. -/
theorem fd_process_eq (F : FirewalldHost) {cf : FwConf} {acc : Stanza} {sp : SpaData} {s : FwSt (Tables × List Fate)} (h : FdRequest cf acc sp s)
    (hs : s.world.2 = []) (now : Int) :
    fd_process_spa_request (fdConf cf) (fwdTool F).toTool acc sp now s = process_spa_request cf (iptTool F.ipt) acc sp now s := by
  unfold fd_process_spa_request process_spa_request
  cases he : expand_acc_port_list sp.spa_message_remain with
  | none => rfl
  | some l =>
    cases l with
    | nil => rfl
    | cons fst more =>
      have hr := port_range he
      have hf := hr fst List.mem_cons_self
      dsimp only
      by_cases hn : wantsNat acc sp = true
      · rw [if_pos hn, if_pos hn, show natTarget (fdConf cf) acc sp = natTarget cf acc sp from rfl]
        cases ht : natTarget cf acc sp with
        | ub => rfl
        | err => rfl
        | ok t =>
          rw [bind_ok, bind_ok]
          cases t with
          | none => rfl
          | some t =>
            obtain ⟨ip, port⟩ := t
            obtain ⟨hip, hq⟩ := h.to hn ip port ht
            dsimp only
            have hb : Both F s (natRules cf (iptTool F.ipt) acc sp fst ip port (expTs now sp.fw_access_timeout) now s)
                (fdNatRules (fdConf cf) (fwdTool F).toTool acc sp fst ip port (expTs now sp.fw_access_timeout) now s) := by
              unfold natRules fdNatRules
              refine Both.bind ?_ fun s1 w1 b1 => Both.bind ?_ fun s2 w2 b2 => ?_
              · unfold natAccessRule fdNatAccessRule
                split
                · exact input_both F h.src h.dst now h.input hs hf.1 hq
                · split
                  · rename_i hc
                    exact forward_both F h.src h.dst now (h.other hn _ (by simp) hc) hs hf.1 hq
                  · exact Both.refl F hs
              · unfold natDestRule fdNatDestRule
                split
                · rename_i hc
                  refine dnat_both F h.src h.dst now (FdOk.bare (at_of_bare b1 _) (h.other hn _ (by simp) ?_)) w1 hf hq hip
                  rw [← (bare_fields (at_of_bare b1 IPT_DNAT_ACCESS)).2.2.2.2]; exact hc.1
                · exact Both.refl F w1
              · rw [show (fdConf cf).snat = cf.snat from rfl]
                split
                · rename_i hc
                  obtain ⟨k1, k3, k4⟩ := h.source hn hc
                  exact snat_both F h.src now (FdOk.bare (at_of_bare (b2.trans b1) _) (k1 fst more he)) w2 hf hq hip k3 k4
                · exact Both.refl F w2
            obtain ⟨s', a, b, -, -⟩ := hb
            rw [a, b]
      · rw [if_neg hn, if_neg hn]
        obtain ⟨s', a, b, -, -⟩ := portLoop_both F h.src h.dst now (fst :: more) h.input h.output hs hr
        rw [a, b]

end Fwknop
