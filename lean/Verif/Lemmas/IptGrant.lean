import Verif.Lemmas.Iptables
import Verif.Lemmas.Access

/-!
# Lemmas: adding rules with iptables
-/

namespace Fwknop

open Spec Res

theorem spaced_cons (w : Word) {ws : List Word} (h : ws ≠ []) : spaced (w :: ws) = w ++ 32 :: spaced ws := by
  cases ws with
  | nil => exact absurd rfl h
  | cons v vs => rfl

theorem feed_rule (ws : List Word) (hw : ∀ w ∈ ws, RuleWord w) (t c : Word) (op : Op) (n : Option Nat) (r : Rule) :
    ws.foldl Call.feed ⟨.word, t, op, c, n, r⟩ = ⟨.word, t, op, c, n, r ++ ws⟩ := by
  induction ws generalizing r with
  | nil => simp
  | cons w ws ih =>
    obtain ⟨_, h1, h2, h3, h4, h5, h6, h7, h8, h9⟩ := hw w List.mem_cons_self
    have : Call.feed ⟨.word, t, op, c, n, r⟩ w = ⟨.word, t, op, c, n, r ++ [w]⟩ := by
      simp only [Call.feed, Call.plain]
      rw [if_neg h1, if_neg h2, if_neg h3, if_neg h4, if_neg h5, if_neg h6, if_neg h7, if_neg h8, if_neg h9]
    rw [List.foldl_cons, this, ih (fun x hx => hw x (List.mem_cons_of_mem _ hx))]
    simp

/-- `iptables -C chain -t table …`. -/
theorem iptables_check {print : Host} {exe t c : Word} {ws : List Word} (hw : ∀ w ∈ ws, RuleWord w)
    {K : Tables} : iptables print (exe :: b!"-C" :: c :: b!"-t" :: t :: ws) K =
      (match K t c with | none => noChain | some rs => if ws ∈ rs then [] else noRule, K) := by
  unfold iptables
  simp only [List.tail_cons, List.foldl_cons]
  have h : Call.feed (Call.feed (Call.feed (Call.feed {} b!"-C") c) b!"-t") t =
      ⟨.word, t, .check, c, none, []⟩ := by simp [Call.feed, Call.plain]
  rw [h, feed_rule ws hw]
  simp only [List.nil_append, Call.perform]
  cases K t c <;> rfl

/-- `iptables -A chain -t table …`. -/
theorem iptables_append {print : Host} {exe t c : Word} {ws : List Word} (hw : ∀ w ∈ ws, RuleWord w)
    {K : Tables} {rs : List Rule} (hK : K t c = some rs) :
    iptables print (exe :: b!"-A" :: c :: b!"-t" :: t :: ws) K = ([], K.put t c (rs ++ [ws])) := by
  unfold iptables
  simp only [List.tail_cons, List.foldl_cons]
  have h : Call.feed (Call.feed (Call.feed (Call.feed {} b!"-A") c) b!"-t") t =
      ⟨.word, t, .append, c, none, []⟩ := by simp [Call.feed, Call.plain]
  rw [h, feed_rule ws hw]
  simp only [List.nil_append, Call.perform, hK]

/-- `iptables -I chain -t table …`. -/
theorem iptables_prepend {print : Host} {exe t c : Word} {ws : List Word} (hw : ∀ w ∈ ws, RuleWord w)
    {K : Tables} {rs : List Rule} (hK : K t c = some rs) :
    iptables print (exe :: b!"-I" :: c :: b!"-t" :: t :: ws) K = ([], K.put t c (ws :: rs)) := by
  unfold iptables
  simp only [List.tail_cons, List.foldl_cons]
  have h : Call.feed (Call.feed (Call.feed (Call.feed {} b!"-I") c) b!"-t") t =
      ⟨.word, t, .insert, c, none, []⟩ := by
    simp [Call.feed, Call.plain, isNumber]
  rw [h, feed_rule ws hw]
  simp [Call.perform, hK]

/-- `iptables -t table -N chain`. -/
theorem iptables_new {print : Host} {exe t c : Word} {K : Tables} :
    (iptables print [exe, b!"-t", t, b!"-N", c] K).2 = K.make t c := by
  unfold iptables
  simp only [List.tail_cons, List.foldl_cons, List.foldl_nil]
  have h : Call.feed (Call.feed (Call.feed (Call.feed {} b!"-t") t) b!"-N") c =
      ⟨.word, t, .create, c, none, []⟩ := by simp [Call.feed, Call.plain]
  rw [h]
  simp only [Tables.make, Call.perform]
  cases hK : K t c <;> rfl

/-- `iptables -t table -L chain -n`. -/
theorem iptables_look {print : Host} {exe t c : Word} {K : Tables} :
    (iptables print [exe, b!"-t", t, b!"-L", c, b!"-n"] K).2 = K := by
  unfold iptables
  simp only [List.tail_cons, List.foldl_cons, List.foldl_nil]
  have h : Call.feed (Call.feed (Call.feed (Call.feed (Call.feed {} b!"-t") t) b!"-L") c) b!"-n" =
      ⟨.word, t, .list, c, none, [b!"-n"]⟩ := by simp [Call.feed, Call.plain]
  rw [h]
  cases hK : K t c <;> simp [Call.perform, hK]

/-- `iptables -t table -I chain n -j chain`. -/
theorem iptables_jump {print : Host} {exe t f c : Word} {n : Nat} {K : Tables} (hc : RuleWord c)
    (hnot : ∀ fr, K t f = some fr → [b!"-j", c] ∉ fr) :
    (iptables print [exe, b!"-t", t, b!"-I", f, decimal n, b!"-j", c] K).2 = K.jump t f n c := by
  unfold iptables
  simp only [List.tail_cons]
  rw [show [b!"-t", t, b!"-I", f, decimal n, b!"-j", c] = [b!"-t", t, b!"-I", f, decimal n] ++ [b!"-j", c] from rfl,
    List.foldl_append]
  have h : List.foldl Call.feed {} [b!"-t", t, b!"-I", f, decimal n] = ⟨.word, t, .insert, f, some n, []⟩ := by
    simp [Call.feed, Call.plain, isNumber_decimal, number_decimal]
  rw [h, feed_rule _ (by
    intro w hw
    simp only [List.mem_cons, List.not_mem_nil, or_false] at hw
    rcases hw with rfl | rfl
    · unfold RuleWord PlainWord IsBlank; decide
    · exact hc)]
  simp only [List.nil_append, Tables.jump, insertAt, Call.perform]
  cases hK : K t f with
  | none => rfl
  | some fr =>
    simp only [Option.getD_some]
    rw [if_neg (hnot fr hK)]
    split <;> rfl

theorem make_there (K : Tables) (t c : Word) : ∃ rs, K.make t c t c = some rs := by
  unfold Tables.make
  cases h : K t c with
  | none => exact ⟨[], put_get _ _ _ _⟩
  | some rs => exact ⟨rs, h⟩

/-! ## `mk_chain` -/

/-- What the theorems about adding rules ask of a chain of the configuration. -/
structure GrantOk (cf : FwConf) (ch : FwChain) : Prop where
  exe : PlainWord cf.fw_command
  table : PlainWord ch.table
  from_chain : PlainWord ch.from_chain
  chain : RuleWord ch.to_chain
  pos : 0 ≤ ch.jump_rule_pos ∧ ch.jump_rule_pos < 2 ^ 31
  room : cf.fw_command.length + ch.table.length + ch.from_chain.length + ch.to_chain.length ≤ 220

theorem run_nil {print : Host} {cmd : Str} {ws : List Word} (hs : strtoargv cmd = .ok (some ws))
    (size : Nat) (K : Tables) : run_extcmd (iptTool print) cmd size (K, []) =
      .ok (⟨true, truncate_partial_line ((iptables print ws K).1.take (size - 1))⟩, ((iptables print ws K).2, [])) := by
  rw [run_words _ hs, exec_nil]

/-- A short command made of plain words is split into them. -/
theorem argv_of {s : Str} {ws : List Word} (h : s = spaced ws) (hw : ∀ w ∈ ws, PlainWord w) (hl : s.length ≤ 254)
    (hn : ws.length ≤ 28) : strtoargv (cmdBuf s) = .ok (some ws) := by
  rw [cmdBuf, cmdBuf_short hl, h]
  refine strtoargv_spaced (fun w hw' => ⟨hw w hw', ?_⟩) (show ws.length < 29 by omega)
  have := spaced_length_le ws w hw'
  rw [← h] at this
  exact show w.length < 1024 by omega

theorem run_argv {print : Host} {s : Str} {ws : List Word} (h : s = spaced ws)
    (hw : ∀ w ∈ ws, PlainWord w) (hl : s.length ≤ 254) (hn : ws.length ≤ 28) (size : Nat) (K : Tables) :
    run_extcmd (iptTool print) (cmdBuf s) size (K, []) =
      .ok (⟨true, truncate_partial_line ((iptables print ws K).1.take (size - 1))⟩, ((iptables print ws K).2, [])) :=
  run_nil (argv_of h hw hl hn) size K

theorem nonempty_text : chop_newline (truncate_partial_line (noRule.take 255)) ≠ [] ∧
    chop_newline (truncate_partial_line (noChain.take 255)) ≠ [] ∧
    chop_newline (truncate_partial_line (([] : Str).take 255)) = [] := by decide +kernel

/-- The rule is in the chain. -/
def hasRule (K : Tables) (t c : Word) (r : Rule) : Bool :=
  match K t c with
  | none => false
  | some rs => decide (r ∈ rs)

theorem rule_exists_run {print : Host} {cf : FwConf} {t c : Word} {ws : List Word}
    (he : PlainWord cf.fw_command) (ht : PlainWord t) (hc : PlainWord c) (hw : ∀ w ∈ ws, RuleWord w) (h0 : ws ≠ [])
    (hl : cf.fw_command.length + c.length + t.length + (spaced ws).length ≤ 240) (hn : ws.length ≤ 23) (K : Tables)
    {rule : Str} (hr : rule = b!"-t " ++ t ++ b!" " ++ spaced ws) :
    rule_exists_chk_support cf (iptTool print) c rule (K, []) = .ok (hasRule K t c ws, (K, [])) := by
  unfold rule_exists_chk_support
  rw [run_argv (ws := cf.fw_command :: b!"-C" :: c :: b!"-t" :: t :: ws) (by
      rw [hr]
      simp only [spaced]
      rw [spaced_cons _ h0]
      simp) (by
      intro w hw'
      simp only [List.mem_cons] at hw'
      rcases hw' with rfl | rfl | rfl | rfl | rfl | h
      · exact he
      · unfold PlainWord IsBlank; decide
      · exact hc
      · unfold PlainWord IsBlank; decide
      · exact ht
      · exact (hw w h).1) (by
      rw [hr]
      simp only [List.length_append, List.length_cons, List.length_nil]
      omega) (by simp only [List.length_cons]; omega)]
  rw [bind_ok, iptables_check hw]
  simp only [hasRule, pure_eq, Bool.true_and]
  obtain ⟨n1, n2, n3⟩ := nonempty_text
  congr 1
  congr 1
  rw [show CMD_BUFSIZE - 1 = 255 from rfl]
  cases K t c with
  | none =>
    simp only
    rw [show (chop_newline (truncate_partial_line (noChain.take 255)) != []) = true from by
      simpa [bne] using n2]
    rfl
  | some rs =>
    simp only
    by_cases hm : ws ∈ rs
    · rw [if_pos hm, n3, decide_eq_true hm]; rfl
    · rw [if_neg hm, show (chop_newline (truncate_partial_line (noRule.take 255)) != []) = true from by
        simpa [bne] using n1, decide_eq_false hm]
      rfl

theorem decStrInt_pos {n : Int} (h : 0 ≤ n) : decStrInt n = decimal n.toNat := by
  rw [decStrInt, if_neg (by omega), decStr_decimal]
  congr 1
  omega

theorem mk_chain_run {print : Host} {cf : FwConf} {ch : FwChain} (h : GrantOk cf ch) (K : Tables) :
    mk_chain cf (iptTool print) ch (K, []) =
      .ok (((K.make ch.table ch.to_chain).jump ch.table ch.from_chain ch.jump_rule_pos.toNat ch.to_chain), []) := by
  have hroom := h.room
  have hj : RuleWord b!"-j" := by unfold RuleWord PlainWord IsBlank; decide
  unfold mk_chain
  -- chain_exists
  have h1 : chain_exists cf (iptTool print) ch (K, []) = .ok (false, (K, [])) := by
    unfold chain_exists
    rw [run_argv (ws := [cf.fw_command, b!"-t", ch.table, b!"-L", ch.to_chain, b!"-n"]) (by simp [spaced]) (by
      intro w hw'
      simp only [List.mem_cons, List.not_mem_nil, or_false] at hw'
      rcases hw' with rfl | rfl | rfl | rfl | rfl | rfl
      · exact h.exe
      · unfold PlainWord IsBlank; decide
      · exact h.table
      · unfold PlainWord IsBlank; decide
      · exact h.chain.1
      · unfold PlainWord IsBlank; decide) (by
      simp only [List.length_append, List.length_cons, List.length_nil]; omega) (by simp), bind_ok, iptables_look]
    rfl
  have h2 : ∀ K', create_chain cf (iptTool print) ch (K', []) = .ok (K'.make ch.table ch.to_chain, []) := by
    intro K'
    unfold create_chain
    rw [run_argv (ws := [cf.fw_command, b!"-t", ch.table, b!"-N", ch.to_chain]) (by simp [spaced]) (by
      intro w hw'
      simp only [List.mem_cons, List.not_mem_nil, or_false] at hw'
      rcases hw' with rfl | rfl | rfl | rfl | rfl
      · exact h.exe
      · unfold PlainWord IsBlank; decide
      · exact h.table
      · unfold PlainWord IsBlank; decide
      · exact h.chain.1) (by
      simp only [List.length_append, List.length_cons, List.length_nil]; omega) (by simp), bind_ok, iptables_new]
    rfl
  have h3 : ∀ K', jump_rule_exists cf (iptTool print) ch (K', []) =
      .ok (hasRule K' ch.table ch.from_chain [b!"-j", ch.to_chain], (K', [])) := by
    intro K'
    unfold jump_rule_exists
    apply rule_exists_run h.exe h.table h.from_chain
    · intro w hw
      simp only [List.mem_cons, List.not_mem_nil, or_false] at hw
      rcases hw with rfl | rfl
      · exact hj
      · exact h.chain
    · simp
    · simp only [spaced, List.length_append, List.length_cons, List.length_nil]; omega
    · simp
    · rw [cmdBuf, cmdBuf_short (by simp only [List.length_append, List.length_cons, List.length_nil]; omega)]
      simp [spaced]
  have h4 : ∀ K' : Tables, (∀ fr, K' ch.table ch.from_chain = some fr → [b!"-j", ch.to_chain] ∉ fr) →
      add_jump_rule cf (iptTool print) ch (K', []) =
        .ok (K'.jump ch.table ch.from_chain ch.jump_rule_pos.toNat ch.to_chain, []) := by
    intro K' hnot
    have hpos := h.pos
    have hl := decStr_length_le ch.jump_rule_pos.toNat 10 (by decide) (by omega)
    rw [decStr_decimal] at hl
    unfold add_jump_rule
    rw [decStrInt_pos h.pos.1]
    rw [run_argv (ws := [cf.fw_command, b!"-t", ch.table, b!"-I", ch.from_chain, decimal ch.jump_rule_pos.toNat, b!"-j",
        ch.to_chain]) (by simp [spaced]) (by
      intro w hw'
      simp only [List.mem_cons, List.not_mem_nil, or_false] at hw'
      rcases hw' with rfl | rfl | rfl | rfl | rfl | rfl | rfl | rfl
      · exact h.exe
      · unfold PlainWord IsBlank; decide
      · exact h.table
      · unfold PlainWord IsBlank; decide
      · exact h.from_chain
      · exact plain_decimal _
      · exact hj.1
      · exact h.chain.1) (by
      simp only [List.length_append, List.length_cons, List.length_nil]; omega) (by simp), bind_ok,
      iptables_jump h.chain hnot]
    rfl
  rw [h1, bind_ok]
  simp only [Bool.false_eq_true, if_false]
  rw [h2, bind_ok, h3, bind_ok]
  simp only
  generalize K.make ch.table ch.to_chain = K1
  cases hh : hasRule K1 ch.table ch.from_chain [b!"-j", ch.to_chain] with
  | true =>
    simp only [if_true, pure_eq]
    congr 2
    unfold hasRule at hh
    unfold Tables.jump
    cases hK : K1 ch.table ch.from_chain with
    | none => rfl
    | some fr =>
      rw [hK] at hh
      simp only [decide_eq_true_eq] at hh
      simp only
      rw [if_pos hh]
  | false =>
    rw [if_neg (by decide), h4 K1]
    intro fr hfr hmem
    unfold hasRule at hh
    rw [hfr] at hh
    simp only [decide_eq_false_iff_not] at hh
    exact hh hmem

theorem jump_there {K : Tables} {t c : Word} {rs : List Rule} (h : K t c = some rs) (f : Word) (n : Nat) (c' : Word) :
    ∃ rs', K.jump t f n c' t c = some rs' := by
  unfold Tables.jump
  cases hf : K t f with
  | none => exact ⟨rs, h⟩
  | some fr =>
    simp only
    split
    · exact ⟨rs, h⟩
    · split
      · by_cases hc : c = f
        · rw [hc, put_get]; exact ⟨_, rfl⟩
        · rw [put_other _ _ (fun he => hc he.2)]; exact ⟨rs, h⟩
      · exact ⟨rs, h⟩

theorem ipt_rule_run {print : Host} {cf : FwConf} {s : FwSt (Tables × List Fate)} {i : Nat}
    (h : GrantOk cf (s.at i)) {ws : List Word} (hw : ∀ w ∈ ws, RuleWord w) (h0 : ws ≠ []) (hn : ws.length ≤ 23)
    (hl : cf.fw_command.length + (s.at i).to_chain.length + (s.at i).table.length + (spaced ws).length ≤ 240)
    {rule : Str} (hr : rule = b!"-t " ++ (s.at i).table ++ b!" " ++ spaced ws) {K : Tables} (hs : s.world = (K, []))
    (exp_ts : Nat) (now : Int) :
    ∃ chs, ipt_rule cf (iptTool print) i rule exp_ts now s = .ok ⟨chs, (K.grant (s.at i).table (s.at i).from_chain (s.at i).jump_rule_pos.toNat (s.at i).to_chain
        cf.prepend ws, [])⟩ ∧
      ((hasRule ((K.make (s.at i).table (s.at i).to_chain).jump (s.at i).table (s.at i).from_chain
          (s.at i).jump_rule_pos.toNat (s.at i).to_chain) (s.at i).table (s.at i).to_chain ws = true ∧ chs = s.chain) ∨
       (hasRule ((K.make (s.at i).table (s.at i).to_chain).jump (s.at i).table (s.at i).from_chain
          (s.at i).jump_rule_pos.toNat (s.at i).to_chain) (s.at i).table (s.at i).to_chain ws = false ∧ chs = s.chain.set i { s.at i with
        active_rules := (s.at i).active_rules + 1
        next_expire := nextExpire (s.at i).next_expire exp_ts now })) := by
  unfold ipt_rule
  simp only
  rw [hs, mk_chain_run h, bind_ok]
  have hcmd : cmdBuf rule = rule := by
    rw [cmdBuf, cmdBuf_short]
    rw [hr]; simp only [List.length_append, List.length_cons, List.length_nil]; omega
  rw [hcmd, rule_exists_run h.exe h.table h.chain.1 hw h0 hl hn _ hr, bind_ok]
  unfold Tables.grant
  obtain ⟨rs0, hrs0⟩ := make_there K (s.at i).table (s.at i).to_chain
  obtain ⟨rs, hrs⟩ := jump_there hrs0 (s.at i).from_chain (s.at i).jump_rule_pos.toNat (s.at i).to_chain
  generalize ((K.make (s.at i).table (s.at i).to_chain).jump (s.at i).table (s.at i).from_chain
    (s.at i).jump_rule_pos.toNat (s.at i).to_chain) = K1 at *
  simp only [hasRule, hrs]
  by_cases hm : ws ∈ rs
  · rw [decide_eq_true hm, if_pos rfl, addRule, if_pos hm, put_same hrs]
    exact ⟨s.chain, rfl, .inl ⟨rfl, rfl⟩⟩
  · rw [decide_eq_false hm, if_neg (by decide), addRule, if_neg hm]
    have hc : create_rule cf (iptTool print) (s.at i).to_chain rule (K1, []) =
        .ok (true, (K1.put (s.at i).table (s.at i).to_chain (if cf.prepend then ws :: rs else rs ++ [ws]), [])) := by
      unfold create_rule
      rw [run_argv (ws := cf.fw_command :: (if cf.prepend then b!"-I" else b!"-A") :: (s.at i).to_chain :: b!"-t" ::
          (s.at i).table :: ws) (by
          rw [hr]
          simp only [spaced]
          rw [spaced_cons _ h0]
          cases cf.prepend <;> simp) (by
          intro w hw'
          simp only [List.mem_cons] at hw'
          rcases hw' with rfl | rfl | rfl | rfl | rfl | h'
          · exact h.exe
          · cases cf.prepend <;> (unfold PlainWord IsBlank; decide)
          · exact h.chain.1
          · unfold PlainWord IsBlank; decide
          · exact h.table
          · exact (hw w h').1) (by
          rw [hr]
          cases cf.prepend <;>
            simp only [if_true, Bool.false_eq_true, if_false, List.length_append, List.length_cons, List.length_nil] <;>
            omega) (by simp only [List.length_cons]; omega)]
      rw [bind_ok]
      cases cf.prepend with
      | true => simp only [if_true, iptables_prepend hw hrs]; rfl
      | false => simp only [Bool.false_eq_true, if_false, iptables_append hw hrs]; rfl
    rw [hc, bind_ok]
    exact ⟨_, rfl, .inr ⟨rfl, rfl⟩⟩

/-! ## Ordinary requests -/

/-- What the functions here do not change. -/
def FwChain.bare (ch : FwChain) : FwChain := { ch with active_rules := 0, next_expire := 0 }

theorem at_bare {σ : Type} {s : FwSt σ} {chs : List FwChain} {w : σ} {i : Nat} {a : Nat} {e : Int}
    (h : chs = s.chain ∨ chs = s.chain.set i { s.at i with
      active_rules := a
      next_expire := e }) (j : Nat) : ((⟨chs, w⟩ : FwSt σ).at j).bare = (s.at j).bare := by
  rcases h with rfl | rfl
  · rfl
  · unfold FwSt.at
    simp only [List.getD_eq_getElem?_getD, List.getElem?_set]
    by_cases hij : i = j
    · subst hij
      by_cases hl : i < s.chain.length
      · simp [hl, FwChain.bare]
      · simp [hl]
    · simp [hij]

theorem bare_fields {a b : FwChain} (h : a.bare = b.bare) : a.target = b.target ∧ a.table = b.table ∧
    a.from_chain = b.from_chain ∧ a.jump_rule_pos = b.jump_rule_pos ∧ a.to_chain = b.to_chain := by
  unfold FwChain.bare at h
  injection h with h1 h2 h3 h4 h5
  exact ⟨h1, h2, h3, h4, h5⟩

theorem grantOk_bare {cf : FwConf} {a b : FwChain} (h : a.bare = b.bare) (hb : GrantOk cf b) : GrantOk cf a := by
  obtain ⟨h1, h2, h3, h4, h5⟩ := bare_fields h
  exact ⟨hb.exe, h2 ▸ hb.table, h3 ▸ hb.from_chain, h5 ▸ hb.chain, h4 ▸ hb.pos, by rw [h2, h3, h5]; exact hb.room⟩

theorem plain_of_all {w : Word} (h0 : w ≠ []) (h : ∀ c ∈ w, ¬ IsBlank c) : PlainWord w := ⟨h0, h⟩

theorem ruleWord_decimal (n : Nat) : RuleWord (decimal n) := by
  refine ⟨plain_decimal n, ?_⟩
  have hd : ∀ c ∈ decimal n, isDigit c = true := by
    intro c hc
    rw [← decStr_decimal] at hc
    exact decStr_digits n c hc
  have : ∀ w : Word, 45 ∈ w → decimal n ≠ w := by
    intro w hw he
    have := hd 45 (he ▸ hw)
    revert this; decide
  exact ⟨this _ (by decide), this _ (by decide), this _ (by decide), this _ (by decide), this _ (by decide),
    this _ (by decide), this _ (by decide), this _ (by decide), this _ (by decide)⟩

theorem ruleWord_exp (n : Nat) : RuleWord (b!"_exp_" ++ decimal n) := by
  refine ⟨⟨by simp, ?_⟩, ?_⟩
  · intro c hc hb
    rcases List.mem_append.1 hc with h | h
    · unfold IsBlank at hb
      simp only [List.mem_cons, List.not_mem_nil, or_false] at h
      omega
    · exact (plain_decimal n).2 c h hb
  · simp

/-- What the theorems about requests ask of a chain: the words of its commands are plain words and
fit the command buffer, and the destination can be a word of a rule. -/
structure RequestOk (cf : FwConf) (ch : FwChain) (src dst : Word) : Prop where
  exe : PlainWord cf.fw_command
  table : PlainWord ch.table
  from_chain : PlainWord ch.from_chain
  chain : RuleWord ch.to_chain
  target : RuleWord ch.target
  src : RuleWord src ∧ src.length ≤ 15
  dst : RuleWord dst ∧ dst.length ≤ 15
  pos : 0 ≤ ch.jump_rule_pos ∧ ch.jump_rule_pos < 2 ^ 31
  room : cf.fw_command.length + ch.table.length + ch.from_chain.length + ch.to_chain.length + ch.target.length ≤ 120

theorem RequestOk.grant {cf : FwConf} {ch : FwChain} {src dst : Word} (h : RequestOk cf ch src dst) : GrantOk cf ch :=
  ⟨h.exe, h.table, h.from_chain, h.chain, h.pos, by have := h.room; omega⟩

theorem RequestOk.bare {cf : FwConf} {a b : FwChain} {src dst : Word} (h : a.bare = b.bare)
    (hb : RequestOk cf b src dst) : RequestOk cf a src dst := by
  obtain ⟨h1, h2, h3, h4, h5⟩ := bare_fields h
  exact ⟨hb.exe, h2 ▸ hb.table, h3 ▸ hb.from_chain, h5 ▸ hb.chain, h1 ▸ hb.target, hb.src, hb.dst, h4 ▸ hb.pos,
    by rw [h1, h2, h3, h5]; exact hb.room⟩

theorem decimal_length_le (n k : Nat) (hk : 0 < k) (h : n < 10 ^ k) : (decimal n).length ≤ k := by
  have := decStr_length_le n k hk h
  rwa [decStr_decimal] at this

theorem inputRule_words {cf : FwConf} {ch : FwChain} {src dst : Word} (h : RequestOk cf ch src dst)
    (proto port e : Nat) : ∀ w ∈ inputRule proto src dst port e ch.target, RuleWord w := by
  intro w hw
  simp only [inputRule, List.mem_cons, List.not_mem_nil, or_false] at hw
  rcases hw with rfl | rfl | rfl | rfl | rfl | rfl | rfl | rfl | rfl | rfl | rfl | rfl | rfl | rfl
  · unfold RuleWord PlainWord IsBlank; decide
  · exact ruleWord_decimal _
  · unfold RuleWord PlainWord IsBlank; decide
  · exact h.src.1
  · unfold RuleWord PlainWord IsBlank; decide
  · exact h.dst.1
  · unfold RuleWord PlainWord IsBlank; decide
  · exact ruleWord_decimal _
  · unfold RuleWord PlainWord IsBlank; decide
  · unfold RuleWord PlainWord IsBlank; decide
  · unfold RuleWord PlainWord IsBlank; decide
  · exact ruleWord_exp _
  · unfold RuleWord PlainWord IsBlank; decide
  · exact h.target

theorem outputRule_words {cf : FwConf} {ch : FwChain} {src dst : Word} (h : RequestOk cf ch src dst)
    (proto port e : Nat) : ∀ w ∈ outputRule proto src dst port e ch.target, RuleWord w := by
  intro w hw
  simp only [outputRule, List.mem_cons, List.not_mem_nil, or_false] at hw
  rcases hw with rfl | rfl | rfl | rfl | rfl | rfl | rfl | rfl | rfl | rfl | rfl | rfl | rfl | rfl
  · unfold RuleWord PlainWord IsBlank; decide
  · exact ruleWord_decimal _
  · unfold RuleWord PlainWord IsBlank; decide
  · exact h.src.1
  · unfold RuleWord PlainWord IsBlank; decide
  · exact h.dst.1
  · unfold RuleWord PlainWord IsBlank; decide
  · exact ruleWord_decimal _
  · unfold RuleWord PlainWord IsBlank; decide
  · unfold RuleWord PlainWord IsBlank; decide
  · unfold RuleWord PlainWord IsBlank; decide
  · exact ruleWord_exp _
  · unfold RuleWord PlainWord IsBlank; decide
  · exact h.target

theorem decStrInt_ofNat (n : Nat) : decStrInt (n : Int) = decimal n := by
  rw [decStrInt_pos (by omega)]; rfl

theorem input_run {print : Host} {cf : FwConf} {s : FwSt (Tables × List Fate)} {i : Nat} {src dst : Word}
    (h : RequestOk cf (s.at i) src dst) {proto port e : Nat} (hp : proto < 1000) (hport : port ≤ 65535)
    (he : e < 2 ^ 32) {K : Tables} (hs : s.world = (K, [])) (now : Int) :
    ∃ chs, ipt_rule cf (iptTool print) i (iptRuleArgs (s.at i) proto src dst port e) e now s =
        .ok ⟨chs, (K.grant (s.at i).table (s.at i).from_chain (s.at i).jump_rule_pos.toNat (s.at i).to_chain
          cf.prepend (inputRule proto src dst port e (s.at i).target), [])⟩ ∧
      (∀ j w, ((⟨chs, w⟩ : FwSt (Tables × List Fate)).at j).bare = (s.at j).bare) ∧
      ((hasRule ((K.make (s.at i).table (s.at i).to_chain).jump (s.at i).table (s.at i).from_chain
          (s.at i).jump_rule_pos.toNat (s.at i).to_chain) (s.at i).table (s.at i).to_chain (inputRule proto src dst port e (s.at i).target) = true ∧ chs = s.chain) ∨
       (hasRule ((K.make (s.at i).table (s.at i).to_chain).jump (s.at i).table (s.at i).from_chain
          (s.at i).jump_rule_pos.toNat (s.at i).to_chain) (s.at i).table (s.at i).to_chain (inputRule proto src dst port e (s.at i).target) = false ∧ chs = s.chain.set i { s.at i with
        active_rules := (s.at i).active_rules + 1
        next_expire := nextExpire (s.at i).next_expire e now })) := by
  have h1 := decimal_length_le proto 3 (by decide) (by omega)
  have h2 := decimal_length_le port 5 (by decide) (by omega)
  have h3 := decimal_length_le e 10 (by decide) (by omega)
  have hroom := h.room
  have hsrc := h.src.2
  have hdst := h.dst.2
  obtain ⟨chs, hc, hb⟩ := ipt_rule_run (print := print) (i := i) h.grant
    (inputRule_words h proto port e) (by simp [inputRule]) (by simp [inputRule]) (by
      simp only [inputRule, spaced, List.length_append, List.length_cons, List.length_nil]; omega)
    (rule := iptRuleArgs (s.at i) proto src dst port e) (by
      simp only [iptRuleArgs, ruleEnd, decStrInt_ofNat, decStr_decimal, inputRule, spaced]
      simp) hs e now
  exact ⟨chs, hc, fun j w => at_bare (hb.imp And.right And.right) j, hb⟩

theorem output_run {print : Host} {cf : FwConf} {s : FwSt (Tables × List Fate)} {i : Nat} {src dst : Word}
    (h : RequestOk cf (s.at i) src dst) {proto port e : Nat} (hp : proto < 1000) (hport : port ≤ 65535)
    (he : e < 2 ^ 32) {K : Tables} (hs : s.world = (K, [])) (now : Int) :
    ∃ chs, ipt_rule cf (iptTool print) i (iptOutRuleArgs (s.at i) proto src dst port e) e now s =
        .ok ⟨chs, (K.grant (s.at i).table (s.at i).from_chain (s.at i).jump_rule_pos.toNat (s.at i).to_chain
          cf.prepend (outputRule proto src dst port e (s.at i).target), [])⟩ ∧
      ∀ j w, ((⟨chs, w⟩ : FwSt (Tables × List Fate)).at j).bare = (s.at j).bare := by
  have h1 := decimal_length_le proto 3 (by decide) (by omega)
  have h2 := decimal_length_le port 5 (by decide) (by omega)
  have h3 := decimal_length_le e 10 (by decide) (by omega)
  have hroom := h.room
  have hsrc := h.src.2
  have hdst := h.dst.2
  obtain ⟨chs, hc, hb⟩ := ipt_rule_run (print := print) (i := i) h.grant
    (outputRule_words h proto port e) (by simp [outputRule]) (by simp [outputRule]) (by
      simp only [outputRule, spaced, List.length_append, List.length_cons, List.length_nil]; omega)
    (rule := iptOutRuleArgs (s.at i) proto src dst port e) (by
      simp only [iptOutRuleArgs, ruleEnd, decStrInt_ofNat, decStr_decimal, outputRule, spaced]
      simp) hs e now
  exact ⟨chs, hc, fun j w => at_bare (hb.imp And.right And.right) j⟩

/-- The tables after the rules for one port. -/
def portTables (front : Bool) (inCh outCh : FwChain) (src dst : Word) (e : Nat) (K : Tables) (p : Nat × Nat) : Tables :=
  let K1 := K.grant inCh.table inCh.from_chain inCh.jump_rule_pos.toNat inCh.to_chain front
    (inputRule p.1 src dst p.2 e inCh.target)
  if outCh.to_chain = [] then K1
  else K1.grant outCh.table outCh.from_chain outCh.jump_rule_pos.toNat outCh.to_chain front
    (outputRule p.1 src dst p.2 e outCh.target)

theorem portTables_bare {front : Bool} {a b a' b' : FwChain} (h : a.bare = a'.bare) (h' : b.bare = b'.bare) :
    portTables front a b = portTables front a' b' := by
  obtain ⟨h1, h2, h3, h4, h5⟩ := bare_fields h
  obtain ⟨g1, g2, g3, g4, g5⟩ := bare_fields h'
  funext src dst e K p
  unfold portTables
  rw [h1, h2, h3, h4, h5, g1, g2, g3, g4, g5]

theorem portRules_run {print : Host} {cf : FwConf} {s : FwSt (Tables × List Fate)} {sp : SpaData}
    (h : RequestOk cf (s.at IPT_INPUT_ACCESS) sp.use_src_ip (dstOf cf sp))
    (ho : (s.at IPT_OUTPUT_ACCESS).to_chain ≠ [] →
      RequestOk cf (s.at IPT_OUTPUT_ACCESS) sp.use_src_ip (dstOf cf sp))
    {proto port e : Nat} (hp : proto < 1000) (hport : port ≤ 65535)
    (he : e < 2 ^ 32) {K : Tables} (hs : s.world = (K, [])) (now : Int) :
    ∃ s', portRules cf (iptTool print) sp e now ⟨proto, port⟩ s = .ok s' ∧
      s'.world = (portTables cf.prepend (s.at IPT_INPUT_ACCESS) (s.at IPT_OUTPUT_ACCESS) sp.use_src_ip (dstOf cf sp) e K
        (proto, port), []) ∧ ∀ j, (s'.at j).bare = (s.at j).bare := by
  unfold portRules
  simp only
  obtain ⟨chs, hc, hb, _⟩ := input_run (print := print) h hp hport he hs now
  rw [hc, bind_ok]
  have hout := hb IPT_OUTPUT_ACCESS
  have hto : ∀ w, ((⟨chs, w⟩ : FwSt (Tables × List Fate)).at IPT_OUTPUT_ACCESS).to_chain =
      (s.at IPT_OUTPUT_ACCESS).to_chain := fun w => (bare_fields (hout w)).2.2.2.2
  by_cases h0 : (s.at IPT_OUTPUT_ACCESS).to_chain = []
  · rw [if_neg (by rw [hto]; exact not_not_intro h0)]
    refine ⟨_, rfl, ?_, fun j => hb j _⟩
    simp only [portTables]
    rw [if_pos h0]
  · rw [if_pos (by rw [hto]; exact h0)]
    obtain ⟨chs', hc', hb'⟩ := output_run (print := print)
      (s := ⟨chs, (K.grant (s.at IPT_INPUT_ACCESS).table (s.at IPT_INPUT_ACCESS).from_chain
        (s.at IPT_INPUT_ACCESS).jump_rule_pos.toNat (s.at IPT_INPUT_ACCESS).to_chain cf.prepend
        (inputRule proto sp.use_src_ip (dstOf cf sp) port e (s.at IPT_INPUT_ACCESS).target), [])⟩)
      (RequestOk.bare (hout _) (ho h0)) hp hport he rfl now
    rw [hc']
    refine ⟨_, rfl, ?_, fun j => (hb' j _).trans (hb j _)⟩
    obtain ⟨g1, g2, g3, g4, g5⟩ := bare_fields (hout (K.grant (s.at IPT_INPUT_ACCESS).table (s.at IPT_INPUT_ACCESS).from_chain
        (s.at IPT_INPUT_ACCESS).jump_rule_pos.toNat (s.at IPT_INPUT_ACCESS).to_chain cf.prepend
        (inputRule proto sp.use_src_ip (dstOf cf sp) port e (s.at IPT_INPUT_ACCESS).target), []))
    simp only [portTables]
    rw [if_neg h0, g1, g2, g3, g4, g5]

theorem portLoop_run {print : Host} {cf : FwConf} {sp : SpaData} {e : Nat} (he : e < 2 ^ 32) {now : Int}
    (ps : List (Nat × Nat)) : ∀ (s : FwSt (Tables × List Fate)) (K : Tables),
    RequestOk cf (s.at IPT_INPUT_ACCESS) sp.use_src_ip (dstOf cf sp) →
    ((s.at IPT_OUTPUT_ACCESS).to_chain ≠ [] → RequestOk cf (s.at IPT_OUTPUT_ACCESS) sp.use_src_ip (dstOf cf sp)) →
    (∀ p ∈ ps, p.1 < 1000 ∧ p.2 ≤ 65535) → s.world = (K, []) →
    ∃ s', portLoopRules cf (iptTool print) sp e now (ps.map toEnt) s = .ok s' ∧
      s'.world = (ps.foldl (portTables cf.prepend (s.at IPT_INPUT_ACCESS) (s.at IPT_OUTPUT_ACCESS) sp.use_src_ip
        (dstOf cf sp) e) K, []) ∧ ∀ j, (s'.at j).bare = (s.at j).bare := by
  induction ps with
  | nil => intro s K _ _ _ hs; exact ⟨s, rfl, hs, fun _ => rfl⟩
  | cons p ps ih =>
    intro s K h ho hp hs
    obtain ⟨h1, h2⟩ := hp p List.mem_cons_self
    obtain ⟨s1, g1, g2, g3⟩ := portRules_run (print := print) h ho h1 h2 he hs now
    rw [List.map_cons, portLoopRules, show toEnt p = ⟨p.1, (p.2 : Int)⟩ from rfl, g1, bind_ok]
    obtain ⟨s', e1, e2, e3⟩ := ih s1 _ (RequestOk.bare (g3 _) h) (fun h0 => RequestOk.bare (g3 _) (ho (by
      rw [(bare_fields (g3 IPT_OUTPUT_ACCESS)).2.2.2.2] at h0; exact h0))) (fun x hx => hp x (List.mem_cons_of_mem _ hx)) g2
    refine ⟨s', e1, ?_, fun j => (e3 j).trans (g3 j)⟩
    rw [e2, portTables_bare (g3 _) (g3 _)]
    rfl

end Fwknop

namespace Fwknop

theorem wantsNat_iff {acc : Stanza} {sp : SpaData} :
    wantsNat acc sp = true ↔ Spec.ForNat acc.force_nat sp.message_type := by
  simp only [wantsNat, Spec.ForNat, Bool.or_eq_true, decide_eq_true_eq, FKO_LOCAL_NAT_ACCESS_MSG,
    FKO_CLIENT_TIMEOUT_LOCAL_NAT_ACCESS_MSG, FKO_NAT_ACCESS_MSG, FKO_CLIENT_TIMEOUT_NAT_ACCESS_MSG]
  constructor
  · rintro ((((h | h) | h) | h) | h) <;> simp [h]
  · rintro (h | h | h | h | h) <;> simp [h]

end Fwknop
