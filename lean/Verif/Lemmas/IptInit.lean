import Verif.Model.IptInit
import Verif.Spec.IptInit
import Verif.Lemmas.IptNat

/-!
# Lemmas: setting up and cleaning up iptables
-/

namespace Fwknop

open Spec Res

def hookOf (ch : FwChain) : Hook := ⟨ch.table, ch.from_chain, ch.to_chain⟩

/-- The chains that are configured. -/
def hooks (chs : List FwChain) : List Hook := (chs.filter (·.target ≠ [])).map hookOf

theorem iptCmd_run {print : Host} {cf : FwConf} {args : Str} {ws : List Word} (h : cf.fw_command ++ args = spaced (cf.fw_command :: ws))
    (he : PlainWord cf.fw_command) (hw : ∀ w ∈ ws, PlainWord w) (hl : cf.fw_command.length + args.length ≤ 254)
    (hn : ws.length ≤ 27) (K : Tables) :
    iptCmd cf (iptTool print) args (K, []) = .ok (⟨true, truncate_partial_line ((iptables print (cf.fw_command :: ws) K).1.take 255)⟩,
      ((iptables print (cf.fw_command :: ws) K).2, [])) := by
  unfold iptCmd
  rw [run_argv h (by
    intro w hw'
    rcases List.mem_cons.1 hw' with rfl | h'
    · exact he
    · exact hw w h') (by simp only [List.length_append]; omega) (by simp only [List.length_cons]; omega)]
  rfl

theorem ruleWord_j : RuleWord b!"-j" := by unfold RuleWord PlainWord IsBlank; decide

/-! ## Single commands -/

theorem jumpExists_run {print : Host} {cf : FwConf} {ch : FwChain} (h : NatOk cf ch) (K : Tables) :
    jumpRuleExists cf (iptTool print) true ch (K, []) =
      .ok (hasRule K ch.table ch.from_chain (hookOf ch).jump, (K, [])) := by
  have hroom := h.room
  unfold jumpRuleExists
  rw [if_pos rfl]
  unfold jump_rule_exists
  apply rule_exists_run h.exe h.table h.from_chain
  · intro w hw
    simp only [Hook.jump, hookOf, List.mem_cons, List.not_mem_nil, or_false] at hw
    rcases hw with rfl | rfl
    · exact ruleWord_j
    · exact h.chain
  · simp [Hook.jump]
  · simp only [Hook.jump, hookOf, spaced, List.length_append, List.length_cons, List.length_nil]; omega
  · simp [Hook.jump]
  · rw [cmdBuf, cmdBuf_short (by simp only [List.length_append, List.length_cons, List.length_nil]; omega)]
    simp [spaced, Hook.jump, hookOf]

/-- `iptables -t table -D chain -j chain`. -/
theorem iptables_unjump {print : Host} {exe t f c : Word} {K : Tables} (hc : RuleWord c) {fr : List Rule} (hf : K t f = some fr)
    (hm : [b!"-j", c] ∈ fr) :
    (iptables print [exe, b!"-t", t, b!"-D", f, b!"-j", c] K).2 = K.put t f (fr.erase [b!"-j", c]) := by
  unfold iptables
  simp only [List.tail_cons]
  rw [show [b!"-t", t, b!"-D", f, b!"-j", c] = [b!"-t", t, b!"-D", f, b!"-j"] ++ [c] from rfl, List.foldl_append]
  have h : List.foldl Call.feed {} [b!"-t", t, b!"-D", f, b!"-j"] = ⟨.word, t, .delete, f, none, [b!"-j"]⟩ := by
    simp [Call.feed, Call.plain, isNumber]
  rw [h, feed_rule _ (by
    intro w hw
    rw [List.mem_singleton] at hw
    exact hw ▸ hc)]
  simp only [Call.perform, hf, Option.getD_none, List.cons_append, List.nil_append]
  have hi := List.idxOf_lt_length_of_mem hm
  rw [if_pos (by omega), Nat.add_sub_cancel, List.erase_eq_eraseIdx_of_idxOf (i := List.idxOf [b!"-j", c] fr) rfl]

/-- `iptables -t table -F chain`. -/
theorem iptables_flush {print : Host} {exe t c : Word} {K : Tables} :
    (iptables print [exe, b!"-t", t, b!"-F", c] K).2 = match K t c with | none => K | some _ => K.put t c [] := by
  unfold iptables
  simp only [List.tail_cons, List.foldl_cons, List.foldl_nil]
  have h : Call.feed (Call.feed (Call.feed (Call.feed {} b!"-t") t) b!"-F") c =
      ⟨.word, t, .flush, c, none, []⟩ := by simp [Call.feed, Call.plain]
  rw [h]
  simp only [Call.perform]
  cases hK : K t c <;> rfl

theorem drop_none {K : Tables} {t c : Word} (h : K t c = none) : K.drop t c = K := by
  funext t' c'
  unfold Tables.drop
  by_cases he : t' = t ∧ c' = c
  · rw [if_pos he, he.1, he.2, h]
  · rw [if_neg he]

theorem drop_put (K : Tables) (t c : Word) (rs : List Rule) : (K.put t c rs).drop t c = K.drop t c := by
  funext t' c'
  unfold Tables.drop Tables.put
  by_cases he : t' = t ∧ c' = c
  · rw [if_pos he, if_pos he]
  · rw [if_neg he, if_neg he, if_neg he]

/-- `iptables -t table -X chain`, for a chain that is not there, or empty and not referred to. -/
theorem iptables_remove {print : Host} {exe t c : Word} {K : Tables} (hb : isBuiltin c = false)
    (hr : K.refers print.chains t c = false) (he : ∀ rs, K t c = some rs → rs = []) :
    (iptables print [exe, b!"-t", t, b!"-X", c] K).2 = K.drop t c := by
  unfold iptables
  simp only [List.tail_cons, List.foldl_cons, List.foldl_nil]
  have h : Call.feed (Call.feed (Call.feed (Call.feed {} b!"-t") t) b!"-X") c =
      ⟨.word, t, .remove, c, none, []⟩ := by simp [Call.feed, Call.plain]
  rw [h]
  simp only [Call.perform]
  cases hK : K t c with
  | none => exact (drop_none hK).symm
  | some rs =>
    simp only [hb, hr, he rs hK]
    rfl

/-! ## Deleting a chain -/

theorem filter_erase_self (fr : List Rule) (j : Rule) : (fr.erase j).filter (fun r => !decide (r = j)) = fr.filter fun r => !decide (r = j) := by
  induction fr with
  | nil => rfl
  | cons r fr ih =>
    by_cases hr : r = j
    · subst hr
      simp
    · rw [List.erase_cons_tail (by simpa using hr), List.filter_cons, List.filter_cons, ih]

theorem filter_count_zero (fr : List Rule) (j : Rule) (h : fr.count j = 0) : (fr.filter fun r => !decide (r = j)) = fr := by
  rw [List.filter_eq_self]
  intro r hr
  have : r ≠ j := by
    rintro rfl
    exact absurd (List.count_pos_iff.2 hr) (by omega)
  simpa using this

theorem delJumps_none {print : Host} {cf : FwConf} {ch : FwChain} (h : NatOk cf ch) (K : Tables)
    (hf : K ch.table ch.from_chain = none) (n : Nat) : delJumps cf (iptTool print) true ch n (K, []) = .ok (K, []) := by
  cases n with
  | zero => rfl
  | succ n =>
    unfold delJumps
    rw [jumpExists_run h, bind_ok]
    simp [hasRule, hf]

theorem delJumps_run {print : Host} {cf : FwConf} {ch : FwChain} (h : NatOk cf ch) : ∀ (n : Nat) (K : Tables) (fr : List Rule),
    K ch.table ch.from_chain = some fr → fr.count (hookOf ch).jump ≤ n →
    delJumps cf (iptTool print) true ch n (K, []) =
      .ok (K.put ch.table ch.from_chain (fr.filter fun r => !decide (r = (hookOf ch).jump)), [])
  | 0, K, fr, hf, hc => by
    unfold delJumps
    rw [filter_count_zero _ _ (by omega), put_same hf]
  | n + 1, K, fr, hf, hc => by
    unfold delJumps
    rw [jumpExists_run h, bind_ok]
    simp only [hasRule, hf]
    by_cases hm : (hookOf ch).jump ∈ fr
    · rw [decide_eq_true hm, if_pos rfl]
      have hroom := h.room
      rw [iptCmd_run (ws := [b!"-t", ch.table, b!"-D", ch.from_chain, b!"-j", ch.to_chain]) (by simp [spaced]) h.exe (by
        intro w hw
        simp only [List.mem_cons, List.not_mem_nil, or_false] at hw
        rcases hw with rfl | rfl | rfl | rfl | rfl | rfl
        · unfold PlainWord IsBlank; decide
        · exact h.table
        · unfold PlainWord IsBlank; decide
        · exact h.from_chain
        · unfold PlainWord IsBlank; decide
        · exact h.chain.1) (by simp only [List.length_append, List.length_cons, List.length_nil]; omega) (by simp), bind_ok,
        iptables_unjump h.chain hf hm]
      dsimp only
      have hc1 := List.count_pos_iff.2 hm
      rw [show [b!"-j", ch.to_chain] = (hookOf ch).jump from rfl, delJumps_run h n _ (fr.erase (hookOf ch).jump) (put_get _ _ _ _) (by rw [List.count_erase_self]; omega), put_put,
        filter_erase_self]
    · rw [decide_eq_false hm, if_neg (by decide), filter_count_zero _ _ (List.count_eq_zero.2 hm), put_same hf]
      rfl

/-- A chain and the jumps to it are gone. -/
def gone (h : Hook) (K : Tables) : Tables :=
  (match K h.table h.from_ with
    | none => K
    | some fr => K.put h.table h.from_ (fr.filter fun r => !decide (r = h.jump))).drop h.table h.to

/-- The jumps to a chain are gone. -/
def unjump (h : Hook) (K : Tables) : Tables :=
  match K h.table h.from_ with
  | none => K
  | some fr => K.put h.table h.from_ (fr.filter fun r => !decide (r = h.jump))

theorem gone_eq (h : Hook) (K : Tables) : gone h K = (unjump h K).drop h.table h.to := rfl

theorem unjump_free {h : Hook} {K : Tables} (hT : Tidy [h] K) {c : Word} {rs : List Rule} (hc : unjump h K h.table c = some rs)
    {r : Rule} (hr : r ∈ rs) : jumpsTo h.to r = false := by
  cases hj : jumpsTo h.to r with
  | false => rfl
  | true =>
    exfalso
    unfold unjump at hc
    cases hf : K h.table h.from_ with
    | none =>
      rw [hf] at hc
      dsimp only at hc
      obtain ⟨e1, -⟩ := hT.only _ List.mem_cons_self c rs hc r hr hj
      rw [e1, hf] at hc
      cases hc
    | some fr =>
      rw [hf] at hc
      dsimp only at hc
      by_cases hcc : c = h.from_
      · subst hcc
        rw [put_get] at hc
        cases hc
        obtain ⟨hr1, hr2⟩ := List.mem_filter.1 hr
        obtain ⟨-, e2⟩ := hT.only _ List.mem_cons_self _ fr hf r hr1 hj
        simp only [Bool.not_eq_true', decide_eq_false_iff_not] at hr2
        exact hr2 e2
      · rw [put_other _ _ (fun hq => hcc hq.2)] at hc
        exact hcc (hT.only _ List.mem_cons_self c rs hc r hr hj).1

/-- Empty a chain. -/
def flushed (K : Tables) (t c : Word) : Tables :=
  match K t c with | none => K | some _ => K.put t c []

theorem flushed_self {K : Tables} {t c : Word} {rs : List Rule} (h : flushed K t c t c = some rs) : rs = [] := by
  unfold flushed at h
  cases hK : K t c with
  | none => rw [hK] at h; dsimp only at h; rw [hK] at h; cases h
  | some rs0 => rw [hK] at h; dsimp only at h; rw [put_get] at h; cases h; rfl

theorem flushed_mem {K : Tables} {t c c' : Word} {r : Rule} (h : r ∈ ((flushed K t c) t c').getD []) : r ∈ (K t c').getD [] := by
  unfold flushed at h
  cases hK : K t c with
  | none => rw [hK] at h; exact h
  | some rs0 =>
    rw [hK] at h
    dsimp only at h
    by_cases hcc : c' = c
    · rw [hcc, put_get] at h; cases h
    · rwa [put_other _ _ (fun hq => hcc hq.2)] at h

theorem drop_flushed (K : Tables) (t c : Word) : (flushed K t c).drop t c = K.drop t c := by
  unfold flushed
  cases hK : K t c with
  | none => rfl
  | some rs => exact drop_put _ _ _ _

theorem deleteChain_run {print : Host} {cf : FwConf} {ch : FwChain} (h : NatOk cf ch) (ht : ch.target ≠ []) {K : Tables}
    (hb : isBuiltin ch.to_chain = false) (hT : Tidy [hookOf ch] K) :
    deleteChain cf (iptTool print) true ch (K, []) = .ok (gone (hookOf ch) K, []) := by
  have hroom := h.room
  unfold deleteChain
  rw [if_neg ht]
  have h1 : delJumps cf (iptTool print) true ch CMD_LOOP_TRIES (K, []) = .ok (unjump (hookOf ch) K, []) := by
    unfold unjump
    cases hf : K ch.table ch.from_chain with
    | none => rw [show K (hookOf ch).table (hookOf ch).from_ = none from hf]; exact delJumps_none h K hf _
    | some fr =>
      rw [show K (hookOf ch).table (hookOf ch).from_ = some fr from hf]
      exact delJumps_run h _ K fr hf (hT.few _ List.mem_cons_self fr hf)
  rw [h1, bind_ok, gone_eq]
  have hF : ∀ o : Word, PlainWord o → ∀ w ∈ [b!"-t", ch.table, o, ch.to_chain], PlainWord w := by
    intro o ho w hw
    simp only [List.mem_cons, List.not_mem_nil, or_false] at hw
    rcases hw with rfl | rfl | rfl | rfl
    · unfold PlainWord IsBlank; decide
    · exact h.table
    · exact ho
    · exact h.chain.1
  have hno := fun c rs hc r hr => unjump_free hT (c := c) (rs := rs) hc (r := r) hr
  generalize unjump (hookOf ch) K = K1 at *
  rw [iptCmd_run (ws := [b!"-t", ch.table, b!"-F", ch.to_chain]) (by simp [spaced]) h.exe
    (hF _ (by unfold PlainWord IsBlank; decide))
    (by simp only [List.length_append, List.length_cons, List.length_nil]; omega) (by simp), bind_ok, iptables_flush]
  dsimp only
  rw [show (match K1 ch.table ch.to_chain with | none => K1 | some _ => K1.put ch.table ch.to_chain []) =
    flushed K1 ch.table ch.to_chain from rfl]
  rw [iptCmd_run (ws := [b!"-t", ch.table, b!"-X", ch.to_chain]) (by simp [spaced]) h.exe
    (hF _ (by unfold PlainWord IsBlank; decide))
    (by simp only [List.length_append, List.length_cons, List.length_nil]; omega) (by simp), bind_ok, iptables_remove hb]
  · rw [drop_flushed]; rfl
  · unfold Tables.refers
    rw [List.any_eq_false]
    intro c _
    rw [Bool.not_eq_true, List.any_eq_false]
    intro r hr
    have := flushed_mem hr
    cases hc : K1 ch.table c with
    | none => rw [hc] at this; cases this
    | some rs =>
      rw [hc] at this
      rw [Bool.not_eq_true]
      exact hno c rs hc r this
  · intro rs hrs
    exact flushed_self hrs

/-! ## All chains -/

theorem gone_apply (h : Hook) (K : Tables) (t c : Word) : gone h K t c =
    if h.table = t ∧ h.to = c then none
    else (K t c).map fun rs => rs.filter fun r => !(h.table = t && h.from_ = c && r = h.jump) := by
  rw [gone_eq]
  unfold Tables.drop unjump
  by_cases h1 : t = h.table ∧ c = h.to
  · rw [if_pos h1, if_pos ⟨h1.1.symm, h1.2.symm⟩]
  · rw [if_neg h1, if_neg (fun hq => h1 ⟨hq.1.symm, hq.2.symm⟩)]
    have hid : ¬ (t = h.table ∧ c = h.from_) → (K t c).map (fun rs => rs.filter fun r => !(h.table = t && h.from_ = c && r = h.jump)) = K t c := by
      intro hn
      have : (fun rs : List Rule => rs.filter fun r => !(h.table = t && h.from_ = c && r = h.jump)) = id := by
        funext rs
        rw [id, List.filter_eq_self]
        intro r _
        by_cases ht : h.table = t
        · have : h.from_ ≠ c := fun hc => hn ⟨ht.symm, hc.symm⟩
          simp [this]
        · simp [ht]
      rw [this, Option.map_id, id]
    cases hf : K h.table h.from_ with
    | none =>
      dsimp only
      by_cases h2 : t = h.table ∧ c = h.from_
      · rw [h2.1, h2.2, hf]; rfl
      · rw [hid h2]
    | some fr =>
      dsimp only
      by_cases h2 : t = h.table ∧ c = h.from_
      · rw [h2.1, h2.2, put_get, hf]
        simp
      · rw [hid h2, put_other _ _ h2]

theorem without_gone (h : Hook) (hs : List Hook) (K : Tables) : without hs (gone h K) = without (h :: hs) K := by
  funext t c
  unfold without
  rw [gone_apply, List.any_cons]
  cases ha : hs.any (fun h => decide (h.table = t) && decide (h.to = c)) with
  | true => simp
  | false =>
    by_cases h1 : h.table = t ∧ h.to = c
    · rw [if_pos h1, decide_eq_true h1.1, decide_eq_true h1.2]
      simp
    · rw [if_neg h1]
      have : (decide (h.table = t) && decide (h.to = c)) = false := by
        by_cases ht : h.table = t
        · have : h.to ≠ c := fun hc => h1 ⟨ht, hc⟩
          simp [this]
        · simp [ht]
      rw [this, Bool.or_false, if_neg (by decide)]
      cases hK : K t c with
      | none => rfl
      | some rs =>
        simp only [Option.map_some, List.filter_filter, List.any_cons, Bool.not_or]
        rw [if_neg (by decide)]
        congr 1
        apply List.filter_congr
        intro r _
        rw [Bool.and_comm]

theorem without_nil (K : Tables) : without [] K = K := by
  funext t c
  unfold without
  simp only [List.any_nil, Bool.false_eq_true, if_false, Bool.not_false]
  cases K t c with
  | none => rfl
  | some rs => simp

theorem gone_sub (h : Hook) (K : Tables) {t c : Word} {rs : List Rule} (hr : gone h K t c = some rs) :
    ∃ rs', K t c = some rs' ∧ List.Sublist rs rs' := by
  rw [gone_apply] at hr
  split at hr
  · cases hr
  · cases hK : K t c with
    | none => rw [hK] at hr; cases hr
    | some rs' =>
      rw [hK] at hr
      cases hr
      exact ⟨rs', rfl, List.filter_sublist⟩

theorem Spec.Tidy.mono {hs : List Hook} {K K' : Tables} (hT : Tidy hs K)
    (h : ∀ t c rs, K' t c = some rs → ∃ rs', K t c = some rs' ∧ List.Sublist rs rs') : Tidy hs K' := by
  refine ⟨fun a ha fr hf => ?_, fun a ha c rs hc r hr hj => ?_⟩
  · obtain ⟨rs', h1, h2⟩ := h _ _ _ hf
    exact Nat.le_trans (h2.count_le _) (hT.few a ha rs' h1)
  · obtain ⟨rs', h1, h2⟩ := h _ _ _ hc
    exact hT.only a ha c rs' h1 r (h2.subset hr) hj

theorem Spec.Tidy.sub {hs hs' : List Hook} {K : Tables} (hT : Tidy hs K) (h : ∀ a ∈ hs', a ∈ hs) : Tidy hs' K :=
  ⟨fun a ha => hT.few a (h a ha), fun a ha => hT.only a (h a ha)⟩

theorem hooks_cons_neg {ch : FwChain} {chs : List FwChain} (h : ch.target = []) : hooks (ch :: chs) = hooks chs := by
  simp [hooks, h]

theorem hooks_cons {ch : FwChain} {chs : List FwChain} (h : ch.target ≠ []) : hooks (ch :: chs) = hookOf ch :: hooks chs := by
  simp [hooks, h]

theorem mem_hooks {ch : FwChain} {chs : List FwChain} (h : ch ∈ chs) (ht : ch.target ≠ []) : hookOf ch ∈ hooks chs :=
  List.mem_map.2 ⟨ch, List.mem_filter.2 ⟨h, by simpa using ht⟩, rfl⟩

/-- The chains that are configured are usable. -/
def InitOk (cf : FwConf) (chs : List FwChain) : Prop := ∀ ch ∈ chs, ch.target ≠ [] → NatOk cf ch

theorem delete_all_run {print : Host} {cf : FwConf} : ∀ (chs : List FwChain), InitOk cf chs →
    (∀ h ∈ hooks chs, isBuiltin h.to = false) → ∀ K : Tables, Tidy (hooks chs) K →
    delete_all_chains cf (iptTool print) true chs (K, []) = .ok (without (hooks chs) K, [])
  | [], _, _, K, _ => by
    rw [show hooks [] = [] from rfl, without_nil]
    rfl
  | ch :: chs, hok, hb, K, hT => by
    unfold delete_all_chains
    by_cases ht : ch.target = []
    · rw [show deleteChain cf (iptTool print) true ch (K, []) = .ok (K, []) from by unfold deleteChain; rw [if_pos ht],
        bind_ok, hooks_cons_neg ht]
      rw [hooks_cons_neg ht] at hT hb
      exact delete_all_run chs (fun c hc => hok c (List.mem_cons_of_mem _ hc)) hb K hT
    · rw [hooks_cons ht] at hT hb ⊢
      rw [deleteChain_run (hok ch List.mem_cons_self ht) ht (hb (hookOf ch) List.mem_cons_self)
        (hT.sub (fun a ha => by rw [List.mem_singleton] at ha; exact ha ▸ List.mem_cons_self)), bind_ok, ← without_gone]
      exact delete_all_run chs (fun c hc => hok c (List.mem_cons_of_mem _ hc)) (fun h hh => hb h (List.mem_cons_of_mem _ hh))
        _ ((hT.sub fun a ha => List.mem_cons_of_mem _ ha).mono fun t c rs hr => gone_sub _ K hr)

/-! ## Making the chains -/

/-- A chain is made and jumped to. -/
def madeChain (ch : FwChain) (K : Tables) : Tables :=
  (K.make ch.table ch.to_chain).jump ch.table ch.from_chain ch.jump_rule_pos.toNat ch.to_chain

theorem mkChain_run {print : Host} {cf : FwConf} {ch : FwChain} (h : NatOk cf ch) (K : Tables) :
    mkChain cf (iptTool print) true ch (K, []) = .ok (0, (madeChain ch K, [])) := by
  have hroom := h.room
  have hpos := h.pos
  have hl := decStr_length_le ch.jump_rule_pos.toNat 10 (by decide) (by omega)
  rw [decStr_decimal] at hl
  unfold mkChain
  have h1 : chain_exists cf (iptTool print) ch (K, []) = .ok (false, (K, [])) := by
    unfold chain_exists
    rw [run_argv (ws := [cf.fw_command, b!"-t", ch.table, b!"-L", ch.to_chain, b!"-n"]) (by simp [spaced]) (by
      intro w hw'
      simp only [List.mem_cons, List.not_mem_nil, or_false] at hw'
      rcases hw' with rfl | rfl | rfl | rfl | rfl | rfl
      · exact h.exe
      · unfold PlainWord IsBlank; decide
      · exact h.table
      · unfold PlainWord IsBlank; decide
      · exact h.chain.1
      · unfold PlainWord IsBlank; decide) (by
      simp only [List.length_append, List.length_cons, List.length_nil]; omega) (by simp), bind_ok, iptables_look]
    rfl
  rw [h1, bind_ok]
  simp only [Bool.false_eq_true, if_false]
  unfold createChain
  rw [iptCmd_run (ws := [b!"-t", ch.table, b!"-N", ch.to_chain]) (by simp [spaced]) h.exe (by
      intro w hw'
      simp only [List.mem_cons, List.not_mem_nil, or_false] at hw'
      rcases hw' with rfl | rfl | rfl | rfl
      · unfold PlainWord IsBlank; decide
      · exact h.table
      · unfold PlainWord IsBlank; decide
      · exact h.chain.1) (by simp only [List.length_append, List.length_cons, List.length_nil]; omega) (by simp),
    bind_ok, iptables_new]
  simp only [pure_eq, bind_ok, if_true]
  rw [jumpExists_run h, bind_ok]
  unfold madeChain
  generalize K.make ch.table ch.to_chain = K1
  dsimp only
  cases hh : hasRule K1 ch.table ch.from_chain (hookOf ch).jump with
  | true =>
    simp only [if_true]
    congr 2
    unfold hasRule at hh
    unfold Tables.jump
    cases hK : K1 ch.table ch.from_chain with
    | none => rfl
    | some fr =>
      rw [hK] at hh
      simp only [decide_eq_true_eq] at hh
      simp only
      rw [if_pos (show [b!"-j", ch.to_chain] ∈ fr from hh)]
  | false =>
    rw [if_neg (by decide), decStrInt_pos h.pos.1, iptCmd_run
        (ws := [b!"-t", ch.table, b!"-I", ch.from_chain, decimal ch.jump_rule_pos.toNat, b!"-j", ch.to_chain]) (by simp [spaced]) h.exe (by
      intro w hw'
      simp only [List.mem_cons, List.not_mem_nil, or_false] at hw'
      rcases hw' with rfl | rfl | rfl | rfl | rfl | rfl | rfl
      · unfold PlainWord IsBlank; decide
      · exact h.table
      · unfold PlainWord IsBlank; decide
      · exact h.from_chain
      · exact plain_decimal _
      · exact ruleWord_j.1
      · exact h.chain.1) (by
      simp only [List.length_append, List.length_cons, List.length_nil]; omega) (by simp), bind_ok,
      iptables_jump h.chain (by
        intro fr hfr hmem
        unfold hasRule at hh
        rw [hfr] at hh
        simp only [decide_eq_false_iff_not] at hh
        exact hh hmem)]
    rfl

/-- All configured chains are made and jumped to. -/
def madeAll (chs : List FwChain) (K : Tables) : Tables :=
  (chs.filter (·.target ≠ [])).foldl (fun K ch => madeChain ch K) K

theorem create_run {print : Host} {cf : FwConf} : ∀ (chs : List FwChain), InitOk cf chs → ∀ K : Tables,
    create_fw_chains cf (iptTool print) true chs (K, []) = .ok (0, (madeAll chs K, []))
  | [], _, K => rfl
  | ch :: chs, hok, K => by
    unfold create_fw_chains
    by_cases ht : ch.target = []
    · rw [if_pos ht, create_run chs (fun c hc => hok c (List.mem_cons_of_mem _ hc)) K]
      simp [madeAll, ht]
    · rw [if_neg ht, mkChain_run (hok ch List.mem_cons_self ht), bind_ok,
        create_run chs (fun c hc => hok c (List.mem_cons_of_mem _ hc)), bind_ok]
      simp [madeAll, ht]

/-! ## The two probes -/

theorem strIn_of_infix {s t : Str} (h : t <:+: s) : strIn s t = true := by
  obtain ⟨a, b, rfl⟩ := h
  unfold strIn
  cases hf : findSuffix (hasPrefix t) (a ++ t ++ b) with
  | some n => rfl
  | none =>
    have := findSuffix_none hf a.length (by simp)
    rw [List.append_assoc, List.drop_left] at this
    exact absurd (show hasPrefix t (t ++ b) = true from List.isPrefixOf_iff_prefix.2 ⟨b, rfl⟩) (by rw [this]; decide)

/-- `iptables -t table -I chain 1 …`. -/
theorem iptables_first {print : Host} {exe t f : Word} {ws : List Word} {K : Tables} (hw : ∀ w ∈ ws, RuleWord w) {fr : List Rule}
    (hf : K t f = some fr) : (iptables print (exe :: b!"-t" :: t :: b!"-I" :: f :: b!"1" :: ws) K).2 = K.put t f (ws :: fr) := by
  unfold iptables
  simp only [List.tail_cons, List.foldl_cons]
  have h : Call.feed (Call.feed (Call.feed (Call.feed (Call.feed {} b!"-t") t) b!"-I") f) b!"1" =
      ⟨.word, t, .insert, f, some 1, []⟩ := by
    rw [show b!"1" = decimal 1 from by decide]
    simp [Call.feed, Call.plain, isNumber_decimal, number_decimal]
  rw [h, feed_rule ws hw]
  simp [Call.perform, hf]

/-- `iptables -t table -C chain …`. -/
theorem iptables_check' {print : Host} {exe t f : Word} {ws : List Word} (hw : ∀ w ∈ ws, RuleWord w) {K : Tables} :
    iptables print (exe :: b!"-t" :: t :: b!"-C" :: f :: ws) K =
      (match K t f with | none => noChain | some rs => if ws ∈ rs then [] else noRule, K) := by
  unfold iptables
  simp only [List.tail_cons, List.foldl_cons]
  have h : Call.feed (Call.feed (Call.feed (Call.feed {} b!"-t") t) b!"-C") f =
      ⟨.word, t, .check, f, none, []⟩ := by simp [Call.feed, Call.plain]
  rw [h, feed_rule ws hw]
  simp only [List.nil_append, Call.perform]
  cases K t f <;> rfl

/-- The rules with which the daemon tries iptables out. -/
def probeRule (target : Word) : Rule := [b!"-s", DUMMY_IP, b!"-p", b!"udp", b!"-j", target]
def commentProbe (target : Word) : Rule :=
  [b!"-s", DUMMY_IP, b!"-m", b!"comment", b!"--comment", TMP_COMMENT, b!"-j", target]

theorem probe_words {target : Word} (ht : RuleWord target) :
    (∀ w ∈ probeRule target, RuleWord w) ∧ (∀ w ∈ commentProbe target, RuleWord w) := by
  constructor <;>
  · intro w hw
    simp only [probeRule, commentProbe, List.mem_cons, List.not_mem_nil, or_false] at hw
    rcases hw with rfl | rfl | rfl | rfl | rfl | rfl | rfl | rfl <;>
      first | exact ht | (unfold RuleWord PlainWord IsBlank; decide)

theorem five_plain {t f o : Word} (ht : PlainWord t) (hf : PlainWord f) (ho : PlainWord o) {ws : List Word}
    (hw : ∀ w ∈ ws, PlainWord w) : ∀ w ∈ b!"-t" :: t :: o :: f :: ws, PlainWord w := by
  intro w h
  simp only [List.mem_cons] at h
  rcases h with rfl | rfl | rfl | rfl | h
  · unfold PlainWord IsBlank; decide
  · exact ht
  · exact ho
  · exact hf
  · exact hw w h

theorem plain_I : PlainWord b!"-I" := by unfold PlainWord IsBlank; decide
theorem plain_C : PlainWord b!"-C" := by unfold PlainWord IsBlank; decide
theorem plain_D : PlainWord b!"-D" := by unfold PlainWord IsBlank; decide
theorem plain_L : PlainWord b!"-L" := by unfold PlainWord IsBlank; decide
theorem plain_1 : PlainWord b!"1" := by unfold PlainWord IsBlank; decide

theorem chk_support_run {print : Host} {cf : FwConf} {ch : FwChain} (h : NatOk cf ch) {K : Tables} {fr : List Rule}
    (hf : K ch.table ch.from_chain = some fr) : ipt_chk_support cf (iptTool print) ch (K, []) = .ok (true, (K, [])) := by
  have hroom := h.room
  obtain ⟨hp, -⟩ := probe_words h.target
  unfold ipt_chk_support
  rw [iptCmd_run (ws := b!"-t" :: ch.table :: b!"-I" :: ch.from_chain :: b!"1" :: probeRule ch.target) (by simp [spaced, probeRule]) h.exe
    (five_plain h.table h.from_chain plain_I (by
      intro w hw
      rcases List.mem_cons.1 hw with rfl | hw
      · exact plain_1
      · exact (hp w hw).1))
    (by simp only [List.length_append, List.length_cons, List.length_nil]; omega) (by simp [probeRule]), bind_ok, iptables_first hp hf]
  dsimp only
  rw [iptCmd_run (ws := b!"-t" :: ch.table :: b!"-C" :: ch.from_chain :: probeRule ch.target) (by simp [spaced, probeRule]) h.exe
    (five_plain h.table h.from_chain plain_C (fun w hw => (hp w hw).1))
    (by simp only [List.length_append, List.length_cons, List.length_nil]; omega) (by simp [probeRule]), bind_ok, iptables_check' hp]
  dsimp only
  rw [iptCmd_run (ws := [b!"-t", ch.table, b!"-D", ch.from_chain, b!"1"]) (by simp [spaced]) h.exe
    (five_plain h.table h.from_chain plain_D (by
      intro w hw
      rw [List.mem_singleton] at hw
      exact hw ▸ plain_1))
    (by simp only [List.length_append, List.length_cons, List.length_nil]; omega) (by simp), bind_ok,
    show b!"1" = decimal 1 from by decide, iptables_delete (put_get _ _ _ _) (Nat.le_refl _) (by simp)]
  dsimp only
  rw [put_put, put_get]
  simp only [List.mem_cons_self, if_true, List.eraseIdx_zero, Nat.sub_self, List.tail_cons]
  rw [put_same hf]
  rfl

theorem truncate_keeps (A r : Str) : ∃ r', truncate_partial_line (A ++ 10 :: r) = A ++ 10 :: r' := by
  unfold truncate_partial_line
  rw [if_pos (by simp)]
  rw [show (A ++ 10 :: r).reverse = r.reverse ++ 10 :: A.reverse from by simp]
  generalize r.reverse = q
  induction q with
  | nil =>
    refine ⟨[], ?_⟩
    rw [List.nil_append, List.dropWhile_cons_of_neg (by simp)]
    simp
  | cons c q ih =>
    rw [List.cons_append]
    by_cases hc : c = 10
    · refine ⟨q.reverse ++ [10], ?_⟩
      rw [List.dropWhile_cons_of_neg (by simp [hc]), hc]
      simp
    · rw [List.dropWhile_cons_of_pos (by simpa using hc)]
      exact ih

theorem chop_keeps (A r : Str) : ∃ r', chop_newline (A ++ 10 :: r) = A ++ r' := by
  unfold chop_newline
  split
  · cases r with
    | nil => exact ⟨[], by simp⟩
    | cons c r => exact ⟨10 :: (c :: r).dropLast, by rw [List.dropLast_append_of_ne_nil (by simp)]; simp⟩
  · exact ⟨_, rfl⟩

/-- The host prints the comment of a rule. -/
structure PrintsComment (print : Host) (target : Word) : Prop where
  shown : TMP_COMMENT <:+: print (commentProbe target)
  short : (print (commentProbe target)).length ≤ 3000

theorem comment_match_run {print : Host} {cf : FwConf} {ch : FwChain} (h : NatOk cf ch) (hc : PrintsComment print ch.target) {K : Tables}
    {fr : List Rule} (hf : K ch.table ch.from_chain = some fr) :
    comment_match_exists cf (iptTool print) ch (K, []) = .ok (true, (K, [])) := by
  have hroom := h.room
  obtain ⟨-, hp⟩ := probe_words h.target
  unfold comment_match_exists
  rw [iptCmd_run (ws := b!"-t" :: ch.table :: b!"-I" :: ch.from_chain :: b!"1" :: commentProbe ch.target) (by simp [spaced, commentProbe]) h.exe
    (five_plain h.table h.from_chain plain_I (by
      intro w hw
      rcases List.mem_cons.1 hw with rfl | hw
      · exact plain_1
      · exact (hp w hw).1))
    (by simp only [List.length_append, List.length_cons, List.length_nil]; omega) (by simp [commentProbe]), bind_ok, iptables_first hp hf]
  dsimp only
  rw [run_argv (ws := [cf.fw_command, b!"-t", ch.table, b!"-L", ch.from_chain, b!"--line-numbers", b!"-n"]) (by simp [spaced]) (by
      intro w hw
      rcases List.mem_cons.1 hw with rfl | hw
      · exact h.exe
      · refine five_plain h.table h.from_chain plain_L ?_ w hw
        intro w hw
        simp only [List.mem_cons, List.not_mem_nil, or_false] at hw
        rcases hw with rfl | rfl <;> (unfold PlainWord IsBlank; decide))
    (by simp only [List.length_append, List.length_cons, List.length_nil]; omega) (by simp), bind_ok, iptables_list (put_get _ _ _ _)]
  dsimp only
  have htext : strIn (chop_newline (truncate_partial_line ((listing print ch.from_chain (commentProbe ch.target :: fr)).take
      (STANDARD_CMD_OUT_BUFSIZE - 1)))) TMP_COMMENT = true := by
    have hA : ∃ r, listing print ch.from_chain (commentProbe ch.target :: fr) =
        (header ch.from_chain ++ 10 :: line print 1 (commentProbe ch.target)) ++ 10 :: r := by
      unfold listing
      rw [lines]
      cases fr with
      | nil => exact ⟨[], by simp [lines]⟩
      | cons r fr => exact ⟨line print 2 r ++ lines print 3 fr ++ [10], by simp [lines]⟩
    obtain ⟨r, hA⟩ := hA
    have hd : decimal 1 = b!"1" := by decide
    have hlen : (header ch.from_chain ++ 10 :: line print 1 (commentProbe ch.target)).length ≤ 4000 := by
      have := hc.short
      simp only [header, line, hd, List.length_append, List.length_cons, List.length_nil, List.length_replicate]
      omega
    have hin : TMP_COMMENT <:+: header ch.from_chain ++ 10 :: line print 1 (commentProbe ch.target) := by
      obtain ⟨a, b, hab⟩ := hc.shown
      refine ⟨header ch.from_chain ++ 10 :: (decimal 1 ++ List.replicate (4 - (decimal 1).length) 32 ++ 32 :: a), b, ?_⟩
      rw [line, ← hab]
      simp
    rw [hA]
    generalize header ch.from_chain ++ 10 :: line print 1 (commentProbe ch.target) = A at *
    rw [List.take_append, List.take_of_length_le (by show A.length ≤ 4095; omega),
      show STANDARD_CMD_OUT_BUFSIZE - 1 - A.length = (4094 - A.length) + 1 from by
        show 4095 - A.length = _; omega, List.take_succ_cons]
    obtain ⟨r1, h1⟩ := truncate_keeps A (r.take (4094 - A.length))
    rw [h1]
    obtain ⟨r2, h2⟩ := chop_keeps A r1
    rw [h2]
    exact strIn_of_infix (hin.trans ⟨[], r2, by simp⟩)
  rw [if_pos htext, iptCmd_run (ws := [b!"-t", ch.table, b!"-D", ch.from_chain, b!"1"]) (by simp [spaced]) h.exe
    (five_plain h.table h.from_chain plain_D (by
      intro w hw
      rw [List.mem_singleton] at hw
      exact hw ▸ plain_1))
    (by simp only [List.length_append, List.length_cons, List.length_nil]; omega) (by simp), bind_ok,
    show b!"1" = decimal 1 from by decide, iptables_delete (put_get _ _ _ _) (Nat.le_refl _) (by simp)]
  dsimp only
  rw [put_put]
  simp only [List.eraseIdx_zero, Nat.sub_self, List.tail_cons]
  rw [put_same hf]
  rfl

/-! ## What belongs to the daemon stays its own -/

theorem jumpsTo_jump (c c' : Word) : jumpsTo c [b!"-j", c'] = decide (c' = c) := by
  simp [jumpsTo]

theorem without_put_to {hs : List Hook} {h : Hook} (hm : h ∈ hs) (K : Tables) (rs : List Rule) :
    without hs (K.put h.table h.to rs) = without hs K := by
  funext t c
  unfold without
  by_cases hq : hs.any (fun h => decide (h.table = t) && decide (h.to = c)) = true
  · rw [if_pos hq, if_pos hq]
  · rw [if_neg hq, if_neg hq, put_other]
    rintro ⟨rfl, rfl⟩
    exact hq (List.any_eq_true.2 ⟨h, hm, by simp⟩)

theorem filter_insertAt {p : Rule → Bool} {j : Rule} (hj : p j = false) (fr : List Rule) (n : Nat) :
    (insertAt fr n j).filter p = fr.filter p := by
  unfold insertAt
  rw [List.filter_append, List.filter_cons, hj]
  simp only [Bool.false_eq_true, if_false]
  rw [← List.filter_append, List.take_append_drop]

theorem count_insertAt (fr : List Rule) (n : Nat) (j r : Rule) :
    (insertAt fr n j).count r = fr.count r + if j = r then 1 else 0 := by
  unfold insertAt
  rw [List.count_append, List.count_cons]
  have := congrArg (List.count r) (List.take_append_drop (n - 1) fr)
  rw [List.count_append] at this
  simp only [beq_iff_eq]
  omega

theorem mem_insertAt {fr : List Rule} {n : Nat} {j r : Rule} (h : r ∈ insertAt fr n j) : r = j ∨ r ∈ fr := by
  unfold insertAt at h
  rcases List.mem_append.1 h with h | h
  · exact .inr (List.mem_of_mem_take h)
  · rcases List.mem_cons.1 h with h | h
    · exact .inl h
    · exact .inr (List.mem_of_mem_drop h)

theorem without_jump {hs : List Hook} {h : Hook} (hm : h ∈ hs) (K : Tables) (n : Nat) :
    without hs (K.jump h.table h.from_ n h.to) = without hs K := by
  unfold Tables.jump
  cases hf : K h.table h.from_ with
  | none => rfl
  | some fr =>
    dsimp only
    split
    · rfl
    · split
      · funext t c
        unfold without
        by_cases hq : hs.any (fun h => decide (h.table = t) && decide (h.to = c)) = true
        · rw [if_pos hq, if_pos hq]
        · rw [if_neg hq, if_neg hq]
          by_cases he : t = h.table ∧ c = h.from_
          · obtain ⟨rfl, rfl⟩ := he
            rw [put_get, hf]
            simp only [Option.map_some]
            rw [filter_insertAt]
            rw [Bool.not_eq_false']
            exact List.any_eq_true.2 ⟨h, hm, by simp [Hook.jump]⟩
          · rw [put_other _ _ he]
      · rfl

/-- The rules refer to no chain of the daemon. -/
def Clean (hs : List Hook) (t : Word) (rs : List Rule) : Prop := ∀ r ∈ rs, ∀ h ∈ hs, h.table = t → jumpsTo h.to r = false

theorem Spec.Apart.eq {hs : List Hook} (ha : Apart hs) {a b : Hook} (h1 : a ∈ hs) (h2 : b ∈ hs) (ht : a.table = b.table) (hc : a.to = b.to) :
    a = b := by
  have hp := ha.nodup
  clear ha
  induction hs with
  | nil => cases h1
  | cons x hs ih =>
    rw [List.pairwise_cons] at hp
    rcases List.mem_cons.1 h1 with h1 | h1
    · rcases List.mem_cons.1 h2 with h2 | h2
      · rw [h1, h2]
      · exact absurd ⟨ht, hc⟩ (h1 ▸ hp.1 b h2)
    · rcases List.mem_cons.1 h2 with h2 | h2
      · exact absurd ⟨ht.symm, hc.symm⟩ (h2 ▸ hp.1 a h1)
      · exact ih h1 h2 hp.2

theorem tidy_clean {hs : List Hook} (ha : Apart hs) {K : Tables} (hT : Tidy hs K) {h : Hook} (hm : h ∈ hs) {rs : List Rule}
    (hr : K h.table h.to = some rs) : Clean hs h.table rs := by
  intro r hrs h' hm' ht
  cases hj : jumpsTo h'.to r with
  | false => rfl
  | true =>
    have := (hT.only h' hm' h.to rs (by rw [ht]; exact hr) r hrs hj).1
    exact absurd this (ha.from_ h hm h' hm' ht.symm)

theorem tidy_put_to {hs : List Hook} (ha : Apart hs) {K : Tables} (hT : Tidy hs K) {h : Hook} (hm : h ∈ hs) {rs : List Rule}
    (hc : Clean hs h.table rs) : Tidy hs (K.put h.table h.to rs) := by
  refine ⟨fun a ham fr hf => ?_, fun a ham c rs' hr r hrs hj => ?_⟩
  · by_cases he : a.table = h.table ∧ a.from_ = h.to
    · exact absurd he.2.symm (ha.from_ h hm a ham he.1.symm)
    · rw [put_other _ _ he] at hf
      exact hT.few a ham fr hf
  · by_cases he : a.table = h.table ∧ c = h.to
    · rw [he.1, he.2, put_get] at hr
      cases hr
      rw [hc r hrs a ham he.1] at hj
      cases hj
    · rw [put_other _ _ he] at hr
      exact hT.only a ham c rs' hr r hrs hj

theorem tidy_jump {hs : List Hook} (ha : Apart hs) {K : Tables} (hT : Tidy hs K) {h : Hook} (hm : h ∈ hs) (n : Nat) :
    Tidy hs (K.jump h.table h.from_ n h.to) := by
  unfold Tables.jump
  cases hf : K h.table h.from_ with
  | none => exact hT
  | some fr =>
    dsimp only
    split
    · exact hT
    · rename_i hnot
      split
      · refine ⟨fun a ham fr' hf' => ?_, fun a ham c rs' hr r hrs hj => ?_⟩
        · by_cases he : a.table = h.table ∧ a.from_ = h.from_
          · rw [he.1, he.2, put_get] at hf'
            cases hf'
            rw [count_insertAt]
            by_cases hjj : [b!"-j", h.to] = a.jump
            · have h0 : fr.count a.jump = 0 := List.count_eq_zero.2 (by rw [← hjj]; exact hnot)
              rw [if_pos hjj, h0]
              decide
            · rw [if_neg hjj]
              exact hT.few a ham fr (by rw [he.1, he.2]; exact hf)
          · rw [put_other _ _ he] at hf'
            exact hT.few a ham fr' hf'
        · by_cases he : a.table = h.table ∧ c = h.from_
          · rw [he.1, he.2, put_get] at hr
            cases hr
            rcases mem_insertAt hrs with rfl | hrs
            · rw [jumpsTo_jump, decide_eq_true_eq] at hj
              have := ha.eq ham hm he.1 hj.symm
              subst this
              exact ⟨he.2, rfl⟩
            · rw [he.2]
              exact hT.only a ham h.from_ fr (by rw [he.1]; exact hf) r hrs hj
          · rw [put_other _ _ he] at hr
            exact hT.only a ham c rs' hr r hrs hj
      · exact hT

/-- The firewall is that of the administrator, `K0`, with what belongs to the daemon added. -/
structure Over (hs : List Hook) (K0 K : Tables) : Prop where
  tidy : Tidy hs K
  rest : without hs K = K0

theorem over_made {hs : List Hook} (ha : Apart hs) {K0 K : Tables} (hO : Over hs K0 K) {ch : FwChain} (hm : hookOf ch ∈ hs) :
    Over hs K0 (madeChain ch K) := by
  have hmake : Over hs K0 (K.make ch.table ch.to_chain) := by
    unfold Tables.make
    cases K ch.table ch.to_chain with
    | some rs => exact hO
    | none => exact ⟨tidy_put_to ha hO.tidy hm (by intro r hr; cases hr), (without_put_to hm K []).trans hO.rest⟩
  exact ⟨tidy_jump ha hmake.tidy hm _, (without_jump hm _ _).trans hmake.rest⟩

theorem over_grant {hs : List Hook} (ha : Apart hs) {K0 K : Tables} (hO : Over hs K0 K) {ch : FwChain} (hm : hookOf ch ∈ hs) (front : Bool)
    {r : Rule} (hr : Clean hs ch.table [r]) :
    Over hs K0 (K.grant ch.table ch.from_chain ch.jump_rule_pos.toNat ch.to_chain front r) := by
  have h1 := over_made ha hO hm
  have hg : K.grant ch.table ch.from_chain ch.jump_rule_pos.toNat ch.to_chain front r =
    match madeChain ch K ch.table ch.to_chain with
    | none => madeChain ch K
    | some rs => (madeChain ch K).put ch.table ch.to_chain (addRule front rs r) := rfl
  rw [hg]
  generalize madeChain ch K = K1 at *
  cases hK : K1 ch.table ch.to_chain with
  | none => exact h1
  | some rs =>
    refine ⟨tidy_put_to ha h1.tidy hm ?_, (without_put_to hm K1 _).trans h1.rest⟩
    have hc := tidy_clean ha h1.tidy hm hK
    intro x hx h hh ht
    have : x = r ∨ x ∈ rs := by
      unfold addRule at hx
      split at hx
      · exact .inr hx
      · split at hx
        · exact List.mem_cons.1 hx
        · rcases List.mem_append.1 hx with hx | hx
          · exact .inr hx
          · exact .inl (List.mem_singleton.1 hx)
    rcases this with rfl | hx
    · exact hr x List.mem_cons_self h hh ht
    · exact hc x hx h hh ht

theorem over_madeAll {hs : List Hook} (ha : Apart hs) {K0 : Tables} (chs : List FwChain) (hm : ∀ h ∈ hooks chs, h ∈ hs) :
    ∀ {K : Tables}, Over hs K0 K → Over hs K0 (madeAll chs K) := by
  unfold madeAll
  have hm' : ∀ ch ∈ chs.filter (·.target ≠ []), hookOf ch ∈ hs := fun ch hch =>
    hm _ (List.mem_map.2 ⟨ch, hch, rfl⟩)
  generalize chs.filter (·.target ≠ []) = cs at hm'
  induction cs with
  | nil => exact fun {_} h => h
  | cons c cs ih =>
    intro K h
    exact ih (fun ch hch => hm' ch (List.mem_cons_of_mem _ hch)) (over_made ha h (hm' c List.mem_cons_self))

theorem without_over {hs : List Hook} {K : Tables} (hT : Tidy hs K) : Over hs (without hs K) (without hs K) := by
  refine ⟨hT.mono ?_, ?_⟩
  · intro t c rs h
    unfold without at h
    split at h
    · cases h
    · cases hK : K t c with
      | none => rw [hK] at h; cases h
      | some rs' => rw [hK] at h; cases h; exact ⟨rs', rfl, List.filter_sublist⟩
  · funext t c
    unfold without
    by_cases hq : hs.any (fun h => decide (h.table = t) && decide (h.to = c)) = true
    · rw [if_pos hq, if_pos hq]
    · rw [if_neg hq, if_neg hq]
      cases K t c with
      | none => rfl
      | some rs => simp

theorem untouched_tidy {hs : List Hook} {K : Tables} (h : Untouched hs K) : Tidy hs K := by
  refine ⟨fun a ha fr hf => ?_, fun a ha c rs hr r hrs hj => ?_⟩
  · have : fr.count a.jump = 0 := List.count_eq_zero.2 fun hm => by
      have := h.rules a ha _ fr hf _ hm
      unfold Hook.jump at this
      rw [jumpsTo_jump] at this
      simp at this
    omega
  · rw [h.rules a ha c rs hr r hrs] at hj
    cases hj

theorem untouched_without {hs : List Hook} {K : Tables} (h : Untouched hs K) : without hs K = K := by
  funext t c
  unfold without
  by_cases hq : hs.any (fun h => decide (h.table = t) && decide (h.to = c)) = true
  · rw [if_pos hq]
    obtain ⟨a, ha, hb⟩ := List.any_eq_true.1 hq
    simp only [Bool.and_eq_true, decide_eq_true_eq] at hb
    rw [← hb.1, ← hb.2, h.chains a ha]
  · rw [if_neg hq]
    cases hK : K t c with
    | none => rfl
    | some rs =>
      simp only [Option.map_some]
      congr 1
      rw [List.filter_eq_self]
      intro r hr
      rw [Bool.not_eq_true', List.any_eq_false]
      intro a ha hb
      simp only [Bool.and_eq_true, decide_eq_true_eq] at hb
      have := h.rules a ha c rs (by rw [hb.1.1]; exact hK) r hr
      rw [hb.2] at this
      unfold Hook.jump at this
      rw [jumpsTo_jump] at this
      simp at this

end Fwknop
