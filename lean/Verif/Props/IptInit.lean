import Verif.Lemmas.IptSession
import Verif.Props.Nat
import Verif.Props.NatAll

/-!
# Properties of the iptables back end: start and end (C94, C95)
-/

namespace Fwknop.Props

open Fwknop Spec Res

/-! ## C94: what the daemon makes at its start and takes away at its end -/

/-- **C94** (part): at its end the daemon takes away its chains, with all rules in them, and the jumps to
them, and nothing else: the firewall is left as it would be without the daemon.  `Tidy`: nothing but the
daemon's own jump rules refers to its chains, and there are at most ten of these for a chain.  What is
missing: iptables without `-C`, calls that fail, names with blanks or too long for the command buffer. -/
theorem C94_cleanup_partial (print : Host) (cf : FwConf) (o : FwInit) (ho : o.keep_at_exit = false ∨ o.fw_flush = true)
    (chs : List FwChain) (hok : InitOk cf chs) (hb : ∀ h ∈ hooks chs, isBuiltin h.to = false) (K : Tables) (hK : Tidy (hooks chs) K) :
    fw_cleanup cf o (iptTool print) true chs (K, []) = .ok (without (hooks chs) K, []) := by
  unfold fw_cleanup
  rw [if_neg (by
    rintro ⟨h1, h2⟩
    rcases ho with h | h
    · rw [h] at h1; cases h1
    · exact h2 h)]
  exact delete_all_run chs hok hb K hK

/-- With FLUSH_IPT_AT_EXIT N and without --fw-flush nothing happens at the end. -/
theorem C94_kept_at_exit {σ : Type} (cf : FwConf) (o : FwInit) (h1 : o.keep_at_exit = true) (h2 : o.fw_flush = false) (T : Tool σ)
    (chk : Bool) (chs : List FwChain) (w : σ) : fw_cleanup cf o T chk chs w = .ok w := by
  unfold fw_cleanup
  rw [if_pos ⟨h1, by rw [h2]; decide⟩]

theorem without_there {hs : List Hook} {K : Tables} {h : Hook} (ha : Apart hs) (hm : h ∈ hs) {fr : List Rule} (hf : K h.table h.from_ = some fr) :
    ∃ fr', without hs K h.table h.from_ = some fr' := by
  unfold without
  have : ¬ hs.any (fun a => decide (a.table = h.table) && decide (a.to = h.from_)) = true := by
    intro hq
    obtain ⟨a, ham, hb⟩ := List.any_eq_true.1 hq
    simp only [Bool.and_eq_true, decide_eq_true_eq] at hb
    exact ha.from_ a ham h hm hb.1 hb.2
  rw [if_neg this, hf]
  exact ⟨_, rfl⟩

/-- The firewall from which the chains are made: with FLUSH_IPT_AT_INIT, one without the daemon's. -/
def atInit (o : FwInit) (chs : List FwChain) (K : Tables) : Tables := if o.flush_at_init then without (hooks chs) K else K

theorem init_run (print : Host) (cf : FwConf) (o : FwInit) (hchk : o.disable_check = false) (chs : List FwChain) (hok : InitOk cf chs)
    (ha : Apart (hooks chs)) (hin : (chs.getD 0 {}).target ≠ []) (hp : PrintsComment print (chs.getD 0 {}).target) (K : Tables)
    (hK : Tidy (hooks chs) K) {fr : List Rule} (hf : K (chs.getD 0 {}).table (chs.getD 0 {}).from_chain = some fr) :
    fw_initialize cf o (iptTool print) chs (K, []) = .ok (true, true, (madeAll chs (atInit o chs K), [])) := by
  have hmem : chs.getD 0 {} ∈ chs := by
    cases chs with
    | nil => exact absurd rfl hin
    | cons c cs => exact List.mem_cons_self
  have hok0 := hok _ hmem hin
  have hm0 := mem_hooks hmem hin
  unfold fw_initialize
  rw [hchk]
  simp only [Bool.false_eq_true, if_false]
  rw [chk_support_run hok0 hf, bind_ok]
  dsimp only
  have hthere : ∃ fr, atInit o chs K (chs.getD 0 {}).table (chs.getD 0 {}).from_chain = some fr := by
    unfold atInit
    cases o.flush_at_init with
    | true => simp only [if_true]; exact without_there ha hm0 hf
    | false => exact ⟨fr, hf⟩
  have hrest : (do
      let r ← create_fw_chains cf (iptTool print) true chs (atInit o chs K, [])
      if o.comment_check = true then do
          let m ← comment_match_exists cf (iptTool print) (chs.getD IPT_INPUT_ACCESS {}) r.snd
          pure (r.fst == 0 && m.fst, true, m.snd)
        else pure (r.fst == 0, true, r.snd)) = Res.ok (true, true, (madeAll chs (atInit o chs K), [])) := by
    rw [create_run chs hok, bind_ok]
    cases hcc : o.comment_check with
    | false => rfl
    | true =>
      simp only [if_true]
      obtain ⟨fr2, hf2⟩ := made_there (cs := chs.filter (·.target ≠ [])) hthere
      rw [comment_match_run hok0 hp (K := madeAll chs (atInit o chs K)) (fr := fr2) hf2, bind_ok]
      rfl
  cases hfl : o.flush_at_init with
  | true =>
    simp only [if_true]
    rw [delete_all_run chs hok ha.builtin K hK, bind_ok]
    have hat : atInit o chs K = without (hooks chs) K := by unfold atInit; rw [hfl, if_pos rfl]
    rw [hat] at hrest ⊢
    exact hrest
  | false =>
    simp only [Bool.false_eq_true, if_false]
    have hat : atInit o chs K = K := by unfold atInit; rw [hfl, if_neg (by decide)]
    rw [hat] at hrest ⊢
    exact hrest

theorem untouched_of_without {hs : List Hook} (K : Tables) {h : Hook} (hm : h ∈ hs) :
    without hs K h.table h.to = none ∧ ∀ fr, without hs K h.table h.from_ = some fr → h.jump ∉ fr := by
  constructor
  · unfold without
    rw [if_pos (List.any_eq_true.2 ⟨h, hm, by simp⟩)]
  · intro fr hf hj
    unfold without at hf
    split at hf
    · cases hf
    · cases hK : K h.table h.from_ with
      | none => rw [hK] at hf; cases hf
      | some rs =>
        rw [hK] at hf
        cases hf
        have := (List.mem_filter.1 hj).2
        rw [Bool.not_eq_true', List.any_eq_false] at this
        exact this h hm (by simp)

/-- **C94** (part): a start with FLUSH_IPT_AT_INIT (the default) succeeds, whatever the firewall holds that
does not refer to the daemon's chains otherwise than by its own jumps.  It changes nothing that is not the
daemon's.  Afterwards the configured chains are there and empty, and each is jumped to exactly once, if the
chain from which it is jumped to is there and is not too short for the position asked for.  What is missing:
iptables without `-C` or without comments, calls that fail (`C94_false_if_refused`), positions that are
out of range (`C94_false_for_position_0`), names with blanks or too long for the command buffer. -/
theorem C94_start_partial (print : Host) (cf : FwConf) (o : FwInit) (hchk : o.disable_check = false) (hfl : o.flush_at_init = true)
    (chs : List FwChain) (hok : InitOk cf chs) (ha : Apart (hooks chs)) (hin : (chs.getD 0 {}).target ≠ [])
    (hp : PrintsComment print (chs.getD 0 {}).target) (K : Tables) (hK : Tidy (hooks chs) K)
    (hf : ∃ fr, K (chs.getD 0 {}).table (chs.getD 0 {}).from_chain = some fr) :
    ∃ K', fw_initialize cf o (iptTool print) chs (K, []) = .ok (true, true, (K', [])) ∧
      without (hooks chs) K' = without (hooks chs) K ∧
      ∀ ch ∈ chs, ch.target ≠ [] → K' ch.table ch.to_chain = some [] ∧
        ∀ fr, without (hooks chs) K ch.table ch.from_chain = some fr →
          1 ≤ ch.jump_rule_pos ∧ ch.jump_rule_pos ≤ fr.length + 1 →
          ∃ fr', K' ch.table ch.from_chain = some fr' ∧ fr'.count [b!"-j", ch.to_chain] = 1 := by
  obtain ⟨fr, hf⟩ := hf
  have hat : atInit o chs K = without (hooks chs) K := by unfold atInit; rw [hfl, if_pos rfl]
  refine ⟨_, init_run print cf o hchk chs hok ha hin hp K hK hf, ?_, fun ch hch ht => ?_⟩
  · rw [hat]
    exact (over_madeAll ha chs (fun h hh => hh) (without_over hK)).rest
  · rw [hat]
    have hm : ∀ c ∈ chs.filter (·.target ≠ []), hookOf c ∈ hooks chs := fun c hc => List.mem_map.2 ⟨c, hc, rfl⟩
    have hcf : ch ∈ chs.filter (·.target ≠ []) := List.mem_filter.2 ⟨hch, by simpa using ht⟩
    refine ⟨(made_empty ha _ hm _ (fun h hh => .inl (untouched_of_without K hh).1)).1 ch hcf, fun fr0 hf0 hpos => ?_⟩
    refine made_count ha _ hm ?_ ch hcf _ fr0 hf0 ((untouched_of_without K (hm ch hcf)).2 fr0 hf0) (by omega)
    have := ha.nodup
    unfold hooks at this
    rw [List.pairwise_map] at this
    exact this

/-! ## C95: from start to end -/

/-- What the daemon does with the packets of an iteration of its main loop: nothing, an ordinary or a NAT
request under the hypotheses of C39 and C68, or several of these. -/
inductive Handled (print : Host) (cf : FwConf) (chs : List FwChain) :
    (FwSt (Tables × List Fate) → Res (FwSt (Tables × List Fate))) → Prop where
  | nothing : Handled print cf chs (fun s => .ok s)
  | plain (acc : Stanza) (sp : SpaData) (now : Int) (ps : List (Nat × Nat)) (hps : ProtoPorts sp.spa_message_remain ps)
      (hnat : ¬ ForNat acc.force_nat sp.message_type) (hsrc : IsIPv4 sp.use_src_ip)
      (hdst : cf.use_destination = true → IsIPv4 sp.pkt_destination_ip)
      (htime : 0 ≤ now + sp.fw_access_timeout ∧ now + sp.fw_access_timeout < 2 ^ 32) :
      Handled print cf chs (process_spa_request cf (iptTool print) acc sp now)
  | nat (acc : Stanza) (sp : SpaData) (now : Int) (proto port : Nat) (ps : List (Nat × Nat))
      (hps : ProtoPorts sp.spa_message_remain ((proto, port) :: ps))
      (hnat : ForNat acc.force_nat sp.message_type) (hall : acc.forward_all = false)
      (ip : Word) (toPort : Nat) (hip : IsIPv4 ip) (hto : toPort ≤ 65535)
      (hforced : acc.force_nat = true → acc.force_nat_ip = some ip ∧ acc.force_nat_port = toPort)
      (hasked : acc.force_nat = false → sp.nat_access = some (ip ++ 44 :: decimal toPort))
      (hsrc : IsIPv4 sp.use_src_ip) (hdst : cf.use_destination = true → IsIPv4 sp.pkt_destination_ip)
      (htime : 0 ≤ now + sp.fw_access_timeout ∧ now + sp.fw_access_timeout < 2 ^ 32)
      (k : Nat) (opt val : Word)
      (hsnat : acc.force_snat = true ∨ cf.snat = true → (chs.getD k {}).target ≠ [] ∧
        SourceNat acc.force_snat acc.force_masquerade acc.force_snat_ip cf.snat_translate_ip port k opt val ∧
        (∀ ip, acc.force_snat_ip = some ip → ip.length ≤ 15) ∧ (∀ ip, cf.snat_translate_ip = some ip → ip.length ≤ 15)) :
      Handled print cf chs (process_spa_request cf (iptTool print) acc sp now)
  | natAll (acc : Stanza) (sp : SpaData) (now : Int) (proto port : Nat) (ps : List (Nat × Nat))
      (hps : ProtoPorts sp.spa_message_remain ((proto, port) :: ps))
      (hnat : ForNat acc.force_nat sp.message_type) (hall : acc.forward_all = true)
      (ip : Word) (toPort : Nat) (hip : IsIPv4 ip) (hto : toPort ≤ 65535)
      (hforced : acc.force_nat = true → acc.force_nat_ip = some ip ∧ acc.force_nat_port = toPort)
      (hasked : acc.force_nat = false → sp.nat_access = some (ip ++ 44 :: decimal toPort))
      (hsrc : IsIPv4 sp.use_src_ip) (hdst : cf.use_destination = true → IsIPv4 sp.pkt_destination_ip)
      (htime : 0 ≤ now + sp.fw_access_timeout ∧ now + sp.fw_access_timeout < 2 ^ 32)
      (k : Nat) (extra : List Word)
      (hsnat : acc.force_snat = true ∨ cf.snat = true → (chs.getD k {}).target ≠ [] ∧
        SourceNatAll acc.force_snat acc.force_snat_ip cf.snat_translate_ip k extra ∧
        (∀ ip, acc.force_snat_ip = some ip → ip.length ≤ 15) ∧ (∀ ip, cf.snat_translate_ip = some ip → ip.length ≤ 15)) :
      Handled print cf chs (process_spa_request cf (iptTool print) acc sp now)
  | both {f g : FwSt (Tables × List Fate) → Res (FwSt (Tables × List Fate))} :
      Handled print cf chs f → Handled print cf chs g → Handled print cf chs (fun s => f s >>= g)

/-- A configuration: the names are usable, the chains are different ones, no target is a chain of the daemon,
the input chain is configured, chains that are not configured are empty. -/
structure ConfOk (cf : FwConf) (chs : List FwChain) : Prop where
  ok : InitOk cf chs
  apart : Apart (hooks chs)
  target : ∀ ch ∈ chs, ch.target ≠ b!"-j" ∧ ∀ h ∈ hooks chs, ch.target ≠ h.to
  input : (chs.getD 0 {}).target ≠ []
  empty : ∀ ch ∈ chs, ch.target = [] → ch.table = [] ∧ ch.to_chain = []

theorem getD_mem {chs : List FwChain} {i : Nat} (h : (chs.getD i {}).target ≠ [] ∨ (chs.getD i {}).to_chain ≠ []) : chs.getD i {} ∈ chs := by
  rw [List.getD_eq_getElem?_getD] at h ⊢
  cases hq : chs[i]? with
  | none => rw [hq] at h; simp at h
  | some c => exact List.mem_of_getElem? hq

theorem ConfOk.set {cf : FwConf} {chs : List FwChain} (h : ConfOk cf chs) {i : Nat} (ht : (chs.getD i {}).to_chain ≠ []) : (chs.getD i {}).target ≠ [] :=
  fun hq => ht (h.empty _ (getD_mem (.inr ht)) hq).2

theorem ConfOk.over_grant {cf : FwConf} {chs : List FwChain} (h : ConfOk cf chs) {i : Nat} (ht : (chs.getD i {}).target ≠ []) {K0 K : Tables}
    (hO : Over (hooks chs) K0 K) (front : Bool) {r : Rule} (hr : ∀ x ∈ hooks chs, jumpsTo x.to r = false) :
    Over (hooks chs) K0 (grantIn front (chs.getD i {}) K r) :=
  Fwknop.over_grant h.apart hO (mem_hooks (getD_mem (.inl ht)) ht) front (by
    intro x hx a ha _
    rw [List.mem_singleton] at hx
    exact hx ▸ hr a ha)

theorem plain_over {cf : FwConf} {chs : List FwChain} (h : ConfOk cf chs) {K0 : Tables} {src dst : Word} (hs : src ≠ b!"-j") (hd : dst ≠ b!"-j")
    (e : Nat) : ∀ (ps : List (Nat × Nat)) (K : Tables), Over (hooks chs) K0 K →
    Over (hooks chs) K0 (ps.foldl (portTables cf.prepend (chs.getD 0 {}) (chs.getD 1 {}) src dst e) K)
  | [], K, hO => hO
  | p :: ps, K, hO => by
    refine plain_over h hs hd e ps _ ?_
    have hj : ∀ i, (chs.getD i {}).target ≠ [] → ∀ x ∈ hooks chs, (chs.getD i {}).target ≠ x.to ∧ (chs.getD i {}).target ≠ b!"-j" :=
      fun i hi x hx => ⟨(h.target _ (getD_mem (.inl hi))).2 x hx, (h.target _ (getD_mem (.inl hi))).1⟩
    have h1 := h.over_grant h.input hO cf.prepend (r := inputRule p.1 src dst p.2 e (chs.getD 0 {}).target)
      (fun x hx => (jumps_rules hs hd (hj 0 h.input x hx).1 (hj 0 h.input x hx).2 _ _ _).1)
    unfold portTables
    dsimp only
    split
    · exact h1
    · rename_i hne
      have ht := h.set hne
      exact h.over_grant ht h1 cf.prepend (fun x hx => (jumps_rules hs hd (hj 1 ht x hx).1 (hj 1 ht x hx).2 _ _ _).2.1)

/-- The rules of a NAT request stand in chains of the daemon. -/
theorem nat_over {cf : FwConf} {chs : List FwChain} (h : ConfOk cf chs) (acc : Stanza) (sp : SpaData) {K0 : Tables}
    (hs : sp.use_src_ip ≠ b!"-j") (hd : dstOf cf sp ≠ b!"-j") {ip : Word} (hi : ip ≠ b!"-j") {chain : Nat → FwChain}
    (hat : ∀ i, (chain i).bare = (chs.getD i {}).bare) {proto port toPort e k : Nat} {opt val : Word}
    (hsnat : acc.force_snat = true ∨ cf.snat = true → (chs.getD k {}).target ≠ [] ∧
      SourceNat acc.force_snat acc.force_masquerade acc.force_snat_ip cf.snat_translate_ip port k opt val)
    {K : Tables} (hO : Over (hooks chs) K0 K) : Over (hooks chs) K0 (natTables cf acc sp chain proto port ip toPort e k opt val K) := by
  have hto' : ∀ i, (chain i).to_chain = (chs.getD i {}).to_chain := fun i => (bare_fields (hat i)).2.2.2.2
  have htg : ∀ i, (chain i).target = (chs.getD i {}).target := fun i => (bare_fields (hat i)).1
  have hj : ∀ i, (chs.getD i {}).target ≠ [] → ∀ x ∈ hooks chs, (chs.getD i {}).target ≠ x.to ∧ (chs.getD i {}).target ≠ b!"-j" :=
    fun i hi x hx => ⟨(h.target _ (getD_mem (.inl hi))).2 x hx, (h.target _ (getD_mem (.inl hi))).1⟩
  unfold natTables
  dsimp only
  simp only [htg, hto', grantIn_bare (hat _)]
  have hK1 : Over (hooks chs) K0 (if wantsLocal sp = true then
      grantIn cf.prepend (chs.getD 0 {}) K (inputRule proto sp.use_src_ip (dstOf cf sp) toPort e (chs.getD 0 {}).target)
    else if (chs.getD 2 {}).to_chain = [] then K
    else grantIn cf.prepend (chs.getD 2 {}) K (forwardRule proto sp.use_src_ip toPort e (chs.getD 2 {}).target)) := by
    split
    · exact h.over_grant h.input hO _ (fun x hx => (jumps_rules hs hd (hj 0 h.input x hx).1 (hj 0 h.input x hx).2 _ _ _).1)
    · split
      · exact hO
      · rename_i hne
        have ht := h.set hne
        exact h.over_grant ht hO _ (fun x hx => (jumps_rules hs hd (hj 2 ht x hx).1 (hj 2 ht x hx).2 _ _ _).2.2.1)
  revert hK1
  generalize (if wantsLocal sp = true then
      grantIn cf.prepend (chs.getD 0 {}) K (inputRule proto sp.use_src_ip (dstOf cf sp) toPort e (chs.getD 0 {}).target)
    else if (chs.getD 2 {}).to_chain = [] then K
    else grantIn cf.prepend (chs.getD 2 {}) K (forwardRule proto sp.use_src_ip toPort e (chs.getD 2 {}).target)) = K1
  intro hK1
  have hK2 : Over (hooks chs) K0 (if (chs.getD 3 {}).to_chain = [] ∨ acc.disable_dnat = true then K1
    else grantIn cf.prepend (chs.getD 3 {}) K1
      (dnatRule proto sp.use_src_ip (dstOf cf sp) port e (chs.getD 3 {}).target ip toPort)) := by
    split
    · exact hK1
    · rename_i hne
      have ht := h.set (fun hq => hne (.inl hq))
      exact h.over_grant ht hK1 _ (fun x hx => (jumps_rules hs hd (hj 3 ht x hx).1 (hj 3 ht x hx).2 _ _ _).2.2.2.1 _ _)
  split
  · rename_i hq
    obtain ⟨ht, hsn⟩ := hsnat hq
    refine h.over_grant ht hK2 _ (fun x hx => (jumps_rules (hi) hd (hj k ht x hx).1 (hj k ht x hx).2 _ _ _).2.2.2.2 _ _ ?_)
    cases hsn <;> decide
  · exact hK2

theorem jumps_rules_all {c target src dst : Word} (hs : src ≠ b!"-j") (hd : dst ≠ b!"-j") (ht : target ≠ c) (htj : target ≠ b!"-j") (e : Nat) :
    jumpsTo c (forwardAllRule src e target) = false ∧ (∀ ip, jumpsTo c (dnatAllRule src dst e target ip) = false) ∧
    jumpsTo c (snatAllRule src e target []) = false ∧ (∀ ip, jumpsTo c (snatAllRule src e target [b!"--to-source", ip]) = false) := by
  refine ⟨?_, fun ip => ?_, ?_, fun ip => ?_⟩ <;> simp [forwardAllRule, dnatAllRule, snatAllRule, jumpsTo, decimal_ne_j, *]

/-- The rules of a NAT request for a stanza with FORWARD_ALL stand in chains of the daemon. -/
theorem natAll_over {cf : FwConf} {chs : List FwChain} (h : ConfOk cf chs) (acc : Stanza) (sp : SpaData) {K0 : Tables}
    (hs : sp.use_src_ip ≠ b!"-j") (hd : dstOf cf sp ≠ b!"-j") {ip : Word} {chain : Nat → FwChain}
    (hat : ∀ i, (chain i).bare = (chs.getD i {}).bare) {proto toPort e k : Nat} {extra : List Word}
    (hsnat : acc.force_snat = true ∨ cf.snat = true → (chs.getD k {}).target ≠ [] ∧
      SourceNatAll acc.force_snat acc.force_snat_ip cf.snat_translate_ip k extra)
    {K : Tables} (hO : Over (hooks chs) K0 K) : Over (hooks chs) K0 (natAllTables cf acc sp chain proto ip toPort e k extra K) := by
  have hto' : ∀ i, (chain i).to_chain = (chs.getD i {}).to_chain := fun i => (bare_fields (hat i)).2.2.2.2
  have htg : ∀ i, (chain i).target = (chs.getD i {}).target := fun i => (bare_fields (hat i)).1
  have hj : ∀ i, (chs.getD i {}).target ≠ [] → ∀ x ∈ hooks chs, (chs.getD i {}).target ≠ x.to ∧ (chs.getD i {}).target ≠ b!"-j" :=
    fun i hi x hx => ⟨(h.target _ (getD_mem (.inl hi))).2 x hx, (h.target _ (getD_mem (.inl hi))).1⟩
  unfold natAllTables
  dsimp only
  simp only [htg, hto', grantIn_bare (hat _)]
  have hK1 : Over (hooks chs) K0 (if wantsLocal sp = true then
      grantIn cf.prepend (chs.getD 0 {}) K (inputRule proto sp.use_src_ip (dstOf cf sp) toPort e (chs.getD 0 {}).target)
    else if (chs.getD 2 {}).to_chain = [] then K
    else grantIn cf.prepend (chs.getD 2 {}) K (forwardAllRule sp.use_src_ip e (chs.getD 2 {}).target)) := by
    split
    · exact h.over_grant h.input hO _ (fun x hx => (jumps_rules hs hd (hj 0 h.input x hx).1 (hj 0 h.input x hx).2 _ _ _).1)
    · split
      · exact hO
      · rename_i hne
        have ht := h.set hne
        exact h.over_grant ht hO _ (fun x hx => (jumps_rules_all hs hd (hj 2 ht x hx).1 (hj 2 ht x hx).2 _).1)
  revert hK1
  generalize (if wantsLocal sp = true then
      grantIn cf.prepend (chs.getD 0 {}) K (inputRule proto sp.use_src_ip (dstOf cf sp) toPort e (chs.getD 0 {}).target)
    else if (chs.getD 2 {}).to_chain = [] then K
    else grantIn cf.prepend (chs.getD 2 {}) K (forwardAllRule sp.use_src_ip e (chs.getD 2 {}).target)) = K1
  intro hK1
  have hK2 : Over (hooks chs) K0 (if (chs.getD 3 {}).to_chain = [] ∨ acc.disable_dnat = true then K1
    else grantIn cf.prepend (chs.getD 3 {}) K1
      (dnatAllRule sp.use_src_ip (dstOf cf sp) e (chs.getD 3 {}).target ip)) := by
    split
    · exact hK1
    · rename_i hne
      have ht := h.set (fun hq => hne (.inl hq))
      exact h.over_grant ht hK1 _ (fun x hx => (jumps_rules_all hs hd (hj 3 ht x hx).1 (hj 3 ht x hx).2 _).2.1 _)
  split
  · rename_i hq
    obtain ⟨ht, hsn⟩ := hsnat hq
    refine h.over_grant ht hK2 _ (fun x hx => ?_)
    have hjk := jumps_rules_all hs hd (hj k ht x hx).1 (hj k ht x hx).2 e
    cases hsn with
    | forced ip _ _ _ => exact hjk.2.2.2 ip
    | translated ip _ _ _ => exact hjk.2.2.2 ip
    | default _ _ => exact hjk.2.2.1
  · exact hK2

/-- The state of the daemon: its configuration, and a firewall over that of the administrator. -/
structure Live (chs : List FwChain) (K0 : Tables) (s : FwSt (Tables × List Fate)) : Prop where
  conf : s.chain.map FwChain.bare = chs.map FwChain.bare
  fw : ∃ K, s.world = (K, []) ∧ Over (hooks chs) K0 K

theorem handled_live {print : Host} {cf : FwConf} {chs : List FwChain} (h : ConfOk cf chs) {K0 : Tables}
    {f : FwSt (Tables × List Fate) → Res (FwSt (Tables × List Fate))} (hf : Handled print cf chs f) :
    ∀ {s s' : FwSt (Tables × List Fate)}, Live chs K0 s → f s = .ok s' → Live chs K0 s' := by
  induction hf with
  | nothing =>
    intro s s' hL hr
    cases hr
    exact hL
  | both _ _ ih1 ih2 =>
    intro s s' hL hr
    obtain ⟨s1, h1, h2⟩ := bind_eq_ok hr
    exact ih2 (ih1 hL h1) h2
  | plain acc sp now ps hps hnat hsrc hdst htime =>
    intro s s' hL hr
    obtain ⟨K, hw, hO⟩ := hL.fw
    have hb := process_bare hr
    have hat : ∀ i, (s.at i).bare = (chs.getD i {}).bare := fun i => getD_bare hL.conf i
    obtain ⟨hd, hda⟩ := dst_ne_j hdst
    have hnk : ∀ i, (chs.getD i {}).target ≠ [] → RequestOk cf (s.at i) sp.use_src_ip (dstOf cf sp) := fun i hi =>
      RequestOk.bare (hat i) ((h.ok _ (getD_mem (.inl hi)) hi).request (addrWord_ipv4 hsrc) hda)
    obtain ⟨s1, h1, h2⟩ := C39_tables_partial print cf acc sp now s K hw ps hps hnat (now + sp.fw_access_timeout).toNat (by omega) (by omega)
      (hnk 0 h.input) (fun hne => hnk 1 (h.set (by rw [← (bare_fields (hat 1)).2.2.2.2]; exact hne)))
    rw [hr] at h1
    cases h1
    refine ⟨hb.trans hL.conf, _, h2, ?_⟩
    rw [portTables_bare (hat 0) (hat 1)]
    exact plain_over h (ipv4_ne_j hsrc) hd _ ps K hO
  | nat acc sp now proto port ps hps hnat hall ip toPort hip hto hforced hasked hsrc hdst htime k opt val hsnat =>
    intro s s' hL hr
    obtain ⟨K, hw, hO⟩ := hL.fw
    have hb := process_bare hr
    have hat : ∀ i, (s.at i).bare = (chs.getD i {}).bare := fun i => getD_bare hL.conf i
    obtain ⟨hd, hda⟩ := dst_ne_j hdst
    have hnk : ∀ i, (chs.getD i {}).target ≠ [] → NatOk cf (s.at i) := fun i hi => NatOk.bare (hat i) (h.ok _ (getD_mem (.inl hi)) hi)
    have hto' : ∀ i, (s.at i).to_chain = (chs.getD i {}).to_chain := fun i => (bare_fields (hat i)).2.2.2.2
    have htg : ∀ i, (s.at i).target = (chs.getD i {}).target := fun i => (bare_fields (hat i)).1
    obtain ⟨s1, h1, h2⟩ := C68_tables_partial print cf acc sp now s K hw proto port ps hps hnat hall ip toPort hip hto hforced hasked
      (now + sp.fw_access_timeout).toNat (by omega) (by omega) (addrWord_ipv4 hsrc) hda (fun _ => hnk 0 h.input)
      (fun hne => hnk 2 (h.set (by rw [← hto']; exact hne))) (fun hne => hnk 3 (h.set (by rw [← hto']; exact hne))) k opt val
      (fun hq => ⟨hnk k (hsnat hq).1, (hsnat hq).2⟩)
    rw [hr] at h1
    cases h1
    refine ⟨hb.trans hL.conf, _, h2, ?_⟩
    exact nat_over h acc sp (ipv4_ne_j hsrc) hd (ipv4_ne_j hip) hat (fun hq => ⟨(hsnat hq).1, (hsnat hq).2.1⟩) hO
  | natAll acc sp now proto port ps hps hnat hall ip toPort hip hto hforced hasked hsrc hdst htime k extra hsnat =>
    intro s s' hL hr
    obtain ⟨K, hw, hO⟩ := hL.fw
    have hb := process_bare hr
    have hat : ∀ i, (s.at i).bare = (chs.getD i {}).bare := fun i => getD_bare hL.conf i
    obtain ⟨hd, hda⟩ := dst_ne_j hdst
    have hnk : ∀ i, (chs.getD i {}).target ≠ [] → NatOk cf (s.at i) := fun i hi => NatOk.bare (hat i) (h.ok _ (getD_mem (.inl hi)) hi)
    have hto' : ∀ i, (s.at i).to_chain = (chs.getD i {}).to_chain := fun i => (bare_fields (hat i)).2.2.2.2
    have htg : ∀ i, (s.at i).target = (chs.getD i {}).target := fun i => (bare_fields (hat i)).1
    obtain ⟨s1, h1, h2⟩ := C68_forward_all_partial print cf acc sp now s K hw proto port ps hps hnat hall ip toPort hip hto hforced hasked
      (now + sp.fw_access_timeout).toNat (by omega) (by omega) (addrWord_ipv4 hsrc) hda (fun _ => hnk 0 h.input)
      (fun hne => hnk 2 (h.set (by rw [← hto']; exact hne))) (fun hne => hnk 3 (h.set (by rw [← hto']; exact hne))) k extra
      (fun hq => ⟨hnk k (hsnat hq).1, (hsnat hq).2⟩)
    rw [hr] at h1
    cases h1
    refine ⟨hb.trans hL.conf, _, h2, ?_⟩
    exact natAll_over h acc sp (ipv4_ne_j hsrc) hd hat (fun hq => ⟨(hsnat hq).1, (hsnat hq).2.1⟩) hO

theorem check_live {print : Host} {cf : FwConf} {chs : List FwChain} (h : ConfOk cf chs) {K0 : Tables} {all : Bool} {now : Int}
    {s s' : FwSt (Tables × List Fate)} (hL : Live chs K0 s) (hr : check_firewall_rules cf (iptTool print) all now s = .ok s') : Live chs K0 s' := by
  obtain ⟨K, hw, hO⟩ := hL.fw
  unfold check_firewall_rules at hr
  rw [hw] at hr
  obtain ⟨r, h1, hr⟩ := bind_eq_ok hr
  cases hr
  obtain ⟨hb, K', hw', hO'⟩ := checkChains_over h.apart s.chain 0 K r.1 r.2 (initOk_bare hL.conf h.ok) (by
    intro ch hch ht
    have : ch.bare ∈ chs.map FwChain.bare := by rw [← hL.conf]; exact List.mem_map.2 ⟨ch, hch, rfl⟩
    obtain ⟨c, hc, hcb⟩ := List.mem_map.1 this
    obtain ⟨e1, e2, -⟩ := bare_fields hcb
    rw [← e2]
    exact (h.empty c hc (e1.trans ht)).1) (by rw [hooks_bare hL.conf]; exact fun x hx => hx) hO h1
  exact ⟨hb.trans hL.conf, K', hw', hO'⟩

theorem run_live {print : Host} {cf : FwConf} {chs : List FwChain} (h : ConfOk cf chs) {K0 : Tables} {thr : Nat} :
    ∀ (its : List ((FwSt (Tables × List Fate) → Res (FwSt (Tables × List Fate))) × Int)), (∀ it ∈ its, Handled print cf chs it.1) →
    ∀ {st st' : Nat × FwSt (Tables × List Fate)}, Live chs K0 st.2 → fwRun cf (iptTool print) thr its st = .ok st' → Live chs K0 st'.2
  | [], _, st, st', hL, hr => by cases hr; exact hL
  | it :: its, hh, st, st', hL, hr => by
    unfold fwRun at hr
    obtain ⟨st1, h1, hr⟩ := bind_eq_ok hr
    refine run_live h its (fun x hx => hh x (List.mem_cons_of_mem _ hx)) ?_ hr
    unfold fwIter at h1
    obtain ⟨s1, h2, h1⟩ := bind_eq_ok h1
    obtain ⟨s2, h3, h1⟩ := bind_eq_ok h1
    cases h1
    exact check_live h (handled_live h (hh it List.mem_cons_self) hL h2) h3

/-- **C95** (part): a run of the daemon leaves no trace.  From a firewall that knows nothing of the daemon, a
start, any number of iterations of the main loop with whatever requests and expirations, and the end bring back
exactly the firewall of the administrator.  What is missing: iptables without `-C`, calls that fail
(`C95_false_if_refused`), kills (the first part of `C95_restart_drops_access` is what a killed
daemon leaves), NAT with names of hosts, the other
hypotheses of C39 and C68, changes by the administrator in the meantime. -/
theorem C95_no_trace_partial (print : Host) (cf : FwConf) (o : FwInit) (hchk : o.disable_check = false)
    (hex : o.keep_at_exit = false ∨ o.fw_flush = true) (chs : List FwChain) (h : ConfOk cf chs)
    (hp : PrintsComment print (chs.getD 0 {}).target) (K : Tables) (hK : Untouched (hooks chs) K)
    (hf : ∃ fr, K (chs.getD 0 {}).table (chs.getD 0 {}).from_chain = some fr) (thr ctr : Nat)
    (its : List ((FwSt (Tables × List Fate) → Res (FwSt (Tables × List Fate))) × Int)) (hits : ∀ it ∈ its, Handled print cf chs it.1) :
    ∃ K1, fw_initialize cf o (iptTool print) chs (K, []) = .ok (true, true, (K1, [])) ∧
      ∀ st, fwRun cf (iptTool print) thr its (ctr, ⟨chs, (K1, [])⟩) = .ok st →
        fw_cleanup cf o (iptTool print) true st.2.chain st.2.world = .ok (K, []) := by
  obtain ⟨fr, hf⟩ := hf
  have hT := untouched_tidy hK
  have hat : atInit o chs K = K := by
    unfold atInit
    split
    · exact untouched_without hK
    · rfl
  refine ⟨_, init_run print cf o hchk chs h.ok h.apart h.input hp K hT hf, fun st hst => ?_⟩
  rw [hat] at hst
  have hL : Live chs K st.2 := run_live h its hits
    ⟨rfl, _, rfl, over_madeAll h.apart chs (fun x hx => hx) ⟨hT, untouched_without hK⟩⟩ hst
  obtain ⟨K', hw, hO⟩ := hL.fw
  have hh := hooks_bare hL.conf
  rw [hw, C94_cleanup_partial print cf o hex _ (initOk_bare hL.conf h.ok) (by rw [hh]; exact h.apart.builtin) K' (by rw [hh]; exact hO.tidy),
    hh, hO.rest]

/-- **C95** (part): at any time between start and end, what is not the daemon's is as the administrator left it:
without the daemon's chains and the jumps to them, the firewall is the one before the start.  The gaps are those
of `C95_no_trace_partial`. -/
theorem C95_meanwhile_partial (print : Host) (cf : FwConf) (o : FwInit) (hchk : o.disable_check = false)
    (chs : List FwChain) (h : ConfOk cf chs) (hp : PrintsComment print (chs.getD 0 {}).target) (K : Tables) (hK : Untouched (hooks chs) K)
    (hf : ∃ fr, K (chs.getD 0 {}).table (chs.getD 0 {}).from_chain = some fr) (thr ctr : Nat)
    (its : List ((FwSt (Tables × List Fate) → Res (FwSt (Tables × List Fate))) × Int)) (hits : ∀ it ∈ its, Handled print cf chs it.1) :
    ∃ K1, fw_initialize cf o (iptTool print) chs (K, []) = .ok (true, true, (K1, [])) ∧
      ∀ st, fwRun cf (iptTool print) thr its (ctr, ⟨chs, (K1, [])⟩) = .ok st → without (hooks chs) st.2.world.1 = K := by
  obtain ⟨fr, hf⟩ := hf
  have hT := untouched_tidy hK
  have hat : atInit o chs K = K := by
    unfold atInit
    split
    · exact untouched_without hK
    · rfl
  refine ⟨_, init_run print cf o hchk chs h.ok h.apart h.input hp K hT hf, fun st hst => ?_⟩
  rw [hat] at hst
  have hL : Live chs K st.2 := run_live h its hits
    ⟨rfl, _, rfl, over_madeAll h.apart chs (fun x hx => hx) ⟨hT, untouched_without hK⟩⟩ hst
  obtain ⟨K', hw, hO⟩ := hL.fw
  rw [hw]
  exact hO.rest

/-! ## A firewall that meets the hypotheses -/

/-- A firewall with two rules of the administrator. -/
def adminTables : Tables := fun t c =>
  if t = b!"filter" ∧ c = b!"INPUT" then some [[b!"-s", b!"10.6.6.6", b!"-j", b!"DROP"], [b!"-j", b!"LOG"]] else builtin t c

/-- The chain after a start. -/
def startOf (r : Res (Bool × Bool × (Tables × List Fate))) (t c : Word) : Option (Bool × Option (List Rule)) :=
  match r with
  | .ok (done, _, (K, _)) => some (done, K t c)
  | _ => none

/-- The chain after the end. -/
def endOf (r : Res (Tables × List Fate)) (t c : Word) : Option (Option (List Rule)) :=
  match r with
  | .ok (K, _) => some (K t c)
  | _ => none

theorem natOk_sample {ch : FwChain} (h : ch ∈ defaultChains) (ht : ch.target ≠ []) : NatOk fwSample ch := by
  have : ∀ ch ∈ defaultChains, ch.target ≠ [] → ch = inChain ∨ ch = fwdChain ∨ ch = dnatChain ∨ ch = masqChain := by decide
  rcases this ch h ht with rfl | rfl | rfl | rfl <;>
    exact ⟨by unfold PlainWord IsBlank; decide, by unfold PlainWord IsBlank; decide, by unfold PlainWord IsBlank; decide,
      by unfold RuleWord PlainWord IsBlank; decide, by unfold RuleWord PlainWord IsBlank; decide, by decide, by decide⟩

theorem sample_conf : ConfOk fwSample defaultChains where
  ok := fun _ h ht => natOk_sample h ht
  apart := ⟨by decide, by decide, by decide⟩
  target := by decide
  input := by decide
  empty := by decide

theorem admin_untouched : Untouched (hooks defaultChains) adminTables where
  chains := by decide +kernel
  rules := by
    intro h hh c rs hr r hm
    unfold adminTables builtin at hr
    have : rs = [] ∨ rs = [[b!"-s", b!"10.6.6.6", b!"-j", b!"DROP"], [b!"-j", b!"LOG"]] := by
      split at hr
      · exact .inr (Option.some.inj hr).symm
      · split at hr
        · exact .inl (Option.some.inj hr).symm
        · split at hr
          · exact .inl (Option.some.inj hr).symm
          · cases hr
    rcases this with rfl | rfl
    · cases hm
    · clear hr
      revert h r
      decide +kernel

theorem sample_prints : PrintsComment sampleHost b!"ACCEPT" where
  shown := ⟨b!"-s 127.0.0.2 -m comment /* ", b!" */ -j ACCEPT", by decide +kernel⟩
  short := by decide +kernel

/-- A request for SSH at 1000, one for NAT at 1005, nothing until the rules have expired. -/
abbrev sampleRun : List ((FwSt (Tables × List Fate) → Res (FwSt (Tables × List Fate))) × Int) :=
  [(process_spa_request fwSample (iptTool sampleHost) {} sshRequest 1000, 1000),
    (process_spa_request fwSample (iptTool sampleHost) {} natRequest 1005, 1006), (fun s => .ok s, 1031)]

theorem client_ipv4 : IsIPv4 b!"1.2.3.4" :=
  ⟨b!"1", b!"2", b!"3", b!"4", by unfold IsOctet IsDigitChar; decide, by unfold IsOctet IsDigitChar; decide,
    by unfold IsOctet IsDigitChar; decide, by unfold IsOctet IsDigitChar; decide, by decide, by decide⟩

theorem sampleRun_handled : ∀ it ∈ sampleRun, Handled sampleHost fwSample defaultChains it.1 := by
  intro it hit
  simp only [List.mem_cons, List.not_mem_nil, or_false] at hit
  rcases hit with rfl | rfl | rfl
  · exact Handled.plain (acc := {}) (sp := sshRequest) (now := 1000) [(6, 22)] ssh_ports (by decide) client_ipv4
      (fun h => absurd h (by decide)) (by decide)
  · exact Handled.nat (acc := {}) (sp := natRequest) (now := 1005) 6 2222 [(6, 443)] nat_ports (by decide) rfl b!"10.0.0.5" 22
      ⟨b!"10", b!"0", b!"0", b!"5", by unfold IsOctet IsDigitChar; decide, by unfold IsOctet IsDigitChar; decide,
        by unfold IsOctet IsDigitChar; decide, by unfold IsOctet IsDigitChar; decide, by decide, by decide⟩ (by decide) (by decide)
      (fun _ => by decide +kernel) client_ipv4 (fun h => absurd h (by decide)) (by decide) 0 [] [] (fun h => absurd h (by decide))
  · exact .nothing

/-- A request for a stanza with FORWARD_ALL and FORCE_MASQUERADE is one of those of C95. -/
example : Handled sampleHost fwSample defaultChains (process_spa_request fwSample (iptTool sampleHost) everyStanza natRequest 1005) :=
  Handled.natAll everyStanza natRequest 1005 6 2222 [(6, 443)] nat_ports (by decide) rfl b!"10.0.0.5" 22 tenIPv4 (by decide)
    (fun _ => ⟨rfl, rfl⟩) (fun h => absurd h (by decide)) client_ipv4 (fun h => absurd h (by decide)) (by decide) 5 []
    (fun _ => ⟨by decide, .default (fun _ _ h => (by cases h)) (fun _ h => (by cases h)), fun _ h => (by cases h), fun _ h => (by cases h)⟩)

example : ∃ K', fw_initialize fwSample {} (iptTool sampleHost) defaultChains (adminTables, []) = .ok (true, true, (K', [])) ∧
    K' b!"filter" b!"FWKNOP_INPUT" = some [] := by
  obtain ⟨K', h1, -, h3⟩ := C94_start_partial sampleHost fwSample {} rfl rfl defaultChains sample_conf.ok sample_conf.apart (by decide)
    sample_prints adminTables (untouched_tidy admin_untouched) ⟨_, rfl⟩
  exact ⟨K', h1, (h3 inChain (by decide) (by decide)).1⟩

example : ∃ K1, fw_initialize fwSample {} (iptTool sampleHost) defaultChains (adminTables, []) = .ok (true, true, (K1, [])) ∧
    ∀ st, fwRun fwSample (iptTool sampleHost) 5 sampleRun (0, ⟨defaultChains, (K1, [])⟩) = .ok st →
      fw_cleanup fwSample {} (iptTool sampleHost) true st.2.chain st.2.world = .ok (adminTables, []) :=
  C95_no_trace_partial sampleHost fwSample {} rfl (.inl rfl) defaultChains sample_conf sample_prints adminTables admin_untouched
    ⟨_, rfl⟩ 5 0 sampleRun sampleRun_handled

/-- The run of the example comes to its end. -/
example : startOf (fw_initialize fwSample {} ipt defaultChains (adminTables, [])) b!"filter" b!"INPUT" =
      some (true, some [[b!"-j", b!"FWKNOP_INPUT"], [b!"-s", b!"10.6.6.6", b!"-j", b!"DROP"], [b!"-j", b!"LOG"]]) ∧
    (match fw_initialize fwSample {} ipt defaultChains (adminTables, []) with
      | .ok (_, _, w) =>
        (match fwRun fwSample ipt 5 sampleRun (0, ⟨defaultChains, w⟩) with
        | .ok st => endOf (fw_cleanup fwSample {} ipt true st.2.chain st.2.world) b!"filter" b!"INPUT"
        | _ => none)
      | _ => none) = some (some [[b!"-s", b!"10.6.6.6", b!"-j", b!"DROP"], [b!"-j", b!"LOG"]]) := by decide +kernel

/-! ## Where C94 and C95 fail -/

/-- **C94** is false if a call is refused: if another process holds the lock of the tables when the rule that
probes for `-C` is inserted, the deletion of rule number 1 that follows takes away the first rule of the
administrator, here the one that drops the packets of an address.  The start is reported as a success. -/
theorem C94_false_if_refused :
    startOf (fw_initialize fwSample {} ipt defaultChains (adminTables, [.refused])) b!"filter" b!"INPUT" =
      some (true, some [[b!"-j", b!"FWKNOP_INPUT"], [b!"-j", b!"LOG"]]) := by decide +kernel

/-- **C94** is false if a call is refused: if this happens to the deletion of the rule that probes for `-C`, that
rule, which lets packets of 127.0.0.2 in, stays for good. -/
theorem C94_false_if_deletion_refused :
    startOf (fw_initialize fwSample {} ipt defaultChains (adminTables, [.works, .works, .refused])) b!"filter" b!"INPUT" =
      some (true, some [[b!"-j", b!"FWKNOP_INPUT"], [b!"-s", b!"127.0.0.2", b!"-p", b!"udp", b!"-j", b!"ACCEPT"],
        [b!"-s", b!"10.6.6.6", b!"-j", b!"DROP"], [b!"-j", b!"LOG"]]) := by decide +kernel

/-- **C94** is false for a position of the jump of 0, or one that is more than one past the end: there is no jump,
but the start is reported as a success. -/
theorem C94_false_for_position_0 :
    startOf (fw_initialize fwSample {} ipt [{ inChain with jump_rule_pos := 0 }] (adminTables, [])) b!"filter" b!"INPUT" =
      some (true, some [[b!"-s", b!"10.6.6.6", b!"-j", b!"DROP"], [b!"-j", b!"LOG"]]) ∧
    startOf (fw_initialize fwSample {} ipt [{ inChain with jump_rule_pos := 4 }] (adminTables, [])) b!"filter" b!"INPUT" =
      some (true, some [[b!"-s", b!"10.6.6.6", b!"-j", b!"DROP"], [b!"-j", b!"LOG"]]) :=
  ⟨by decide +kernel, by decide +kernel⟩

/-- A firewall with twelve jumps to the input chain. -/
def manyJumps : Tables := fun t c =>
  if t = b!"filter" ∧ c = b!"INPUT" then some (List.replicate 12 [b!"-j", b!"FWKNOP_INPUT"])
  else if t = b!"filter" ∧ c = b!"FWKNOP_INPUT" then some [] else builtin t c

/-- **C94** is false for more than ten jumps: the rest of them, and the chain, stay behind. -/
theorem C94_false_for_many_jumps :
    endOf (fw_cleanup fwSample {} ipt true defaultChains (manyJumps, [])) b!"filter" b!"INPUT" =
      some (some [[b!"-j", b!"FWKNOP_INPUT"], [b!"-j", b!"FWKNOP_INPUT"]]) ∧
    endOf (fw_cleanup fwSample {} ipt true defaultChains (manyJumps, [])) b!"filter" b!"FWKNOP_INPUT" = some (some []) := by
  decide +kernel

/-- A firewall in which a rule of the administrator refers to the input chain. -/
def foreignJump : Tables := fun t c =>
  if t = b!"filter" ∧ c = b!"FORWARD" then some [[b!"-i", b!"eth0", b!"-j", b!"FWKNOP_INPUT"]]
  else if t = b!"filter" ∧ c = b!"FWKNOP_INPUT" then some [sshRule 1030] else builtin t c

/-- **C94** is false if a rule of the administrator refers to a chain of the daemon: the chain, though emptied,
stays. -/
theorem C94_false_for_foreign_jump :
    endOf (fw_cleanup fwSample {} ipt true defaultChains (foreignJump, [])) b!"filter" b!"FWKNOP_INPUT" = some (some []) := by
  decide +kernel

/-- **C95** is false if a call is refused: if this happens to the question whether there is a jump, at the end, the
jump and the chain stay behind; nothing is reported. -/
theorem C95_false_if_refused :
    (match fw_initialize fwSample {} ipt defaultChains (adminTables, []) with
      | .ok (_, _, (K, _)) => endOf (fw_cleanup fwSample {} ipt true defaultChains (K, [.refused])) b!"filter" b!"INPUT"
      | _ => none) = some (some [[b!"-j", b!"FWKNOP_INPUT"], [b!"-s", b!"10.6.6.6", b!"-j", b!"DROP"], [b!"-j", b!"LOG"]]) := by
  decide +kernel

/-- The input chain after a start and a request for SSH, and again after another start. -/
def restarted : Option (Option (List Rule)) × Option (Bool × Option (List Rule)) :=
  match fw_initialize fwSample {} ipt defaultChains (adminTables, []) with
  | .ok (_, _, w) =>
    (match fwRun fwSample ipt 5 (sampleRun.take 1) (0, ⟨defaultChains, w⟩) with
    | .ok st => (some (st.2.world.1 b!"filter" b!"FWKNOP_INPUT"),
        startOf (fw_initialize fwSample {} ipt defaultChains st.2.world) b!"filter" b!"FWKNOP_INPUT")
    | _ => (none, none))
  | _ => (none, none)

/-- **C95**: a start with FLUSH_IPT_AT_INIT, which is also what a SIGHUP leads to, takes away access that has been
granted and is not yet over. -/
theorem C95_restart_drops_access : restarted.1 = some (some [sshRule 1030]) ∧ restarted.2 = some (true, some []) :=
  ⟨by decide +kernel, by decide +kernel⟩

end Fwknop.Props
