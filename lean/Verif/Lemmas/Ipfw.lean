import Verif.Model.Ipfw
import Verif.Spec.Ipfw
import Verif.Lemmas.Pf

/-!
# Lemmas about the ipfw back end
-/

namespace Fwknop

open Spec Res

/-- ipfw, with the rules and the fates of the coming calls as the state of the world. -/
def ipfwTool (print : List Word → List Nat) : Tool (Ipfw × List Fate) where
  exec argv w :=
    let r := ipfwUnder print argv w.1 w.2
    (⟨r.1, r.2.1⟩, (r.2.2.1, r.2.2.2))

/-- The configuration: the name of the program is a word that leaves room in the command buffer, the numbers
are in range, the two sets are different and neither is set 0. -/
structure IpfwNames (cf : IpfwConf) : Prop where
  exe : PlainWord cf.fw_command
  room : cf.fw_command.length ≤ 100
  start1 : 1 ≤ cf.start
  start2 : cf.start ≤ 65535
  max : cf.max_rules ≤ 65535
  act1 : 1 ≤ cf.active_set
  act2 : cf.active_set ≤ 63
  exp1 : 1 ≤ cf.expire_set
  exp2 : cf.expire_set ≤ 63
  differ : cf.active_set ≠ cf.expire_set

theorem spaced_cons (w : Word) {ws : List Word} (h : ws ≠ []) : spaced (w :: ws) = w ++ 32 :: spaced ws := by
  cases ws with
  | nil => exact absurd rfl h
  | cons x xs => rfl

theorem ipfw_argv {cf : IpfwConf} (hn : IpfwNames cf) {args : Str} {ws : List Word} (hargs : args = spaced ws)
    (hne : ws ≠ []) (hw : ∀ w ∈ ws, PlainWord w) (hlen : args.length ≤ 150) (hcount : ws.length ≤ 20) :
    strtoargv (ipfwCmd cf args) = .ok (some (cf.fw_command :: ws)) := by
  have hr := hn.room
  subst hargs
  unfold ipfwCmd
  rw [cmdBuf, cmdBuf_short (by simp only [List.length_append, List.length_cons, List.length_nil]; omega)]
  rw [show cf.fw_command ++ b!" " ++ spaced ws = spaced (cf.fw_command :: ws) from by
    rw [spaced_cons _ hne]; simp]
  apply strtoargv_spaced _ (by simp only [List.length_cons]; show _ < 29; omega)
  intro w hw'
  rcases List.mem_cons.1 hw' with rfl | hw'
  · exact ⟨hn.exe, show _ < 1024 by omega⟩
  · refine ⟨hw w hw', ?_⟩
    have := spaced_length_le ws w hw'
    show _ < 1024
    omega

/-- A call: it works, or it does nothing and is seen to fail. -/
theorem ipfw_run (print : List Word → List Nat) {cmd : Str} {argv : List Word} (ha : strtoargv cmd = .ok (some argv))
    (size : Nat) (K : Ipfw) {fs : List Fate} (hf : Fate.refused ∉ fs) :
    ∃ fs', Fate.refused ∉ fs' ∧ (fs = [] → fs' = []) ∧
      (run_extcmd (ipfwTool print) cmd size (K, fs) = .ok (⟨true, truncate_partial_line
          ((ipfw print argv K).1.take (size - 1))⟩, ((ipfw print argv K).2, fs')) ∨
        fs ≠ [] ∧ run_extcmd (ipfwTool print) cmd size (K, fs) = .ok (⟨false, []⟩, (K, fs'))) := by
  cases fs with
  | nil => exact ⟨[], by simp, fun _ => rfl, .inl (run_words _ ha _ _)⟩
  | cons f fs =>
    have hf' : Fate.refused ∉ fs := fun h => hf (List.mem_cons_of_mem _ h)
    cases f with
    | works => exact ⟨fs, hf', by simp, .inl (run_words _ ha _ _)⟩
    | refused => exact absurd List.mem_cons_self hf
    | killed => exact ⟨fs, hf', by simp, .inr ⟨by simp, by
        rw [run_words _ ha]; simp [ipfwTool, ipfwUnder, truncate_partial_line]⟩⟩

/-! ## What the commands do -/

theorem decStr_plain (n : Nat) : PlainWord (decStr n) := by rw [decStr_decimal]; exact plain_decimal n

theorem decStr_short {n : Nat} (h : n < 10 ^ 5) : (decStr n).length ≤ 5 := decStr_length_le n 5 (by decide) h

theorem num_dec (n : Nat) : number 10 (decStr n) = n := by rw [decStr_decimal, number_decimal]

theorem dec_ne_word {n : Nat} {w : Word} (hw : ∃ c ∈ w, isDigit c = false) : decStr n ≠ w := by
  rintro rfl
  obtain ⟨c, h1, h2⟩ := hw
  rw [decStr_digits n c h1] at h2
  cases h2

theorem ipfw_list (print : List Word → List Nat) (exe : Word) (n : Nat) (K : Ipfw) :
    ipfw print [exe, b!"set", decStr n, b!"list"] K = (ipfwLines (K.of n), K) := by
  simp [ipfw, ipfwDo, num_dec]

theorem ipfw_disable (print : List Word → List Nat) (exe : Word) (n : Nat) (K : Ipfw) :
    ipfw print [exe, b!"set", b!"disable", decStr n] K = ([], { K with disabled := n :: K.disabled }) := by
  have := @dec_ne_word n b!"list" ⟨108, by decide, by decide⟩
  simp [ipfw, ipfwDo, num_dec, this]

theorem ipfw_delset (print : List Word → List Nat) (exe : Word) (n : Nat) (K : Ipfw) :
    ipfw print [exe, b!"delete", b!"set", decStr n] K = ([], { K with rules := K.rules.filter fun r => r.set ≠ n }) := by
  simp [ipfw, ipfwDo, num_dec]

theorem ipfw_listS (print : List Word → List Nat) (exe : Word) (n : Nat) (K : Ipfw) :
    ipfw print [exe, b!"-S", b!"set", decStr n, b!"list"] K = (ipfwSetLines (K.disabled.contains n) (K.of n), K) := by
  simp [ipfw, ipfwDo, num_dec]

theorem ipfw_listd (print : List Word → List Nat) (exe : Word) (n : Nat) (K : Ipfw) :
    ipfw print [exe, b!"-d", b!"set", decStr n, b!"list"] K = (ipfwLines (K.of n) ++ ipfwDynLines (K.dynOf n), K) := by
  simp [ipfw, ipfwDo, num_dec]

theorem ipfw_delete (print : List Word → List Nat) (exe : Word) (n m : Nat) (K : Ipfw) :
    ipfw print [exe, b!"set", decStr n, b!"delete", decStr m] K =
      ([], { K with rules := K.rules.filter fun r => ¬(r.set = n ∧ r.num = m) }) := by
  simp [ipfw, ipfwDo, num_dec]

theorem ipfw_move (print : List Word → List Nat) (exe : Word) (n m : Nat) (K : Ipfw) :
    ipfw print [exe, b!"set", b!"move", b!"rule", decStr n, b!"to", decStr m] K =
      ([], { K with rules := K.rules.map fun r => if r.num = n then { r with set := m } else r }) := by
  simp [ipfw, ipfwDo, num_dec]

theorem ipfw_add (print : List Word → List Nat) (exe : Word) (n m : Nat) (ws : List Word) (K : Ipfw) :
    (ipfw print (exe :: b!"add" :: decStr n :: b!"set" :: decStr m :: ws) K).2 =
      { K with rules := insertRule ⟨n, m, print ws⟩ K.rules } := by
  simp [ipfw, ipfwAdd, num_dec]

section
variable {cf : IpfwConf} (hn : IpfwNames cf)
include hn

theorem argv_list {n : Nat} (h : n ≤ 63) : strtoargv (ipfwCmd cf (b!"set " ++ decStr n ++ b!" list")) =
    .ok (some [cf.fw_command, b!"set", decStr n, b!"list"]) := by
  have := decStr_short (n := n) (by omega)
  apply ipfw_argv hn (by simp [spaced]) (by simp) _ (by simp; omega) (by simp)
  simp only [List.mem_cons, List.not_mem_nil, or_false, forall_eq_or_imp, forall_eq]
  exact ⟨by unfold PlainWord IsBlank; decide, decStr_plain n, by unfold PlainWord IsBlank; decide⟩

theorem argv_listS {n : Nat} (h : n ≤ 63) : strtoargv (ipfwCmd cf (b!"-S set " ++ decStr n ++ b!" list")) =
    .ok (some [cf.fw_command, b!"-S", b!"set", decStr n, b!"list"]) := by
  have := decStr_short (n := n) (by omega)
  apply ipfw_argv hn (by simp [spaced]) (by simp) _ (by simp; omega) (by simp)
  simp only [List.mem_cons, List.not_mem_nil, or_false, forall_eq_or_imp, forall_eq]
  exact ⟨by unfold PlainWord IsBlank; decide, by unfold PlainWord IsBlank; decide, decStr_plain n,
    by unfold PlainWord IsBlank; decide⟩

theorem argv_listd {n : Nat} (h : n ≤ 63) : strtoargv (ipfwCmd cf (b!"-d set " ++ decStr n ++ b!" list")) =
    .ok (some [cf.fw_command, b!"-d", b!"set", decStr n, b!"list"]) := by
  have := decStr_short (n := n) (by omega)
  apply ipfw_argv hn (by simp [spaced]) (by simp) _ (by simp; omega) (by simp)
  simp only [List.mem_cons, List.not_mem_nil, or_false, forall_eq_or_imp, forall_eq]
  exact ⟨by unfold PlainWord IsBlank; decide, by unfold PlainWord IsBlank; decide, decStr_plain n,
    by unfold PlainWord IsBlank; decide⟩

theorem argv_disable {n : Nat} (h : n ≤ 63) : strtoargv (ipfwCmd cf (b!"set disable " ++ decStr n)) =
    .ok (some [cf.fw_command, b!"set", b!"disable", decStr n]) := by
  have := decStr_short (n := n) (by omega)
  apply ipfw_argv hn (by simp [spaced]) (by simp) _ (by simp; omega) (by simp)
  simp only [List.mem_cons, List.not_mem_nil, or_false, forall_eq_or_imp, forall_eq]
  exact ⟨by unfold PlainWord IsBlank; decide, by unfold PlainWord IsBlank; decide, decStr_plain n⟩

theorem argv_delset {n : Nat} (h : n ≤ 63) : strtoargv (ipfwCmd cf (b!"delete set " ++ decStr n)) =
    .ok (some [cf.fw_command, b!"delete", b!"set", decStr n]) := by
  have := decStr_short (n := n) (by omega)
  apply ipfw_argv hn (by simp [spaced]) (by simp) _ (by simp; omega) (by simp)
  simp only [List.mem_cons, List.not_mem_nil, or_false, forall_eq_or_imp, forall_eq]
  exact ⟨by unfold PlainWord IsBlank; decide, by unfold PlainWord IsBlank; decide, decStr_plain n⟩

theorem argv_delete {n m : Nat} (h : n ≤ 63) (h2 : m ≤ 65535) :
    strtoargv (ipfwCmd cf (b!"set " ++ decStr n ++ b!" delete " ++ decStr m)) =
    .ok (some [cf.fw_command, b!"set", decStr n, b!"delete", decStr m]) := by
  have := decStr_short (n := n) (by omega)
  have := decStr_short (n := m) (by omega)
  apply ipfw_argv hn (by simp [spaced]) (by simp) _ (by simp; omega) (by simp)
  simp only [List.mem_cons, List.not_mem_nil, or_false, forall_eq_or_imp, forall_eq]
  exact ⟨by unfold PlainWord IsBlank; decide, decStr_plain n, by unfold PlainWord IsBlank; decide, decStr_plain m⟩

theorem argv_move {n m : Nat} (h : n ≤ 65535) (h2 : m ≤ 63) :
    strtoargv (ipfwCmd cf (b!"set move rule " ++ decStr n ++ b!" to " ++ decStr m)) =
    .ok (some [cf.fw_command, b!"set", b!"move", b!"rule", decStr n, b!"to", decStr m]) := by
  have := decStr_short (n := n) (by omega)
  have := decStr_short (n := m) (by omega)
  apply ipfw_argv hn (by simp [spaced]) (by simp) _ (by simp; omega) (by simp)
  simp only [List.mem_cons, List.not_mem_nil, or_false, forall_eq_or_imp, forall_eq]
  exact ⟨by unfold PlainWord IsBlank; decide, by unfold PlainWord IsBlank; decide, by unfold PlainWord IsBlank; decide,
    decStr_plain n, by unfold PlainWord IsBlank; decide, decStr_plain m⟩

theorem argv_check {n m : Nat} (h : n ≤ 65535) (h2 : m ≤ 63) :
    strtoargv (ipfwCmd cf (b!"add " ++ decStr n ++ b!" set " ++ decStr m ++ b!" check-state")) =
    .ok (some [cf.fw_command, b!"add", decStr n, b!"set", decStr m, b!"check-state"]) := by
  have := decStr_short (n := n) (by omega)
  have := decStr_short (n := m) (by omega)
  apply ipfw_argv hn (by simp [spaced]) (by simp) _ (by simp; omega) (by simp)
  simp only [List.mem_cons, List.not_mem_nil, or_false, forall_eq_or_imp, forall_eq]
  exact ⟨by unfold PlainWord IsBlank; decide, decStr_plain n, by unfold PlainWord IsBlank; decide, decStr_plain m,
    by unfold PlainWord IsBlank; decide⟩

theorem argv_add {num proto e port : Nat} {src dst : Str} (h : num ≤ 65535) (hs : PlainWord src) (hd : PlainWord dst)
    (hsl : src.length ≤ 15) (hdl : dst.length ≤ 15) (hp : proto < 1000) (hq : port ≤ 65535) (he : e < 2 ^ 32) :
    strtoargv (ipfwCmd cf (ipfwAddArgs cf num proto src dst port e)) =
    .ok (some (cf.fw_command :: b!"add" :: decStr num :: b!"set" :: decStr cf.active_set :: ipfwAccess src dst e proto port)) := by
  have h1 := decStr_short (n := num) (by omega)
  have h2 := decStr_short (n := cf.active_set) (by have := hn.act2; omega)
  have h3 := decStr_short (n := proto) (by omega)
  have h4 := decStr_short (n := port) (by omega)
  have h5 := decStr_length_le e 10 (by decide) (by omega)
  have hport : ((port : Int) % 2 ^ 32).toNat = port := by omega
  apply ipfw_argv hn
  · unfold ipfwAddArgs ipfwAccess
    rw [hport]
    simp [spaced, ← decStr_decimal]
  · simp
  · simp only [ipfwAccess, List.mem_cons, List.not_mem_nil, or_false, forall_eq_or_imp, forall_eq]
    refine ⟨?_, decStr_plain _, ?_, decStr_plain _, ?_, plain_decimal _, ?_, hs, ?_, hd, ?_, plain_decimal _, ?_, ?_, ?_, ?_⟩
    case refine_10 =>
      have := plain_decimal e
      refine ⟨by simp, fun c hc => ?_⟩
      rcases List.mem_append.1 hc with hc | hc
      · have h : ∀ c ∈ b!"_exp_", ¬ IsBlank c := by unfold IsBlank; decide
        exact h c hc
      · exact this.2 c hc
    all_goals (unfold PlainWord IsBlank; decide)
  · unfold ipfwAddArgs
    rw [hport]
    simp only [List.length_append, List.length_cons, List.length_nil]
    omega
  · simp [ipfwAccess]

end

/-! ## Texts -/

/-- What is left of some lines in a buffer: the ones that fit. -/
theorem truncate_lines (n : Nat) (ls : List (List Nat)) (hl : ∀ l ∈ ls, 10 ∉ l)
    (h1 : ∀ l, ls.head? = some l → l.length < n) :
    ∃ k, truncate_partial_line ((unlines ls).take n) = unlines (ls.take k) ∧ ((unlines ls).length ≤ n → ls.take k = ls) ∧
      (ls ≠ [] → k ≠ 0) := by
  have key : ∀ (ls ps : List (List Nat)) (n : Nat), (∀ l ∈ ls, 10 ∉ l) → ps ≠ [] →
      ∃ k, truncate_partial_line (unlines ps ++ (unlines ls).take n) = unlines ps ++ unlines (ls.take k) ∧
        ((unlines ls).length ≤ n → ls.take k = ls) := by
    intro ls
    induction ls with
    | nil =>
      intro ps n _ _
      exact ⟨0, by simpa [unlines] using truncate_unlines ps, fun _ => rfl⟩
    | cons l ls ih =>
      intro ps n hl hp
      by_cases hn : l.length + 1 ≤ n
      · obtain ⟨k, hk1, hk2⟩ := ih (ps ++ [l]) (n - (l.length + 1)) (fun x hx => hl x (List.mem_cons_of_mem _ hx)) (by simp)
        refine ⟨k + 1, ?_, fun h => ?_⟩
        · rw [unlines_cons, show l ++ 10 :: unlines ls = (l ++ [10]) ++ unlines ls from by simp, List.take_append,
            List.take_of_length_le (by simpa using hn), List.length_append, List.length_singleton, ← List.append_assoc,
            show unlines ps ++ (l ++ [10]) = unlines (ps ++ [l]) from by rw [unlines_append, unlines_cons]; simp [unlines],
            hk1, List.take_succ_cons, unlines_append, unlines_cons, unlines_cons]
          simp [unlines]
        · rw [List.take_succ_cons, hk2]
          rw [unlines_cons] at h
          simp only [List.length_append, List.length_cons] at h
          omega
      · refine ⟨0, ?_, fun h => ?_⟩
        · have : (unlines (l :: ls)).take n = l.take n := by
            rw [unlines_cons, List.take_append_of_le_length (by omega)]
          rw [this]
          rcases List.eq_nil_or_concat ps with rfl | ⟨init, p, rfl⟩
          · exact absurd rfl hp
          · rw [List.concat_eq_append, unlines_append, unlines_cons]
            show truncate_partial_line (unlines init ++ (p ++ 10 :: []) ++ l.take n) = _
            rw [show unlines init ++ (p ++ 10 :: []) ++ l.take n = (unlines init ++ p) ++ 10 :: l.take n from by simp,
              truncate_cut _ _ fun hc => hl l List.mem_cons_self (List.mem_of_mem_take hc)]
            simp [unlines]
        · exfalso
          rw [unlines_cons] at h
          simp only [List.length_append, List.length_cons] at h
          omega
  cases ls with
  | nil => exact ⟨0, by simp [unlines, truncate_partial_line], fun _ => rfl, fun h => absurd rfl h⟩
  | cons l ls =>
    have hln := h1 l rfl
    obtain ⟨k, hk1, hk2⟩ := key ls [l] (n - (l.length + 1)) (fun x hx => hl x (List.mem_cons_of_mem _ hx)) (by simp)
    refine ⟨k + 1, ?_, fun h => ?_, fun _ => by simp⟩
    · rw [unlines_cons, show l ++ 10 :: unlines ls = (l ++ [10]) ++ unlines ls from by simp, List.take_append,
        List.take_of_length_le (by simp; omega), List.length_append, List.length_singleton,
        show l ++ [10] = unlines [l] from by simp [unlines], hk1, List.take_succ_cons, unlines_cons l (ls.take k)]
      simp [unlines]
    · rw [List.take_succ_cons, hk2]
      rw [unlines_cons] at h
      simp only [List.length_append, List.length_cons] at h
      omega

theorem pad5_digits (n : Nat) : ∀ c ∈ pad5 n, isDigit c = true := by
  intro c hc
  rcases List.mem_append.1 hc with hc | hc
  · rw [List.eq_of_mem_replicate hc]; decide
  · rw [← decStr_decimal] at hc; exact decStr_digits n c hc

theorem pad5_length {n : Nat} (h : n ≤ 65535) : (pad5 n).length = 5 := by
  have := decStr_short (n := n) (by omega)
  rw [decStr_decimal] at this
  simp only [pad5, List.length_append, List.length_replicate]
  omega

theorem digitsVal_zeros (k : Nat) (s : Str) : digitsVal 10 (List.replicate k 48 ++ s) = digitsVal 10 s := by
  induction k with
  | zero => simp
  | succ k ih => rw [List.replicate_succ, List.cons_append, digitsVal_cons, ih]; simp

theorem pad5_val (n : Nat) : digitsVal 10 (pad5 n) = n := by
  rw [pad5, digitsVal_zeros, decimal_val]

theorem not_mem_pad5 {c : Nat} (hc : isDigit c = false) (n : Nat) : c ∉ pad5 n := by
  intro h
  rw [pad5_digits n c h] at hc
  cases hc

/-- A rule number is read, whatever comes after the blank. -/
theorem read_pad5 {n : Nat} (h : n ≤ 65535) (rest : Str) (hr : ∀ c, rest.head? = some c → isDigit c = false) :
    strtol_wrapper (pad5 n ++ rest) 0 (-1) = ((n : Int), true) := by
  have hl := pad5_length h
  have h1 := strtol_numeral [] [] (pad5 n) rest (by simp) (.inl rfl) (pad5_digits n) hr
    (fun e => by rw [e] at hl; simp at hl)
  simp only [List.nil_append, pad5_val] at h1
  unfold strtol_wrapper
  rw [h1]
  have h2 : clampLong (n : Int) = ((n : Int), false) := by
    unfold clampLong
    rw [if_neg (by show ¬ _; simp only [LONG_MAX]; omega), if_neg (by simp only [LONG_MIN]; omega)]
  simp only [show ¬ (([] : Str) = b!"-") from by decide, if_false, h2]
  have h3 : toInt32 (n : Int) = n := by unfold toInt32; omega
  simp only [h3]
  simp

/-- Numbers are entered in the map, those in range. -/
def enterAll (cf : IpfwConf) (v : RuleState) (ns : List Nat) (map : List RuleState) : List RuleState :=
  ns.foldl (fun m n => if cf.start ≤ n ∧ n < cf.start + cf.max_rules then m.set (n - cf.start) v else m) map

theorem enterAll_length (cf : IpfwConf) (v : RuleState) (ns : List Nat) (map : List RuleState) :
    (enterAll cf v ns map).length = map.length := by
  unfold enterAll
  induction ns generalizing map with
  | nil => rfl
  | cons n ns ih => rw [List.foldl_cons, ih]; split <;> simp

theorem enterAll_get (cf : IpfwConf) (v : RuleState) (ns : List Nat) (map : List RuleState) (hl : map.length = cf.max_rules)
    (i : Nat) (hi : i < cf.max_rules) :
    (enterAll cf v ns map)[i]? = if cf.start + i ∈ ns then some v else map[i]? := by
  unfold enterAll
  induction ns generalizing map with
  | nil => simp
  | cons n ns ih =>
    rw [List.foldl_cons, ih _ (by split <;> simp [hl])]
    by_cases h1 : cf.start + i ∈ ns
    · simp [h1]
    · by_cases h2 : cf.start + i = n
      · have h3 : cf.start ≤ n ∧ n < cf.start + cf.max_rules := by omega
        have h4 : cf.start + i ∈ n :: ns := by simp [h2]
        rw [if_neg h1, if_pos h4, if_pos h3, show n - cf.start = i from by omega,
          List.getElem?_set_self (by omega)]
      · have h4 : cf.start + i ∉ n :: ns := by simp [h1, h2]
        rw [if_neg h1, if_neg h4]
        split
        · rw [List.getElem?_set_ne (by omega)]
        · rfl

theorem setMap_ok {cf : IpfwConf} {map : List RuleState} {n : Nat} (h1 : cf.start ≤ n) (h2 : n < cf.start + map.length)
    (v : RuleState) : setMap cf map n v = .ok (map.set (n - cf.start) v) := by
  unfold setMap
  rw [Res.mem_of_not (by omega), bind_ok]
  rfl

theorem enter_pad5 {cf : IpfwConf} {map : List RuleState} (hl : map.length = cf.max_rules) {n : Nat} (h : n ≤ 65535)
    (rest : Str) (hr : ∀ c, rest.head? = some c → isDigit c = false) (v : RuleState) :
    enter cf (pad5 n ++ rest) v map = .ok (enterAll cf v [n] map) := by
  unfold enter
  rw [read_pad5 h rest hr]
  simp only [true_and, show (((n : Nat) : Int) % 2 ^ 16).toNat = n from by omega]
  show _ = Res.ok (if cf.start ≤ n ∧ n < cf.start + cf.max_rules then map.set (n - cf.start) v else map)
  split
  · rename_i h1
    exact setMap_ok h1.1 (by omega) v
  · rfl

theorem strchr_after {c : Nat} (x y : Str) (h : c ∉ x) : strchr (x ++ c :: y) c = some x.length := by
  induction x with
  | nil => simp [strchr]
  | cons a x ih =>
    have ha : a ≠ c := fun e => h (by simp [e])
    rw [List.cons_append, strchr, if_neg ha, ih fun e => h (List.mem_cons_of_mem _ e)]
    rfl

/-- The lines of the dynamic rules are read. -/
theorem dynLoop_lines {cf : IpfwConf} (ds : List (Nat × List Nat)) (hd : ∀ d ∈ ds, d.1 ≤ 65535 ∧ 10 ∉ d.2) :
    ∀ (map : List RuleState) (fuel : Nat), map.length = cf.max_rules → ds.length < fuel →
      dynLoop cf fuel (unlines (ds.map fun d => pad5 d.1 ++ 32 :: d.2)) map =
        .ok (enterAll cf .marked (ds.map (·.1)) map) := by
  induction ds with
  | nil =>
    intro map fuel _ hf
    cases fuel with
    | zero => simp at hf
    | succ fuel => simp [dynLoop, unlines, enterAll]
  | cons d ds ih =>
    intro map fuel hl hf
    cases fuel with
    | zero => simp at hf
    | succ fuel =>
      obtain ⟨h1, h2⟩ := hd d List.mem_cons_self
      rw [List.map_cons, unlines_cons]
      have hp : ∀ t, (pad5 d.1 ++ t).dropWhile (fun c => !isDigit c) = pad5 d.1 ++ t := by
        intro t
        cases hq : pad5 d.1 with
        | nil => have := pad5_length h1; rw [hq] at this; simp at this
        | cons a q =>
          have := pad5_digits d.1 a (by simp [hq])
          simp [this]
      have hne : ∀ t, pad5 d.1 ++ t ≠ [] := by
        intro t e
        have := pad5_length h1
        rw [(List.append_eq_nil_iff.1 e).1] at this
        simp at this
      rw [dynLoop]
      simp only [List.append_assoc, hp, List.cons_append]
      rw [if_neg (hne _), enter_pad5 hl h1 _ (by simp; decide), bind_ok]
      have h10 : 10 ∉ pad5 d.1 ++ 32 :: d.2 := by
        intro e
        rcases List.mem_append.1 e with e | e
        · exact not_mem_pad5 (by decide) _ e
        · rcases List.mem_cons.1 e with e | e
          · cases e
          · exact h2 e
      rw [show pad5 d.1 ++ 32 :: (d.2 ++ 10 :: unlines (ds.map fun d => pad5 d.1 ++ 32 :: d.2)) =
        (pad5 d.1 ++ 32 :: d.2) ++ 10 :: unlines (ds.map fun d => pad5 d.1 ++ 32 :: d.2) from by simp, strchr_after _ _ h10]
      simp only [show ∀ (x y : Str), (x ++ 10 :: y).drop (x.length + 1) = y from by
        intro x y; rw [List.drop_append, List.drop_of_length_le (by omega)]; simp]
      rw [ih (fun x hx => hd x (List.mem_cons_of_mem _ hx)) _ fuel (by rw [enterAll_length, hl]) (by
        simp only [List.length_cons] at hf; omega)]
      rfl

/-! ## Titles -/

theorem hash_none {p : Str → Bool} (hp : ∀ s, p s = true → s.head? = some 35) {s : Str} (h : 35 ∉ s) :
    findSuffix p s = none := by
  cases hf : findSuffix p s with
  | none => rfl
  | some n =>
    obtain ⟨_, h2, _⟩ := findSuffix_some hf
    have := hp _ h2
    rw [List.head?_drop] at this
    exact absurd (List.mem_of_getElem? this) h

theorem hash_at {p : Str → Bool} (hp : ∀ s, p s = true → s.head? = some 35) {x y : Str} (hx : 35 ∉ x) (hy : p y = true) :
    findSuffix p (x ++ y) = some x.length := by
  apply findSuffix_unique
  · simp
  · rw [List.drop_left]; exact hy
  · intro i hi
    cases hq : p ((x ++ y).drop i) with
    | false => rfl
    | true =>
      have := hp _ hq
      rw [List.head?_drop, List.getElem?_append_left hi] at this
      exact absurd (List.mem_of_getElem? this) hx

theorem disabled_hash (s : Str) (h : hasPrefix b!"# DISABLED " s = true) : s.head? = some 35 := by
  cases s with
  | nil => simp [hasPrefix] at h
  | cons c cs =>
    simp only [hasPrefix, List.isPrefixOf_cons_cons, Bool.and_eq_true, beq_iff_eq] at h
    simp [h.1]

theorem dynamic_hash (s : Str) (h : hasPrefixI b!"## Dynamic rules" s = true) : s.head? = some 35 := by
  cases s with
  | nil => simp [hasPrefixI] at h
  | cons c cs =>
    simp only [hasPrefixI, List.map_cons, List.isPrefixOf_cons_cons, Bool.and_eq_true, beq_iff_eq] at h
    have h1 : 35 = toLower c := h.1
    clear h
    unfold toLower at h1
    simp only [List.head?_cons, Option.some.injEq]
    split at h1
    · rename_i hc
      simp only [Bool.and_eq_true, decide_eq_true_eq] at hc
      omega
    · exact h1.symm

/-- The lines of a disabled set are read. -/
theorem initLoop_lines {cf : IpfwConf} (rs : List IpfwRule) (hr : ∀ r ∈ rs, r.num ≤ 65535 ∧ 35 ∉ r.body) :
    ∀ (x : Str) (map : List RuleState) (fuel : Nat), 35 ∉ x → map.length = cf.max_rules → rs.length < fuel →
      initLoop cf fuel (x ++ ipfwSetLines true rs) map = .ok (enterAll cf .expired (rs.map (·.num)) map) := by
  induction rs with
  | nil =>
    intro x map fuel hx _ hf
    cases fuel with
    | zero => simp at hf
    | succ fuel =>
      rw [initLoop, show ipfwSetLines true [] = [] from rfl, List.append_nil, hash_none disabled_hash hx]
      rfl
  | cons r rs ih =>
    intro x map fuel hx hl hf
    cases fuel with
    | zero => simp at hf
    | succ fuel =>
      obtain ⟨h1, h2⟩ := hr r List.mem_cons_self
      have hshape : ipfwSetLines true (r :: rs) =
          b!"# DISABLED " ++ (pad5 r.num ++ (b!" set " ++ decimal r.set ++ 32 :: r.body ++ [10]) ++ ipfwSetLines true rs) := by
        unfold ipfwSetLines
        rw [List.map_cons, unlines_cons]
        simp
      have hfind : findSuffix (hasPrefix b!"# DISABLED ") (x ++ ipfwSetLines true (r :: rs)) = some x.length := by
        apply hash_at disabled_hash hx
        rw [hshape]
        simp [hasPrefix]
      have hx' : 35 ∉ pad5 r.num ++ (b!" set " ++ decimal r.set ++ 32 :: r.body ++ [10]) := by
        intro e
        have hd : 35 ∉ decimal r.set := by
          intro e
          rw [← decStr_decimal] at e
          exact absurd (decStr_digits _ _ e) (by decide)
        have := not_mem_pad5 (c := 35) (by decide) r.num
        simp_all
      have hdrop : (x ++ ipfwSetLines true (r :: rs)).drop (x.length + 11) =
          pad5 r.num ++ (b!" set " ++ decimal r.set ++ 32 :: r.body ++ [10]) ++ ipfwSetLines true rs := by
        rw [hshape, List.drop_append, List.drop_of_length_le (by omega)]
        simp
      have hdig : isDigit ((pad5 r.num ++ (b!" set " ++ decimal r.set ++ 32 :: r.body ++ [10]) ++
          ipfwSetLines true rs).headD 0) = true := by
        cases hq : pad5 r.num with
        | nil => have := pad5_length h1; rw [hq] at this; simp at this
        | cons a q =>
          have := pad5_digits r.num a (by simp [hq])
          simpa using this
      rw [initLoop, hfind]
      simp only [hdrop]
      rw [if_pos hdig, List.append_assoc (pad5 r.num), enter_pad5 hl h1 _ (by simp; decide), bind_ok,
        ← List.append_assoc (pad5 r.num),
        ih (fun y hy => hr y (List.mem_cons_of_mem _ hy)) _ _ fuel hx' (by rw [enterAll_length, hl]) (by
          simp only [List.length_cons] at hf; omega)]
      rfl

/-! ## The rule to move -/

/-- A mark lies within a line. -/
theorem line_at (init : List (List Nat)) : ∀ (last : List Nat) (p : Nat),
    b!"_exp_" <+: (unlines init ++ last).drop p →
    ∃ Q m R, unlines init ++ last = Q ++ m ++ R ∧ AtLine Q ∧ m ∈ init ++ [last] ∧ Q.length ≤ p ∧ p + 5 ≤ Q.length + m.length := by
  induction init with
  | nil =>
    intro last p h
    have := h.length_le
    simp only [unlines, List.flatMap_nil, List.nil_append, List.length_drop, List.length_cons, List.length_nil] at this h
    exact ⟨[], last, [], by simp [unlines], .inl rfl, by simp, by simp, by simp; omega⟩
  | cons a init ih =>
    intro last p h
    have hbuf : unlines (a :: init) ++ last = a ++ 10 :: (unlines init ++ last) := by rw [unlines_cons]; simp
    by_cases h1 : p + 5 ≤ a.length
    · exact ⟨[], a, 10 :: (unlines init ++ last), by rw [hbuf]; rfl, .inl rfl, by simp, by simp, by simpa using h1⟩
    · by_cases h2 : a.length + 1 ≤ p
      · rw [hbuf, List.drop_append, List.drop_of_length_le (by omega), List.nil_append,
          show p - a.length = p - (a.length + 1) + 1 from by omega, List.drop_succ_cons] at h
        obtain ⟨Q, m, R, e, hQ, hm, h3, h4⟩ := ih last _ h
        refine ⟨a ++ 10 :: Q, m, R, by rw [hbuf, e]; simp, ?_, ?_, ?_, ?_⟩
        · right
          rcases hQ with rfl | ⟨Q', rfl⟩
          · exact ⟨a, rfl⟩
          · exact ⟨a ++ 10 :: Q', by simp⟩
        · simp only [List.cons_append]; exact List.mem_cons_of_mem _ hm
        · simp only [List.length_append, List.length_cons]; omega
        · simp only [List.length_append, List.length_cons]; omega
      · exfalso
        have h3 : ((unlines (a :: init) ++ last).drop p)[a.length - p]? = some 10 := by
          rw [List.getElem?_drop, show p + (a.length - p) = a.length from by omega, hbuf,
            List.getElem?_append_right (by omega), Nat.sub_self]
          rfl
        obtain ⟨t, ht⟩ := h
        rw [← ht, List.getElem?_append_left (by simp; omega)] at h3
        exact absurd (List.mem_of_getElem? h3) (by decide)

theorem unlines_concat (init : List (List Nat)) (l : List Nat) (h : l ≠ []) :
    chop_newline (unlines (init ++ [l])) = unlines init ++ l := by
  have : unlines (init ++ [l]) = (unlines init ++ l) ++ [10] := by rw [unlines_append, unlines_cons]; simp [unlines]
  rw [this, chop_newline, if_pos, List.dropLast_concat]
  refine ⟨?_, by simp⟩
  cases l with
  | nil => exact absurd rfl h
  | cons a l => simp only [List.length_append, List.length_cons, List.length_nil]; omega

/-- A rule number before a mark is read. -/
theorem ipfwRuleNum_line {Q m R : Str} (hQ : AtLine Q) {n : Nat} (h : n ≤ 65535) {body : Str} (hm : m = pad5 n ++ 32 :: body)
    (hnl : 10 ∉ m) {k : Nat} (h1 : Q.length ≤ k) (h2 : k ≤ Q.length + m.length) :
    ipfwRuleNum (Q ++ m ++ R) k = .ok (some (some n)) := by
  have hs : pfLineStart (Q ++ m ++ R) k = Q.length := by
    have := pfLineStart_eq (Q := Q) (y := m.take (k - Q.length)) hQ
      (fun e => hnl (List.mem_of_mem_take e)) (m.drop (k - Q.length) ++ R) k
      (by rw [List.length_take]; omega)
    rwa [show Q ++ m.take (k - Q.length) ++ (m.drop (k - Q.length) ++ R) = Q ++ m ++ R from by
      simp only [List.append_assoc]; rw [← List.append_assoc (m.take _), List.take_append_drop]] at this
  have hl := pad5_length h
  unfold ipfwRuleNum
  rw [hs]
  simp only [List.append_assoc, List.drop_left]
  rw [hm]
  simp only [List.append_assoc, List.cons_append]
  rw [strchr_after _ _ (not_mem_pad5 (by decide) n), hl]
  show (Res.mem _ >>= _) = _
  rw [Res.mem_of_not (by omega), bind_ok, List.take_left' hl, ← List.append_nil (pad5 n), read_pad5 h [] (by simp)]
  show Res.ok (some (if true = true then some (((n : Int) % 2 ^ 16).toNat) else none)) = _
  rw [if_pos rfl]
  congr 3
  omega

/-- The loop finds nothing, or one of the rules that are listed. -/
theorem ipfwScan_found (now : Int) {init : List IpfwRule} {last : IpfwRule} (f : IpfwRule → List Nat)
    (hf : f = fun r => pad5 r.num ++ 32 :: r.body)
    (hr : ∀ r ∈ init ++ [last], r.num ≤ 65535 ∧ 10 ∉ r.body) (fuel : Nat) :
    ∀ ndx, (∀ p, ndx = some p → b!"_exp_" <+: (unlines (init.map f) ++ f last).drop p) →
      ∃ g, ipfwScan now (unlines (init.map f) ++ f last) fuel ndx = .ok g ∧
        (g = .nothing ∨ ∃ r ∈ init ++ [last], g = .rule r.num) := by
  induction fuel with
  | zero => intro ndx _; exact ⟨_, rfl, .inl rfl⟩
  | succ fuel ih =>
    intro ndx hp
    cases ndx with
    | none => exact ⟨_, rfl, .inl rfl⟩
    | some p =>
      rw [ipfwScan]
      have hnext : ∀ q, (findExp ((unlines (init.map f) ++ f last).drop (p + EXPIRE_COMMENT_PREFIX.length))).map
          (· + (p + EXPIRE_COMMENT_PREFIX.length)) = some q →
          b!"_exp_" <+: (unlines (init.map f) ++ f last).drop q := by
        intro q hq
        cases hfe : findExp ((unlines (init.map f) ++ f last).drop (p + EXPIRE_COMMENT_PREFIX.length)) with
        | none => rw [hfe] at hq; cases hq
        | some n =>
          rw [hfe] at hq
          injection hq with hq
          obtain ⟨_, h2, _⟩ := findSuffix_some hfe
          rw [List.drop_drop] at h2
          have hq : n + (p + EXPIRE_COMMENT_PREFIX.length) = q := hq
          rw [← hq, Nat.add_comm n]
          simpa [hasPrefix] using h2
      split
      · exact ih _ hnext
      · split
        · obtain ⟨Q, m, R, e, hQ, hm, h1, h2⟩ := line_at _ _ _ (hp p rfl)
          have : ∃ r ∈ init ++ [last], m = f r := by
            rw [show init.map f ++ [f last] = (init ++ [last]).map f from by simp] at hm
            obtain ⟨r, hr1, hr2⟩ := List.mem_map.1 hm
            exact ⟨r, hr1, hr2.symm⟩
          obtain ⟨r, hr1, rfl⟩ := this
          obtain ⟨hn, hb⟩ := hr r hr1
          have hnl : 10 ∉ f r := by
            rw [hf]
            intro e
            rcases List.mem_append.1 e with e | e
            · exact not_mem_pad5 (by decide) _ e
            · rcases List.mem_cons.1 e with e | e
              · cases e
              · exact hb e
          have := ipfwRuleNum_line (R := R) (k := p + 5) hQ hn (show f r = pad5 r.num ++ 32 :: r.body from by rw [hf]) hnl (by omega) (by omega)
          rw [e]
          show ∃ g, (ipfwRuleNum (Q ++ f r ++ R) (p + 5) >>= _) = _ ∧ _
          rw [this, bind_ok]
          exact ⟨_, rfl, .inr ⟨r, hr1, rfl⟩⟩
        · exact ih _ hnext

end Fwknop
