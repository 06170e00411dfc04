import Verif.Model.Iptables
import Verif.Lemmas.Extcmd
import Verif.Lemmas.RoundTrip

/-!
# Lemmas: the iptables back end
-/

namespace Fwknop

open Spec Res

/-- iptables, with the tables and the fates of the coming calls as the state of the world. -/
def iptTool (print : Host) : Tool (Tables × List Fate) where
  exec argv w :=
    let r := iptablesUnder print argv w.1 w.2
    (⟨r.1, r.2.1⟩, (r.2.2.1, r.2.2.2))

theorem exec_nil (print : Host) (argv : List Word) (K : Tables) :
    (iptTool print).exec argv (K, []) = (⟨(iptables print argv K).1, true⟩, (iptables print argv K).2, []) := rfl

theorem exec_works (print : Host) (argv : List Word) (K : Tables) (fs : List Fate) :
    (iptTool print).exec argv (K, .works :: fs) =
      (⟨(iptables print argv K).1, true⟩, (iptables print argv K).2, fs) := rfl

theorem exec_killed (print : Host) (argv : List Word) (K : Tables) (fs : List Fate) :
    (iptTool print).exec argv (K, .killed :: fs) = (⟨[], false⟩, K, fs) := rfl

/-! ## Marks -/

theorem mark_iff (s : Str) : b!"_exp_" <:+: s ↔ ∃ i ≤ s.length, b!"_exp_" <+: s.drop i := by
  constructor
  · rintro ⟨a, b, h⟩
    refine ⟨a.length, by rw [← h]; simp, b, ?_⟩
    rw [← h, List.append_assoc, List.drop_left]
  · rintro ⟨i, _, b, h⟩
    exact ⟨s.take i, b, by rw [List.append_assoc, h, List.take_append_drop]⟩

theorem findExp_none {s : Str} (h : NoMark s) : findExp s = none := by
  cases hf : findExp s with
  | none => rfl
  | some n =>
    obtain ⟨h1, h2, _⟩ := findSuffix_some hf
    refine absurd ((mark_iff s).2 ⟨n, h1, ?_⟩) h
    simpa [hasPrefix] using h2

/-- A character that is not in the marker separates. -/
theorem noMark_sep {a b : Str} {c : Nat} (hc : c ∉ b!"_exp_") (ha : NoMark a) (hb : NoMark b) :
    NoMark (a ++ c :: b) := by
  intro h
  obtain ⟨i, hi, h⟩ := (mark_iff _).1 h
  by_cases h1 : i + 5 ≤ a.length
  · apply ha
    rw [mark_iff]
    refine ⟨i, by omega, ?_⟩
    rw [List.drop_append_of_le_length (by omega)] at h
    exact List.prefix_of_prefix_length_le h (List.prefix_append _ _) (by simp; omega)
  · by_cases h2 : a.length < i
    · apply hb
      rw [mark_iff]
      refine ⟨i - a.length - 1, ?_, ?_⟩
      · simp only [List.length_append, List.length_cons] at hi; omega
      · rw [List.drop_append, List.drop_of_length_le (by omega), List.nil_append,
          show i - a.length = (i - a.length - 1) + 1 from by omega, List.drop_succ_cons] at h
        exact h
    · apply hc
      obtain ⟨t, ht⟩ := h
      have : (a ++ c :: b)[a.length]? = some c := by simp
      rw [show a.length = i + (a.length - i) from by omega, ← List.getElem?_drop, ← ht,
        List.getElem?_append_left (by simp; omega)] at this
      exact List.mem_of_getElem? this

theorem noMark_of_no_underscore {s : Str} (h : 95 ∉ s) : NoMark s := by
  rintro ⟨a, b, e⟩
  apply h
  rw [← e]
  simp

theorem noMark_drop {s : Str} (h : NoMark s) (k : Nat) : NoMark (s.drop k) :=
  fun hi => h (hi.trans (List.drop_suffix k s).isInfix)

/-- The first mark of a text. -/
theorem findExp_first {a : Str} (ha : NoMark a) (rest : Str) :
    findExp (a ++ b!"/* _exp_" ++ rest) = some (a.length + 3) := by
  apply findSuffix_unique
  · simp only [List.length_append, List.length_cons, List.length_nil]; omega
  · rw [List.append_assoc, List.drop_append, List.drop_of_length_le (by omega),
      show a.length + 3 - a.length = 3 from by omega]
    simp [hasPrefix]
  · intro i hi
    cases hp : hasPrefix EXPIRE_COMMENT_PREFIX ((a ++ b!"/* _exp_" ++ rest).drop i) with
    | false => rfl
    | true =>
      exfalso
      have hp : b!"_exp_" <+: (a ++ b!"/* _exp_" ++ rest).drop i := by simpa [hasPrefix] using hp
      obtain ⟨t, ht⟩ := hp
      -- the space before the mark is no character of it
      by_cases h1 : i + 5 ≤ a.length + 3
      · have : b!"_exp_" <+: (a ++ b!"/* ").drop i := by
          refine List.prefix_of_prefix_length_le (⟨t, ht⟩ : b!"_exp_" <+: _) ?_ (by simp; omega)
          rw [show a ++ b!"/* _exp_" ++ rest = (a ++ b!"/* ") ++ (b!"_exp_" ++ rest) from by simp,
            List.drop_append_of_le_length (l₁ := a ++ b!"/* ") (by simp; omega)]
          exact List.prefix_append _ _
        have hn : NoMark (a ++ b!"/* ") :=
          noMark_sep (by decide) ha (noMark_of_no_underscore (by decide))
        exact hn ((mark_iff _).2 ⟨i, by simp; omega, this⟩)
      · have hg : (a ++ b!"/* _exp_" ++ rest)[a.length + 2]? = some 32 := by
          rw [List.append_assoc, List.getElem?_append_right (by omega),
            show a.length + 2 - a.length = 2 from by omega]
          rfl
        have h2 : ((a ++ b!"/* _exp_" ++ rest).drop i)[a.length + 2 - i]? = some 32 := by
          rw [List.getElem?_drop, show i + (a.length + 2 - i) = a.length + 2 from by omega, hg]
        rw [← ht, List.getElem?_append_left (by simp; omega)] at h2
        exact absurd (List.mem_of_getElem? h2) (by decide)

/-! ## The texts in a listing -/

theorem takeWhile_until (p : Nat → Bool) (a b : Str) (x : Nat) (ha : ∀ c ∈ a, p c = true) (hx : p x = false) :
    (a ++ x :: b).takeWhile p = a := by
  rw [List.takeWhile_append_of_pos ha, List.takeWhile_cons, hx]; simp

theorem chop_spaces_digits (d : Str) (hd : ∀ c ∈ d, isDigit c = true) (hne : d ≠ []) :
    chop_spaces (d ++ [32]) = d ∧ chop_spaces d = d := by
  have last : ∀ l : Str, (∀ c ∈ l, isDigit c = true) → (l.reverse.dropWhile (· = 32)).reverse = l := by
    intro l hl
    cases hr : l.reverse with
    | nil => simp_all
    | cons x xs =>
      have : x ∈ l := by rw [← List.mem_reverse, hr]; simp
      have h32 : x ≠ 32 := by rintro rfl; have := hl _ this; revert this; decide
      rw [List.dropWhile_cons]
      simp only [h32, decide_false]
      rw [if_neg (by decide), ← hr, List.reverse_reverse]
  cases d with
  | nil => exact absurd rfl hne
  | cons c cs =>
    have hcs := last cs fun x hx => hd x (List.mem_cons_of_mem _ hx)
    constructor
    · rw [List.cons_append, chop_spaces]
      simp only [List.reverse_append, List.reverse_cons, List.reverse_nil, List.nil_append, List.singleton_append]
      rw [List.dropWhile_cons]
      simp only [decide_true, if_true]
      rw [hcs]
    · rw [chop_spaces, hcs]

/-- The expiry time in a comment is read. -/
theorem expStr_decimal (e : Nat) (he : e < 2 ^ 32) (b : Str) : expStr (decimal e ++ b!" */" ++ b) = decimal e := by
  rw [← decStr_decimal]
  have hd := decStr_digits e
  have hl := decStr_length_le e 10 (by decide) (by omega)
  have hne := decStr_ne_nil e
  have h42 : ∀ c ∈ decStr e, (decide (c ≠ 42)) = true := by
    intro c hc
    have := hd c hc
    simp only [decide_eq_true_eq]
    rintro rfl; revert this; decide
  unfold expStr
  have hc := chop_spaces_digits (decStr e) hd hne
  rw [List.append_assoc, List.take_append, List.take_of_length_le (by omega)]
  rw [List.takeWhile_append_of_pos h42]
  obtain ⟨n, hn⟩ : ∃ n, 11 - (decStr e).length = n + 1 := ⟨10 - (decStr e).length, by omega⟩
  rw [hn]
  simp only [List.cons_append, List.take_succ_cons, List.nil_append]
  rw [List.takeWhile_cons]
  simp only [show decide (32 ≠ 42) = true from by decide, if_true]
  cases n with
  | zero => simpa using hc.1
  | succ n =>
    rw [List.take_succ_cons, List.takeWhile_cons]
    simpa using hc.1

theorem is_digits_decimal (e : Nat) : is_digits (decimal e) = true := by
  rw [← decStr_decimal, is_digits, List.all_eq_true]; exact decStr_digits e

theorem decimal_val (e : Nat) : digitsVal 10 (decimal e) = e := by rw [← decStr_decimal, decStr_val]

/-- The number at the start of a line is read. -/
theorem ruleNum_line (P x y : Str) (n off : Nat) (k : Nat) (hx : 10 ∉ x) (hn : n ≤ 65535) (ho : off ≤ n)
    (hk : k = (P ++ 10 :: (decimal n ++ 32 :: x)).length) :
    ruleNum (P ++ 10 :: (decimal n ++ 32 :: x) ++ y) k off = .ok (some (n : Int)) := by
  have hd := decStr_digits n
  have hl := decStr_length_le n 5 (by decide) (by omega)
  have no10 : 10 ∉ decimal n ++ 32 :: x := by
    rw [← decStr_decimal]
    intro h
    rcases List.mem_append.1 h with h | h
    · have := hd 10 h; revert this; decide
    · rcases List.mem_cons.1 h with h | h
      · revert h; decide
      · exact hx h
  have hls : lineStart (P ++ 10 :: (decimal n ++ 32 :: x) ++ y) k = some (P.length + 1) := by
    unfold lineStart
    rw [hk, List.take_left' rfl]
    have hr : (P ++ 10 :: (decimal n ++ 32 :: x)).reverse = (decimal n ++ 32 :: x).reverse ++ 10 :: P.reverse := by
      simp
    simp only [hr]
    have hcont : ((decimal n ++ 32 :: x).reverse ++ 10 :: P.reverse).contains 10 = true := by simp
    have htw := takeWhile_until (fun c => decide (c ≠ 10)) (decimal n ++ 32 :: x).reverse P.reverse 10
      (fun c hc => by
        simp only [decide_eq_true_eq]
        rintro rfl
        exact no10 (List.mem_reverse.1 hc)) (by decide)
    rw [hcont, if_pos rfl, htw]
    simp only [List.length_append, List.length_cons, List.length_reverse]
    congr 1
    omega
  unfold ruleNum
  rw [hls]
  simp only
  have hdrop : (P ++ 10 :: (decimal n ++ 32 :: x) ++ y).drop (P.length + 1) = decimal n ++ 32 :: (x ++ y) := by
    rw [show P ++ 10 :: (decimal n ++ 32 :: x) ++ y = (P ++ [10]) ++ (decimal n ++ 32 :: (x ++ y)) from by simp]
    exact List.drop_left' (by simp)
  rw [hdrop, strchr_split _ _ _ (by
    rw [← decStr_decimal]; intro h; have := hd 32 h; revert this; decide)]
  simp only
  rw [List.take_left' rfl]
  rw [show decide ((decimal n).length + 1 > 6) = false from by
    rw [← decStr_decimal]; simp only [decide_eq_false_iff_not]; omega, mem_false, bind_ok]
  rw [← decStr_decimal, strtol_wrapper_digits (decStr n) hd (decStr_ne_nil n) (by rw [decStr_val]; omega),
    decStr_val]
  rw [show decide ((off : Int) ≤ (n : Nat) ∧ (RCHK_MAX_IPT_RULE_NUM < 0 ∨ ((n : Nat) : Int) ≤ RCHK_MAX_IPT_RULE_NUM)) =
    true from by
      simp only [decide_eq_true_eq]
      show (off : Int) ≤ (n : Nat) ∧ ((65536 : Int) < 0 ∨ ((n : Nat) : Int) ≤ 65536)
      omega]
  rfl

/-! ## The program -/

theorem put_same {K : Tables} {t c : Word} {rs : List Rule} (h : K t c = some rs) : K.put t c rs = K := by
  funext t' c'
  unfold Tables.put
  by_cases he : t' = t ∧ c' = c
  · rw [if_pos he, he.1, he.2, h]
  · rw [if_neg he]

theorem put_put (K : Tables) (t c : Word) (a b : List Rule) : (K.put t c a).put t c b = K.put t c b := by
  funext t' c'
  unfold Tables.put
  by_cases he : t' = t ∧ c' = c
  · rw [if_pos he, if_pos he]
  · rw [if_neg he, if_neg he, if_neg he]

theorem put_get (K : Tables) (t c : Word) (a : List Rule) : K.put t c a t c = some a := by
  unfold Tables.put; rw [if_pos ⟨rfl, rfl⟩]

theorem put_other (K : Tables) {t c t' c' : Word} (a : List Rule) (h : ¬ (t' = t ∧ c' = c)) :
    K.put t c a t' c' = K t' c' := by
  unfold Tables.put; rw [if_neg h]

/-- The words in the commands of a chain: the program, the table and the chain. -/
structure NamesOk (cf : FwConf) (ch : FwChain) : Prop where
  exe : PlainWord cf.fw_command
  table : PlainWord ch.table
  chain : PlainWord ch.to_chain

theorem plain_decimal (n : Nat) : PlainWord (decimal n) := by
  rw [← decStr_decimal]
  refine ⟨decStr_ne_nil n, fun c hc hb => ?_⟩
  have := isDigit_not_space c (decStr_digits n c hc)
  rw [(isSpace_iff c).2 hb] at this
  cases this

theorem isNumber_decimal (n : Nat) : isNumber (decimal n) = true := by
  rw [← decStr_decimal, isNumber, Bool.and_eq_true]
  refine ⟨by simpa using decStr_ne_nil n, ?_⟩
  rw [List.all_eq_true]
  intro c hc
  have := decStr_digits n c hc
  simpa [isDigit] using this

theorem number_decimal (n : Nat) : number 10 (decimal n) = n := by rw [number_eq, decimal_val]

/-- `iptables -t table -D chain n`. -/
theorem iptables_delete {print : Host} {exe t c : Word} {n : Nat} {K : Tables} {rs : List Rule}
    (hK : K t c = some rs) (h1 : 1 ≤ n) (h2 : n ≤ rs.length) :
    iptables print [exe, b!"-t", t, b!"-D", c, decimal n] K = ([], K.put t c (rs.eraseIdx (n - 1))) := by
  unfold iptables
  simp only [List.tail_cons, List.foldl_cons, List.foldl_nil]
  simp only [Call.feed, Call.plain, isNumber_decimal, number_decimal]
  simp [Call.perform, hK, h1, h2]

/-- `iptables -t table -L chain --line-numbers -n`. -/
theorem iptables_list {print : Host} {exe t c : Word} {K : Tables} {rs : List Rule}
    (hK : K t c = some rs) :
    iptables print [exe, b!"-t", t, b!"-L", c, b!"--line-numbers", b!"-n"] K = (listing print c rs, K) := by
  unfold iptables
  simp only [List.tail_cons, List.foldl_cons, List.foldl_nil]
  simp [Call.perform, Call.feed, Call.plain, hK]

theorem strtoargv_delete {cf : FwConf} {ch : FwChain} (hw : NamesOk cf ch)
    (hroom : cf.fw_command.length + ch.table.length + ch.to_chain.length ≤ 230) {n : Nat} (hn : n ≤ 65535) :
    strtoargv (cmdBuf (cf.fw_command ++ b!" -t " ++ ch.table ++ b!" -D " ++ ch.to_chain ++ b!" " ++
      decStrInt (n : Int))) = .ok (some [cf.fw_command, b!"-t", ch.table, b!"-D", ch.to_chain, decimal n]) := by
  have hl := decStr_length_le n 5 (by decide) (by omega)
  have hd : decStrInt (n : Int) = decimal n := by
    rw [decStrInt, if_neg (by omega), Int.natAbs_natCast, decStr_decimal]
  rw [decStr_decimal] at hl
  rw [hd, cmdBuf, cmdBuf_short (by simp only [List.length_append, List.length_cons, List.length_nil]; omega)]
  rw [show cf.fw_command ++ b!" -t " ++ ch.table ++ b!" -D " ++ ch.to_chain ++ b!" " ++ decimal n =
    spaced [cf.fw_command, b!"-t", ch.table, b!"-D", ch.to_chain, decimal n] from by simp [spaced]]
  apply strtoargv_spaced _ (by simp only [List.length_cons, List.length_nil]; decide)
  intro w hw'
  simp only [List.mem_cons, List.not_mem_nil, or_false] at hw'
  rcases hw' with rfl | rfl | rfl | rfl | rfl | rfl
  · exact ⟨hw.exe, show _ < 1024 by omega⟩
  · exact ⟨by unfold PlainWord IsBlank; decide, by decide⟩
  · exact ⟨hw.table, show _ < 1024 by omega⟩
  · exact ⟨by unfold PlainWord IsBlank; decide, by decide⟩
  · exact ⟨hw.chain, show _ < 1024 by omega⟩
  · exact ⟨plain_decimal n, show _ < 1024 by omega⟩

theorem strtoargv_list {cf : FwConf} {ch : FwChain} (hw : NamesOk cf ch)
    (hroom : cf.fw_command.length + ch.table.length + ch.to_chain.length ≤ 220) :
    strtoargv (cmdBuf (cf.fw_command ++ b!" -t " ++ ch.table ++ b!" -L " ++ ch.to_chain ++
      b!" --line-numbers -n")) =
      .ok (some [cf.fw_command, b!"-t", ch.table, b!"-L", ch.to_chain, b!"--line-numbers", b!"-n"]) := by
  rw [cmdBuf, cmdBuf_short (by simp only [List.length_append, List.length_cons, List.length_nil]; omega)]
  rw [show cf.fw_command ++ b!" -t " ++ ch.table ++ b!" -L " ++ ch.to_chain ++ b!" --line-numbers -n" =
    spaced [cf.fw_command, b!"-t", ch.table, b!"-L", ch.to_chain, b!"--line-numbers", b!"-n"] from by simp [spaced]]
  apply strtoargv_spaced _ (by simp only [List.length_cons, List.length_nil]; decide)
  intro w hw'
  simp only [List.mem_cons, List.not_mem_nil, or_false] at hw'
  rcases hw' with rfl | rfl | rfl | rfl | rfl | rfl | rfl
  · exact ⟨hw.exe, show _ < 1024 by omega⟩
  · exact ⟨by unfold PlainWord IsBlank; decide, by decide⟩
  · exact ⟨hw.table, show _ < 1024 by omega⟩
  · exact ⟨by unfold PlainWord IsBlank; decide, by decide⟩
  · exact ⟨hw.chain, show _ < 1024 by omega⟩
  · exact ⟨by unfold PlainWord IsBlank; decide, by decide⟩
  · exact ⟨by unfold PlainWord IsBlank; decide, by decide⟩

/-- Deleting the rule after `kept`: it is gone, or the program did not run. -/
theorem rmRule_step {print : Host} {cf : FwConf} {ch : FwChain} (hw : NamesOk cf ch)
    (hroom : cf.fw_command.length + ch.table.length + ch.to_chain.length ≤ 220) {n : Nat} (hn : n ≤ 65535)
    {s : RmSt (Tables × List Fate)} {kept rs : List Rule} {r : Rule} (hoff : kept.length + s.off + 1 = n)
    (hK : s.world.1 ch.table ch.to_chain = some (kept ++ r :: rs)) (hf : Fate.refused ∉ s.world.2) :
    ∃ s', rmRule cf (iptTool print) ch n s = .ok s' ∧ s'.world.2 = s.world.2.tail ∧ s'.min_exp = s.min_exp ∧
      ((s'.off = s.off + 1 ∧ s'.active = s.active - 1 ∧
          s'.world.1 = s.world.1.put ch.table ch.to_chain (kept ++ rs)) ∨
       (s.world.2 ≠ [] ∧ s'.off = s.off ∧ s'.active = s.active ∧ s'.world.1 = s.world.1)) := by
  obtain ⟨off, active, min_exp, K, fs⟩ := s
  simp only at hoff hK hf ⊢
  unfold rmRule
  simp only
  rw [show ((n : Int) - (off : Nat)) = ((n - off : Nat) : Int) from by omega]
  rw [run_words _ (strtoargv_delete hw (by omega) (by omega)), bind_ok]
  have hdel := iptables_delete (print := print) (exe := cf.fw_command) (n := n - off) hK (by omega)
    (by simp only [List.length_append, List.length_cons]; omega)
  have herase : (kept ++ r :: rs).eraseIdx (n - off - 1) = kept ++ rs := by
    rw [show n - off - 1 = kept.length from by omega, List.eraseIdx_append_of_length_le (by omega)]
    simp
  rw [herase] at hdel
  cases fs with
  | nil =>
    refine ⟨⟨off + 1, active - 1, min_exp, K.put ch.table ch.to_chain (kept ++ rs), []⟩, ?_, rfl, rfl, .inl ⟨rfl, rfl, rfl⟩⟩
    simp only [iptTool, iptablesUnder, hdel]
    rfl
  | cons f fs =>
    cases f with
    | works =>
      refine ⟨⟨off + 1, active - 1, min_exp, K.put ch.table ch.to_chain (kept ++ rs), fs⟩, ?_, rfl, rfl,
        .inl ⟨rfl, rfl, rfl⟩⟩
      simp only [iptTool, iptablesUnder, hdel]
      rfl
    | refused => exact absurd List.mem_cons_self hf
    | killed =>
      refine ⟨⟨off, active, min_exp, K, fs⟩, ?_, rfl, rfl, .inr ⟨List.cons_ne_nil _ _, rfl, rfl, rfl⟩⟩
      simp only [iptTool, iptablesUnder]
      rfl

/-- Deleting the rule after `kept`, whatever the program is: the rule is gone, or the program did not run. -/
def Deletes (cf : FwConf) (T : Tool (Tables × List Fate)) (ch : FwChain) : Prop :=
  ∀ (n : Nat), n ≤ 65535 → ∀ (s : RmSt (Tables × List Fate)) (kept rs : List Rule) (r : Rule), kept.length + s.off + 1 = n →
    s.world.1 ch.table ch.to_chain = some (kept ++ r :: rs) → Fate.refused ∉ s.world.2 →
    ∃ s', rmRule cf T ch n s = .ok s' ∧ s'.world.2 = s.world.2.tail ∧ s'.min_exp = s.min_exp ∧
      ((s'.off = s.off + 1 ∧ s'.active = s.active - 1 ∧
          s'.world.1 = s.world.1.put ch.table ch.to_chain (kept ++ rs)) ∨
       (s.world.2 ≠ [] ∧ s'.off = s.off ∧ s'.active = s.active ∧ s'.world.1 = s.world.1))

theorem ipt_deletes {print : Host} {cf : FwConf} {ch : FwChain} (hw : NamesOk cf ch)
    (hroom : cf.fw_command.length + ch.table.length + ch.to_chain.length ≤ 220) : Deletes cf (iptTool print) ch :=
  fun _ hn _ _ _ _ hoff hK hf => rmRule_step hw hroom hn hoff hK hf

/-- What may follow the lines of the rules. -/
def TailOk (Z : Str) : Prop := Z = [] ∨ ∃ Z', Z = 10 :: Z' ∧ NoMark Z'

/-! ## The loop over the comments -/

theorem line_eq (print : Host) (n : Nat) (r : Rule) :
    line print n r = decimal n ++ 32 :: (List.replicate (4 - (decimal n).length) 32 ++ print r) := by
  unfold line
  rw [List.append_assoc]
  congr 1
  generalize 4 - (decimal n).length = m
  induction m with
  | zero => rfl
  | succ m ih => rw [List.replicate_succ, List.cons_append, ih]; rfl

theorem noMark_decimal (n : Nat) : NoMark (decimal n) := by
  rw [← decStr_decimal]
  apply noMark_of_no_underscore
  intro h
  have := decStr_digits n _ h
  revert this; decide

theorem noMark_blanks (m : Nat) {s : Str} (h : NoMark s) : NoMark (List.replicate m 32 ++ s) := by
  induction m with
  | zero => exact h
  | succ m ih =>
    rw [List.replicate_succ, List.cons_append]
    exact noMark_sep (a := []) (by decide) (noMark_of_no_underscore (by simp)) ih

theorem noMark_line {print : Host} {r : Rule} (n : Nat) (h : NoMark (print r)) :
    NoMark (line print n r) := by
  rw [line_eq]
  exact noMark_sep (by decide) (noMark_decimal n) (noMark_blanks _ h)

theorem rmLoop_none {σ : Type} (cf : FwConf) (T : Tool σ) (ch : FwChain) (now : Int) (buf : Str) (fuel : Nat)
    (s : RmSt σ) : rmLoop cf T ch now buf fuel none s = .ok s := by
  cases fuel <;> rfl

theorem rmLoop_lines {print : Host} {cf : FwConf} {T : Tool (Tables × List Fate)} {ch : FwChain} {now : Int} (hdel : Deletes cf T ch)
    {Z : Str} (hZ : TailOk Z) {ex : Rule → Option Nat} (tl : List Rule) (rs : List Rule) :
    ∀ (P : Str) (k n fuel : Nat) (kept : List Rule) (s : RmSt (Tables × List Fate)),
      (∀ r ∈ rs, HasExpiry print r (ex r) ∧ ∀ e, ex r = some e → e < 2 ^ 32) →
      k ≤ P.length → NoMark (P.drop k) → n + rs.length ≤ 65536 → kept.length + s.off + 1 = n →
      s.world.1 ch.table ch.to_chain = some (kept ++ (rs ++ tl)) → Fate.refused ∉ s.world.2 → rs.length < fuel →
      ∃ s' rs', rmLoop cf T ch now (P ++ (lines print n rs ++ Z)) fuel
          ((findExp ((P ++ (lines print n rs ++ Z)).drop k)).map (· + k)) s = .ok s' ∧
        s'.world.1 = s.world.1.put ch.table ch.to_chain (kept ++ (rs' ++ tl)) ∧
        Pruned (fun r => expired now (ex r) = true) rs rs' ∧ (s.min_exp = 0 → s'.min_exp = 0) ∧
        s'.off + s'.active ≤ s.off + s.active + rs.length ∧ (Fate.refused ∉ s.world.2 → Fate.refused ∉ s'.world.2) ∧
        (s.world.2 = [] → s'.world.2 = [] ∧ rs' = rs.filter (fun r => !expired now (ex r)) ∧
          s'.active = s.active - (rs.filter (fun r => expired now (ex r))).length) ∧
        (findExp ((P ++ (lines print n rs ++ Z)).drop k) = none ↔ ∀ r ∈ rs, ex r = none) := by
  induction rs with
  | nil =>
    intro P k n fuel kept s _ hk hP _ _ hK _ _
    have hPZ : NoMark ((P ++ Z).drop k) := by
      rw [List.drop_append_of_le_length hk]
      rcases hZ with rfl | ⟨Z', rfl, hZ'⟩
      · rw [List.append_nil]; exact hP
      · exact noMark_sep (by decide) hP hZ'
    rw [lines, List.nil_append, findExp_none hPZ, Option.map_none, rmLoop_none]
    refine ⟨s, [], rfl, ?_, .nil, id, by simp, id, fun h => ⟨h, rfl, rfl⟩, by simp⟩
    rw [put_same hK]
  | cons r rs ih =>
    intro P k n fuel kept s hex hk hP hn hoff hK hf hfuel
    simp only [List.length_cons] at hn hfuel
    obtain ⟨hr, hr32⟩ := hex r List.mem_cons_self
    have hex' : ∀ r ∈ rs, HasExpiry print r (ex r) ∧ ∀ e, ex r = some e → e < 2 ^ 32 :=
      fun x hx => hex x (List.mem_cons_of_mem _ hx)
    have hbuf : P ++ (lines print n (r :: rs) ++ Z) = (P ++ 10 :: line print n r) ++ (lines print (n + 1) rs ++ Z) := by
      simp [lines]
    rw [hbuf]
    have hassoc : kept ++ (r :: rs ++ tl) = (kept ++ [r]) ++ (rs ++ tl) := by simp
    cases hexr : ex r with
    | none =>
      rw [hexr] at hr
      have hP' : NoMark ((P ++ 10 :: line print n r).drop k) := by
        rw [List.drop_append_of_le_length hk]
        exact noMark_sep (by decide) hP (noMark_line n hr.2)
      obtain ⟨s', rs', h1, h2, h3, h4, h5, h5', h6, h7⟩ := ih (P ++ 10 :: line print n r) k (n + 1) fuel (kept ++ [r]) s hex'
        (by simp only [List.length_append]; omega) hP' (by omega) (by simp; omega) (hassoc ▸ hK) hf (by omega)
      refine ⟨s', r :: rs', h1, by rw [h2]; simp, .keep r h3, h4, by simp only [List.length_cons]; omega, h5',
        fun h => ⟨(h6 h).1, ?_, ?_⟩, ?_⟩
      · rw [(h6 h).2.1, List.filter_cons, hexr]
        rfl
      · rw [(h6 h).2.2, List.filter_cons, hexr]
        rfl
      · rw [h7]; simp [hexr]
    | some e =>
      rw [hexr] at hr
      obtain ⟨hr10, a, b, ha, hb, hprint⟩ := hr
      have he := hr32 e hexr
      -- the text up to the mark and after it
      let A : Str := P ++ 10 :: (decimal n ++ 32 :: (List.replicate (4 - (decimal n).length) 32 ++ a))
      have hline : P ++ 10 :: line print n r = A ++ b!"/* _exp_" ++ (decimal e ++ b!" */" ++ b) := by
        simp only [A, line_eq, hprint]
        simp
      have hAk : k ≤ A.length := by simp only [A, List.length_append]; omega
      have hA : NoMark (A.drop k) := by
        simp only [A]
        rw [List.drop_append_of_le_length hk]
        exact noMark_sep (by decide) hP (noMark_sep (by decide) (noMark_decimal n) (noMark_blanks _ ha))
      have hfind : findExp (((P ++ 10 :: line print n r) ++ (lines print (n + 1) rs ++ Z)).drop k) =
          some ((A.drop k).length + 3) := by
        rw [hline, show A ++ b!"/* _exp_" ++ (decimal e ++ b!" */" ++ b) ++ (lines print (n + 1) rs ++ Z) =
          A ++ (b!"/* _exp_" ++ (decimal e ++ b!" */" ++ b ++ (lines print (n + 1) rs ++ Z))) from by simp,
          List.drop_append_of_le_length hAk, ← List.append_assoc]
        exact findExp_first hA _
      have hmark : (some ((A.drop k).length + 3) = none ↔ ∀ x ∈ r :: rs, ex x = none) :=
        ⟨fun h => by simp at h, fun h => absurd (h r List.mem_cons_self) (by simp [hexr])⟩
      rw [hfind, Option.map_some]
      obtain ⟨fuel, rfl⟩ : ∃ f, fuel = f + 1 := ⟨fuel - 1, by omega⟩
      rw [rmLoop]
      have hkk : (A.drop k).length + 3 + k + EXPIRE_COMMENT_PREFIX.length = (A ++ b!"/* _exp_").length := by
        simp only [List.length_drop, List.length_append, List.length_cons, List.length_nil]; omega
      simp only [hkk]
      have hrest : ((P ++ 10 :: line print n r) ++ (lines print (n + 1) rs ++ Z)).drop (A ++ b!"/* _exp_").length =
          decimal e ++ b!" */" ++ (b ++ (lines print (n + 1) rs ++ Z)) := by
        rw [hline, List.append_assoc (A ++ _), List.drop_left]
        simp
      have hestr : expStr (((P ++ 10 :: line print n r) ++ (lines print (n + 1) rs ++ Z)).drop (A ++ b!"/* _exp_").length) =
          decimal e := by
        rw [hrest, expStr_decimal e he]
      rw [hestr, is_digits_decimal, decimal_val]
      simp only [Bool.not_true, Bool.false_eq_true, if_false]
      have hk' : (A ++ b!"/* _exp_").length ≤ (P ++ 10 :: line print n r).length := by
        rw [hline]; simp only [List.length_append]; omega
      have hP' : NoMark ((P ++ 10 :: line print n r).drop (A ++ b!"/* _exp_").length) := by
        rw [hline, List.drop_left]
        rw [show decimal e ++ b!" */" ++ b = decimal e ++ 32 :: ([42] ++ 47 :: b) from by simp]
        exact noMark_sep (by decide) (noMark_decimal e)
          (noMark_sep (by decide) (noMark_of_no_underscore (by decide)) hb)
      by_cases hexp : (e : Int) ≤ now
      · have hexpd : expired now (ex r) = true := by rw [hexr]; simpa [expired] using hexp
        rw [if_pos hexp]
        have hnum : ruleNum ((P ++ 10 :: line print n r) ++ (lines print (n + 1) rs ++ Z)) (A ++ b!"/* _exp_").length s.off =
            .ok (some (n : Int)) := by
          have : (P ++ 10 :: line print n r) ++ (lines print (n + 1) rs ++ Z) =
              P ++ 10 :: (decimal n ++ 32 :: (List.replicate (4 - (decimal n).length) 32 ++ a ++ b!"/* _exp_")) ++
                (decimal e ++ b!" */" ++ b ++ (lines print (n + 1) rs ++ Z)) := by
            rw [line_eq, hprint]; simp
          rw [this]
          apply ruleNum_line
          · intro h
            apply hr10
            rw [hprint]
            simp only [List.mem_append, List.mem_replicate] at h ⊢
            rcases h with (h | h) | h
            · exact absurd h.2 (by decide)
            · exact .inl (.inl (.inl (.inl h)))
            · exact absurd h (by decide)
          · omega
          · omega
          · simp [A]
        rw [hnum, bind_ok]
        simp only
        obtain ⟨s1, hs1, hs2, hs3, hs4⟩ := hdel n (by omega) s kept (rs ++ tl) r hoff (by simpa using hK) hf
        rw [hs1, bind_ok]
        have hf1 : Fate.refused ∉ s1.world.2 := by
          rw [hs2]; exact fun h => hf (List.mem_of_mem_tail h)
        rcases hs4 with ⟨h1, h1a, h2⟩ | ⟨h0, h1, h1a, h2⟩
        · obtain ⟨s', rs', g1, g2, g3, g4, g5, g5', g6, _⟩ := ih (P ++ 10 :: line print n r) (A ++ b!"/* _exp_").length (n + 1)
            fuel kept s1 hex' hk' hP' (by omega) (by omega) (by rw [h2, put_get]) hf1 (by omega)
          refine ⟨s', rs', g1, by rw [g2, h2, put_put], .drop r hexpd g3, fun h => g4 (hs3.trans h),
            by simp only [List.length_cons]; omega, fun _ => g5' hf1, fun h => ?_, hmark⟩
          have := g6 (by rw [hs2, h]; rfl)
          refine ⟨this.1, ?_, ?_⟩
          · rw [this.2.1, List.filter_cons, hexpd]
            rfl
          · rw [this.2.2, List.filter_cons, hexpd, if_pos rfl, h1a, List.length_cons]
            omega
        · obtain ⟨s', rs', g1, g2, g3, g4, g5, g5', g6, _⟩ := ih (P ++ 10 :: line print n r) (A ++ b!"/* _exp_").length (n + 1)
            fuel (kept ++ [r]) s1 hex' hk' hP' (by omega) (by simp; omega) (by rw [h2, hK, hassoc]) hf1 (by omega)
          exact ⟨s', r :: rs', g1, by rw [g2, h2]; simp, .keep r g3, fun h => g4 (hs3.trans h),
            by simp only [List.length_cons]; omega, fun _ => g5' hf1, fun h => absurd h h0, hmark⟩
      · rw [if_neg hexp]
        have hexpd : expired now (ex r) = false := by rw [hexr]; simpa [expired] using hexp
        obtain ⟨s', rs', g1, g2, g3, g4, g5, g5', g6, _⟩ := ih (P ++ 10 :: line print n r) (A ++ b!"/* _exp_").length (n + 1)
          fuel (kept ++ [r]) { s with min_exp := if s.min_exp < (e : Nat) then s.min_exp else (e : Nat) } hex' hk' hP'
          (by omega) (by simp; omega) (hassoc ▸ hK) hf (by omega)
        refine ⟨s', r :: rs', g1, by rw [g2]; simp, .keep r g3, fun h => g4 ?_, by simp only [List.length_cons] at *; omega, g5',
          fun h => ⟨(g6 h).1, ?_, ?_⟩, hmark⟩
        · simp only [h]
          split <;> omega
        · rw [(g6 h).2.1, List.filter_cons, hexpd]
          rfl
        · rw [(g6 h).2.2, List.filter_cons, hexpd]
          rfl

/-! ## The listing as it is read -/

theorem truncate_cut (a b : Str) (hb : 10 ∉ b) : truncate_partial_line (a ++ 10 :: b) = a ++ [10] := by
  unfold truncate_partial_line
  rw [if_pos (by simp)]
  have : ∀ c ∈ b.reverse, (fun c => decide (c ≠ 10)) c = true := by
    intro c hc
    simp only [decide_eq_true_eq]
    rintro rfl
    exact hb (List.mem_reverse.1 hc)
  rw [show (a ++ 10 :: b).reverse = b.reverse ++ 10 :: a.reverse from by simp,
    List.dropWhile_append_of_pos (by simpa using this), List.dropWhile_cons_of_neg (by simp)]
  simp

theorem truncate_listing {print : Host} (rs : List Rule) (hp : ∀ r ∈ rs, 10 ∉ print r) :
    ∀ (N n : Nat) (H : Str), H.length < N → ∃ m ≤ rs.length,
      truncate_partial_line ((H ++ lines print n rs ++ [10]).take N) = H ++ lines print n (rs.take m) ++ [10] ∧
      ((H ++ lines print n rs ++ [10]).length ≤ N → m = rs.length) ∧
      (H ++ lines print n (rs.take m) ++ [10]).length ≤ N := by
  induction rs with
  | nil =>
    intro N n H hN
    refine ⟨0, Nat.le_refl _, ?_, fun _ => rfl, by simp [lines]; omega⟩
    rw [List.take_of_length_le (by simp [lines]; omega)]
    simp [lines, truncate_newline]
  | cons r rs ih =>
    intro N n H hN
    have h10 : 10 ∉ line print n r := by
      rw [line_eq]
      have h1 := hp r List.mem_cons_self
      have h2 : (10 : Nat) ∉ decimal n := by
        rw [← decStr_decimal]
        intro h
        have := decStr_digits n _ h
        revert this; decide
      simp [h1, h2, List.mem_replicate]
    have hbuf : H ++ lines print n (r :: rs) ++ [10] = (H ++ 10 :: line print n r) ++ lines print (n + 1) rs ++ [10] := by
      simp [lines]
    by_cases hlt : (H ++ 10 :: line print n r).length < N
    · obtain ⟨m, hm, h1, h2, h3⟩ := ih (fun x hx => hp x (List.mem_cons_of_mem _ hx)) N (n + 1) _ hlt
      refine ⟨m + 1, by simp only [List.length_cons]; omega, ?_, fun h => ?_, ?_⟩
      · rw [hbuf, h1]; simp [lines]
      · rw [hbuf] at h; rw [h2 h]; rfl
      · simpa [lines] using h3
    · refine ⟨0, Nat.zero_le _, ?_, fun h => ?_, by simp [lines]; omega⟩
      · simp only [List.length_append, List.length_cons] at hlt
        rw [hbuf, List.append_assoc, List.append_assoc, List.take_append, List.take_of_length_le (by omega)]
        obtain ⟨j, hj⟩ : ∃ j, N - H.length = j + 1 := ⟨N - H.length - 1, by omega⟩
        rw [hj, List.cons_append, List.take_succ_cons, List.take_append_of_le_length (by omega), truncate_cut]
        · simp [lines]
        · exact fun h => h10 (List.mem_of_mem_take h)
      · rw [hbuf] at h
        simp only [List.length_append, List.length_cons, List.length_nil] at h hlt
        omega

theorem lines_length (print : Host) (rs : List Rule) : ∀ n, rs.length ≤ (lines print n rs).length := by
  induction rs with
  | nil => intro n; simp
  | cons r rs ih =>
    intro n
    have := ih (n + 1)
    simp only [lines, List.length_append, List.length_cons]
    omega

theorem noMark_header {c : Word} (h : NoMark c) : NoMark (header c) := by
  have : header c = b!"Chain" ++ 32 :: (c ++ 32 :: (b!"(1 references)" ++ 10 ::
      b!"num  target     prot opt source               destination         ")) := by simp [header]
  rw [this]
  exact noMark_sep (by decide) (noMark_of_no_underscore (by decide)) (noMark_sep (by decide) h
    (noMark_sep (by decide) (noMark_of_no_underscore (by decide)) (noMark_of_no_underscore (by decide))))

theorem Pruned.refl (p : Rule → Prop) : ∀ rs, Pruned p rs rs
  | [] => .nil
  | r :: rs => .keep r (Pruned.refl p rs)

theorem Pruned.append {p : Rule → Prop} {a b : List Rule} (h : Pruned p a b) (tl : List Rule) :
    Pruned p (a ++ tl) (b ++ tl) := by
  induction h with
  | nil => exact Pruned.refl p tl
  | keep r _ ih => exact .keep r ih
  | drop r hp _ ih => exact .drop r hp ih

/-! ## One check of a chain -/

/-- What the theorems about expiry ask of chain number `i` of the configuration and of the rules `rs`
in it: the words of the commands contain no blanks and fit the command buffer, the chain has the
rules `rs`, each printed in one line with at most one expiry mark, and the name of the chain is
longer than its number. -/
structure ChainOk (print : Host) (cf : FwConf) (K : Tables) (ex : Rule → Option Nat) (i : Nat)
    (ch : FwChain) (rs : List Rule) : Prop where
  names : NamesOk cf ch
  room : cf.fw_command.length + ch.table.length + ch.to_chain.length ≤ 220
  text : 0 ∉ ch.to_chain
  long : i < ch.to_chain.length
  mark : NoMark ch.to_chain
  there : K ch.table ch.to_chain = some rs
  expiry : ∀ r ∈ rs, HasExpiry print r (ex r) ∧ ∀ e, ex r = some e → e < 2 ^ 32

/-- The counters of a chain after a check in which every command worked: the number of active rules goes
down by the number of rules that were deleted, or by one if no rule has an expiry time. -/
def checkedChain (ex : Rule → Option Nat) (now : Int) (ch : FwChain) (rs : List Rule) : FwChain :=
  if ∀ r ∈ rs, ex r = none then { ch with active_rules := ch.active_rules - 1 }
  else
    { ch with
      active_rules := ch.active_rules - (rs.filter (fun r => expired now (ex r))).length
      next_expire := if ch.active_rules - (rs.filter (fun r => expired now (ex r))).length < 1 then 0
        else ch.next_expire }

/-- Is the chain looked at? -/
def Due (all : Bool) (now : Int) (ch : FwChain) : Prop :=
  all = true ∨ (0 < ch.active_rules ∧ ch.next_expire ≤ now)

theorem hasExpiry_line {print : Host} {r : Rule} {o : Option Nat} (h : HasExpiry print r o) :
    10 ∉ print r := by
  cases o with
  | none => exact h.1
  | some e => exact h.1

/-- The listing of a chain with the rules `rs` is read, whatever the program is: as many lines as fit, or
nothing if the program did not run. -/
structure ReadsChain (print : Host) (cf : FwConf) (T : Tool (Tables × List Fate)) (ch : FwChain) (K : Tables) (rs : List Rule) : Prop where
  works : ∀ fs gs, (fs = [] ∧ gs = []) ∨ fs = .works :: gs → ∃ B m Z,
    run_extcmd T (cmdBuf (cf.fw_command ++ b!" -t " ++ ch.table ++ b!" -L " ++ ch.to_chain ++ b!" --line-numbers -n"))
      STANDARD_CMD_OUT_BUFSIZE (K, fs) = .ok (⟨true, B⟩, (K, gs)) ∧ m ≤ rs.length ∧ m ≤ 4095 ∧ TailOk Z ∧
    chop_newline B = header ch.to_chain ++ (lines print 1 (rs.take m) ++ Z) ∧
    ((listing print ch.to_chain rs).length ≤ 4095 → m = rs.length)
  killed : ∀ gs, ∃ B, run_extcmd T (cmdBuf (cf.fw_command ++ b!" -t " ++ ch.table ++ b!" -L " ++ ch.to_chain ++ b!" --line-numbers -n"))
      STANDARD_CMD_OUT_BUFSIZE (K, .killed :: gs) = .ok (⟨false, B⟩, (K, gs))

theorem checkChain_gen {print : Host} {cf cf' : FwConf} {T : Tool (Tables × List Fate)} {K : Tables} {ex : Rule → Option Nat} {i : Nat}
    {ch : FwChain} {rs : List Rule} (h : ChainOk print cf K ex i ch rs) (hdel : Deletes cf' T ch) (hrd : ReadsChain print cf' T ch K rs)
    {all : Bool} {now : Int} (hdue : Due all now ch) {fs : List Fate} (hf : Fate.refused ∉ fs) :
    ∃ ch' fs' rs', checkChain cf' T all now i ch (K, fs) =
        .ok (ch', (K.put ch.table ch.to_chain rs', fs')) ∧
      Fate.refused ∉ fs' ∧ Pruned (fun r => expired now (ex r) = true) rs rs' ∧
      (fs = [] → (listing print ch.to_chain rs).length ≤ 4095 →
        fs' = [] ∧ rs' = rs.filter (fun r => !expired now (ex r)) ∧ ch' = checkedChain ex now ch rs) := by
  unfold checkChain
  rw [if_neg (by
    rintro ⟨h1, h2⟩
    rcases hdue with hd | ⟨h3, h4⟩
    · rw [hd] at h1; exact absurd h1 (by decide)
    · rcases h2 with h2 | h2 <;> omega)]
  have hne : ch.to_chain.getD i 0 ≠ 0 := by
    rw [List.getD_eq_getElem?_getD, List.getElem?_eq_getElem h.long, Option.getD_some]
    exact fun h0 => h.text (h0 ▸ List.getElem_mem _)
  rw [if_neg (by
    rintro (h1 | h1)
    · exact h.names.table.1 h1
    · exact hne h1)]
  -- the listing is read
  have hread : ∀ gs m Z, Fate.refused ∉ gs → m ≤ rs.length → m ≤ 4095 → TailOk Z →
      ((listing print ch.to_chain rs).length ≤ 4095 → m = rs.length) → ∃ ch' fs' rs',
      (match findExp (header ch.to_chain ++ (lines print 1 (rs.take m) ++ Z)) with
        | none => (.ok ({ ch with active_rules := ch.active_rules - 1 }, (K, gs)) : Res (FwChain × Tables × List Fate))
        | some p => rm_expired_rules cf' T (header ch.to_chain ++ (lines print 1 (rs.take m) ++ Z)) p ch now (K, gs)) =
        .ok (ch', (K.put ch.table ch.to_chain rs', fs')) ∧
      Fate.refused ∉ fs' ∧ Pruned (fun r => expired now (ex r) = true) rs rs' ∧
      (gs = [] → (listing print ch.to_chain rs).length ≤ 4095 →
        fs' = [] ∧ rs' = rs.filter (fun r => !expired now (ex r)) ∧ ch' = checkedChain ex now ch rs) := by
    intro gs m Z hgs hm hm4 hZ hm2
    have hlen : (rs.take m).length ≤ 4095 := by rw [List.length_take]; omega
    have hsplit : rs = rs.take m ++ rs.drop m := (List.take_append_drop m rs).symm
    obtain ⟨s', rs', h1, h2, h3, h4, h5, h6, h7, h8⟩ := rmLoop_lines (print := print) (now := now) hdel hZ (ex := ex)
      (rs.drop m) (rs.take m) (header ch.to_chain) 0 1
      ((header ch.to_chain ++ (lines print 1 (rs.take m) ++ Z)).length + 1) []
      (⟨0, ch.active_rules, 0, K, gs⟩ : RmSt (Tables × List Fate))
      (fun r hr => h.expiry r (List.mem_of_mem_take hr)) (Nat.zero_le _) (by simpa using noMark_header h.mark) (by omega)
      rfl (by simpa [List.take_append_drop] using h.there) hgs (by
        have := lines_length print (rs.take m) 1
        simp only [List.length_append]
        omega)
    have hpr : Pruned (fun r => expired now (ex r) = true) rs (rs' ++ rs.drop m) := by
      have := Pruned.append h3 (rs.drop m)
      rwa [List.take_append_drop] at this
    have hfin : gs = [] → (listing print ch.to_chain rs).length ≤ 4095 →
        s'.world.2 = [] ∧ rs' ++ rs.drop m = rs.filter (fun r => !expired now (ex r)) := by
      intro hg hl
      have hmm := hm2 hl
      have := h7 hg
      refine ⟨this.1, ?_⟩
      rw [this.2.1, hmm]; simp
    have hall : (listing print ch.to_chain rs).length ≤ 4095 → rs.take m = rs := fun hl => by rw [hm2 hl]; simp
    rw [List.drop_zero] at h8
    cases hfe : findExp (header ch.to_chain ++ (lines print 1 (rs.take m) ++ Z)) with
    | none =>
      rw [List.drop_zero, hfe, Option.map_none, rmLoop_none] at h1
      injection h1 with h1
      subst h1
      refine ⟨{ ch with active_rules := ch.active_rules - 1 }, gs, rs' ++ rs.drop m, ?_, hgs, hpr,
        fun a b => ⟨(hfin a b).1, (hfin a b).2, ?_⟩⟩
      · simp only [List.nil_append] at h2
        exact congrArg (fun x => Res.ok (_, (x, gs))) h2
      · have := h8.1 hfe
        rw [hall b] at this
        rw [checkedChain, if_pos this]
    | some p =>
      rw [List.drop_zero, hfe] at h1
      simp only [Option.map_some, Nat.add_zero] at h1
      simp only [rm_expired_rules]
      rw [h1, bind_ok]
      refine ⟨{ ch with active_rules := s'.active, next_expire := nextAfter ch.next_expire s' }, s'.world.2,
        rs' ++ rs.drop m, ?_, h6 hgs, hpr, fun a b => ⟨(hfin a b).1, (hfin a b).2, ?_⟩⟩
      · simp only [List.nil_append] at h2
        exact congrArg (fun x => Res.ok (_, (x, s'.world.2))) h2
      · have hnot : ¬ ∀ r ∈ rs, ex r = none := fun h0 => by
          rw [h8.2 (fun r hr => h0 r (List.mem_of_mem_take hr))] at hfe
          simp at hfe
        have hact := (h7 a).2.2
        rw [hall b] at hact
        simp only at hact
        rw [checkedChain, if_neg hnot, nextAfter, h4 rfl, hact]
        simp
  by_cases hg : ∃ gs, (fs = [] ∧ gs = []) ∨ fs = .works :: gs
  · obtain ⟨gs, hgs⟩ := hg
    have hng : Fate.refused ∉ gs := by
      rcases hgs with ⟨-, rfl⟩ | rfl
      · simp
      · exact fun hm => hf (List.mem_cons_of_mem _ hm)
    obtain ⟨B, m, Z, r1, r2, r3, r4, r5, r6⟩ := hrd.works fs gs hgs
    obtain ⟨c, f', r', h1, h2, h3, h4⟩ := hread gs m Z hng r2 r3 r4 r6
    rw [r1, bind_ok]
    simp only [Bool.not_true, Bool.false_eq_true, if_false, r5, pure_eq]
    exact ⟨c, f', r', h1, h2, h3, fun h0 => h4 (by rcases hgs with ⟨-, h⟩ | h; exact h; rw [h0] at h; cases h)⟩
  cases fs with
  | nil => exact absurd ⟨[], .inl ⟨rfl, rfl⟩⟩ hg
  | cons f fs =>
    have hf' : Fate.refused ∉ fs := fun hm => hf (List.mem_cons_of_mem _ hm)
    cases f with
    | works => exact absurd ⟨fs, .inr rfl⟩ hg
    | refused => exact absurd List.mem_cons_self hf
    | killed =>
      obtain ⟨B, hB⟩ := hrd.killed fs
      rw [hB, bind_ok]
      simp only [Bool.not_false, if_true, pure_eq]
      exact ⟨ch, fs, rs, by rw [put_same h.there], hf', Pruned.refl _ _, fun h0 => nomatch h0⟩

theorem ipt_reads {print : Host} {cf : FwConf} {K : Tables} {ex : Rule → Option Nat} {i : Nat}
    {ch : FwChain} {rs : List Rule} (h : ChainOk print cf K ex i ch rs) : ReadsChain print cf (iptTool print) ch K rs := by
  have hroom := h.room
  obtain ⟨m, hm, hm1, hm2, hm3⟩ := truncate_listing (print := print) rs
    (fun r hr => hasExpiry_line (h.expiry r hr).1) 4095 1 (header ch.to_chain) (by
      simp only [header, List.length_append, List.length_cons, List.length_nil]; omega)
  have hlen : m ≤ 4095 := by
    have := lines_length print (rs.take m) 1
    simp only [List.length_append, List.length_take] at hm3 this
    omega
  have hchop : chop_newline (truncate_partial_line ((listing print ch.to_chain rs).take (STANDARD_CMD_OUT_BUFSIZE - 1))) =
      header ch.to_chain ++ (lines print 1 (rs.take m) ++ []) := by
    rw [show STANDARD_CMD_OUT_BUFSIZE - 1 = 4095 from rfl, listing, hm1, chop_newline_end _ (by simp [header]), List.append_nil]
  refine ⟨fun fs gs hfs => ⟨truncate_partial_line ((listing print ch.to_chain rs).take (STANDARD_CMD_OUT_BUFSIZE - 1)), m, [], ?_, hm, hlen, .inl rfl, hchop, fun hl => hm2 (by simpa [listing] using hl)⟩, fun gs => ⟨[], ?_⟩⟩
  · rw [run_words _ (strtoargv_list h.names h.room)]
    rcases hfs with ⟨rfl, rfl⟩ | rfl
    · rw [exec_nil, iptables_list h.there]
    · rw [exec_works, iptables_list h.there]
  · rw [run_words _ (strtoargv_list h.names h.room), exec_killed]; rfl

theorem checkChain_run {print : Host} {cf : FwConf} {K : Tables} {ex : Rule → Option Nat} {i : Nat}
    {ch : FwChain} {rs : List Rule} (h : ChainOk print cf K ex i ch rs) {all : Bool} {now : Int}
    (hdue : Due all now ch) {fs : List Fate} (hf : Fate.refused ∉ fs) :
    ∃ ch' fs' rs', checkChain cf (iptTool print) all now i ch (K, fs) =
        .ok (ch', (K.put ch.table ch.to_chain rs', fs')) ∧
      Fate.refused ∉ fs' ∧ Pruned (fun r => expired now (ex r) = true) rs rs' ∧
      (fs = [] → (listing print ch.to_chain rs).length ≤ 4095 →
        fs' = [] ∧ rs' = rs.filter (fun r => !expired now (ex r)) ∧ ch' = checkedChain ex now ch rs) :=
  checkChain_gen h (ipt_deletes h.names h.room) (ipt_reads h) hdue hf

/-! ## A check of all chains -/

/-- A chain that is in the configuration. -/
def Configured (ch : FwChain) : Prop := ch.table ≠ [] ∧ ch.to_chain ≠ []

theorem checkChain_skip {σ : Type} (cf : FwConf) (T : Tool σ) {all : Bool} {now : Int} (i : Nat) {ch : FwChain}
    (h : ¬ (Configured ch ∧ Due all now ch)) (w : σ) : checkChain cf T all now i ch w = .ok (ch, w) := by
  unfold checkChain
  by_cases h1 : !all ∧ (ch.active_rules = 0 ∨ ch.next_expire > now)
  · rw [if_pos h1]
  · rw [if_neg h1]
    by_cases h2 : ch.table = [] ∨ ch.to_chain.getD i 0 = 0
    · rw [if_pos h2]
    · exfalso
      apply h
      refine ⟨⟨fun h3 => h2 (.inl h3), fun h3 => h2 (.inr (by rw [h3]; rfl))⟩, ?_⟩
      cases all with
      | true => exact .inl rfl
      | false =>
        right
        simp only [Bool.not_false, true_and] at h1
        omega

theorem checkChains_gen {print : Host} {cf cf' : FwConf} {T : Tool (Tables × List Fate)} {ex : Rule → Option Nat} {all : Bool} {now : Int}
    {G : FwChain → Prop}
    (hdel : ∀ {K : Tables} {i : Nat} {ch : FwChain} {rs : List Rule}, G ch → ChainOk print cf K ex i ch rs → Deletes cf' T ch)
    (hrd : ∀ {K : Tables} {i : Nat} {ch : FwChain} {rs : List Rule}, G ch → ChainOk print cf K ex i ch rs → ReadsChain print cf' T ch K rs)
    (chs : List FwChain) :
    ∀ (i : Nat) (K : Tables) (fs : List Fate), Fate.refused ∉ fs →
      chs.Pairwise (fun a b => Configured a → Configured b → ¬ (b.table = a.table ∧ b.to_chain = a.to_chain)) →
      (∀ j ch, chs[j]? = some ch → Configured ch → ∃ rs, ChainOk print cf K ex (i + j) ch rs ∧ G ch) →
      ∃ chs' K' fs', checkChains cf' T all now i chs (K, fs) = .ok (chs', (K', fs')) ∧
        (fs = [] → (∀ ch ∈ chs, Configured ch → ∀ rs, K ch.table ch.to_chain = some rs →
          (listing print ch.to_chain rs).length ≤ 4095) → fs' = []) ∧
        (∀ t c, (∀ ch ∈ chs, ¬ (Configured ch ∧ Due all now ch ∧ t = ch.table ∧ c = ch.to_chain)) →
          K' t c = K t c) ∧
        ∀ ch ∈ chs, Configured ch → Due all now ch → ∃ rs rs', K ch.table ch.to_chain = some rs ∧
          K' ch.table ch.to_chain = some rs' ∧ Pruned (fun r => expired now (ex r) = true) rs rs' ∧
          (fs = [] → (∀ ch ∈ chs, Configured ch → ∀ rs, K ch.table ch.to_chain = some rs →
            (listing print ch.to_chain rs).length ≤ 4095) → rs' = rs.filter (fun r => !expired now (ex r))) := by
  induction chs with
  | nil =>
    intro i K fs _ _ _
    exact ⟨[], K, fs, rfl, fun h _ => h, fun _ _ _ => rfl, by simp⟩
  | cons ch chs ih =>
    intro i K fs hf hd hok
    rw [List.pairwise_cons] at hd
    have hok' : ∀ j c, chs[j]? = some c → Configured c → ∃ rs, ChainOk print cf K ex (i + 1 + j) c rs ∧ G c := by
      intro j c hj hc
      obtain ⟨rs, h⟩ := hok (j + 1) c (by simpa using hj) hc
      exact ⟨rs, by rw [show i + 1 + j = i + (j + 1) from by omega]; exact h⟩
    rw [checkChains]
    by_cases hv : Configured ch ∧ Due all now ch
    · obtain ⟨rs, hrs, hG⟩ := hok 0 ch rfl hv.1
      obtain ⟨ch', fs1, rs1, h1, h2, h3, h4⟩ := checkChain_gen hrs (hdel hG hrs) (hrd hG hrs) hv.2 hf
      rw [show i + 0 = i from rfl] at h1
      rw [h1, bind_ok]
      have hother : ∀ c ∈ chs, Configured c → ¬ (c.table = ch.table ∧ c.to_chain = ch.to_chain) :=
        fun c hc hcc => hd.1 c hc hv.1 hcc
      obtain ⟨chs', K', fs', g1, g2, g3, g4⟩ := ih (i + 1) (K.put ch.table ch.to_chain rs1) fs1 h2 hd.2 (by
        intro j c hj hc
        obtain ⟨rs', h', hG'⟩ := hok' j c hj hc
        refine ⟨rs', ⟨h'.names, h'.room, h'.text, h'.long, h'.mark, ?_, h'.expiry⟩, hG'⟩
        rw [put_other _ _ (hother c (List.mem_of_getElem? hj) hc)]
        exact h'.there)
      have hfit : fs = [] → (∀ c ∈ ch :: chs, Configured c → ∀ rs, K c.table c.to_chain = some rs →
          (listing print c.to_chain rs).length ≤ 4095) → fs1 = [] ∧ rs1 = rs.filter (fun r => !expired now (ex r)) :=
        fun h0 hs => ⟨(h4 h0 (hs ch List.mem_cons_self hv.1 rs hrs.there)).1,
          (h4 h0 (hs ch List.mem_cons_self hv.1 rs hrs.there)).2.1⟩
      have hsmall : (∀ c ∈ ch :: chs, Configured c → ∀ rs, K c.table c.to_chain = some rs →
            (listing print c.to_chain rs).length ≤ 4095) →
          ∀ c ∈ chs, Configured c → ∀ rs, (K.put ch.table ch.to_chain rs1) c.table c.to_chain = some rs →
            (listing print c.to_chain rs).length ≤ 4095 := by
        intro hs c hc hcc rs' hK'
        rw [put_other _ _ (hother c hc hcc)] at hK'
        exact hs c (List.mem_cons_of_mem _ hc) hcc rs' hK'
      simp only
      rw [g1, bind_ok]
      refine ⟨ch' :: chs', K', fs', rfl, ?_, ?_, ?_⟩
      · exact fun h0 hs => g2 (hfit h0 hs).1 (hsmall hs)
      · intro t c hn
        rw [g3 t c (fun x hx => hn x (List.mem_cons_of_mem _ hx))]
        exact put_other _ _ fun he => hn ch List.mem_cons_self ⟨hv.1, hv.2, he⟩
      · intro c hc hcc hcd
        rcases List.mem_cons.1 hc with rfl | hc
        · refine ⟨rs, rs1, hrs.there, ?_, h3, fun h0 hs => (hfit h0 hs).2⟩
          rw [g3 _ _ (fun x hx he => hother x hx he.1 ⟨he.2.2.1.symm, he.2.2.2.symm⟩), put_get]
        · obtain ⟨rs2, rs2', e1, e2, e3, e4⟩ := g4 c hc hcc hcd
          rw [put_other _ _ (hother c hc hcc)] at e1
          exact ⟨rs2, rs2', e1, e2, e3, fun h0 hs => e4 (hfit h0 hs).1 (hsmall hs)⟩
    · rw [checkChain_skip _ _ _ hv, bind_ok]
      obtain ⟨chs', K', fs', g1, g2, g3, g4⟩ := ih (i + 1) K fs hf hd.2 hok'
      simp only
      rw [g1, bind_ok]
      refine ⟨ch :: chs', K', fs', rfl, ?_, ?_, ?_⟩
      · exact fun h0 hs => g2 h0 fun c hc => hs c (List.mem_cons_of_mem _ hc)
      · intro t c hn
        exact g3 t c (fun x hx => hn x (List.mem_cons_of_mem _ hx))
      · intro c hc hcc hcd
        rcases List.mem_cons.1 hc with rfl | hc
        · exact absurd ⟨hcc, hcd⟩ hv
        · obtain ⟨rs2, rs2', e1, e2, e3, e4⟩ := g4 c hc hcc hcd
          exact ⟨rs2, rs2', e1, e2, e3, fun h0 hs => e4 h0 fun c hc => hs c (List.mem_cons_of_mem _ hc)⟩

theorem checkChains_run {print : Host} {cf : FwConf} {ex : Rule → Option Nat} {all : Bool} {now : Int}
    (chs : List FwChain) (i : Nat) (K : Tables) (fs : List Fate) (hf : Fate.refused ∉ fs)
    (hd : chs.Pairwise (fun a b => Configured a → Configured b → ¬ (b.table = a.table ∧ b.to_chain = a.to_chain)))
    (hok : ∀ j ch, chs[j]? = some ch → Configured ch → ∃ rs, ChainOk print cf K ex (i + j) ch rs) :
    ∃ chs' K' fs', checkChains cf (iptTool print) all now i chs (K, fs) = .ok (chs', (K', fs')) ∧
      (fs = [] → (∀ ch ∈ chs, Configured ch → ∀ rs, K ch.table ch.to_chain = some rs →
        (listing print ch.to_chain rs).length ≤ 4095) → fs' = []) ∧
      (∀ t c, (∀ ch ∈ chs, ¬ (Configured ch ∧ Due all now ch ∧ t = ch.table ∧ c = ch.to_chain)) →
        K' t c = K t c) ∧
      ∀ ch ∈ chs, Configured ch → Due all now ch → ∃ rs rs', K ch.table ch.to_chain = some rs ∧
        K' ch.table ch.to_chain = some rs' ∧ Pruned (fun r => expired now (ex r) = true) rs rs' ∧
        (fs = [] → (∀ ch ∈ chs, Configured ch → ∀ rs, K ch.table ch.to_chain = some rs →
          (listing print ch.to_chain rs).length ≤ 4095) → rs' = rs.filter (fun r => !expired now (ex r))) :=
  checkChains_gen (G := fun _ => True) (fun _ h => ipt_deletes h.names h.room) (fun _ h => ipt_reads h) chs i K fs hf hd
    (fun j ch hj hc => (hok j ch hj hc).imp fun _ h => ⟨h, trivial⟩)

end Fwknop
