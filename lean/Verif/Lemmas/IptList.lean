import Verif.Model.IptList
import Verif.Spec.IptList
import Verif.Lemmas.IptInit
import Verif.Lemmas.Proc
import Verif.Lemmas.IpfwExp

namespace Fwknop

open Spec Res

/-! ## Words in columns -/

/-- A word and a space in a text that begins with a word and a space. -/
theorem space_align {v t x w y : Str} (h : v ++ 32 :: t = x ++ (w ++ 32 :: y)) (hv : 32 ∉ v) (hw : 32 ∉ w) (h0 : w ≠ []) :
    (x ++ w = v ∧ t = y) ∨ ∃ x', x = v ++ 32 :: x' ∧ t = x' ++ (w ++ 32 :: y) := by
  rcases List.append_eq_append_iff.1 h with ⟨z, h1, h2⟩ | ⟨z, h1, h2⟩
  · cases z with
    | nil =>
      cases w with
      | nil => exact absurd rfl h0
      | cons a w =>
        simp only [List.nil_append, List.cons_append, List.cons.injEq] at h2
        exact absurd (List.mem_cons.2 (.inl h2.1)) hw
    | cons a z =>
      simp only [List.cons_append, List.cons.injEq] at h2
      obtain ⟨rfl, h2⟩ := h2
      exact .inr ⟨z, h1, h2⟩
  · have hz : 32 ∉ z := fun hm => hv (by rw [h1]; exact List.mem_append_right _ hm)
    obtain ⟨e1, e2⟩ := split_unique h2 hw hz
    exact .inl ⟨by rw [h1, e1], e2.symm⟩

theorem spaces_skip {w y : Str} (hw : 32 ∉ w) (h0 : w ≠ []) : ∀ (n : Nat) {s x : Str},
    List.replicate n 32 ++ s = x ++ (w ++ 32 :: y) → ∃ x', x = List.replicate n 32 ++ x' ∧ s = x' ++ (w ++ 32 :: y)
  | 0, s, x, h => ⟨x, rfl, h⟩
  | n + 1, s, x, h => by
    rw [List.replicate_succ, List.cons_append] at h
    rcases space_align (v := []) (by simpa using h) (by simp) hw h0 with ⟨h1, _⟩ | ⟨x', h1, h2⟩
    · exact absurd (List.append_eq_nil_iff.1 h1).2 h0
    · obtain ⟨x'', h3, h4⟩ := spaces_skip hw h0 n h2
      exact ⟨x'', by rw [h1, h3]; rfl, h4⟩

/-- A word and a space in columns: it is the end of one of the words; it is the word if there is a space, or
nothing, before it. -/
theorem columns_find {w y : Str} (hw : 32 ∉ w) (h0 : w ≠ []) {ws : List Word} {s : Str} (hc : Columns ws s) :
    (∀ v ∈ ws, 32 ∉ v) → ∀ {x : Str}, s = x ++ (w ++ 32 :: y) →
      ∃ v ∈ ws, w <:+ v ∧ ((∀ c, x.getLast? = some c → c = 32) → v = w) := by
  induction hc with
  | one v n =>
    intro hp x h
    have hv := hp v List.mem_cons_self
    cases n with
    | zero =>
      rw [List.replicate_zero, List.append_nil] at h
      exact absurd (by rw [h]; simp) hv
    | succ n =>
      rw [List.replicate_succ] at h
      rcases space_align h hv hw h0 with ⟨h1, _⟩ | ⟨x', h1, h2⟩
      · refine ⟨v, List.mem_cons_self, ⟨x, h1⟩, fun hx => ?_⟩
        cases hl : x.getLast? with
        | none => rw [List.getLast?_eq_none_iff] at hl; rw [← h1, hl]; rfl
        | some c =>
          exact absurd (by rw [← h1]; exact List.mem_append_left _ (hx c hl ▸ List.mem_of_getLast? hl)) hv
      · obtain ⟨x'', h3, h4⟩ := spaces_skip hw h0 n (s := []) (by rw [List.append_nil]; exact h2)
        simp at h4
  | more v n hc ih =>
    intro hp x h
    have hv := hp v List.mem_cons_self
    rw [List.replicate_succ, List.cons_append] at h
    rcases space_align h hv hw h0 with ⟨h1, _⟩ | ⟨x', h1, h2⟩
    · refine ⟨v, List.mem_cons_self, ⟨x, h1⟩, fun hx => ?_⟩
      cases hl : x.getLast? with
      | none => rw [List.getLast?_eq_none_iff] at hl; rw [← h1, hl]; rfl
      | some c =>
        exact absurd (by rw [← h1]; exact List.mem_append_left _ (hx c hl ▸ List.mem_of_getLast? hl)) hv
    · obtain ⟨x'', h3, h4⟩ := spaces_skip hw h0 n h2
      obtain ⟨u, hu, hs, hx⟩ := ih (fun v hv => hp v (List.mem_cons_of_mem _ hv)) h4
      refine ⟨u, List.mem_cons_of_mem _ hu, hs, fun hlast => hx fun c hc => hlast c ?_⟩
      rw [h1, h3]
      rw [List.getLast?_append, List.getLast?_cons, List.getLast?_append, hc]
      rfl

theorem columns_word {w s : Str} (hw : 32 ∉ w) (h0 : w ≠ []) {ws : List Word} (hc : Columns ws s) (hp : ∀ v ∈ ws, 32 ∉ v)
    (h : 32 :: (w ++ [32]) <:+: s) : w ∈ ws := by
  obtain ⟨x, y, h⟩ := h
  obtain ⟨v, hv, _, hx⟩ := columns_find (y := y) (x := x ++ [32]) hw h0 hc hp (by rw [← h]; simp)
  rw [← hx (by intro c hc; simp at hc; exact hc.symm)]
  exact hv

theorem columns_end {w s : Str} (hw : 32 ∉ w) (h0 : w ≠ []) {ws : List Word} (hc : Columns ws s) (hp : ∀ v ∈ ws, 32 ∉ v)
    (h : w ++ [32] <:+: s) : ∃ v ∈ ws, w <:+ v := by
  obtain ⟨x, y, h⟩ := h
  obtain ⟨v, hv, hs, _⟩ := columns_find (y := y) (x := x) hw h0 hc hp (by rw [← h]; simp)
  exact ⟨v, hv, hs⟩

/-- A word of columns that is not the last has a space after it. -/
theorem columns_has {v : Word} {post : List Word} (hpost : post ≠ []) : ∀ {pre : List Word} {s : Str},
    Columns (pre ++ v :: post) s → ∃ x y, s = x ++ (v ++ 32 :: y) ∧ (pre = [] → x = []) ∧ (pre ≠ [] → ∃ x', x = x' ++ [32])
  | [], s, h => by
    rw [List.nil_append] at h
    cases h with
    | one => exact absurd rfl hpost
    | more _ n hc => exact ⟨[], _, rfl, fun _ => rfl, fun h => absurd rfl h⟩
  | u :: pre, s, h => by
    rw [List.cons_append] at h
    generalize hL : u :: (pre ++ v :: post) = L at h
    cases h with
    | one w n => simp at hL
    | more w n hc =>
      rw [List.cons.injEq] at hL
      rw [← hL.2] at hc
      obtain ⟨x, y, rfl, hx0, hx⟩ := columns_has hpost hc
      refine ⟨w ++ (List.replicate (n + 1) 32 ++ x), y, by simp, fun h => absurd h (by simp), fun _ => ?_⟩
      by_cases hp : pre = []
      · subst hp
        rw [hx0 rfl]
        exact ⟨w ++ List.replicate n 32, by simp [List.replicate_succ']⟩
      · obtain ⟨x', rfl⟩ := hx hp
        exact ⟨w ++ (List.replicate (n + 1) 32 ++ x'), by simp⟩

theorem columns_has_word {v : Word} {pre post : List Word} (hpre : pre ≠ []) (hpost : post ≠ []) {s : Str}
    (h : Columns (pre ++ v :: post) s) : 32 :: (v ++ [32]) <:+: s := by
  obtain ⟨x, y, rfl, _, hx⟩ := columns_has hpost h
  obtain ⟨x', rfl⟩ := hx hpre
  exact ⟨x', y, by simp⟩

theorem columns_has_end {v : Word} {pre post : List Word} (hpost : post ≠ []) {s : Str}
    (h : Columns (pre ++ v :: post) s) : v ++ [32] <:+: s := by
  obtain ⟨x, y, rfl, _, _⟩ := columns_has hpost h
  exact ⟨x, y, by simp⟩

/-! ## The words of the lines -/

theorem decimal_digits (n : Nat) : ∀ c ∈ decimal n, 48 ≤ c ∧ c ≤ 57 := by
  intro c hc
  rw [← decStr_decimal] at hc
  have := decStr_digits n c hc
  simpa [isDigit] using this

theorem decimal_ne_nil (n : Nat) : decimal n ≠ [] := by rw [← decStr_decimal]; exact decStr_ne_nil n

theorem decimal_length_ge {n k : Nat} (h : 10 ^ k ≤ n) : k < (decimal n).length := by
  have h1 := digitsVal_lt (decStr n) (decStr_digits n)
  rw [decStr_val, decStr_decimal] at h1
  exact (Nat.pow_lt_pow_iff_right (by decide : 1 < 10)).1 (Nat.lt_of_le_of_lt h h1)

theorem suffix_mem {t p d : Str} {x : Nat} (h : t <:+ p ++ x :: d) (hl : d.length < t.length) : x ∈ t := by
  obtain ⟨a, h⟩ := h
  rcases List.append_eq_append_iff.1 h with ⟨z, _, h2⟩ | ⟨z, _, h2⟩
  · rw [h2]; simp
  · cases z with
    | nil => rw [List.nil_append] at h2; rw [← h2]; simp
    | cons b z =>
      rw [List.cons_append, List.cons.injEq] at h2
      have := congrArg List.length h2.2
      simp at this
      omega

theorem Spec.PrintedAddr.dot {s : Word} (h : PrintedAddr s) : 46 ∈ s := by
  obtain ⟨a, b, c, d, _, _, _, _, rfl⟩ := h
  simp

theorem Spec.PrintedAddr.chars {s : Word} (h : PrintedAddr s) : ∀ c ∈ s, 46 ≤ c ∧ c ≤ 57 := by
  obtain ⟨a, b, c, d, _, _, _, _, rfl⟩ := h
  intro x hx
  simp only [List.mem_append, List.mem_cons] at hx
  rcases hx with h | h | h | h | h | h | h <;> first | omega | (have := decimal_digits _ x h; omega)

theorem Spec.PrintedAddr.tail {s : Word} (h : PrintedAddr s) : ∃ p d, s = p ++ 46 :: d ∧ d.length ≤ 3 := by
  obtain ⟨a, b, c, d, _, _, _, hd, rfl⟩ := h
  exact ⟨decimal a ++ 46 :: (decimal b ++ 46 :: decimal c), decimal d, by simp, decimal_length_le d 3 (by decide) (by omega)⟩

theorem protoName_cases (p : Nat) : protoName p = b!"tcp" ∨ protoName p = b!"udp" := by
  unfold protoName; split <;> simp

/-- The ten digits of an expiry time are the end of no other text in a line than that of the expiry time. -/
theorem time_end {g : Grant} (hg : g.Fair) {e n : Nat} (he : 10 ^ 9 ≤ e) (he' : e < 2 ^ 32) (hn : n ≤ 99999) {v : Word}
    (hv : v ∈ decimal n :: g.columns) (h : decimal e <:+ v) : g.e = e := by
  have hlen : (decimal e).length = 10 := by
    have := decimal_length_ge he
    have := decimal_length_le e 10 (by decide) (by omega)
    omega
  have hle := h.length_le
  have hd := decimal_digits e
  have hnd : ∀ x, ¬ (48 ≤ x ∧ x ≤ 57) → x ∉ decimal e := fun x hx hm => hx (hd x hm)
  have hdot : ∀ s, PrintedAddr s → ¬ decimal e <:+ s := by
    intro s hs hsuf
    obtain ⟨p, d, rfl, hl⟩ := hs.tail
    exact hnd 46 (by omega) (suffix_mem hsuf (by omega))
  simp only [Grant.columns, List.mem_cons, List.not_mem_nil, or_false] at hv
  rcases hv with rfl | rfl | rfl | rfl | rfl | rfl | rfl | rfl | rfl | rfl | rfl
  · have := decimal_length_le n 5 (by decide) (by omega)
    omega
  · obtain ⟨c, hc⟩ := List.exists_mem_of_ne_nil _ (decimal_ne_nil e)
    have h1 := hd c hc
    have h2 := hg.target.2.2 c (h.subset hc)
    omega
  · rcases protoName_cases g.proto with hp | hp <;> (rw [hp] at hle; simp at hle; omega)
  · simp at hle; omega
  · exact absurd h (hdot _ hg.src)
  · rcases hg.dst with hp | hp
    · rw [hp] at hle; simp at hle; omega
    · exact absurd h (hdot _ hp)
  · rcases protoName_cases g.proto with hp | hp <;> (rw [hp] at hle; simp at hle; omega)
  · have := decimal_length_le g.port 5 (by decide) (by have := hg.port; omega)
    exact absurd (suffix_mem (p := b!"dpt") (x := 58) (d := decimal g.port) h (by omega)) (hnd 58 (by omega))
  · simp at hle; omega
  · have h1 := decimal_length_ge hg.e.1
    have h2 := decimal_length_le g.e 10 (by decide) (by have := hg.e; omega)
    obtain ⟨a, ha⟩ := h
    have := List.append_inj_right' ha (by rw [hlen]; omega)
    rw [← number_decimal g.e, ← this, number_decimal]
  · simp at hle; omega

theorem columns_visible {g : Grant} (hg : g.Fair) (n : Nat) : ∀ v ∈ decimal n :: g.columns, ∀ c ∈ v, 32 < c := by
  have hdec : ∀ m, ∀ c ∈ decimal m, 32 < c := fun m c hm => by have := decimal_digits m c hm; omega
  intro v hv
  simp only [Grant.columns, List.mem_cons, List.not_mem_nil, or_false] at hv
  rcases hv with rfl | rfl | rfl | rfl | rfl | rfl | rfl | rfl | rfl | rfl | rfl
  · exact hdec n
  · exact fun c hm => by have := hg.target.2.2 c hm; omega
  · rcases protoName_cases g.proto with hp | hp <;> (rw [hp]; decide)
  · decide
  · exact fun c hm => by have := hg.src.chars c hm; omega
  · rcases hg.dst with hp | hp
    · rw [hp]; decide
    · exact fun c hm => by have := hp.chars c hm; omega
  · rcases protoName_cases g.proto with hp | hp <;> (rw [hp]; decide)
  · intro c hc
    rcases List.mem_append.1 hc with h | h
    · exact (by decide : ∀ x ∈ b!"dpt:", 32 < x) c h
    · exact hdec _ c h
  · decide
  · intro c hc
    rcases List.mem_append.1 hc with h | h
    · exact (by decide : ∀ x ∈ b!"_exp_", 32 < x) c h
    · exact hdec _ c h
  · decide

theorem columns_plain {g : Grant} (hg : g.Fair) (n : Nat) : ∀ v ∈ decimal n :: g.columns, 32 ∉ v :=
  fun v hv h => Nat.lt_irrefl _ (columns_visible hg n v hv 32 h)

theorem columns_chars {ws : List Word} {s : Str} (h : Columns ws s) : (∀ v ∈ ws, ∀ c ∈ v, 32 < c) → ∀ c ∈ s, 32 ≤ c := by
  induction h with
  | one w n =>
    intro hw c hc
    rcases List.mem_append.1 hc with h | h
    · exact Nat.le_of_lt (hw w List.mem_cons_self c h)
    · rw [List.eq_of_mem_replicate h]; exact Nat.le_refl _
  | more w n _ ih =>
    intro hw c hc
    rcases List.mem_append.1 hc with h | h
    · exact Nat.le_of_lt (hw w List.mem_cons_self c h)
    · rcases List.mem_append.1 h with h | h
      · rw [List.eq_of_mem_replicate h]; exact Nat.le_refl _
      · exact ih (fun v hv => hw v (List.mem_cons_of_mem _ hv)) c h

/-- What a word with this character can be in a line. -/
theorem column_of_dot {g : Grant} (hg : g.Fair) {n : Nat} {v : Word} (hv : v ∈ decimal n :: g.columns) (h : 46 ∈ v) :
    v = g.src ∨ v = g.dst := by
  have hdec : ∀ m, 46 ∉ decimal m := fun m hm => by have := decimal_digits m 46 hm; omega
  simp only [Grant.columns, List.mem_cons, List.not_mem_nil, or_false] at hv
  rcases hv with rfl | rfl | rfl | rfl | rfl | rfl | rfl | rfl | rfl | rfl | rfl
  · exact absurd h (hdec n)
  · exact absurd (hg.target.2.2 46 h) (by omega)
  · rcases protoName_cases g.proto with hp | hp <;> (rw [hp] at h; exact absurd h (by decide))
  · exact absurd h (by decide)
  · exact .inl rfl
  · exact .inr rfl
  · rcases protoName_cases g.proto with hp | hp <;> (rw [hp] at h; exact absurd h (by decide))
  · simp [hdec] at h
  · exact absurd h (by decide)
  · simp [hdec] at h
  · exact absurd h (by decide)

theorem column_of_colon {g : Grant} (hg : g.Fair) {n : Nat} {v : Word} (hv : v ∈ decimal n :: g.columns) (h : 58 ∈ v) :
    v = b!"dpt:" ++ decimal g.port := by
  have hdec : ∀ m, 58 ∉ decimal m := fun m hm => by have := decimal_digits m 58 hm; omega
  simp only [Grant.columns, List.mem_cons, List.not_mem_nil, or_false] at hv
  rcases hv with rfl | rfl | rfl | rfl | rfl | rfl | rfl | rfl | rfl | rfl | rfl
  · exact absurd h (hdec n)
  · exact absurd (hg.target.2.2 58 h) (by omega)
  · rcases protoName_cases g.proto with hp | hp <;> (rw [hp] at h; exact absurd h (by decide))
  · exact absurd h (by decide)
  · exact absurd (hg.src.chars 58 h) (by omega)
  · rcases hg.dst with hp | hp
    · rw [hp] at h; exact absurd h (by decide)
    · exact absurd (hp.chars 58 h) (by omega)
  · rcases protoName_cases g.proto with hp | hp <;> (rw [hp] at h; exact absurd h (by decide))
  · rfl
  · exact absurd h (by decide)
  · simp [hdec] at h
  · exact absurd h (by decide)

/-- A word of capital letters and underscores in a line is its target. -/
theorem column_of_name {g : Grant} (hg : g.Fair) {n : Nat} {v : Word} (hv : v ∈ decimal n :: g.columns) (h : PlainName v) :
    v = g.target := by
  obtain ⟨h0, _, h⟩ := h
  simp only [Grant.columns, List.mem_cons, List.not_mem_nil, or_false] at hv
  rcases hv with rfl | rfl | rfl | rfl | rfl | rfl | rfl | rfl | rfl | rfl | rfl
  · obtain ⟨c, hc⟩ := List.exists_mem_of_ne_nil _ h0
    have := h c hc; have := decimal_digits n c hc; omega
  · rfl
  · rcases protoName_cases g.proto with hp | hp <;> (rw [hp] at h; exact absurd h (by decide))
  · exact absurd h (by decide)
  · exact absurd (h 46 hg.src.dot) (by omega)
  · rcases hg.dst with hp | hp
    · rw [hp] at h; exact absurd h (by decide)
    · exact absurd (h 46 hp.dot) (by omega)
  · rcases protoName_cases g.proto with hp | hp <;> (rw [hp] at h; exact absurd h (by decide))
  · exact absurd (h 58 (by simp)) (by omega)
  · exact absurd h (by decide)
  · exact absurd (h 120 (by simp)) (by omega)
  · exact absurd h (by decide)

/-- The name of a protocol in a line is its protocol. -/
theorem column_of_proto {g : Grant} (hg : g.Fair) {n : Nat} {v : Word} (hv : v ∈ decimal n :: g.columns)
    (h : v = b!"tcp" ∨ v = b!"udp") : v = protoName g.proto := by
  have hc : ∃ c ∈ v, 100 ≤ c := by rcases h with rfl | rfl <;> decide
  have hl : v.length = 3 := by rcases h with rfl | rfl <;> rfl
  obtain ⟨c, hcv, hc⟩ := hc
  simp only [Grant.columns, List.mem_cons, List.not_mem_nil, or_false] at hv
  rcases hv with rfl | rfl | rfl | rfl | rfl | rfl | rfl | rfl | rfl | rfl | rfl
  · have := decimal_digits n c hcv; omega
  · have := hg.target.2.2 c hcv; omega
  · rfl
  · simp at hl
  · have := hg.src.chars c hcv; omega
  · rcases hg.dst with hp | hp
    · rw [hp] at hl; simp at hl
    · have := hp.chars c hcv; omega
  · rfl
  · simp at hl
  · simp at hl
  · simp at hl
  · simp at hl

theorem dpt_end {a b : Nat} (h : b!"dpt:" ++ decimal a <:+ b!"dpt:" ++ decimal b) : a = b := by
  obtain ⟨x, h⟩ := h
  rw [← List.append_assoc] at h
  rcases List.append_eq_append_iff.1 h with ⟨z, h1, h2⟩ | ⟨z, h1, h2⟩
  · have := congrArg List.length h1
    simp only [List.length_append, List.length_cons, List.length_nil] at this
    have hz : z = [] := List.length_eq_zero_iff.1 (by omega)
    rw [hz, List.nil_append] at h2
    rw [← number_decimal a, h2, number_decimal]
  · rcases List.eq_nil_or_concat z with rfl | ⟨z', c, rfl⟩
    · rw [List.nil_append] at h2
      rw [← number_decimal a, ← h2, number_decimal]
    · have hc : c = 58 := by
        have h3 : (x ++ b!"dpt") ++ [58] = (b!"dpt:" ++ z') ++ [c] := by simpa using h1
        have := List.append_inj_right' h3 rfl
        simpa using this.symm
      have := decimal_digits b 58 (by rw [h2]; simp [hc])
      omega

theorem Spec.PrintedAddr.length {s : Word} (h : PrintedAddr s) : s.length ≤ 15 ∧ s ≠ [] := by
  refine ⟨?_, List.ne_nil_of_mem h.dot⟩
  obtain ⟨a, b, c, d, ha, hb, hc, hd, rfl⟩ := h
  have h1 := decimal_length_le a 3 (by decide) (by omega)
  have h2 := decimal_length_le b 3 (by decide) (by omega)
  have h3 := decimal_length_le c 3 (by decide) (by omega)
  have h4 := decimal_length_le d 3 (by decide) (by omega)
  simp only [List.length_append, List.length_cons]
  omega

/-- The question whether the rule of a permission is there. -/
def queryOf (a : Grant) (useDst : Bool) : RuleQuery :=
  { proto := a.proto, src := some a.src, dst := if useDst then some a.dst else none, port := a.port,
    nat_ip := none, nat_port := NAT_ANY_PORT, exp_ts := a.e }

theorem protoSearch_name {p : Nat} (h : p = 6 ∨ p = 17) : protoSearch p = 32 :: (protoName p ++ [32]) := by
  rcases h with rfl | rfl <;> decide

theorem cmdBuf_id {s : Str} (h : s.length ≤ 254) : cmdBuf s = s := by rw [cmdBuf, cmdBuf_short h]

theorem lineFits_iff {g a : Grant} (hg : g.Fair) (ha : a.Fair) (hd : g.dst = a.dst) (hs : a.src ≠ a.dst) {n : Nat} {l : Str}
    (hl : Columns (decimal n :: g.columns) l) {ch : FwChain} (ht : ch.target = a.target) (u : Bool) :
    lineFits ch (queryOf a u) l = true ↔ g.proto = a.proto ∧ g.src = a.src ∧ g.target = a.target ∧ g.port = a.port := by
  have hp := columns_plain hg n
  have hpa := columns_plain ha n
  have hsl := ha.src.length
  have htl := ha.target
  have htl2 := ha.target.2.1
  have hpl := decimal_length_le a.port 5 (by decide) (by have := ha.port; omega)
  have e1 : cmdBuf (protoSearch a.proto) = 32 :: (protoName a.proto ++ [32]) := by
    rw [protoSearch_name ha.proto, cmdBuf_id]
    rcases protoName_cases a.proto with h | h <;> rw [h] <;> decide
  have e2 : cmdBuf (b!" " ++ a.src ++ b!" ") = 32 :: (a.src ++ [32]) := by
    rw [cmdBuf_id (by simp only [List.length_append, List.length_cons, List.length_nil]; omega)]; simp
  have e3 : cmdBuf (b!" " ++ a.target ++ b!" ") = 32 :: (a.target ++ [32]) := by
    rw [cmdBuf_id (by simp only [List.length_append, List.length_cons, List.length_nil]; omega)]; simp
  have e4 : cmdBuf (b!"dpt:" ++ decStrInt (a.port : Int) ++ b!" ") = (b!"dpt:" ++ decimal a.port) ++ [32] := by
    rw [decStrInt_ofNat, cmdBuf_id (by simp only [List.length_append, List.length_cons, List.length_nil]; omega)]
  have hdst : wanted l (queryOf a u).dst (dstSearch (queryOf a u)) = true := by
    unfold wanted queryOf dstSearch
    cases u with
    | false => rfl
    | true =>
      simp only [if_true, Option.isNone_some, Bool.false_or]
      rw [strIn_iff, cmdBuf_id (by
        rcases ha.dst with h | h
        · rw [h]; decide
        · have := h.length; simp only [List.length_append, List.length_cons, List.length_nil]; omega)]
      have := columns_has_word (v := g.dst) (pre := [decimal n, g.target, protoName g.proto, b!"--", g.src])
        (post := [protoName g.proto, b!"dpt:" ++ decimal g.port, b!"/*", b!"_exp_" ++ decimal g.e, b!"*/"]) (by simp) (by simp) hl
      rw [hd] at this
      simpa using this
  have hport : (((a.port : Int) == ANY_PORT) = false) := by
    have := ha.port
    simp only [beq_eq_false_iff_ne, ne_eq]
    show ¬ ((a.port : Int) = 0)
    omega
  have hproto : ((a.proto == ANY_PROTO) = false) := by rcases ha.proto with h | h <;> rw [h] <;> decide
  unfold lineFits
  rw [hdst]
  show ((a.proto == ANY_PROTO || strIn l (cmdBuf (protoSearch a.proto))) && wanted l (some a.src) (b!" " ++ a.src ++ b!" ") && true &&
    true && strIn l (cmdBuf (b!" " ++ ch.target ++ b!" ")) && ((a.port : Int) == ANY_PORT || strIn l (cmdBuf (b!"dpt:" ++ decStrInt (a.port : Int) ++ b!" ")))) = true ↔ _
  rw [hport, hproto, ht, e1, e3, e4]
  unfold wanted
  rw [e2]
  simp only [Bool.and_eq_true, Bool.false_or, Option.isNone_some, and_true, strIn_iff]
  constructor
  · rintro ⟨⟨⟨h1, h2⟩, h3⟩, h4⟩
    have p1 : protoName a.proto = protoName g.proto := by
      have hm := columns_word (hpa _ (by simp [Grant.columns])) (by rcases protoName_cases a.proto with h | h <;> rw [h] <;> decide) hl hp h1
      exact column_of_proto hg hm (protoName_cases _)
    have p2 : a.src = g.src := by
      have hm := columns_word (hpa _ (by simp [Grant.columns])) hsl.2 hl hp h2
      rcases column_of_dot hg hm ha.src.dot with h | h
      · exact h
      · exact absurd (h.trans hd) hs
    have p3 : a.target = g.target := by
      have hm := columns_word (hpa _ (by simp [Grant.columns])) htl.1 hl hp h3
      exact column_of_name hg hm ha.target
    have p4 : a.port = g.port := by
      obtain ⟨v, hv, hsuf⟩ := columns_end (hpa _ (by simp [Grant.columns])) (by simp) hl hp h4
      rw [column_of_colon hg hv (hsuf.subset (by simp))] at hsuf
      exact dpt_end hsuf
    refine ⟨?_, p2.symm, p3.symm, p4.symm⟩
    rcases ha.proto with h | h <;> rcases hg.proto with h' | h' <;> rw [h, h'] at p1 ⊢ <;> exact absurd p1 (by decide)
  · rintro ⟨h1, h2, h3, h4⟩
    refine ⟨⟨⟨?_, ?_⟩, ?_⟩, ?_⟩
    · rw [← h1]
      exact columns_has_word (pre := [decimal n, g.target]) (by simp) (by simp) hl
    · rw [← h2]
      exact columns_has_word (pre := [decimal n, g.target, protoName g.proto, b!"--"]) (by simp) (by simp) hl
    · rw [← h3]
      exact columns_has_word (pre := [decimal n]) (by simp) (by simp) hl
    · rw [← h4]
      exact columns_has_end (pre := [decimal n, g.target, protoName g.proto, b!"--", g.src, g.dst, protoName g.proto]) (by simp) hl

/-! ## The lines of a listing -/

/-- The lines of the rules, with numbers from `n`. -/
def numbered (print : Rule → List Nat) : Nat → List Rule → List Str
  | _, [] => []
  | n, r :: rs => line print n r :: numbered print (n + 1) rs

def head1 (c : Word) : Str := b!"Chain " ++ c ++ b!" (1 references)"
def head2 : Str := b!"num  target     prot opt source               destination         "

theorem lines_text (print : Rule → List Nat) : ∀ (rs : List Rule) (n : Nat) (l : Str),
    l ++ (lines print n rs ++ [10]) = linesText (l :: numbered print n rs)
  | [], n, l => by simp [lines, numbered, linesText]
  | r :: rs, n, l => by
    have := lines_text print rs (n + 1) (line print n r)
    simp only [lines, numbered]
    rw [show linesText (l :: line print n r :: numbered print (n + 1) rs) =
      l ++ 10 :: linesText (line print n r :: numbered print (n + 1) rs) from by simp [linesText], ← this]
    simp

theorem listing_text (print : Rule → List Nat) (c : Word) (rs : List Rule) :
    listing print c rs = linesText (head1 c :: head2 :: numbered print 1 rs) := by
  rw [show linesText (head1 c :: head2 :: numbered print 1 rs) = head1 c ++ 10 :: linesText (head2 :: numbered print 1 rs) from by
    simp [linesText], ← lines_text]
  unfold listing header head1 head2
  simp only [List.append_assoc, List.cons_append]

theorem line_columns {print : Rule → List Nat} (hpr : PrintsGrants print) {g : Grant} (hg : g.Fair) (n : Nat) :
    Columns (decimal n :: g.columns) (line print n g.rule) := by
  have := Columns.more (decimal n) (4 - (decimal n).length) (hpr g hg).1
  rw [List.replicate_succ', List.append_assoc] at this
  unfold line
  simpa using this

/-- The test of the search. -/
def hit (e : Nat) (l : Str) : Bool := !isEmptyLine (l.headD 0) && strIn l (decimal e ++ [32])

theorem time_blank (e : Nat) : 10 ∉ decimal e ++ [32] ∧ 32 ∉ decimal e := by
  have h1 : 10 ∉ decimal e := fun h => by have := decimal_digits e 10 h; omega
  exact ⟨by simp [h1], fun h => by have := decimal_digits e 32 h; omega⟩

theorem hit_line {print : Rule → List Nat} (hpr : PrintsGrants print) {g : Grant} (hg : g.Fair) {e n : Nat} (he : 10 ^ 9 ≤ e)
    (he' : e < 2 ^ 32) (hn : n ≤ 99999) : hit e (line print n g.rule ++ [10]) = decide (g.e = e) := by
  have hc := line_columns hpr hg n
  obtain ⟨d, hd⟩ : ∃ d ds, decimal n = d :: ds := by
    cases h : decimal n with
    | nil => exact absurd h (decimal_ne_nil n)
    | cons d ds => exact ⟨d, ds, rfl⟩
  obtain ⟨ds, hd⟩ := hd
  have hdig := decimal_digits n d (by rw [hd]; simp)
  have hemp : isEmptyLine ((line print n g.rule ++ [10]).headD 0) = false := by
    unfold line
    rw [hd]
    simp only [List.cons_append, List.headD_cons, isEmptyLine]
    have : d ≠ 35 ∧ d ≠ 10 ∧ d ≠ 13 ∧ d ≠ 59 ∧ d ≠ 0 := by omega
    simp [this]
  unfold hit
  rw [hemp, Bool.not_false, Bool.true_and, Bool.eq_iff_iff, strIn_iff, infix_line (time_blank e).1, decide_eq_true_eq]
  constructor
  · intro h
    obtain ⟨v, hv, hs⟩ := columns_end (time_blank e).2 (decimal_ne_nil e) hc (columns_plain hg n) h
    exact time_end hg he he' hn hv hs
  · rintro rfl
    obtain ⟨x, y, h⟩ := columns_has_end (v := b!"_exp_" ++ decimal g.e) (pre := [decimal n, g.target, protoName g.proto, b!"--", g.src, g.dst,
      protoName g.proto, b!"dpt:" ++ decimal g.port, b!"/*"]) (post := [b!"*/"]) (by simp) hc
    exact ⟨x ++ b!"_exp_", y, by rw [← h]; simp⟩

theorem find_numbered {print : Rule → List Nat} (hpr : PrintsGrants print) {e : Nat} (he : 10 ^ 9 ≤ e) (he' : e < 2 ^ 32) :
    ∀ (gs : List Grant) (n : Nat), n + gs.length ≤ 99999 → (∀ g ∈ gs, g.Fair) →
      (gs.find? (fun g => g.e = e) = none → ((numbered print n (gs.map Grant.rule)).map (· ++ [10])).find? (hit e) = none) ∧
      ∀ g, gs.find? (fun g => g.e = e) = some g →
        ∃ m, ((numbered print n (gs.map Grant.rule)).map (· ++ [10])).find? (hit e) = some (line print m g.rule ++ [10])
  | [], n, _, _ => ⟨fun _ => rfl, fun g h => nomatch h⟩
  | g :: gs, n, hn, hg => by
    have ih := find_numbered hpr he he' gs (n + 1) (by simp only [List.length_cons] at hn; omega)
      (fun x hx => hg x (List.mem_cons_of_mem _ hx))
    have hh := hit_line hpr (hg g List.mem_cons_self) (n := n) he he' (by simp only [List.length_cons] at hn; omega)
    simp only [List.map_cons, numbered, List.find?_cons, hh]
    by_cases h : g.e = e
    · simp only [h, decide_true, reduceCtorEq, false_implies, true_and]
      intro g' hg'
      rw [Option.some.injEq] at hg'
      exact ⟨n, by rw [hg']⟩
    · simp only [h, decide_false]
      exact ih

theorem hit_heads {c : Word} (hc : PlainName c) {e : Nat} (he : 10 ^ 9 ≤ e) : hit e (head1 c ++ [10]) = false ∧ hit e (head2 ++ [10]) = false := by
  have hd := decimal_digits e
  have h0 := decimal_ne_nil e
  constructor
  · unfold hit
    rw [Bool.and_eq_false_iff]
    right
    rw [Bool.eq_false_iff, ne_eq, strIn_iff, infix_line (time_blank e).1]
    intro h
    have hcol : Columns [b!"Chain", c, b!"(1", b!"references)"] (head1 c) := by
      have h1 := Columns.more b!"Chain" 0 (Columns.more c 0 (Columns.more b!"(1" 0 (Columns.one b!"references)" 0)))
      have : head1 c = b!"Chain" ++ (List.replicate (0 + 1) 32 ++ (c ++ (List.replicate (0 + 1) 32 ++
          (b!"(1" ++ (List.replicate (0 + 1) 32 ++ (b!"references)" ++ List.replicate 0 32)))))) := by
        simp [head1, List.replicate]
      rw [this]
      exact h1
    obtain ⟨v, hv, hs⟩ := columns_end (time_blank e).2 h0 hcol (by
      intro v hv
      simp only [List.mem_cons, List.not_mem_nil, or_false] at hv
      rcases hv with rfl | rfl | rfl | rfl
      · decide
      · exact fun hm => by have := hc.2.2 32 hm; omega
      · decide
      · decide) h
    obtain ⟨d, hdm⟩ := List.exists_mem_of_ne_nil _ h0
    have h1 := hd d hdm
    have h2 := hs.subset hdm
    simp only [List.mem_cons, List.not_mem_nil, or_false] at hv
    rcases hv with rfl | rfl | rfl | rfl
    · exact (by decide : ∀ x ∈ b!"Chain", ¬ (48 ≤ x ∧ x ≤ 57)) d h2 h1
    · have := hc.2.2 d h2; omega
    · have h3 := hs.length_le
      have h4 := decimal_length_ge he
      rw [show (b!"(1").length = 2 from rfl] at h3
      omega
    · exact (by decide : ∀ x ∈ b!"references)", ¬ (48 ≤ x ∧ x ≤ 57)) d h2 h1
  · unfold hit
    rw [Bool.and_eq_false_iff]
    right
    rw [Bool.eq_false_iff, ne_eq, strIn_iff, infix_line (time_blank e).1]
    intro h
    obtain ⟨d, hdm⟩ := List.exists_mem_of_ne_nil _ h0
    have h1 := hd d hdm
    have h2 : d ∈ head2 := h.subset (List.mem_append_left _ hdm)
    have h3 : ∀ x ∈ head2, ¬ (48 ≤ x ∧ x ≤ 57) := by decide
    exact h3 d h2 h1

theorem short_numbered {print : Rule → List Nat} (hpr : PrintsGrants print) : ∀ (gs : List Grant) (n : Nat), n + gs.length ≤ 99999 →
    (∀ g ∈ gs, g.Fair) → ShortLines (numbered print n (gs.map Grant.rule))
  | [], n, _, _ => by intro l h; cases h
  | g :: gs, n, hn, hg => by
    intro l h
    simp only [List.map_cons, numbered, List.mem_cons] at h
    simp only [List.length_cons] at hn
    rcases h with rfl | h
    · have hf := hg g List.mem_cons_self
      have hc := columns_chars (line_columns hpr hf n) (columns_visible hf n)
      refine ⟨fun h => by have := hc 10 h; omega, fun h => by have := hc 0 h; omega, ?_⟩
      have h1 := (hpr g hf).2
      have h2 := decimal_length_le n 5 (by decide) (by omega)
      unfold line
      simp only [List.length_append, List.length_cons, List.length_replicate]
      omega
    · exact short_numbered hpr gs (n + 1) (by omega) (fun x hx => hg x (List.mem_cons_of_mem _ hx)) l h

theorem short_heads {c : Word} (hc : PlainName c) : ∀ l ∈ [head1 c, head2], 10 ∉ l ∧ 0 ∉ l ∧ l.length ≤ 254 := by
  have h1 : ∀ x, x < 32 → x ∉ head1 c := by
    intro x hx hm
    unfold head1 at hm
    rcases List.mem_append.1 hm with h | h
    · rcases List.mem_append.1 h with h | h
      · exact absurd hx (Nat.not_lt.2 ((by decide : ∀ y ∈ b!"Chain ", 32 ≤ y) x h))
      · have := hc.2.2 x h; omega
    · exact absurd hx (Nat.not_lt.2 ((by decide : ∀ y ∈ b!" (1 references)", 32 ≤ y) x h))
  have hl := hc.2.1
  intro l h
  simp only [List.mem_cons, List.not_mem_nil, or_false] at h
  rcases h with rfl | rfl
  · refine ⟨h1 10 (by decide), h1 0 (by decide), ?_⟩
    unfold head1
    simp only [List.length_append, List.length_cons, List.length_nil]
    omega
  · decide

/-- The lines of a listing of permissions, as the program reads them. -/
theorem listing_lines {print : Rule → List Nat} (hpr : PrintsGrants print) {c : Word} (hc : PlainName c) {gs : List Grant}
    (hn : gs.length < 99999) (hg : ∀ g ∈ gs, g.Fair) :
    outLines ((listing print c (gs.map Grant.rule)).length + 1) (listing print c (gs.map Grant.rule)) =
      (head1 c ++ [10]) :: (head2 ++ [10]) :: (numbered print 1 (gs.map Grant.rule)).map (· ++ [10]) := by
  have hs : ShortLines (head1 c :: head2 :: numbered print 1 (gs.map Grant.rule)) := by
    intro l h
    rcases List.mem_cons.1 h with rfl | h
    · exact short_heads hc _ (by simp)
    · rcases List.mem_cons.1 h with rfl | h
      · exact short_heads hc _ (by simp)
      · exact short_numbered hpr gs 1 (by omega) hg l h
  rw [listing_text, outLines_text _ _ hs (Nat.lt_succ_self _)]
  rfl

theorem chop_line {l : Str} (h : l ≠ []) : chop_newline (truncate_partial_line (l ++ [10])) = l := by
  rw [truncate_cut l [] (by simp), chop_newline, if_pos]
  · simp
  · refine ⟨?_, by simp⟩
    have := List.length_pos_iff.2 h
    simp only [List.length_append, List.length_cons, List.length_nil]
    omega

/-- What the search in the listing finds out: is the first of the rules with the expiry time the one asked for? -/
theorem listed_run {print : Host} {cf : FwConf} {ch : FwChain} (hN : NamesOk cf ch)
    (hroom : cf.fw_command.length + ch.table.length + ch.to_chain.length ≤ 220) (hpr : PrintsGrants print)
    (hc : PlainName ch.to_chain) {a : Grant} (ha : a.Fair) (ht : ch.target = a.target) (hs : a.src ≠ a.dst)
    {gs : List Grant} (hn : gs.length < 99999) (hg : ∀ g ∈ gs, g.Fair ∧ g.dst = a.dst) {K : Tables}
    (hK : K ch.table ch.to_chain = some (gs.map Grant.rule)) (u : Bool) :
    rule_exists_no_chk_support cf (iptTool print) ch (queryOf a u) (K, []) =
      .ok (decide (gs.find? (fun g => g.e = a.e) = some a), (K, [])) := by
  unfold rule_exists_no_chk_support search_extcmd_getline
  rw [strtoargv_list hN hroom]
  simp only [bind_ok]
  rw [exec_nil, iptables_list hK]
  have hl : (decimal a.e).length ≤ 10 := decimal_length_le a.e 10 (by decide) (by have := ha.e; omega)
  have hf : (fun l : Str => !isEmptyLine (l.headD 0) && strIn l (cmdBuf (decStr (queryOf a u).exp_ts ++ b!" "))) = hit a.e := by
    funext l
    unfold hit queryOf
    rw [decStr_decimal, cmdBuf_id (by simp only [List.length_append, List.length_cons, List.length_nil]; omega)]
  simp only [hf]
  rw [listing_lines hpr hc hn (fun g h => (hg g h).1)]
  have hh := hit_heads hc ha.e.1
  simp only [List.find?_cons, hh.1, hh.2]
  obtain ⟨f1, f2⟩ := find_numbered hpr ha.e.1 ha.e.2 gs 1 (by omega) (fun g h => (hg g h).1)
  cases hfind : gs.find? (fun g => g.e = a.e) with
  | none => rw [f1 hfind]; rfl
  | some g =>
    obtain ⟨m, hm⟩ := f2 g hfind
    have hgm := hg g (List.mem_of_find?_eq_some hfind)
    have hge : g.e = a.e := by simpa using List.find?_some hfind
    rw [hm]
    simp only [Option.map_some, pure_eq, bind_ok]
    rw [chop_line (by unfold line; simp [decimal_ne_nil])]
    have hiff := lineFits_iff hgm.1 ha hgm.2 hs (line_columns hpr hgm.1 m) ht u
    have hb : lineFits ch (queryOf a u) (line print m g.rule) = decide (some g = some a) := by
      rw [Bool.eq_iff_iff, hiff, decide_eq_true_eq, Option.some.injEq]
      constructor
      · rintro ⟨h1, h2, h3, h4⟩
        cases g; cases a
        simp only at h1 h2 h3 h4 hge
        have := hgm.2
        simp only at this
        rw [h1, h2, h3, h4, hge, this]
      · rintro rfl; exact ⟨rfl, rfl, rfl, rfl⟩
    rw [hb]
    have : ((queryOf a u).nat_port == NAT_ANY_PORT) = true := rfl
    rw [this, Bool.true_or, Bool.and_true]

/-! ## Adding a rule -/

/-- The parent chain: it jumps to the chain, and its lines are not too long. -/
structure ParentOk (print : Host) (c : Word) (fr : List Rule) : Prop where
  jump : [b!"-j", c] ∈ fr
  shown : PrintsJump print c
  short : ∀ r ∈ fr, 10 ∉ print r ∧ 0 ∉ print r ∧ (print r).length ≤ 240
  few : fr.length < 99999

theorem short_lines {print : Rule → List Nat} : ∀ (rs : List Rule) (n : Nat), n + rs.length ≤ 99999 →
    (∀ r ∈ rs, 10 ∉ print r ∧ 0 ∉ print r ∧ (print r).length ≤ 240) → ShortLines (numbered print n rs)
  | [], n, _, _ => by intro l h; cases h
  | r :: rs, n, hn, hr => by
    intro l h
    simp only [numbered, List.mem_cons] at h
    simp only [List.length_cons] at hn
    rcases h with rfl | h
    · obtain ⟨h1, h2, h3⟩ := hr r List.mem_cons_self
      have hd := decimal_digits n
      have hx : ∀ x, x < 32 → x ∉ print r → x ∉ line print n r := by
        intro x hx hp hm
        unfold line at hm
        simp only [List.mem_append, List.mem_cons] at hm
        rcases hm with (h | h) | h | h
        · have := hd x h; omega
        · have := List.eq_of_mem_replicate h; omega
        · omega
        · exact hp h
      refine ⟨hx 10 (by decide) h1, hx 0 (by decide) h2, ?_⟩
      have := decimal_length_le n 5 (by decide) (by omega)
      unfold line
      simp only [List.length_append, List.length_cons, List.length_replicate]
      omega
    · exact short_lines rs (n + 1) (by omega) (fun x hx => hr x (List.mem_cons_of_mem _ hx)) l h

theorem mem_numbered {print : Rule → List Nat} {r : Rule} : ∀ {rs : List Rule} (n : Nat), r ∈ rs →
    ∃ m, line print m r ∈ numbered print n rs
  | [], n, h => nomatch h
  | x :: rs, n, h => by
    rcases List.mem_cons.1 h with rfl | h
    · exact ⟨n, List.mem_cons_self⟩
    · obtain ⟨m, hm⟩ := mem_numbered (print := print) (n + 1) h
      exact ⟨m, List.mem_cons_of_mem _ hm⟩

theorem jumpListed_run {print : Host} {cf : FwConf} {ch : FwChain} (h : GrantOk cf ch) (hf : PlainName ch.from_chain)
    (hc : ch.to_chain.length ≤ 200) {fr : List Rule}
    (hp : ParentOk print ch.to_chain fr) {K : Tables} (hK : K ch.table ch.from_chain = some fr) :
    jumpRuleExists cf (iptTool print) false ch (K, []) = .ok (true, (K, [])) := by
  have hroom := h.room
  unfold jumpRuleExists search_extcmd
  rw [if_neg (by decide)]
  have ha := strtoargv_list (cf := cf) (ch := { ch with to_chain := ch.from_chain }) ⟨h.exe, h.table, h.from_chain⟩ (by
    show cf.fw_command.length + ch.table.length + ch.from_chain.length ≤ 220
    omega)
  rw [show cmdBuf (cf.fw_command ++ b!" -t " ++ ch.table ++ b!" -L " ++ ch.from_chain ++ b!" --line-numbers -n") =
    cmdBuf (cf.fw_command ++ b!" -t " ++ ({ ch with to_chain := ch.from_chain } : FwChain).table ++ b!" -L " ++
      ({ ch with to_chain := ch.from_chain } : FwChain).to_chain ++ b!" --line-numbers -n") from rfl, ha, bind_ok]
  simp only
  rw [exec_nil, iptables_list hK]
  have hs : ShortLines (head1 ch.from_chain :: head2 :: numbered print 1 fr) := by
    intro l hl
    rcases List.mem_cons.1 hl with rfl | hl
    · exact short_heads hf _ (by simp)
    · rcases List.mem_cons.1 hl with rfl | hl
      · exact short_heads hf _ (by simp)
      · exact short_lines fr 1 (by have := hp.few; omega) hp.short l hl
  simp only [pure_eq]
  rw [listing_text, outLines_text _ _ hs (Nat.lt_succ_self _)]
  obtain ⟨m, hm⟩ := mem_numbered (print := print) 1 hp.jump
  congr 2
  rw [List.any_eq_true]
  refine ⟨line print m [b!"-j", ch.to_chain] ++ [10], List.mem_map.2 ⟨_, List.mem_cons_of_mem _ (List.mem_cons_of_mem _ hm), rfl⟩, ?_⟩
  rw [Bool.and_eq_true]
  constructor
  · cases hd : decimal m with
    | nil => exact absurd hd (decimal_ne_nil m)
    | cons d ds =>
      have hdig := decimal_digits m d (by rw [hd]; simp)
      unfold line
      rw [hd]
      simp only [List.cons_append, List.headD_cons, isEmptyLine]
      have : d ≠ 35 ∧ d ≠ 10 ∧ d ≠ 13 ∧ d ≠ 59 ∧ d ≠ 0 := by omega
      simp [this]
  · rw [strIn_iff, cmdBuf_id (by simp only [List.length_append, List.length_cons, List.length_nil]; omega)]
    obtain ⟨r, hr⟩ := hp.shown
    unfold line
    rw [← hr]
    exact ⟨decimal m ++ List.replicate (4 - (decimal m).length) 32, r ++ [10], by simp⟩

theorem mkChain_listed {print : Host} {cf : FwConf} {ch : FwChain} (h : GrantOk cf ch) (hf : PlainName ch.from_chain)
    (hc : ch.to_chain.length ≤ 200) {fr rs : List Rule}
    (hp : ParentOk print ch.to_chain fr) {K : Tables} (hK : K ch.table ch.from_chain = some fr)
    (hrs : K ch.table ch.to_chain = some rs) :
    mkChain cf (iptTool print) false ch (K, []) = .ok (0, (K, [])) := by
  have hroom := h.room
  unfold mkChain
  have h1 : chain_exists cf (iptTool print) ch (K, []) = .ok (false, (K, [])) := by
    unfold chain_exists
    rw [run_argv (ws := [cf.fw_command, b!"-t", ch.table, b!"-L", ch.to_chain, b!"-n"]) (by simp [spaced]) (by
      intro w hw'
      simp only [List.mem_cons, List.not_mem_nil, or_false] at hw'
      rcases hw' with rfl | rfl | rfl | rfl | rfl | rfl
      · exact h.exe
      · unfold PlainWord IsBlank; decide
      · exact h.table
      · unfold PlainWord IsBlank; decide
      · exact h.chain.1
      · unfold PlainWord IsBlank; decide) (by
      simp only [List.length_append, List.length_cons, List.length_nil]; omega) (by simp), bind_ok, iptables_look]
    rfl
  rw [h1, bind_ok]
  simp only [Bool.false_eq_true, if_false]
  unfold createChain
  rw [iptCmd_run (ws := [b!"-t", ch.table, b!"-N", ch.to_chain]) (by simp [spaced]) h.exe (by
      intro w hw'
      simp only [List.mem_cons, List.not_mem_nil, or_false] at hw'
      rcases hw' with rfl | rfl | rfl | rfl
      · unfold PlainWord IsBlank; decide
      · exact h.table
      · unfold PlainWord IsBlank; decide
      · exact h.chain.1) (by simp only [List.length_append, List.length_cons, List.length_nil]; omega) (by simp),
    bind_ok, iptables_new]
  simp only [pure_eq, bind_ok, if_true]
  rw [show K.make ch.table ch.to_chain = K from by unfold Tables.make; rw [hrs], jumpListed_run h hf hc hp hK, bind_ok]
  rfl

theorem create_rule_run {print : Host} {cf : FwConf} {ch : FwChain} (h : GrantOk cf ch) {ws : List Word} (hw : ∀ w ∈ ws, RuleWord w)
    (h0 : ws ≠ []) (hn : ws.length ≤ 23)
    (hl : cf.fw_command.length + ch.to_chain.length + ch.table.length + (spaced ws).length ≤ 240)
    {K : Tables} {rs : List Rule} (hrs : K ch.table ch.to_chain = some rs) :
    create_rule cf (iptTool print) ch.to_chain (b!"-t " ++ ch.table ++ b!" " ++ spaced ws) (K, []) =
      .ok (true, (K.put ch.table ch.to_chain (if cf.prepend then ws :: rs else rs ++ [ws]), [])) := by
  unfold create_rule
  rw [run_argv (ws := cf.fw_command :: (if cf.prepend then b!"-I" else b!"-A") :: ch.to_chain :: b!"-t" :: ch.table :: ws) (by
      simp only [spaced]
      rw [spaced_cons _ h0]
      cases cf.prepend <;> simp) (by
      intro w hw'
      simp only [List.mem_cons] at hw'
      rcases hw' with rfl | rfl | rfl | rfl | rfl | h'
      · exact h.exe
      · cases cf.prepend <;> (unfold PlainWord IsBlank; decide)
      · exact h.chain.1
      · unfold PlainWord IsBlank; decide
      · exact h.table
      · exact (hw w h').1) (by
      cases cf.prepend <;>
        simp only [if_true, Bool.false_eq_true, if_false, List.length_append, List.length_cons, List.length_nil] <;>
        omega) (by simp only [List.length_cons]; omega)]
  rw [bind_ok]
  cases cf.prepend with
  | true => simp only [if_true, iptables_prepend hw hrs]; rfl
  | false => simp only [Bool.false_eq_true, if_false, iptables_append hw hrs]; rfl

/-- Add a permission to a list. -/
def addGrant (front : Bool) (gs : List Grant) (a : Grant) : List Grant :=
  if gs.find? (fun g => g.e = a.e) = some a then gs else if front then a :: gs else gs ++ [a]

theorem iptRule_listed {print : Host} {cf : FwConf} {s : FwSt (Tables × List Fate)} {i : Nat} {a : Grant}
    (h : RequestOk cf (s.at i) a.src a.dst) (hc : PlainName (s.at i).to_chain) (hf : PlainName (s.at i).from_chain)
    (hpr : PrintsGrants print) (ha : a.Fair) (ht : (s.at i).target = a.target) (hs : a.src ≠ a.dst)
    {gs : List Grant} (hn : gs.length < 99999) (hg : ∀ g ∈ gs, g.Fair ∧ g.dst = a.dst) {K : Tables} {fr : List Rule}
    (hp : ParentOk print (s.at i).to_chain fr) (hK : K (s.at i).table (s.at i).from_chain = some fr)
    (hrs : K (s.at i).table (s.at i).to_chain = some (gs.map Grant.rule)) (hw : s.world = (K, [])) (now : Int) (q : RuleQuery)
    (hq : { q with dst := if cf.use_destination then q.dst else none } = queryOf a cf.use_destination) :
    ∃ chs, iptRule cf (iptTool print) false i (iptRuleArgs (s.at i) a.proto a.src a.dst a.port a.e) q now s =
        .ok ⟨chs, (K.put (s.at i).table (s.at i).to_chain ((addGrant cf.prepend gs a).map Grant.rule), [])⟩ ∧
      ∀ j w, ((⟨chs, w⟩ : FwSt (Tables × List Fate)).at j).bare = (s.at j).bare := by
  have hroom := h.room
  have hcl := hc.2.1
  have htl : (s.at i).target.length = a.target.length := congrArg _ ht
  have h1 := decimal_length_le a.proto 3 (by decide) (by rcases ha.proto with h | h <;> omega)
  have h2 := decimal_length_le a.port 5 (by decide) (by have := ha.port; omega)
  have h3 := decimal_length_le a.e 10 (by decide) (by have := ha.e; omega)
  have hsrc := h.src.2
  have hdst := h.dst.2
  have hrule : cmdBuf (iptRuleArgs (s.at i) a.proto a.src a.dst a.port a.e) =
      b!"-t " ++ (s.at i).table ++ b!" " ++ spaced a.rule := by
    have : iptRuleArgs (s.at i) a.proto a.src a.dst a.port a.e = b!"-t " ++ (s.at i).table ++ b!" " ++ spaced a.rule := by
      simp only [iptRuleArgs, ruleEnd, decStrInt_ofNat, decStr_decimal, Grant.rule, inputRule, spaced, ht]
      simp
    rw [this, cmdBuf_id]
    simp only [Grant.rule, inputRule, spaced, List.length_append, List.length_cons, List.length_nil]
    omega
  have hwords : ∀ w ∈ a.rule, RuleWord w := by
    have := inputRule_words h a.proto a.port a.e
    rw [ht] at this
    exact this
  unfold iptRule
  simp only
  rw [hw, mkChain_listed h.grant hf (by omega) hp hK hrs, bind_ok]
  unfold rule_exists
  rw [if_neg (by decide)]
  simp only
  rw [hq, listed_run ⟨h.exe, h.table, h.chain.1⟩ (by omega) hpr hc ha ht hs hn hg hrs, bind_ok]
  unfold addGrant
  by_cases hm : gs.find? (fun g => g.e = a.e) = some a
  · rw [if_pos hm]
    simp only [hm, decide_true, if_true]
    exact ⟨s.chain, by rw [put_same hrs]; rfl, fun j w => rfl⟩
  · rw [if_neg hm]
    simp only [hm, decide_false, Bool.false_eq_true, if_false]
    rw [hrule, create_rule_run h.grant hwords (by simp [Grant.rule, inputRule]) (by simp [Grant.rule, inputRule]) (by
      simp only [Grant.rule, inputRule, spaced, List.length_append, List.length_cons, List.length_nil]
      omega) hrs, bind_ok]
    refine ⟨s.chain.set i { s.at i with active_rules := (s.at i).active_rules + 1,
                                        next_expire := nextExpire (s.at i).next_expire q.exp_ts now }, ?_, fun j w => at_bare (.inr rfl) j⟩
    simp only [if_true]
    rw [show (if cf.prepend = true then a.rule :: gs.map Grant.rule else gs.map Grant.rule ++ [a.rule]) =
      (if cf.prepend = true then a :: gs else gs ++ [a]).map Grant.rule from by cases cf.prepend <;> simp]
    rfl

/-- The permissions of a request. -/
def asked (src dst target : Word) (e : Nat) (p : Nat × Nat) : Grant := ⟨p.1, src, dst, p.2, e, target⟩

theorem mem_addGrant {front : Bool} {gs : List Grant} {a g : Grant} : g ∈ addGrant front gs a ↔ g ∈ gs ∨ g = a := by
  unfold addGrant
  split
  · next h =>
    refine ⟨.inl, fun hg => ?_⟩
    rcases hg with hg | rfl
    · exact hg
    · exact List.mem_of_find?_eq_some h
  · cases front <;> simp [or_comm]

theorem addGrant_length (front : Bool) (gs : List Grant) (a : Grant) : (addGrant front gs a).length ≤ gs.length + 1 := by
  unfold addGrant
  split
  · omega
  · cases front <;> simp

theorem portLoop_listed {print : Host} {cf : FwConf} {sp : SpaData} {e : Nat} {now : Int} (hpr : PrintsGrants print)
    {target t c f : Word} {fr : List Rule} (hfc : f ≠ c) :
    ∀ (ps : List (Nat × Nat)) (s : FwSt (Tables × List Fate)) (K : Tables) (gs : List Grant),
    RequestOk cf (s.at IPT_INPUT_ACCESS) sp.use_src_ip (dstOf cf sp) → (s.at IPT_OUTPUT_ACCESS).to_chain = [] →
    (s.at IPT_INPUT_ACCESS).target = target → (s.at IPT_INPUT_ACCESS).table = t → (s.at IPT_INPUT_ACCESS).to_chain = c →
    (s.at IPT_INPUT_ACCESS).from_chain = f → PlainName c → PlainName f → ParentOk print c fr →
    sp.use_src_ip ≠ dstOf cf sp → (∀ p ∈ ps, (asked sp.use_src_ip (dstOf cf sp) target e p).Fair) →
    (∀ g ∈ gs, g.Fair ∧ g.dst = dstOf cf sp) → gs.length + ps.length < 99999 →
    K t f = some fr → K t c = some (gs.map Grant.rule) → s.world = (K, []) →
    ∃ s', portLoopL cf (iptTool print) false sp e now (ps.map toEnt) s = .ok s' ∧
      s'.world = (K.put t c (((ps.map (asked sp.use_src_ip (dstOf cf sp) target e)).foldl (addGrant cf.prepend) gs).map Grant.rule), [])
  | [], s, K, gs, _, _, _, _, _, _, _, _, _, _, _, _, _, _, hrs, hw => ⟨s, rfl, by rw [hw]; simp [put_same hrs]⟩
  | p :: ps, s, K, gs, h, ho, ht, htab, hto, hfrom, hc, hf, hp, hne, hfair, hg, hn, hK, hrs, hw => by
    simp only [List.length_cons] at hn
    have hfp := hfair p List.mem_cons_self
    obtain ⟨chs, h1, h2⟩ := iptRule_listed (print := print) (i := IPT_INPUT_ACCESS) (s := s)
      (a := asked sp.use_src_ip (dstOf cf sp) target e p) h (hto ▸ hc) (hfrom ▸ hf) hpr hfp ht hne (gs := gs) (by omega) hg
      (hto ▸ hp) (by rw [htab, hfrom]; exact hK) (by rw [htab, hto]; exact hrs) hw now
      { proto := (toEnt p).proto, src := some sp.use_src_ip, dst := some (dstOf cf sp), port := (toEnt p).port, nat_ip := none,
        nat_port := NAT_ANY_PORT, exp_ts := e } rfl
    rw [htab, hto] at h1
    have hstep : portRulesL cf (iptTool print) false sp e now (toEnt p) s =
        .ok ⟨chs, (K.put t c ((addGrant cf.prepend gs (asked sp.use_src_ip (dstOf cf sp) target e p)).map Grant.rule), [])⟩ := by
      unfold portRulesL
      dsimp only
      rw [show iptRule cf (iptTool print) false IPT_INPUT_ACCESS (iptRuleArgs (s.at IPT_INPUT_ACCESS) (toEnt p).proto sp.use_src_ip
        (dstOf cf sp) (toEnt p).port e) _ now s = _ from h1, bind_ok, if_neg]
      · rfl
      · rw [(bare_fields (h2 IPT_OUTPUT_ACCESS _)).2.2.2.2]
        exact not_not_intro ho
    rw [List.map_cons, portLoopL, hstep, bind_ok]
    obtain ⟨b1, b2, b3, b4, b5⟩ := bare_fields (h2 IPT_INPUT_ACCESS (K.put t c ((addGrant cf.prepend gs (asked sp.use_src_ip (dstOf cf sp) target e p)).map Grant.rule), []))
    obtain ⟨s', e1, e2⟩ := portLoop_listed hpr hfc ps _ (K.put t c ((addGrant cf.prepend gs (asked sp.use_src_ip (dstOf cf sp) target e p)).map Grant.rule))
      (addGrant cf.prepend gs (asked sp.use_src_ip (dstOf cf sp) target e p)) (RequestOk.bare (h2 IPT_INPUT_ACCESS _) h)
      (by rw [(bare_fields (h2 IPT_OUTPUT_ACCESS _)).2.2.2.2]; exact ho) (b1.trans ht) (b2.trans htab) (b5.trans hto) (b3.trans hfrom)
      hc hf hp hne (fun x hx => hfair x (List.mem_cons_of_mem _ hx)) (by
        intro g hg'
        rcases mem_addGrant.1 hg' with h' | rfl
        · exact hg g h'
        · exact ⟨hfp, rfl⟩) (by have := addGrant_length cf.prepend gs (asked sp.use_src_ip (dstOf cf sp) target e p); omega)
      (by rw [put_other _ _ (fun he => hfc he.2)]; exact hK) (put_get _ _ _ _) rfl
    refine ⟨s', e1, ?_⟩
    rw [e2, put_put]
    rfl

end Fwknop
