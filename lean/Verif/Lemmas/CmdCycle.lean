import Verif.Model.CmdCycle
import Verif.Spec.CmdCycle
import Verif.Lemmas.Res
import Verif.Lemmas.CLib

/-! # Lemmas about command cycles -/

namespace Fwknop
open Spec

/-! ## The list of pending closings -/

theorem cycleScan_none (now : Int) (l : List CycleEnt) (h : ∀ e ∈ l, ¬ e.expire ≤ now) :
    ∀ (i : Nat) (prev : Option Nat), cycleScan now i prev l = none := by
  induction l with
  | nil => intro i prev; rfl
  | cons e es ih =>
    intro i prev
    rw [cycleScan, if_neg (h e (by simp))]
    exact ih (fun x hx => h x (by simp [hx])) _ _

theorem cycleScan_some (now : Int) (a : List CycleEnt) (e : CycleEnt) (b : List CycleEnt)
    (ha : ∀ x ∈ a, ¬ x.expire ≤ now) (he : e.expire ≤ now) :
    ∀ (i : Nat) (prev : Option Nat), cycleScan now i prev (a ++ e :: b) =
      some (i + a.length, if a = [] then prev else some (i + a.length - 1)) := by
  induction a with
  | nil => intro i prev; simp [cycleScan, he]
  | cons x xs ih =>
    intro i prev
    rw [List.cons_append, cycleScan, if_neg (ha x (by simp)), ih (fun y hy => ha y (by simp [hy]))]
    by_cases hx : xs = []
    · subst hx; simp
    · rw [if_neg hx, if_neg (by simp), List.length_cons]
      congr 2
      · omega
      · congr 1; omega

/-- The first entry whose time has come, if any. -/
theorem split_due (now : Int) (l : List CycleEnt) :
    (∀ x ∈ l, ¬ x.expire ≤ now) ∨
    ∃ a e b, l = a ++ e :: b ∧ (∀ x ∈ a, ¬ x.expire ≤ now) ∧ e.expire ≤ now := by
  induction l with
  | nil => left; simp
  | cons y ys ih =>
    by_cases hy : y.expire ≤ now
    · right; exact ⟨[], y, ys, rfl, by simp, hy⟩
    · rcases ih with h | ⟨a, e, b, h1, h2, h3⟩
      · left; intro x hx
        rcases List.mem_cons.1 hx with h' | h'
        · subst h'; exact hy
        · exact h x h'
      · right
        refine ⟨y :: a, e, b, by simp [h1], ?_, h3⟩
        intro x hx
        rcases List.mem_cons.1 hx with h' | h'
        · subst h'; exact hy
        · exact h2 x h'

theorem filter_keep {l : List CycleEnt} {p : CycleEnt → Bool} (h : ∀ x ∈ l, p x = true) :
    l.filter p = l := List.filter_eq_self.2 h

theorem filter_drop {l : List CycleEnt} {p : CycleEnt → Bool} (h : ∀ x ∈ l, p x = false) :
    l.filter p = [] := by
  rw [List.filter_eq_nil_iff]; intro x hx; simp [h x hx]

/-- The loop removes and runs exactly the entries whose time has come, provided `prev` is NULL or
the head is not one of them. -/
theorem closeLoop_eq (now : Int) : ∀ (fuel : Nat) (prev : Option Nat) (l : List CycleEnt),
    l.length < fuel → (prev = none ∨ ∃ e es, l = e :: es ∧ ¬ e.expire ≤ now) →
    closeLoop now fuel prev l =
      .ok (l.filter (fun e => !decide (e.expire ≤ now)), l.filter (fun e => decide (e.expire ≤ now))) := by
  intro fuel
  induction fuel with
  | zero => intro prev l h; omega
  | succ f ih =>
    intro prev l hl hp
    rcases split_due now l with h | ⟨a, e, b, rfl, ha, he⟩
    · rw [closeLoop, cycleScan_none now l h]
      simp only
      rw [filter_keep (l := l) (by intro x hx; simp [h x hx]),
        filter_drop (l := l) (by intro x hx; simp [h x hx])]
    · rw [closeLoop, cycleScan_some now a e b ha he]
      simp only [Nat.zero_add]
      have hfa : a.filter (fun e => !decide (e.expire ≤ now)) = a :=
        filter_keep (by intro x hx; simp [ha x hx])
      have hfb : a.filter (fun e => decide (e.expire ≤ now)) = [] :=
        filter_drop (by intro x hx; simp [ha x hx])
      have key : ∀ p : Option Nat, (p = none ∨ ∃ e es, (a ++ b) = e :: es ∧ ¬ e.expire ≤ now) →
          cycleUnlink (a ++ e :: b) a.length p = .ok (a ++ b) →
          (do let l' ← cycleUnlink (a ++ e :: b) a.length p
              let r ← closeLoop now f p l'
              return (r.1, ((a ++ e :: b).drop a.length |>.take 1 |>.append r.2)) :
            Res (List CycleEnt × List CycleEnt)) =
          .ok ((a ++ e :: b).filter (fun e => !decide (e.expire ≤ now)),
            (a ++ e :: b).filter (fun e => decide (e.expire ≤ now))) := by
        intro p hp2 hu
        rw [hu, Res.bind_ok, ih p (a ++ b) (by simp at hl ⊢; omega) hp2]
        simp only [Res.bind_ok, Res.pure_eq, List.filter_append, hfa, hfb, List.drop_left,
          List.filter_cons, he, decide_true, Bool.not_true, Bool.false_eq_true, if_false, if_true,
          List.take_succ_cons, List.take_zero, List.nil_append]
        rfl
      by_cases hane : a = []
      · subst hane
        have hpn : prev = none := by
          rcases hp with h | ⟨e', es, h1, h2⟩
          · exact h
          · simp at h1; exact absurd (h1.1 ▸ he) h2
        subst hpn
        rw [if_pos rfl]
        exact key none (.inl rfl) rfl
      · rw [if_neg hane]
        have hpos : 0 < a.length := List.length_pos_iff.2 hane
        refine key _ (.inr ?_) ?_
        · obtain ⟨x, xs, rfl⟩ := List.exists_cons_of_ne_nil hane
          exact ⟨x, xs ++ b, by simp, ha x (by simp)⟩
        · unfold cycleUnlink
          simp only
          rw [Res.mem_of_not (by omega), Res.bind_ok]
          simp only [Res.pure_eq]
          congr 2
          · rw [show a.length - 1 + 1 = a.length by omega, List.take_left]
          · rw [← List.drop_drop, List.drop_left]; rfl

theorem cmd_cycle_close_eq (now : Int) (l : List CycleEnt) :
    cmd_cycle_close now l =
      .ok (l.filter (fun e => !decide (e.expire ≤ now)), l.filter (fun e => decide (e.expire ≤ now))) :=
  closeLoop_eq now _ none l (by omega) (.inl rfl)

/-! ## Building a command -/

theorem hasPrefix_iff (lit s : Str) : hasPrefix lit s = true ↔ ∃ r, s = lit ++ r := by
  unfold hasPrefix
  rw [List.isPrefixOf_iff_prefix]
  constructor
  · rintro ⟨r, hr⟩; exact ⟨r, hr.symm⟩
  · rintro ⟨r, hr⟩; exact ⟨r, hr.symm⟩

/-- The values as a function of the variable. -/
def CycleVals.val (v : CycleVals) : Var → Str
  | .ip => v.ip
  | .src => v.ip
  | .pktSrc => v.pkt_src
  | .dst => v.dst
  | .port => v.port
  | .proto => v.proto
  | .timeout => v.timeout
  | .clientTimeout => v.client_timeout

theorem cycleVar_name (v : CycleVals) (x : Var) (t : Str) :
    cycleVar v (x.name ++ t) = some (x.name.length, v.val x) := by
  cases x <;> rfl

theorem cycleVar_none (v : CycleVals) (t : Str) (h : ∀ x : Var, ¬ ∃ r, t = x.name ++ r) :
    cycleVar v t = none := by
  have h' : ∀ x : Var, hasPrefix x.name t = false := by
    intro x
    cases hh : hasPrefix x.name t with
    | false => rfl
    | true => exact absurd ((hasPrefix_iff _ _).1 hh) (h x)
  unfold cycleVar
  have e1 := h' .ip
  have e2 := h' .src
  have e3 := h' .pktSrc
  have e4 := h' .dst
  have e5 := h' .port
  have e6 := h' .proto
  have e7 := h' .timeout
  have e8 := h' .clientTimeout
  simp only [Var.name] at e1 e2 e3 e4 e5 e6 e7 e8
  simp only [e1, e2, e3, e4, e5, e6, e7, e8, Bool.false_eq_true, if_false]

/-- A text in the buffer, zeros after it. -/
def inBuf (out : Str) : Str := out ++ List.replicate (CMD_CYCLE_BUFSIZE - out.length) 0

theorem cstr_inBuf {out : Str} (h0 : 0 ∉ out) : cstr (inBuf out) = out := by
  unfold cstr inBuf
  rw [List.takeWhile_append_of_pos]
  · have : (List.replicate (CMD_CYCLE_BUFSIZE - out.length) 0).takeWhile (fun x : Nat => decide (x ≠ 0)) = [] := by
      cases CMD_CYCLE_BUFSIZE - out.length with
      | zero => rfl
      | succ n => simp [List.replicate_succ]
    rw [this, List.append_nil]
  · intro c hc
    simp only [decide_eq_true_eq]
    intro e; subst e; exact h0 hc

theorem strlcat_inBuf {out s : Str} (h0 : 0 ∉ out) (hl : (out ++ s).length ≤ 255) :
    strlcatBuf (inBuf out) s = inBuf (out ++ s) := by
  unfold strlcatBuf
  rw [cstr_inBuf h0]
  simp only [List.length_append] at hl
  have h1 : ¬ out.length ≥ CMD_CYCLE_BUFSIZE := by simp only [CMD_CYCLE_BUFSIZE]; omega
  simp only [h1, if_false]
  have h2 : s.take (CMD_CYCLE_BUFSIZE - 1 - out.length) = s :=
    List.take_of_length_le (by simp only [CMD_CYCLE_BUFSIZE]; omega)
  rw [h2]
  unfold inBuf
  rw [List.take_left, List.append_assoc]
  rw [show out.length + s.length + 1 = out.length + (s.length + 1) by omega, ← List.drop_drop,
    List.drop_left, List.drop_replicate]
  rw [List.append_assoc]
  congr 2
  rw [List.length_append]
  have : CMD_CYCLE_BUFSIZE - (out.length + s.length) =
      (CMD_CYCLE_BUFSIZE - out.length - (s.length + 1)) + 1 := by
    simp only [CMD_CYCLE_BUFSIZE]; omega
  rw [this, List.replicate_succ]

theorem set_inBuf {out : Str} (c : Nat) (hl : out.length ≤ 254) :
    (inBuf out).set out.length c = inBuf (out ++ [c]) := by
  unfold inBuf
  have : CMD_CYCLE_BUFSIZE - out.length = (CMD_CYCLE_BUFSIZE - (out ++ [c]).length) + 1 := by
    simp only [CMD_CYCLE_BUFSIZE, List.length_append, List.length_singleton]; omega
  rw [List.set_append_right _ _ (Nat.le_refl _), Nat.sub_self, this, List.replicate_succ]
  simp

theorem buildLoop_eq (v : CycleVals) (hv : ∀ x, 0 ∉ v.val x) (T : Str) (hT : T.length ≤ 256)
    (hT0 : 0 ∉ T) {t o : Str} (h : ExpandsDropping v.val t o) :
    ∀ (i : Nat) (out : Str) (fuel : Nat), T.drop i = t → i ≤ T.length → T.length - i < fuel →
      0 ∉ out → (out ++ o).length ≤ 255 →
      buildLoop v T fuel i out.length (inBuf out) = .ok (some (out ++ o)) := by
  have hmin : min T.length CMD_CYCLE_BUFSIZE = T.length := by
    simp only [CMD_CYCLE_BUFSIZE]; omega
  have hend : ∀ (i : Nat) (t' : Str), T.drop i = t' → i ≤ T.length → i + t'.length = T.length := by
    intro i t' h1 h2
    rw [← h1, List.length_drop]; omega
  have hget : ∀ (i : Nat) (c : Nat) (t' : Str), T.drop i = c :: t' → T.getD i 0 = c ∧ T.drop (i + 1) = t' := by
    intro i c t' h1
    refine ⟨?_, ?_⟩
    · have : (T.drop i).getD 0 0 = c := by rw [h1]; rfl
      simpa [List.getD_eq_getElem?_getD, List.getElem?_drop] using this
    · rw [← List.drop_drop, h1]; rfl
  induction h with
  | nil =>
    intro i out fuel h1 h2 h3 h4 h5
    have := hend i [] h1 h2
    simp at this
    cases fuel with
    | zero => omega
    | succ f =>
      rw [buildLoop, if_neg (by rw [hmin]; omega), cstr_inBuf h4, List.append_nil]
  | char c t o hc hx ih =>
    intro i out fuel h1 h2 h3 h4 h5
    have hlen := hend i _ h1 h2
    obtain ⟨g1, g2⟩ := hget i c t h1
    simp only [List.length_append, List.length_cons] at h5 hlen
    cases fuel with
    | zero => omega
    | succ f =>
      rw [buildLoop, if_pos (by rw [hmin]; omega), g1, if_neg hc,
        Res.mem_of_not (by simp only [CMD_CYCLE_BUFSIZE]; omega), Res.bind_ok,
        if_neg (by simp only [CMD_CYCLE_BUFSIZE]; omega), set_inBuf c (by omega)]
      have hc0 : c ≠ 0 := by
        intro e; subst e
        exact hT0 (List.mem_of_mem_drop (h1 ▸ List.mem_cons_self))
      have := ih (i + 1) (out ++ [c]) f g2 (by omega) (by omega)
        (by simp only [List.mem_append, List.mem_singleton, not_or]; exact ⟨h4, fun e => hc0 e.symm⟩)
        (by simp only [List.length_append, List.length_cons, List.length_nil]; omega)
      simpa using this
  | var x t o hx ih =>
    intro i out fuel h1 h2 h3 h4 h5
    have hlen := hend i _ h1 h2
    obtain ⟨g1, g2⟩ := hget i 36 _ h1
    simp only [List.length_append, List.length_cons] at h5 hlen
    cases fuel with
    | zero => omega
    | succ f =>
      rw [buildLoop, if_pos (by rw [hmin]; omega), g1, if_pos rfl, g2, cycleVar_name]
      simp only
      rw [strlcat_inBuf h4 (by rw [List.length_append]; omega)]
      have g3 : T.drop (i + x.name.length + 1) = t := by
        rw [show i + x.name.length + 1 = (i + 1) + x.name.length by omega, ← List.drop_drop, g2,
          List.drop_left]
      have := ih (i + x.name.length + 1) (out ++ v.val x) f g3 (by omega) (by omega)
        (by simp only [List.mem_append, not_or]; exact ⟨h4, hv x⟩)
        (by simp only [List.length_append]; omega)
      rw [List.length_append] at this
      rw [this, List.append_assoc]
  | stray t o hn hx ih =>
    intro i out fuel h1 h2 h3 h4 h5
    have hlen := hend i _ h1 h2
    obtain ⟨g1, g2⟩ := hget i 36 _ h1
    simp only [List.length_cons] at hlen
    cases fuel with
    | zero => omega
    | succ f =>
      rw [buildLoop, if_pos (by rw [hmin]; omega), g1, if_pos rfl, g2, cycleVar_none v t hn]
      exact ih (i + 1) out f g2 (by omega) (by omega) h4 h5

theorem expands_dropping {val : Var → Str} {t o : Str} (h : Expands val t o) :
    ExpandsDropping val t o := by
  induction h with
  | nil => exact .nil
  | char c t o hc _ ih => exact .char c t o hc ih
  | var x t o _ ih => exact .var x t o ih

/-- Every template has an expansion with stray dollar signs dropped. -/
theorem dropping_total (val : Var → Str) : ∀ (n : Nat) (t : Str), t.length ≤ n → ∃ o, ExpandsDropping val t o := by
  intro n
  induction n with
  | zero =>
    intro t ht
    have : t = [] := List.eq_nil_of_length_eq_zero (by omega)
    subst this; exact ⟨[], .nil⟩
  | succ n ih =>
    intro t ht
    cases t with
    | nil => exact ⟨[], .nil⟩
    | cons c t =>
      simp only [List.length_cons] at ht
      by_cases hc : c = 36
      · subst hc
        by_cases hx : ∃ x : Var, ∃ r, t = x.name ++ r
        · obtain ⟨x, r, rfl⟩ := hx
          rw [List.length_append] at ht
          obtain ⟨o, ho⟩ := ih r (by omega)
          exact ⟨val x ++ o, .var x r o ho⟩
        · obtain ⟨o, ho⟩ := ih t (by omega)
          exact ⟨o, .stray t o (by intro x hr; exact hx ⟨x, hr⟩) ho⟩
      · obtain ⟨o, ho⟩ := ih t (by omega)
        exact ⟨c :: o, .char c t o hc ho⟩

theorem expandLoop_ne_nil {α : Type} (add : Str → Option α) : ∀ (s cur : Str) (l : List α),
    expandLoop add s cur = some l → l ≠ [] := by
  intro s
  induction s with
  | nil =>
    intro cur l h
    rw [expandLoop] at h
    simp only [Option.bind_eq_bind, Option.bind_eq_some_iff, Option.pure_def, Option.some.injEq] at h
    obtain ⟨_, _, x, _, h⟩ := h
    subst h; simp
  | cons c cs ih =>
    intro cur l h
    rw [expandLoop] at h
    split at h
    · simp only [Option.bind_eq_bind, Option.bind_eq_some_iff, Option.pure_def, Option.some.injEq] at h
      obtain ⟨_, _, x, _, _, _, h⟩ := h
      subst h; simp
    · exact ih _ _ h

end Fwknop
