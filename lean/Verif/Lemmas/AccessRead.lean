import Verif.Lemmas.AccessRaw

/-! # Files without directives: the stanzas in the order of their SOURCE lines -/

namespace Fwknop
open Spec

/-! ## Stanzas of a list of entries -/

/-- An entry added to the last stanza. -/
def addToLast (x : Entry) : List (Str × List Entry) → List (Str × List Entry)
  | [] => []
  | [p] => [(p.1, p.2 ++ [x])]
  | p :: q :: r => p :: addToLast x (q :: r)

theorem addToLast_concat (x : Entry) (l : List (Str × List Entry)) (p : Str × List Entry) :
    addToLast x (l ++ [p]) = l ++ [(p.1, p.2 ++ [x])] := by
  induction l with
  | nil => rfl
  | cons a l ih =>
    cases h : l ++ [p] with
    | nil => simp at h
    | cons b r =>
      rw [List.cons_append, h, addToLast, ← h, ih, List.cons_append]

theorem splitSources_snoc_source (es : List Entry) (v : Str) :
    splitSources (es ++ [(b!"SOURCE", v)]) = ((splitSources es).1, (splitSources es).2 ++ [(v, [])]) := by
  induction es with
  | nil => rfl
  | cons e es ih =>
    rw [List.cons_append]
    simp only [splitSources]
    rw [ih]
    by_cases h : e.1 = b!"SOURCE"
    · rw [if_pos h, if_pos h]; rfl
    · rw [if_neg h, if_neg h]

theorem splitSources_snoc_other (es : List Entry) (x : Entry) (hx : x.1 ≠ b!"SOURCE") :
    splitSources (es ++ [x]) =
      (if (splitSources es).2 = [] then (splitSources es).1 ++ [x] else (splitSources es).1,
       addToLast x (splitSources es).2) := by
  induction es with
  | nil => simp [splitSources, hx, addToLast]
  | cons e es ih =>
    rw [List.cons_append]
    simp only [splitSources]
    rw [ih]
    by_cases h : e.1 = b!"SOURCE"
    · simp only [if_pos h]
      cases hs : (splitSources es).2 with
      | nil => simp [addToLast]
      | cons p r => simp [addToLast]
    · simp only [if_neg h]
      split <;> simp

theorem stanzasOf_source (es : List Entry) (v : Str) : stanzasOf (es ++ [(b!"SOURCE", v)]) = stanzasOf es ++ [(v, [])] := by
  unfold stanzasOf
  rw [splitSources_snoc_source]

theorem stanzasOf_other (es : List Entry) (x : Entry) (hx : x.1 ≠ b!"SOURCE") :
    stanzasOf (es ++ [x]) = addToLast x (stanzasOf es) := by
  unfold stanzasOf
  rw [splitSources_snoc_other es x hx]

/-! ## Reading -/

def pwNames : List Str := [b!"CMD_SUDO_EXEC_USER", b!"CMD_SUDO_EXEC_GROUP", b!"CMD_EXEC_USER", b!"CMD_EXEC_GROUP"]

/-- The users looked up so far in a stanza. -/
structure PwOk (env : AccEnv) (es : List Entry) (user sudo : Bool) (gid : Nat) : Prop where
  user : lastOf [b!"CMD_EXEC_USER"] es ≠ none → user = true
  sudo : lastOf [b!"CMD_SUDO_EXEC_USER"] es ≠ none → sudo = true
  gid : ∀ v, lastOf pwNames es = some v → ∃ u, env.passwd v = some (u, gid)

/-- The values were accepted. -/
def Accepted (env : AccEnv) (es : List Entry) : Prop :=
  ∀ e ∈ es, ∀ o, optOf e.1 = some o → ∃ x x', setOption env o e.2 x = .ok x'

/-- The values are not empty. -/
def Filled (es : List Entry) : Prop := ∀ e ∈ es, e.2 ≠ []

/-- A stanza that was read and checked. -/
def Checked (env : AccEnv) (p : Str × List Entry) (e : AccEnt) : Prop :=
  ∃ fr s, validEnt fr s (rawOf env p.1 p.2) = some e ∧ PwOk env p.2 fr.user fr.sudo s.gid ∧ Accepted env p.2

structure ReadInv (env : AccEnv) (done : List Entry) (x : AccFrame × AccState) : Prop where
  depth : x.2.depth = 1
  read : (stanzasOf done = [] ∧ x.2.stanzas = [] ∧ x.1.curr = none) ∨
    ∃ ps p es, stanzasOf done = ps ++ [p] ∧ x.2.stanzas = es ++ [rawOf env p.1 p.2] ∧ x.1.curr = some es.length ∧
      All2 (Checked env) ps es ∧ PwOk env p.2 x.1.user x.1.sudo x.2.gid ∧ Accepted env p.2

theorem All2.length_eq {α β : Type} {R : α → β → Prop} {l : List α} {l' : List β} (h : All2 R l l') : l.length = l'.length := by
  induction h with
  | nil => rfl
  | cons _ _ ih => simp [ih]

theorem All2.concat {α β : Type} {R : α → β → Prop} {l : List α} {l' : List β} {a : α} {b : β} (h : All2 R l l') (hab : R a b) :
    All2 R (l ++ [a]) (l' ++ [b]) := by
  induction h with
  | nil => exact .cons hab .nil
  | cons h _ ih => exact .cons h ih

theorem All2.get {α β : Type} {R : α → β → Prop} {l : List α} {l' : List β} (h : All2 R l l') :
    ∀ (i : Nat) a b, l[i]? = some a → l'[i]? = some b → R a b := by
  induction h with
  | nil => intro i a b ha; simp at ha
  | cons h _ ih =>
    intro i a b ha hb
    cases i with
    | zero =>
      simp only [List.getElem?_cons_zero, Option.some.injEq] at ha hb
      subst ha hb
      exact h
    | succ i =>
      simp only [List.getElem?_cons_succ] at ha hb
      exact ih i a b ha hb

theorem entAt_last {s : AccState} {es : List AccEnt} {e : AccEnt} (h : s.stanzas = es ++ [e]) : entAt s es.length = .ok e := by
  unfold entAt
  rw [h]
  simp

theorem setEnt_last {s : AccState} {es : List AccEnt} {e e' : AccEnt} (h : s.stanzas = es ++ [e]) :
    (setEnt s es.length e').stanzas = es ++ [e'] := by
  unfold setEnt
  rw [h]
  simp

theorem closeStanza_read {env : AccEnv} {done : List Entry} {x : AccFrame × AccState} (h : ReadInv env done x) {s' : AccState}
    (hc : closeStanza x.1 x.2 = .ok s') :
    s'.depth = 1 ∧ s'.gid = x.2.gid ∧ All2 (Checked env) (stanzasOf done) s'.stanzas := by
  obtain ⟨fr, s⟩ := x
  obtain ⟨hd, hr⟩ := h
  unfold closeStanza at hc
  rcases hr with ⟨h1, h2, h3⟩ | ⟨ps, p, es, h1, h2, h3, h4, h5, h6⟩
  · simp only at h2 h3 hc
    rw [h3] at hc
    injection hc with hc
    subst hc
    rw [h1, h2]
    exact ⟨hd, rfl, .nil⟩
  · simp only at h2 h3 hc h5
    rw [h3] at hc
    simp only [entAt_last h2, Res.bind_ok] at hc
    obtain ⟨e', he, hc⟩ := bind_ok_inv hc
    replace he := orFail_ok he
    simp only [Res.pure_eq, Res.ok.injEq] at hc
    subst hc
    refine ⟨hd, rfl, ?_⟩
    rw [setEnt_last h2, h1]
    exact h4.concat ⟨fr, s, he, h5, h6⟩

theorem accepted_snoc {env : AccEnv} {es : List Entry} {n v : Str} (h : Accepted env es)
    (hn : ∀ o, optOf n = some o → ∃ x x', setOption env o v x = .ok x') : Accepted env (es ++ [(n, v)]) := by
  intro e he
  rcases List.mem_append.1 he with he | he
  · exact h e he
  · rw [List.mem_singleton.1 he]
    exact hn

theorem pwNames_known {n : Str} (h : optOf n = none) : n ∉ pwNames := by
  have hn := optOf_none h
  simp only [optNames, List.forall_mem_cons] at hn
  simp only [pwNames, List.mem_cons, List.not_mem_nil, or_false, hn, or_self, not_false_iff]

theorem pwOk_unknown {env : AccEnv} {es : List Entry} {user sudo : Bool} {gid : Nat} {n v : Str} (hn : optOf n = none)
    (h : PwOk env es user sudo gid) : PwOk env (es ++ [(n, v)]) user sudo gid := by
  have hp := pwNames_known hn
  have h' := hp
  simp only [pwNames, List.mem_cons, List.not_mem_nil, or_false, not_or] at h'
  refine ⟨?_, ?_, ?_⟩
  · rw [lastOf_snoc, if_neg (by simp [h'])]; exact h.user
  · rw [lastOf_snoc, if_neg (by simp [h'])]; exact h.sudo
  · rw [lastOf_snoc, if_neg hp]; exact h.gid

theorem pwOk_known {env : AccEnv} {es : List Entry} {pw : Pw} {n v : Str} {o : Opt} {e : AccEnt} {x : Pw × AccEnt}
    (hn : optOf n = some o) (hs : setOption env o v (pw, e) = .ok x)
    (h : PwOk env es pw.user pw.sudo pw.gid) : PwOk env (es ++ [(n, v)]) x.1.user x.1.sudo x.1.gid := by
  obtain ⟨h1, h2, h3⟩ := h
  have hm := optOf_cases hn
  simp only [optNames, List.mem_cons, List.not_mem_nil, or_false, Prod.mk.injEq] at hm
  rcases hm with ⟨rfl, rfl⟩ | ⟨rfl, rfl⟩ | ⟨rfl, rfl⟩ | ⟨rfl, rfl⟩ | ⟨rfl, rfl⟩ | ⟨rfl, rfl⟩ | ⟨rfl, rfl⟩ | ⟨rfl, rfl⟩ | ⟨rfl, rfl⟩ |
    ⟨rfl, rfl⟩ | ⟨rfl, rfl⟩ | ⟨rfl, rfl⟩ | ⟨rfl, rfl⟩ | ⟨rfl, rfl⟩ | ⟨rfl, rfl⟩ | ⟨rfl, rfl⟩ | ⟨rfl, rfl⟩ | ⟨rfl, rfl⟩ |
    ⟨rfl, rfl⟩ | ⟨rfl, rfl⟩ | ⟨rfl, rfl⟩ | ⟨rfl, rfl⟩ | ⟨rfl, rfl⟩ | ⟨rfl, rfl⟩ | ⟨rfl, rfl⟩ | ⟨rfl, rfl⟩ | ⟨rfl, rfl⟩ |
    ⟨rfl, rfl⟩ | ⟨rfl, rfl⟩ | ⟨rfl, rfl⟩ | ⟨rfl, rfl⟩ | ⟨rfl, rfl⟩ | ⟨rfl, rfl⟩ | ⟨rfl, rfl⟩ | ⟨rfl, rfl⟩ | ⟨rfl, rfl⟩ |
    ⟨rfl, rfl⟩ | ⟨rfl, rfl⟩ | ⟨rfl, rfl⟩ | ⟨rfl, rfl⟩
  all_goals unfold setOption at hs
  all_goals simp only at hs
  all_goals replace hs := (ite_ok hs).2
  all_goals try obtain ⟨k, hk, hs⟩ := bind_ok_inv hs
  all_goals try (obtain ⟨k', hk, hs⟩ := bind_ok_inv hs)
  all_goals try (replace hk := orFail_ok hk)
  all_goals try split at hs
  all_goals simp only [Res.ok.injEq, Res.pure_eq] at hs
  all_goals subst hs
  all_goals refine ⟨?_, ?_, ?_⟩
  all_goals simp [lastOf_snoc, pwNames]
  all_goals first
    | assumption
    | exact ⟨_, hk⟩
    | (simp [hk]; done)
    | (simpa using h1)
    | (simpa using h2)
    | (simpa [pwNames] using h3)


theorem entry_read {env : AccEnv} {incl folder : Str → AccState → Res AccState} {can : Bool} {done : List Entry}
    {x x' : AccFrame × AccState} {n v : Str} (hn : Plain n) (h : ReadInv env done x)
    (hs : accEntry env incl folder can n v x = .ok x') : ReadInv env (done ++ [(n, v)]) x' := by
  unfold accEntry at hs
  simp only at hs
  rw [if_neg hn.1, if_neg hn.2.1] at hs
  by_cases hsrc : n = b!"SOURCE"
  · rw [if_pos hsrc] at hs
    obtain ⟨s', hc, hs⟩ := bind_ok_inv hs
    simp only [Res.pure_eq, Res.ok.injEq] at hs
    subst hs hsrc
    obtain ⟨h1, h2, h3⟩ := closeStanza_read h hc
    refine ⟨h1, .inr ⟨stanzasOf done, (v, []), s'.stanzas, stanzasOf_source done v, rfl, rfl, h3, ⟨?_, ?_, ?_⟩, ?_⟩⟩
    · intro hh; exact absurd rfl hh
    · intro hh; exact absurd rfl hh
    · intro v hv; cases hv
    · intro e he; cases he
  · rw [if_neg hsrc] at hs
    obtain ⟨hd, hr⟩ := h
    have hst := stanzasOf_other done (n, v) hsrc
    rcases hr with ⟨h1, h2, h3⟩ | ⟨ps, p, es, h1, h2, h3, h4, h5, h6⟩
    · rw [h3] at hs
      injection hs with hs
      subst hs
      exact ⟨hd, .inl ⟨by rw [hst, h1]; rfl, h2, h3⟩⟩
    · rw [h3] at hs
      simp only at hs
      rw [if_neg hn.2.2] at hs
      rw [h1, addToLast_concat] at hst
      cases ho : optOf n with
      | none =>
        rw [ho] at hs
        injection hs with hs
        subst hs
        refine ⟨hd, .inr ⟨ps, (p.1, p.2 ++ [(n, v)]), es, hst, ?_, h3, h4, pwOk_unknown ho h5, ?_⟩⟩
        · simp only
          rw [h2, raw_unknown env p.1 p.2 v ho]
        · exact accepted_snoc h6 (by intro o h; rw [ho] at h; cases h)
      | some o =>
        rw [ho] at hs
        simp only at hs
        unfold optionLine at hs
        rw [entAt_last h2, Res.bind_ok] at hs
        obtain ⟨r, hr, hs⟩ := bind_ok_inv hs
        simp only [Res.pure_eq, Res.ok.injEq] at hs
        subst hs
        refine ⟨hd, .inr ⟨ps, (p.1, p.2 ++ [(n, v)]), es, hst, ?_, h3, h4, pwOk_known ho hr h5, ?_⟩⟩
        · simp only
          rw [setEnt_last h2, raw_known env p.1 p.2 v ho hr]
        · refine accepted_snoc h6 ?_
          intro o' h
          rw [ho] at h
          injection h with h
          subst h
          exact ⟨_, _, hr⟩

theorem loop_read {env : AccEnv} {incl folder : Str → AccState → Res AccState} {can : Bool} (ls : List Str) :
    ∀ {done : List Entry} {x x' : AccFrame × AccState}, (∀ e ∈ ls.filterMap entryOf, Plain e.1) → ReadInv env done x →
      accLoop env incl folder can ls x = .ok x' → ReadInv env (done ++ ls.filterMap entryOf) x' := by
  induction ls with
  | nil =>
    intro done x x' _ h hs
    injection hs with hs
    subst hs
    simpa using h
  | cons l ls ih =>
    intro done x x' hn h hs
    rw [accLoop] at hs
    obtain ⟨en, hen, hs⟩ := bind_ok_inv hs
    cases en with
    | none =>
      have hl : entryOf l = none := by unfold entryOf; rw [hen]
      rw [List.filterMap_cons_none hl] at hn ⊢
      exact ih hn h hs
    | some p =>
      obtain ⟨n, v⟩ := p
      have hl : entryOf l = some (n, chop_whitespace v) := by unfold entryOf; rw [hen]
      rw [List.filterMap_cons_some hl] at hn ⊢
      obtain ⟨x1, hx1, hs⟩ := bind_ok_inv hs
      have h1 := entry_read (hn (n, chop_whitespace v) (by simp)) h hx1
      have := ih (fun e he => hn e (by simp [he])) h1 hs
      simpa using this

theorem all2_mapOpt {α β γ : Type} {R : α → β → Prop} {f : β → Option γ} {l : List α} {m : List β} {m' : List γ}
    (h : All2 R l m) (hf : mapOpt f m = some m') : All2 (fun a c => ∃ b, R a b ∧ f b = some c) l m' := by
  induction h generalizing m' with
  | nil =>
    simp only [mapOpt, Option.some.injEq] at hf
    subst hf
    exact .nil
  | cons hab _ ih =>
    simp only [mapOpt, Option.bind_eq_bind, Option.bind_eq_some_iff, Option.pure_def, Option.some.injEq] at hf
    obtain ⟨c, hc, cs, hcs, rfl⟩ := hf
    exact .cons ⟨_, hab, hc⟩ (ih hcs)

/-- The stanzas in effect after a file without directives. -/
theorem load_read {env : AccEnv} {fds : Nat} {name content : Str} {l : List AccEnt} (hf : env.file name = some content)
    (hn : ∀ e ∈ entriesOf content, Plain e.1) (h : load_access env fds (.file name) = .ok l) :
    All2 (fun p e => ∃ e1, Checked env p e1 ∧ finishEnt env.gpg_home e1 = some e) (stanzasOf (entriesOf content)) l := by
  unfold load_access at h
  obtain ⟨s, hs, h⟩ := bind_ok_inv h
  obtain ⟨_, _, h⟩ := bind_ok_inv h
  simp only [Res.pure_eq, Res.ok.injEq] at h
  subst h
  simp only [parseSource] at hs
  have start : ReadInv env [] (({} : AccFrame), { ({} : AccState) with depth := 0 + 1 }) := ⟨rfl, .inl ⟨rfl, rfl, rfl⟩⟩
  have fin : ∀ x : AccFrame × AccState, ReadInv env (entriesOf content) x → endFile env x.1 x.2 = .ok s →
      All2 (fun p e => ∃ e1, Checked env p e1 ∧ finishEnt env.gpg_home e1 = some e) (stanzasOf (entriesOf content)) s.stanzas := by
    intro x hx he
    unfold endFile at he
    simp only at he
    rw [if_pos (by rw [hx.depth])] at he
    obtain ⟨_, _, he⟩ := bind_ok_inv he
    obtain ⟨s1, hs1, he⟩ := bind_ok_inv he
    obtain ⟨l, hl, he⟩ := bind_ok_inv he
    simp only [Res.pure_eq, Res.ok.injEq] at he
    subst he
    have hc : closeStanza x.1 x.2 = .ok { s1 with depth := x.2.depth } := by
      unfold closeStanza at hs1 ⊢
      cases hcur : x.1.curr with
      | none =>
        rw [hcur] at hs1
        simp only [Res.ok.injEq] at hs1
        subst hs1
        rfl
      | some i =>
        rw [hcur] at hs1
        simp only at hs1 ⊢
        obtain ⟨e, h1, hs1⟩ := bind_ok_inv hs1
        obtain ⟨e', h2, hs1⟩ := bind_ok_inv hs1
        have h1' : entAt x.2 i = .ok e := h1
        have h2' : orFail (validEnt x.1 x.2 e) = .ok e' := h2
        rw [h1', Res.bind_ok, h2', Res.bind_ok]
        simp only [Res.pure_eq, Res.ok.injEq] at hs1 ⊢
        subst hs1
        rfl
    exact all2_mapOpt (closeStanza_read hx hc).2.2 (orFail_ok hl)
  cases fds with
  | zero => cases hs
  | succ f =>
    cases f with
    | zero =>
      rw [parse_access_file, hf] at hs
      obtain ⟨x, hx, hs⟩ := bind_ok_inv hs
      exact fin x (by simpa [entriesOf] using loop_read _ hn start hx) hs
    | succ f =>
      rw [parse_access_file, hf] at hs
      obtain ⟨x, hx, hs⟩ := bind_ok_inv hs
      exact fin x (by simpa [entriesOf] using loop_read _ hn start hx) hs

end Fwknop
