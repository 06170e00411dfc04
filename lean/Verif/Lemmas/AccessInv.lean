import Verif.Lemmas.AccessLine
import Verif.Lemmas.Res

/-! # Invariants of reading access.conf, for any nesting of files -/

namespace Fwknop
open Spec

theorem sinceSource_snoc (es : List Entry) (e : Entry) :
    sinceSource (es ++ [e]) = if e.1 = b!"SOURCE" then [] else sinceSource es ++ [e] := by
  unfold sinceSource
  simp only [List.reverse_append, List.reverse_cons, List.reverse_nil, List.nil_append, List.singleton_append,
    List.takeWhile_cons]
  by_cases h : e.1 = b!"SOURCE" <;> simp [h]

/-- No include directive since the last SOURCE. -/
def NoIncl (done : List Entry) : Prop :=
  ∀ e ∈ sinceSource done, e.1 ≠ b!"%include" ∧ e.1 ≠ b!"%include_folder"

theorem accB64_safe (val : Str) : Res.Sat (accB64 val) fun k => Base64.b64_decode val = some k := by
  unfold accB64
  cases h : Base64.b64_decode val with
  | none => simp [orFail, Res.Sat]
  | some k =>
    have := Base64.decodeLoop_length val 0 0 k h
    simp only [orFail, Res.bind_ok]
    apply Res.sat_mem
    · simp; omega
    · rfl

theorem accNum_sat (val : Str) (min max : Int) :
    Res.Sat (accNum val min max) fun n => strtol_wrapper val min max = (n, true) := by
  unfold accNum
  simp only
  split
  · rename_i h
    exact Prod.ext rfl h
  · trivial

theorem accName_sat (n : Int) : Res.Sat (accName n) fun m => m = n ∧ 0 ≤ m := by
  unfold accName
  split
  · trivial
  · exact ⟨rfl, by omega⟩

theorem orFail_sat {α : Type} (o : Option α) : Res.Sat (orFail o) fun a => o = some a := by
  cases o <;> simp [orFail, Res.Sat]

theorem setOption_safe (env : AccEnv) (o : Opt) (val : Str) (x : Pw × AccEnt) : setOption env o val x ≠ .ub := by
  unfold setOption
  simp only
  split
  · simp
  · cases o <;> simp only <;> first
      | exact fun h => by cases h
      | (apply Res.Sat.ne_ub (Q := fun _ => True)
         first
         | exact Res.sat_bind _ (accB64_safe val) fun _ _ => trivial
         | exact Res.sat_bind _ (accNum_sat ..) fun _ _ => trivial
         | exact Res.sat_bind _ (accName_sat ..) fun _ _ => trivial
         | exact Res.sat_bind _ (orFail_sat ..) fun _ _ => trivial
         | (apply Res.sat_guard; intro _; exact trivial)
         | (apply Res.sat_guard; intro _; exact Res.sat_bind _ (orFail_sat ..) fun _ _ => trivial)
         | (split <;> exact trivial))

/-- What holds of a stanza while it is read (`R`) and when it has been checked (`I`). -/
structure Rules (env : AccEnv) (R I : AccEnt → Prop) : Prop where
  fresh : ∀ v, R { source := v }
  opt : ∀ o val x x', R x.2 → setOption env o val x = .ok x' → R x'.2
  valid : ∀ fr s e e', R e → validEnt fr s e = some e' → I e'
  back : ∀ e, I e → R e

section
variable {env : AccEnv} {R I : AccEnt → Prop}

theorem keyLines_sat (hR : Rules env R I) (ls : List Str) : ∀ (e : AccEnt), (∀ l ∈ ls, l.length < MAX_LINE_LEN) → R e →
    Res.Sat (keyLines env ls e) R := by
  induction ls with
  | nil => intro e _ h; exact h
  | cons l ls ih =>
    intro e hl h
    have hl' : ∀ l ∈ ls, l.length < MAX_LINE_LEN := fun x hx => hl x (by simp [hx])
    rw [keyLines]
    have hs := accLine_safe l (hl l (by simp))
    cases ha : accLine l with
    | ub => exact absurd ha hs
    | err => exact h
    | ok en =>
      cases en with
      | none => exact ih e hl' h
      | some p =>
        obtain ⟨var, val⟩ := p
        simp only
        cases optOf var with
        | none => exact ih e hl' h
        | some o =>
          simp only
          split
          · split
            · exact h
            · cases hso : setOption env o val ({}, e) with
              | ub => exact absurd hso (setOption_safe _ _ _ _)
              | err => trivial
              | ok x => exact ih x.2 hl' (hR.opt o val _ _ h hso)
          · exact ih e hl' h

theorem accLines_length (content : Str) : ∀ l ∈ accLines content, l.length < MAX_LINE_LEN :=
  fgetsLines_length _ _

theorem includeKeysFile_sat (hR : Rules env R I) (can : Bool) (name : Str) (e : AccEnt) (h : R e) :
    Res.Sat (include_keys_file env can name e) R := by
  unfold include_keys_file
  cases env.file name with
  | none => exact h
  | some content =>
    simp only
    split
    · exact keyLines_sat hR _ _ (accLines_length content) h
    · exact h

/-- What a nested file does: it adds checked stanzas. -/
def NestedOk (I : AccEnt → Prop) (f : Str → AccState → Res AccState) : Prop :=
  ∀ n s, 1 ≤ s.depth → Res.Sat (f n s) fun s' => s'.depth = s.depth ∧ ∃ new, s'.stanzas = s.stanzas ++ new ∧ ∀ e ∈ new, I e

/-- The state while a file is read; `s0` is the state before. -/
structure LoopInv (R I : AccEnt → Prop) (s0 : AccState) (done : List Entry) (x : AccFrame × AccState) : Prop where
  depth : x.2.depth = s0.depth + 1
  list : ∃ new, x.2.stanzas = s0.stanzas ++ new ∧ (∀ e ∈ new, R e) ∧
    (∀ k e, new[k]? = some e → x.1.curr ≠ some (s0.stanzas.length + k) → I e) ∧
    ∀ i, x.1.curr = some i → ∃ k, i = s0.stanzas.length + k ∧ k < new.length ∧ (NoIncl done → k + 1 = new.length)

theorem noIncl_snoc {done : List Entry} {var val : Str}
    (h3 : var ≠ b!"SOURCE") : NoIncl (done ++ [(var, val)]) → NoIncl done := by
  intro h e he
  unfold NoIncl at h
  rw [sinceSource_snoc] at h
  simp only [h3, if_false] at h
  exact h e (by simp [he])

theorem not_noIncl_snoc {done : List Entry} {var val : Str} (h : var = b!"%include" ∨ var = b!"%include_folder") :
    ¬ NoIncl (done ++ [(var, val)]) := by
  intro hn
  unfold NoIncl at hn
  rw [sinceSource_snoc] at hn
  have h3 : var ≠ b!"SOURCE" := by rcases h with rfl | rfl <;> decide
  simp only [h3, if_false] at hn
  have := hn (var, val) (by simp)
  rcases h with h | h
  · exact this.1 h
  · exact this.2 h

/-- The list with the current stanza replaced. -/
theorem set_inv {s0 : AccState} {done : List Entry} {fr : AccFrame} {s : AccState} {i : Nat}
    (h : LoopInv R I s0 done (fr, s)) (hc : fr.curr = some i) (e' : AccEnt) (hR' : R e') :
    ∃ new k, s.stanzas.set i e' = s0.stanzas ++ new.set k e' ∧ i = s0.stanzas.length + k ∧ k < new.length ∧
      s.stanzas = s0.stanzas ++ new ∧
      (∀ e ∈ new.set k e', R e) ∧ (∀ j e, (new.set k e')[j]? = some e → j ≠ k → I e) ∧
      (NoIncl done → k + 1 = new.length) := by
  obtain ⟨hd, new, hn, hr, hi, hcur⟩ := h
  obtain ⟨k, rfl, hk, hcl⟩ := hcur i hc
  simp only at hn hi hc
  refine ⟨new, k, ?_, rfl, hk, hn, ?_, ?_, hcl⟩
  · rw [hn, List.set_append_right _ _ (by omega)]
    congr 2; omega
  · intro e he
    rcases List.mem_or_eq_of_mem_set he with h | rfl
    · exact hr e h
    · exact hR'
  · intro j e hj hne
    rw [List.getElem?_set_ne (by omega)] at hj
    apply hi j e hj
    rw [hc]
    intro h
    simp at h; omega

theorem entAt_sat {s0 : AccState} {done : List Entry} {fr : AccFrame} {s : AccState} {i : Nat}
    (h : LoopInv R I s0 done (fr, s)) (hc : fr.curr = some i) : ∃ e, entAt s i = .ok e ∧ R e := by
  obtain ⟨hd, new, hn, hr, hi, hcur⟩ := h
  obtain ⟨k, rfl, hk, hcl⟩ := hcur i hc
  simp only at hn
  have : s.stanzas[s0.stanzas.length + k]? = some new[k] := by
    rw [hn, List.getElem?_append_right (by omega)]
    simp [hk]
  refine ⟨new[k], ?_, hr _ (by simp)⟩
  unfold entAt
  rw [this]

theorem closeStanza_sat (hR : Rules env R I) {s0 : AccState} {done : List Entry} {fr : AccFrame} {s : AccState}
    (h : LoopInv R I s0 done (fr, s)) :
    Res.Sat (closeStanza fr s) fun s' => s'.depth = s.depth ∧ s'.gid = s.gid ∧
      ∃ new, s'.stanzas = s0.stanzas ++ new ∧ ∀ e ∈ new, I e := by
  unfold closeStanza
  cases hc : fr.curr with
  | none =>
    obtain ⟨hd, new, hn, hr, hi, hcur⟩ := h
    refine ⟨rfl, rfl, new, hn, fun e he => ?_⟩
    obtain ⟨k, hk, rfl⟩ := List.getElem_of_mem he
    exact hi k _ (List.getElem?_eq_getElem hk) (by simp [hc])
  | some i =>
    simp only
    obtain ⟨e, he, hRe⟩ := entAt_sat h hc
    rw [he]
    simp only [Res.bind_ok]
    cases hv : validEnt fr s e with
    | none => trivial
    | some e' =>
      have hI := hR.valid fr s e e' hRe hv
      obtain ⟨new, k, h1, _, hk, _, h2, h3, _⟩ := set_inv h hc e' (hR.back _ hI)
      refine ⟨rfl, rfl, new.set k e', h1, fun x hx => ?_⟩
      obtain ⟨j, hj, rfl⟩ := List.getElem_of_mem hx
      by_cases hjk : j = k
      · subst hjk; simp; exact hI
      · exact h3 j _ (List.getElem?_eq_getElem hj) hjk

theorem accEntry_sat (hR : Rules env R I) {incl folder : Str → AccState → Res AccState} (hin : NestedOk I incl)
    (hfo : NestedOk I folder) (can : Bool) {s0 : AccState} {done : List Entry} {var val : Str}
    (hz : (∀ e, R e → I e) ∨ (var = b!"%include_keys" → NoIncl done)) {x : AccFrame × AccState}
    (h : LoopInv R I s0 done x) :
    Res.Sat (accEntry env incl folder can var val x) (LoopInv R I s0 (done ++ [(var, val)])) := by
  obtain ⟨fr, s⟩ := x
  have nested : ∀ f : Str → AccState → Res AccState, NestedOk I f → (var = b!"%include" ∨ var = b!"%include_folder") →
      Res.Sat (do let s' ← f val s; return (fr, s')) (LoopInv R I s0 (done ++ [(var, val)])) := by
    intro f hf hv
    have hd : s.depth = s0.depth + 1 := h.depth
    refine Res.sat_bind _ (hf val s (by omega)) ?_
    rintro s' ⟨hd', add, hn', hadd⟩
    obtain ⟨_, new, hn, hr, hi, hcur⟩ := h
    simp only at hn hi hcur
    refine ⟨by simp only; omega, new ++ add, by simp only; rw [hn', hn, List.append_assoc], ?_, ?_, ?_⟩
    · intro e he
      rw [List.mem_append] at he
      rcases he with he | he
      · exact hr e he
      · exact hR.back _ (hadd e he)
    · intro k e hk hc
      by_cases hlt : k < new.length
      · rw [List.getElem?_append_left hlt] at hk
        exact hi k e hk hc
      · rw [List.getElem?_append_right (by omega)] at hk
        exact hadd e (List.mem_of_getElem? hk)
    · intro i hc
      obtain ⟨k, hk, hlt, hcl⟩ := hcur i hc
      exact ⟨k, hk, by rw [List.length_append]; omega, fun hn => absurd hn (not_noIncl_snoc hv)⟩
  unfold accEntry
  simp only
  split
  · rename_i hv
    split
    · exact nested incl hin (.inl hv)
    · trivial
  · rename_i hv1
    split
    · rename_i hv
      exact nested folder hfo (.inr hv)
    · rename_i hv2
      split
      · rename_i hv
        refine Res.sat_bind _ (closeStanza_sat hR h) ?_
        rintro s' ⟨hd, _, new, hn, hI⟩
        have hd0 : s.depth = s0.depth + 1 := h.depth
        refine ⟨by simp only; omega, new ++ [{ source := val }], by simp only; rw [hn, List.append_assoc], ?_, ?_, ?_⟩
        · intro e he
          rw [List.mem_append, List.mem_singleton] at he
          rcases he with he | rfl
          · exact hR.back _ (hI e he)
          · exact hR.fresh val
        · intro k e hk hc
          by_cases hlt : k < new.length
          · rw [List.getElem?_append_left hlt] at hk
            exact hI e (List.mem_of_getElem? hk)
          · have : k = new.length := by
              have := (List.getElem?_eq_some_iff.1 hk).1
              rw [List.length_append] at this
              simp at this; omega
            subst this
            exfalso
            apply hc
            simp only
            rw [hn, List.length_append]
        · intro i hc
          simp only [Option.some.injEq] at hc
          subst hc
          refine ⟨new.length, by rw [hn, List.length_append], by simp, fun _ => by simp⟩
      · rename_i hv3
        have keep : LoopInv R I s0 (done ++ [(var, val)]) (fr, s) := by
          obtain ⟨hd, new, hn, hr, hi, hcur⟩ := h
          refine ⟨hd, new, hn, hr, hi, fun i hc => ?_⟩
          obtain ⟨k, a, b, c⟩ := hcur i hc
          exact ⟨k, a, b, fun hn => c (noIncl_snoc hv3 hn)⟩
        cases hc : fr.curr with
        | none => exact keep
        | some i =>
          simp only
          obtain ⟨e, he, hRe⟩ := entAt_sat keep hc
          -- the current stanza replaced
          have repl : ∀ (fr' : AccFrame) (s' : AccState) (e' : AccEnt), fr'.curr = some i → s'.depth = s.depth →
              s'.stanzas = s.stanzas.set i e' → R e' → LoopInv R I s0 (done ++ [(var, val)]) (fr', s') := by
            intro fr' s' e' hc' hd' hs' hR'
            obtain ⟨new, k, h1, h2, hk, _, h3, h4, h5⟩ := set_inv keep hc e' hR'
            have hd0 : s.depth = s0.depth + 1 := h.depth
            refine ⟨by simp only; omega, new.set k e', by simp only; rw [hs', h1], h3, ?_, ?_⟩
            · intro j x hj hne
              apply h4 j x hj
              rintro rfl
              apply hne
              rw [hc', h2]
            · intro j hj
              simp only at hj
              rw [hc'] at hj
              injection hj with hj
              subst hj
              exact ⟨k, h2, by simpa using hk, fun hn => by simpa using h5 hn⟩
          split
          · rename_i hv
            unfold includeKeys
            rw [he]
            simp only [Res.bind_ok]
            refine Res.sat_bind _ (includeKeysFile_sat hR can val e hRe) ?_
            intro e1 hR1
            cases hve : validEnt fr s e1 with
            | some e2 => exact repl fr _ e2 hc rfl rfl (hR.back _ (hR.valid _ _ _ _ hR1 hve))
            | none =>
              obtain ⟨new, k, h1, h2, hk, hn, h3, h4, h5⟩ := set_inv keep hc e1 hR1
              have hd0 : s.depth = s0.depth + 1 := h.depth
              refine ⟨hd0, (new.set k e1).dropLast, ?_, ?_, ?_, fun i hi => by simp at hi⟩
              · simp only [setEnt]
                rw [h1, List.dropLast_append_of_ne_nil]
                intro hnil
                have : (new.set k e1).length = 0 := by rw [hnil]; rfl
                simp at this; subst this; simp at hk
              · intro x hx
                exact h3 x ((List.dropLast_sublist _).subset hx)
              · intro j x hj _
                have hj' : (new.set k e1)[j]? = some x := by
                  rw [List.getElem?_dropLast] at hj
                  split at hj
                  · exact hj
                  · simp at hj
                rcases hz with hz | hz
                · exact hz _ (h3 x (List.mem_of_getElem? hj'))
                · apply h4 j x hj'
                  have hlen : j < (new.set k e1).length - 1 := by
                    rw [List.getElem?_dropLast] at hj
                    split at hj
                    · assumption
                    · simp at hj
                  have hcl : NoIncl (done ++ [(var, val)]) := by
                    intro y hy
                    rw [sinceSource_snoc] at hy
                    simp only [hv3, if_false, List.mem_append, List.mem_singleton] at hy
                    rcases hy with hy | rfl
                    · exact hz hv y hy
                    · exact ⟨hv1, hv2⟩
                  have := h5 hcl
                  rw [List.length_set] at hlen
                  omega
          · cases optOf var with
            | none => exact keep
            | some o =>
              simp only
              unfold optionLine
              rw [he]
              simp only [Res.bind_ok]
              cases hso : setOption env o val (⟨fr.user, fr.sudo, s.gid⟩, e) with
              | ub => exact absurd hso (setOption_safe _ _ _ _)
              | err => trivial
              | ok r => exact repl _ _ r.2 hc rfl rfl (hR.opt o val _ _ hRe hso)

theorem accLoop_sat (hR : Rules env R I) {incl folder : Str → AccState → Res AccState} (hin : NestedOk I incl)
    (hfo : NestedOk I folder) (can : Bool) {s0 : AccState} (es : List Entry)
    (hz : (∀ e, R e → I e) ∨ KeysFirst es) (ls : List Str) :
    ∀ (done : List Entry) (x : AccFrame × AccState), (∀ l ∈ ls, l.length < MAX_LINE_LEN) →
      es = done ++ ls.filterMap entryOf → LoopInv R I s0 done x →
      Res.Sat (accLoop env incl folder can ls x) (LoopInv R I s0 es) := by
  induction ls with
  | nil =>
    intro done x _ he h
    simp at he
    subst he
    exact h
  | cons l ls ih =>
    intro done x hl he h
    have hl' : ∀ l ∈ ls, l.length < MAX_LINE_LEN := fun x hx => hl x (by simp [hx])
    rw [accLoop]
    have hs := accLine_safe l (hl l (by simp))
    cases ha : accLine l with
    | ub => exact absurd ha hs
    | err => trivial
    | ok en =>
      simp only [Res.bind_ok]
      cases en with
      | none =>
        simp only
        have hent : entryOf l = none := by unfold entryOf; rw [ha]
        rw [List.filterMap_cons, hent] at he
        exact ih done x hl' he h
      | some p =>
        obtain ⟨var, val⟩ := p
        have hent : entryOf l = some (var, chop_whitespace val) := by unfold entryOf; rw [ha]
        rw [List.filterMap_cons, hent] at he
        simp only at he ⊢
        refine Res.sat_bind _ (accEntry_sat hR hin hfo can (done := done) ?_ h) ?_
        · rcases hz with hz | hz
          · exact .inl hz
          · right
            intro hv
            subst hv
            exact hz done _ _ he
        · intro x' hx'
          exact ih (done ++ [(var, chop_whitespace val)]) x' hl' (by rw [he]; simp) hx'

theorem folderLoop_sat {incl : Str → AccState → Res AccState} (hin : NestedOk I incl) (folder : Str) (ns : List Str) :
    ∀ s, 1 ≤ s.depth → Res.Sat (folderLoop incl folder ns s) fun s' =>
      s'.depth = s.depth ∧ ∃ new, s'.stanzas = s.stanzas ++ new ∧ ∀ e ∈ new, I e := by
  induction ns with
  | nil => intro s _; exact ⟨rfl, [], by simp, by simp⟩
  | cons n ns ih =>
    intro s hd
    rw [folderLoop]
    split
    · split
      · trivial
      · refine Res.sat_bind _ (hin _ s hd) ?_
        rintro s' ⟨hd', new, hn, hI⟩
        refine (ih s' (by omega)).mono ?_
        rintro s'' ⟨hd'', new', hn', hI'⟩
        refine ⟨by omega, new ++ new', by rw [hn', hn, List.append_assoc], ?_⟩
        intro e he
        rw [List.mem_append] at he
        exact he.elim (hI e) (hI' e)
    · exact ih s hd

theorem accFolder_nested (env : AccEnv) {incl : Str → AccState → Res AccState} (hin : NestedOk I incl) :
    NestedOk I (accFolder env incl) := by
  intro n s hd
  unfold accFolder
  simp only
  cases env.dir (chop_char n 47) with
  | none => trivial
  | some names => exact folderLoop_sat hin _ _ s hd

/-- All the files either need no order, or keep `%include_keys` before the include directives. -/
def FilesOk (env : AccEnv) (R I : AccEnt → Prop) : Prop :=
  (∀ e, R e → I e) ∨ ∀ name content, env.file name = some content → KeysFirst (entriesOf content)

theorem loop_start {s : AccState} : LoopInv R I s [] (({} : AccFrame), { s with depth := s.depth + 1 }) :=
  ⟨rfl, [], by simp, by simp, by simp, by simp⟩

theorem fileLoop_sat (hR : Rules env R I) (hz : FilesOk env R I) {incl folder : Str → AccState → Res AccState}
    (hin : NestedOk I incl) (hfo : NestedOk I folder) (can : Bool) (s : AccState) (name content : Str)
    (hf : env.file name = some content) :
    Res.Sat (accLoop env incl folder can (accLines content) ({}, { s with depth := s.depth + 1 }))
      (LoopInv R I s (entriesOf content)) := by
  refine accLoop_sat hR hin hfo can (entriesOf content) ?_ (accLines content) [] _ (accLines_length content)
    (by simp [entriesOf]) loop_start
  rcases hz with hz | hz
  · exact .inl hz
  · exact .inr (hz name content hf)

theorem endFile_nested (hR : Rules env R I) {s0 : AccState} {done : List Entry} {x : AccFrame × AccState}
    (hd : 1 ≤ s0.depth) (h : LoopInv R I s0 done x) :
    Res.Sat (endFile env x.1 x.2) fun s' => s'.depth = s0.depth ∧ ∃ new, s'.stanzas = s0.stanzas ++ new ∧ ∀ e ∈ new, I e := by
  obtain ⟨fr, s⟩ := x
  have hd0 : s.depth = s0.depth + 1 := h.depth
  unfold endFile
  simp only
  rw [if_neg (by omega)]
  have h' : LoopInv R I { s0 with depth := s0.depth - 1 } done (fr, { s with depth := s.depth - 1 }) := by
    obtain ⟨hd, hl⟩ := h
    exact ⟨by simp only; omega, hl⟩
  refine (closeStanza_sat hR h').mono ?_
  rintro s' ⟨h1, _, h2⟩
  exact ⟨by simp only at h1; omega, h2⟩

theorem nested_err : NestedOk I (fun _ _ => .err) := fun _ _ _ => trivial

/-- **A nested file.** -/
theorem parse_nested (hR : Rules env R I) (hz : FilesOk env R I) : ∀ fds, NestedOk I (parse_access_file env fds) := by
  intro fds
  induction fds using Nat.strongRecOn with
  | _ fds ih =>
    intro name s hd
    match fds, ih with
    | 0, _ => exact trivial
    | 1, _ =>
      rw [parse_access_file]
      cases hf : env.file name with
      | none => trivial
      | some content =>
        simp only
        refine Res.sat_bind _ (fileLoop_sat hR hz nested_err nested_err false s name content hf) ?_
        intro x hx
        exact endFile_nested hR hd hx
    | f + 2, ih =>
      rw [parse_access_file]
      cases hf : env.file name with
      | none => trivial
      | some content =>
        simp only
        refine Res.sat_bind _ (fileLoop_sat hR hz (ih (f + 1) (by omega))
          (accFolder_nested env (ih f (by omega))) true s name content hf) ?_
        intro x hx
        exact endFile_nested hR hd hx


theorem mapOpt_spec {α β : Type} (f : α → Option β) : ∀ (l : List α) (l' : List β), mapOpt f l = some l' →
    l'.length = l.length ∧ ∀ (i : Nat) b, l'[i]? = some b → ∃ a, l[i]? = some a ∧ f a = some b := by
  intro l
  induction l with
  | nil => intro l' h; simp [mapOpt] at h; subst h; simp
  | cons a as ih =>
    intro l' h
    simp only [mapOpt, bind, Option.bind] at h
    cases hb : f a with
    | none => simp [hb] at h
    | some b =>
      cases hbs : mapOpt f as with
      | none => simp [hb, hbs] at h
      | some bs =>
        simp [hb, hbs] at h
        subst h
        obtain ⟨h1, h2⟩ := ih bs hbs
        refine ⟨by simp [h1], fun i x hx => ?_⟩
        cases i with
        | zero => simp at hx; subst hx; exact ⟨a, by simp, hb⟩
        | succ i => simpa using h2 i x (by simpa using hx)

/-- What holds of a stanza in effect (`J`). -/
structure RootRules (env : AccEnv) (R I J : AccEnt → Prop) : Prop extends Rules env R I where
  finish : ∀ e e', I e → finishEnt env.gpg_home e = some e' → J e'
  again : ∀ e, J e → I e

variable {J : AccEnt → Prop}

theorem endFile_root (hR : RootRules env R I J) {s0 : AccState} {done : List Entry} {x : AccFrame × AccState}
    (hd : s0.depth = 0) (hJ : ∀ e ∈ s0.stanzas, J e) (h : LoopInv R I s0 done x) :
    Res.Sat (endFile env x.1 x.2) fun s' => s'.depth = 0 ∧ ∀ e ∈ s'.stanzas, J e := by
  obtain ⟨fr, s⟩ := x
  have hd0 : s.depth = s0.depth + 1 := h.depth
  unfold endFile
  simp only
  rw [if_pos (by omega)]
  apply Res.sat_guard
  intro _
  have h0 := closeStanza_sat hR.toRules h
  have h' : Res.Sat (closeStanza fr { s with depth := s.depth - 1 }) fun s' => s'.depth = s.depth - 1 ∧
      ∃ new, s'.stanzas = s0.stanzas ++ new ∧ ∀ e ∈ new, I e := by
    unfold closeStanza at h0 ⊢
    cases hc : fr.curr with
    | none =>
      rw [hc] at h0
      exact ⟨rfl, h0.2.2⟩
    | some i =>
      rw [hc] at h0
      simp only at h0 ⊢
      have e1 : entAt { s with depth := s.depth - 1 } i = entAt s i := rfl
      rw [e1]
      cases he : entAt s i with
      | ub => rw [he] at h0; exact h0
      | err => trivial
      | ok e =>
        rw [he] at h0
        simp only [Res.bind_ok] at h0 ⊢
        have e2 : validEnt fr { s with depth := s.depth - 1 } e = validEnt fr s e := rfl
        rw [e2]
        cases hv : validEnt fr s e with
        | none => trivial
        | some e' =>
          rw [hv] at h0
          exact ⟨rfl, h0.2.2⟩
  refine Res.sat_bind _ h' ?_
  rintro s' ⟨h1, new, hn, hI⟩
  refine Res.sat_bind _ (orFail_sat _) ?_
  intro l hl
  refine ⟨by simp only; omega, fun e he => ?_⟩
  obtain ⟨i, hi, rfl⟩ := List.getElem_of_mem he
  obtain ⟨_, hm⟩ := mapOpt_spec _ _ _ hl
  obtain ⟨a, ha, hfa⟩ := hm i _ (List.getElem?_eq_getElem hi)
  refine hR.finish a _ ?_ hfa
  have := List.mem_of_getElem? ha
  rw [hn, List.mem_append] at this
  exact this.elim (fun h => hR.again _ (hJ a h)) (hI a)

/-- **A file named in fwknopd.conf.** -/
theorem parse_root (hR : RootRules env R I J) (hz : FilesOk env R I) (fds : Nat) (name : Str) (s : AccState)
    (hd : s.depth = 0) (hJ : ∀ e ∈ s.stanzas, J e) :
    Res.Sat (parse_access_file env fds name s) fun s' => s'.depth = 0 ∧ ∀ e ∈ s'.stanzas, J e := by
  match fds with
  | 0 => exact trivial
  | 1 =>
    rw [parse_access_file]
    cases hf : env.file name with
    | none => trivial
    | some content =>
      simp only
      refine Res.sat_bind _ (fileLoop_sat hR.toRules hz nested_err nested_err false s name content hf) ?_
      intro x hx
      exact endFile_root hR hd hJ hx
  | f + 2 =>
    rw [parse_access_file]
    cases hf : env.file name with
    | none => trivial
    | some content =>
      simp only
      refine Res.sat_bind _ (fileLoop_sat hR.toRules hz (parse_nested hR.toRules hz (f + 1))
        (accFolder_nested env (parse_nested hR.toRules hz f)) true s name content hf) ?_
      intro x hx
      exact endFile_root hR hd hJ hx

theorem folder_root (hR : RootRules env R I J) (hz : FilesOk env R I) (fds : Nat) (folder : Str) (ns : List Str) :
    ∀ s : AccState, s.depth = 0 → (∀ e ∈ s.stanzas, J e) →
      Res.Sat (folderLoop (parse_access_file env fds) folder ns s) fun s' => s'.depth = 0 ∧ ∀ e ∈ s'.stanzas, J e := by
  induction ns with
  | nil => intro s h1 h2; exact ⟨h1, h2⟩
  | cons n ns ih =>
    intro s h1 h2
    rw [folderLoop]
    split
    · split
      · trivial
      · refine Res.sat_bind _ (parse_root hR hz fds _ s h1 h2) ?_
        rintro s' ⟨h1', h2'⟩
        exact ih s' h1' h2'
    · exact ih s h1 h2

/-- **The stanzas in effect**, whatever the files contain. -/
theorem load_sat (hR : RootRules env R I J) (hz : FilesOk env R I) (fds : Nat) (src : AccSource) :
    Res.Sat (load_access env fds src) fun l => l ≠ [] ∧ ∀ e ∈ l, J e ∧ e.source ≠ [] := by
  unfold load_access
  refine Res.sat_bind (fun s : AccState => ∀ e ∈ s.stanzas, J e) ?_ ?_
  · cases src with
    | file n => exact (parse_root hR hz fds n {} rfl (by simp)).mono fun _ h => h.2
    | folder n =>
      cases fds with
      | zero => exact trivial
      | succ f =>
        show Res.Sat (parse_access_folder env (f + 1) n {}) _
        rw [parse_access_folder]
        unfold accFolder
        simp only
        cases env.dir (chop_char n 47) with
        | none => trivial
        | some names => exact (folder_root hR hz f _ names {} rfl (by simp)).mono fun _ h => h.2
  · intro s hs
    apply Res.sat_guard
    intro hv
    have hv' : valid_access_stanzas s.stanzas = true := by simpa using hv
    unfold valid_access_stanzas at hv'
    simp only [ne_eq, List.all_eq_true, decide_eq_true_eq] at hv'
    exact ⟨hv'.1, fun e he => ⟨hs e he, hv'.2 e he⟩⟩

end

end Fwknop
