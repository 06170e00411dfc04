import Verif.Model.Signals

/-!
# Signals
-/

namespace Fwknop.Props

theorem deliver_hup (l : List Sig) : ∀ f : Flags, (deliver f l).hup = true ↔ f.hup = true ∨ .hup ∈ l := by
  induction l with
  | nil => intro f; simp [deliver]
  | cons s l ih =>
    intro f
    show (deliver (sig_handler f s) l).hup = true ↔ _
    rw [ih, List.mem_cons]
    cases s <;> simp [sig_handler]

theorem deliver_int (l : List Sig) : ∀ f : Flags, (deliver f l).int = true ↔ f.int = true ∨ .int ∈ l := by
  induction l with
  | nil => intro f; simp [deliver]
  | cons s l ih =>
    intro f
    show (deliver (sig_handler f s) l).int = true ↔ _
    rw [ih, List.mem_cons]
    cases s <;> simp [sig_handler]

theorem deliver_term (l : List Sig) : ∀ f : Flags, (deliver f l).term = true ↔ f.term = true ∨ .term ∈ l := by
  induction l with
  | nil => intro f; simp [deliver]
  | cons s l ih =>
    intro f
    show (deliver (sig_handler f s) l).term = true ↔ _
    rw [ih, List.mem_cons]
    cases s <;> simp [sig_handler]

theorem deliver_any (l : List Sig) : ∀ f : Flags, (deliver f l).any = true ↔ f.any = true ∨ l ≠ [] := by
  induction l with
  | nil => intro f; simp [deliver]
  | cons s l ih =>
    intro f
    show (deliver (sig_handler f s) l).any = true ↔ _
    rw [ih]
    cases s <;> simp [sig_handler]

/-- The daemon, told by nothing but SIGHUP, SIGUSR1, SIGUSR2 and SIGCHLD: it is not about to exit. -/
structure Untold (s : PC × Flags) : Prop where
  int : s.2.int = false
  term : s.2.term = false
  alive : s.1 ≠ .exited ∧ s.1 ≠ .hInt ∧ s.1 ≠ .hTerm
  any : s.1 = .hAny → s.2.any = true ∧ s.2.hup = true
  hup : s.1 = .hNone ∨ s.1 = .hHup → s.2.hup = true
  checked : s.1 = .int ∨ s.1 = .term ∨ s.1 = .hup → s.2.any = true

theorem untold_step {f : Flags} {pc : PC} (h : Untold (pc, f)) {l : List Sig} (hi : .int ∉ l) (ht : .term ∉ l) : Untold (sigStep (deliver f l) pc) := by
  have h1 := deliver_int l f
  have h2 := deliver_term l f
  have h3 := deliver_hup l f
  have h4 := deliver_any l f
  obtain ⟨a1, a2, a3, a4, a5, a6⟩ := h
  dsimp only at a1 a2 a3 a4 a5 a6
  have e1 : (deliver f l).int = false := by rw [Bool.eq_false_iff]; intro h; rcases h1.1 h with h | h <;> simp_all
  have e2 : (deliver f l).term = false := by rw [Bool.eq_false_iff]; intro h; rcases h2.1 h with h | h <;> simp_all
  generalize deliver f l = g at *
  cases pc <;> constructor <;> simp_all [sigStep]
  all_goals (first | (split <;> simp_all) | skip)
  all_goals (cases hf : f.hup <;> simp_all)

/-- **C105.** Only SIGINT and SIGTERM end the daemon: whenever which signals arrive, if neither of these does, it runs. -/
theorem C105_ends_only_when_told {arr : Nat → List Sig} (h : ∀ k, .int ∉ arr k ∧ .term ∉ arr k) (n : Nat) : (sigRun arr n).1 ≠ .exited := by
  have : Untold (sigRun arr n) := by
    induction n with
    | zero => constructor <;> simp [sigRun]
    | succ n ih => exact untold_step ih (h n).1 (h n).2
  exact this.alive.1

/-- The program counters of a reload. -/
def Reloading (pc : PC) : Prop := pc ∈ [.hNoHup, .reading, .cAny, .cHup, .cInt, .cTerm, .cUsr1, .cUsr2]

instance (pc : PC) : Decidable (Reloading pc) := inferInstanceAs (Decidable (_ ∈ _))

theorem calm_step {f : Flags} {pc : PC} (h : f.hup = false ∧ ¬ Reloading pc) {l : List Sig} (hl : .hup ∉ l) :
    (sigStep (deliver f l) pc).2.hup = false ∧ ¬ Reloading (sigStep (deliver f l) pc).1 := by
  have e : (deliver f l).hup = false := by rw [Bool.eq_false_iff]; intro hh; rcases (deliver_hup l f).1 hh with h' | h' <;> simp_all
  generalize deliver f l = g at *
  obtain ⟨-, h⟩ := h
  unfold Reloading at *
  cases pc <;> simp_all [sigStep]
  all_goals (first | (split <;> simp_all) | skip)

/-- **C105.** The configuration is read again only after a SIGHUP. -/
theorem C105_reloads_only_when_told {arr : Nat → List Sig} (h : ∀ k, .hup ∉ arr k) (n : Nat) : (sigRun arr n).2.hup = false ∧ ¬ Reloading (sigRun arr n).1 := by
  induction n with
  | zero => exact ⟨rfl, by show ¬ Reloading .loop; decide⟩
  | succ n ih => exact calm_step ih (h n)

/-- How many steps it takes until the daemon has exited. -/
def stepsLeft : PC → Nat
  | .exited => 0 | .hTerm => 1 | .hInt => 2 | .hHup => 3 | .hNone => 4 | .hAny => 5 | .term => 6 | .int => 7 | .any => 8 | .loop => 9
  | _ => 0

/-- A request to stop is on its way. -/
structure Stopping (s : PC × Flags) : Prop where
  told : s.2.int = true ∨ s.2.term = true
  calm : s.2.hup = false
  term : s.1 = .term → s.2.term = true
  any : s.1 ∈ [.loop, .any, .int, .term, .hAny] → s.2.any = true
  place : s.1 ∈ [.loop, .any, .int, .term, .hAny, .hNone, .hHup, .hInt, .hTerm, .exited]

theorem stopping_step {f : Flags} {pc : PC} (h : Stopping (pc, f)) {l : List Sig} (hl : .hup ∉ l) :
    Stopping (sigStep (deliver f l) pc) ∧ stepsLeft (sigStep (deliver f l) pc).1 ≤ stepsLeft pc - 1 := by
  have h1 := deliver_int l f
  have h2 := deliver_term l f
  have h4 := deliver_any l f
  obtain ⟨a1, a2, a3, a4, a5⟩ := h
  have e : (deliver f l).hup = false := by rw [Bool.eq_false_iff]; intro hh; rcases (deliver_hup l f).1 hh with h' | h' <;> simp_all
  dsimp only at a1 a2 a3 a4 a5
  have e1 : (deliver f l).int = true ∨ (deliver f l).term = true := a1.imp (fun h => h1.2 (.inl h)) (fun h => h2.2 (.inl h))
  have e2 : pc = .term → (deliver f l).term = true := fun h => h2.2 (.inl (a3 h))
  have e3 : pc ∈ [.loop, .any, .int, .term, .hAny] → (deliver f l).any = true := fun h => h4.2 (.inl (a4 h))
  generalize deliver f l = g at *
  clear h1 h2 h4 a1 a3 a4
  cases hi : g.int <;> cases ht : g.term <;> cases ha : g.any <;>
  cases pc <;> simp_all [sigStep, stepsLeft] <;> constructor <;> simp_all

theorem stopping_ends {arr : Nat → List Sig} (hh : ∀ k, .hup ∉ arr k) {k : Nat} (h : Stopping (sigRun arr k)) : ∀ m, stepsLeft (sigRun arr (k + m)).1 ≤ 9 - m ∧ Stopping (sigRun arr (k + m))
  | 0 => by
    refine ⟨?_, h⟩
    cases (sigRun arr (k + 0)).1 <;> simp [stepsLeft]
  | m + 1 => by
    obtain ⟨h1, h2⟩ := stopping_ends hh h m
    obtain ⟨h3, h4⟩ := stopping_step h2 (hh (k + m))
    exact ⟨Nat.le_trans h4 (by omega), h3⟩

/-- The window of `sig_do_stop` in which it has looked at the flag of SIGTERM and not yet reset `got_signal`; for
SIGINT it begins one step earlier. -/
def Window (pc : PC) : Prop := pc ∈ [.hup, .usr1, .usr2, .no2, .no1, .none]

instance (pc : PC) : Decidable (Window pc) := inferInstanceAs (Decidable (_ ∈ _))

theorem stops {arr : Nat → List Sig} (hh : ∀ k, .hup ∉ arr k) {k : Nat} (h : Stopping (sigRun arr k)) : (sigRun arr (k + 9)).1 = .exited := by
  obtain ⟨h1, h2⟩ := stopping_ends hh h 9
  have := h2.place
  revert h1 this
  generalize (sigRun arr (k + 9)).1 = pc
  cases pc <;> simp [stepsLeft]

/-- The daemon before a step in which a request to stop arrives. -/
theorem told_step {f : Flags} {pc : PC} (hc : f.hup = false ∧ ¬ Reloading pc) (hw : ¬ Window pc) {l : List Sig} (hl : .hup ∉ l)
    (h : (.term ∈ l ∨ f.term = true ∧ l ≠ []) ∨ .int ∈ l ∧ pc ≠ .term) : Stopping (sigStep (deliver f l) pc) := by
  have h1 := deliver_int l f
  have h2 := deliver_term l f
  have h4 := deliver_any l f
  have e : (deliver f l).hup = false := by rw [Bool.eq_false_iff]; intro hh; rcases (deliver_hup l f).1 hh with h' | h' <;> simp_all
  have ha : (deliver f l).any = true := h4.2 (.inr (by
    rcases h with (h | h) | h
    · exact List.ne_nil_of_mem h
    · exact h.2
    · exact List.ne_nil_of_mem h.1))
  have ht : (deliver f l).term = true ∨ (deliver f l).int = true ∧ pc ≠ .term := by
    rcases h with (h | h) | h
    · exact .inl (h2.2 (.inr h))
    · exact .inl (h2.2 (.inl h.1))
    · exact .inr ⟨h1.2 (.inr h.1), h.2⟩
  obtain ⟨-, hc⟩ := hc
  generalize deliver f l = g at *
  clear h1 h2 h4 h
  unfold Window at hw
  unfold Reloading at hc
  cases hi : g.int <;> cases ht' : g.term <;>
  cases pc <;> simp_all [sigStep] <;> constructor <;> simp_all

/-- **C105** (partial: no SIGHUP; the signal does not arrive in the window). SIGTERM is obeyed: whatever other signals arrive,
and when, the daemon exits within ten steps of it. -/
theorem C105_term_is_obeyed_partial {arr : Nat → List Sig} (hh : ∀ k, .hup ∉ arr k) {k : Nat} (ht : .term ∈ arr k) (hw : ¬ Window (sigRun arr k).1) :
    (sigRun arr (k + 10)).1 = .exited := by
  have := stops hh (k := k + 1) (told_step (C105_reloads_only_when_told hh k) hw (hh k) (.inl (.inl ht)))
  rwa [show k + 1 + 9 = k + 10 by omega] at this

/-- **C105** (partial: the same). SIGINT is obeyed. -/
theorem C105_int_is_obeyed_partial {arr : Nat → List Sig} (hh : ∀ k, .hup ∉ arr k) {k : Nat} (ht : .int ∈ arr k)
    (hw : ¬ Window (sigRun arr k).1 ∧ (sigRun arr k).1 ≠ .term) :
    (sigRun arr (k + 10)).1 = .exited := by
  have := stops hh (k := k + 1) (told_step (C105_reloads_only_when_told hh k) hw.1 (hh k) (.inr ⟨ht, hw.2⟩))
  rwa [show k + 1 + 9 = k + 10 by omega] at this

/-- How far it is to the end of the window. -/
def windowLeft : PC → Nat
  | .hup => 6 | .usr1 => 5 | .usr2 => 4 | .no2 => 3 | .no1 => 2 | .none => 1
  | _ => 0

theorem window_step {f : Flags} {pc : PC} (hc : f.hup = false ∧ ¬ Reloading pc) (ht : f.term = true ∨ pc = .exited) {l : List Sig} (hl : .hup ∉ l) :
    ((sigStep (deliver f l) pc).2.term = true ∨ (sigStep (deliver f l) pc).1 = .exited) ∧
      windowLeft (sigStep (deliver f l) pc).1 ≤ windowLeft pc - 1 := by
  have h2 := deliver_term l f
  have e : (deliver f l).hup = false := by rw [Bool.eq_false_iff]; intro hh; rcases (deliver_hup l f).1 hh with h' | h' <;> simp_all
  have e2 : (deliver f l).term = true ∨ pc = .exited := ht.imp (fun h => h2.2 (.inl h)) id
  obtain ⟨-, hc⟩ := hc
  generalize deliver f l = g at *
  clear h2 ht
  unfold Reloading at hc
  cases hi : g.int <;> cases ha : g.any <;> cases h1 : g.usr1 <;> cases h2 : g.usr2 <;>
  cases pc <;> simp_all [sigStep, windowLeft]

/-- **C105** (partial: no SIGHUP). In the window SIGTERM is not lost, but it is obeyed only once another signal, of any kind,
arrives. -/
theorem C105_term_is_kept_partial {arr : Nat → List Sig} (hh : ∀ k, .hup ∉ arr k) {k k' : Nat} (ht : .term ∈ arr k) (hk : k + 7 ≤ k') (hs : arr k' ≠ []) :
    (sigRun arr (k' + 10)).1 = .exited := by
  have h0 : ∀ m, ((sigRun arr (k + 1 + m)).2.term = true ∨ (sigRun arr (k + 1 + m)).1 = .exited) ∧ windowLeft (sigRun arr (k + 1 + m)).1 ≤ 6 - m := by
    intro m
    induction m with
    | zero =>
      refine ⟨?_, by cases (sigRun arr (k + 1 + 0)).1 <;> simp [windowLeft]⟩
      have hc := C105_reloads_only_when_told hh k
      have hd := (deliver_term (arr k) (sigRun arr k).2).2 (.inr ht)
      show (sigStep _ _).2.term = true ∨ _
      obtain ⟨-, hc⟩ := hc
      unfold Reloading at hc
      generalize deliver (sigRun arr k).2 (arr k) = g at *
      revert hc
      generalize (sigRun arr k).1 = pc
      intro hc
      cases pc <;> simp_all [sigStep]
    | succ m ih =>
      obtain ⟨h1, h2⟩ := window_step (C105_reloads_only_when_told hh (k + 1 + m)) ih.1 (hh (k + 1 + m))
      exact ⟨h1, Nat.le_trans h2 (by omega)⟩
  obtain ⟨h1, h2⟩ := h0 (k' - (k + 1))
  rw [show k + 1 + (k' - (k + 1)) = k' by omega] at h1 h2
  have hc := C105_reloads_only_when_told hh k'
  have hw : ¬ Window (sigRun arr k').1 := by
    have : windowLeft (sigRun arr k').1 = 0 := by omega
    revert this
    generalize (sigRun arr k').1 = pc
    cases pc <;> simp [windowLeft, Window]
  rcases h1 with h1 | h1
  · have := stops hh (k := k' + 1) (told_step hc hw (hh k') (.inl (.inr ⟨h1, hs⟩)))
    rwa [show k' + 1 + 9 = k' + 10 by omega] at this
  · have : ∀ m, (sigRun arr (k' + m)).1 = .exited := by
      intro m
      induction m with
      | zero => exact h1
      | succ m ih =>
        show (sigStep _ (sigRun arr (k' + m)).1).1 = _
        rw [ih]
        rfl
    exact this 10

/-- Signals at some steps. -/
def at_ (l : List (Nat × Sig)) (k : Nat) : List Sig := (l.filter (·.1 = k)).map (·.2)

theorem quiet {arr : Nat → List Sig} {k : Nat} (ha : ∀ m, k ≤ m → arr m = []) (h : (sigRun arr k).1 = .loop ∧ (sigRun arr k).2.any = false) (m : Nat) :
    (sigRun arr (k + m)).1 ∈ [PC.loop, .any] ∧ (sigRun arr (k + m)).2.any = false := by
  induction m with
  | zero => rw [Nat.add_zero, h.1]; exact ⟨by decide, h.2⟩
  | succ m ih =>
    have e : sigRun arr (k + (m + 1)) = sigStep (sigRun arr (k + m)).2 (sigRun arr (k + m)).1 := by
      show sigStep (deliver _ (arr (k + m))) _ = _
      rw [ha _ (by omega)]
      rfl
    rw [e]
    obtain ⟨h1, h2⟩ := ih
    revert h1 h2
    generalize (sigRun arr (k + m)).2 = g
    generalize (sigRun arr (k + m)).1 = pc
    intro h1 h2
    cases pc <;> simp_all [sigStep]

theorem at_none {l : List (Nat × Sig)} {k : Nat} (h : ∀ x ∈ l, x.1 < k) : ∀ m, k ≤ m → at_ l m = [] := by
  intro m hm
  unfold at_
  rw [List.map_eq_nil_iff, List.filter_eq_nil_iff]
  intro x hx
  have := h x hx
  simp only [decide_eq_true_eq]
  omega

/-- **C105 is false** in the window: a SIGTERM that arrives while the daemon deals with a SIGUSR1 (or with the SIGCHLD of a command
it ran) is never obeyed if no other signal follows. -/
theorem C105_false_in_the_window (n : Nat) : (sigRun (at_ [(1, .usr1), (6, .term)]) (11 + n)).1 ≠ .exited := by
  have := quiet (arr := at_ [(1, .usr1), (6, .term)]) (k := 11) (at_none (by decide)) (by decide) n
  intro h
  rw [h] at this
  exact absurd this.1 (by decide)

/-- **C105 is false** during a reload: a SIGTERM that arrives while the configuration is read again is forgotten. -/
theorem C105_false_during_a_reload (n : Nat) : (sigRun (at_ [(1, .hup), (10, .term)]) (16 + n)).1 ≠ .exited := by
  have := quiet (arr := at_ [(1, .hup), (10, .term)]) (k := 16) (at_none (by decide)) (by decide) n
  intro h
  rw [h] at this
  exact absurd this.1 (by decide)

/-- **C105 is false** during a reload even if other signals follow: it is forgotten for good. -/
theorem C105_false_for_good_after_a_reload (n : Nat) :
    (sigRun (at_ [(1, .hup), (10, .term), (20, .usr1)]) (33 + n)).1 ≠ .exited := by
  have := quiet (arr := at_ [(1, .hup), (10, .term), (20, .usr1)]) (k := 33) (at_none (by decide)) (by decide) n
  intro h
  rw [h] at this
  exact absurd this.1 (by decide)

/-- **C105 is false** of SIGTERM and SIGHUP together: the daemon reloads and then forgets the SIGTERM. -/
theorem C105_false_with_hup (n : Nat) : (sigRun (at_ [(1, .term), (1, .hup)]) (15 + n)).1 ≠ .exited := by
  have := quiet (arr := at_ [(1, .term), (1, .hup)]) (k := 15) (at_none (by decide)) (by decide) n
  intro h
  rw [h] at this
  exact absurd this.1 (by decide)

/-- SIGTERM in an iteration is obeyed in the next one. -/
example : .term ∈ at_ [(3, .usr1), (4, .term)] 4 ∧ ¬ Window (sigRun (at_ [(3, .usr1), (4, .term)]) 4).1 ∧
    (sigRun (at_ [(3, .usr1), (4, .term)]) 14).1 = .exited := by decide

/-- Where a SIGHUP is still noticed: before `sig_do_stop` has looked at its flag, or on the way to the look of `handle_signals`
at it. -/
def BeforeHup (pc : PC) : Prop := pc ∈ [.loop, .any, .int, .term, .hup, .hAny, .hNone, .hHup]

instance (pc : PC) : Decidable (BeforeHup pc) := inferInstanceAs (Decidable (_ ∈ _))

/-- How many steps it takes until the configuration is read again. -/
def untilRead : PC → Nat
  | .loop => 9 | .any => 8 | .int => 7 | .term => 6 | .hup => 5 | .hAny => 4 | .hNone => 3 | .hHup => 2 | .hNoHup => 1
  | _ => 0

/-- A SIGHUP is on its way. -/
structure ToReload (s : PC × Flags) : Prop where
  hup : s.1 ≠ .reading → s.2.hup = true
  any : s.1 ∈ [.loop, .any, .int, .term, .hup, .hAny] → s.2.any = true
  place : BeforeHup s.1 ∨ s.1 = .hNoHup ∨ s.1 = .reading

theorem toReload_step {f : Flags} {pc : PC} {l : List Sig} (hp : BeforeHup pc ∨ pc = .hNoHup) (hh : (deliver f l).hup = true)
    (ha : pc ∈ [.loop, .any, .int, .term, .hup, .hAny] → (deliver f l).any = true) :
    ToReload (sigStep (deliver f l) pc) ∧ untilRead (sigStep (deliver f l) pc).1 < untilRead pc := by
  generalize deliver f l = g at *
  unfold BeforeHup at hp
  cases hi : g.int <;> cases ht : g.term <;>
  cases pc <;> simp_all [sigStep, untilRead] <;> constructor <;> simp_all [BeforeHup]

theorem toReload_reads {arr : Nat → List Sig} : ∀ (d k : Nat), ToReload (sigRun arr k) → untilRead (sigRun arr k).1 ≤ d →
    ∃ j ≤ d, (sigRun arr (k + j)).1 = .reading
  | d, k, h, hd => by
    rcases h.place with hp | hp | hp
    · exact next d k h hd (.inl hp)
    · exact next d k h hd (.inr hp)
    · exact ⟨0, Nat.zero_le _, hp⟩
where
  next (d k : Nat) (h : ToReload (sigRun arr k)) (hd : untilRead (sigRun arr k).1 ≤ d) (hp : BeforeHup (sigRun arr k).1 ∨ (sigRun arr k).1 = .hNoHup) :
      ∃ j ≤ d, (sigRun arr (k + j)).1 = .reading := by
    have hne : (sigRun arr k).1 ≠ .reading := by
      intro e
      rw [e] at hp
      exact absurd hp (by decide)
    obtain ⟨h1, h2⟩ := toReload_step (l := arr k) hp ((deliver_hup _ _).2 (.inl (h.hup hne))) (fun hm => (deliver_any _ _).2 (.inl (h.any hm)))
    cases d with
    | zero => omega
    | succ d =>
      obtain ⟨j, hj, hr⟩ := toReload_reads d (k + 1) h1 (show untilRead (sigStep _ _).1 ≤ d by omega)
      exact ⟨j + 1, by omega, by rw [← hr]; congr 2; omega⟩

/-- **C105** (partial: the signal does not arrive between the look at its flag and the reset of the flags, nor during a reload, nor when
the daemon is ending). SIGHUP is obeyed: whatever other signals arrive, and when, the configuration is read again within
ten steps. -/
theorem C105_hup_is_obeyed_partial {arr : Nat → List Sig} {k : Nat} (hh : .hup ∈ arr k) (hp : BeforeHup (sigRun arr k).1 ∨ (sigRun arr k).1 = .hNoHup) :
    ∃ j ≤ 10, (sigRun arr (k + j)).1 = .reading := by
  obtain ⟨h1, h2⟩ := toReload_step (l := arr k) hp ((deliver_hup _ _).2 (.inr hh)) (fun _ => (deliver_any _ _).2 (.inr (List.ne_nil_of_mem hh)))
  have h3 : untilRead (sigRun arr k).1 ≤ 9 := by cases (sigRun arr k).1 <;> simp [untilRead]
  obtain ⟨j, hj, hr⟩ := toReload_reads 9 (k + 1) h1 (show untilRead (sigStep _ _).1 ≤ 9 by omega)
  exact ⟨j + 1, by omega, by rw [← hr]; congr 2; omega⟩

/-- The hypotheses are met, by a SIGHUP that arrives together with a SIGTERM. -/
example : .hup ∈ at_ [(1, .term), (1, .hup)] 1 ∧ BeforeHup (sigRun (at_ [(1, .term), (1, .hup)]) 1).1 ∧
    (sigRun (at_ [(1, .term), (1, .hup)]) 8).1 = .reading := by decide

/-- How far it is to the end of the window of SIGHUP. -/
def hupWindowLeft : PC → Nat
  | .usr1 => 5 | .usr2 => 4 | .no2 => 3 | .no1 => 2 | .none => 1
  | _ => 0

/-- A SIGHUP is kept. -/
structure HupKept (s : PC × Flags) : Prop where
  hup : s.2.hup = true
  any : s.1 ∈ [.int, .term, .hup, .hAny] → s.2.any = true
  place : s.1 ∈ [.usr1, .usr2, .no2, .no1, .none] ∨ BeforeHup s.1 ∨ s.1 = .hNoHup

theorem hupKept_step {f : Flags} {pc : PC} (h : HupKept (pc, f)) (l : List Sig) :
    (HupKept (sigStep (deliver f l) pc) ∨ (sigStep (deliver f l) pc).1 = .reading) ∧
      hupWindowLeft (sigStep (deliver f l) pc).1 ≤ hupWindowLeft pc - 1 := by
  obtain ⟨a1, a2, a3⟩ := h
  have e1 : (deliver f l).hup = true := (deliver_hup l f).2 (.inl a1)
  have e2 : pc ∈ [.int, .term, .hup, .hAny] → (deliver f l).any = true := fun h => (deliver_any l f).2 (.inl (a2 h))
  generalize deliver f l = g at *
  clear a1 a2
  unfold BeforeHup at a3
  cases hi : g.int <;> cases ht : g.term <;> cases ha : g.any <;> cases h1 : g.usr1 <;> cases h2 : g.usr2 <;>
  cases pc <;> simp_all [sigStep, hupWindowLeft] <;> constructor <;> simp_all [BeforeHup]

/-- **C105** (partial: it is obeyed only once another signal, of any kind, arrives). A SIGHUP that arrives between the look at its flag and the
reset of `got_signal` is not lost. -/
theorem C105_hup_is_kept_partial {arr : Nat → List Sig} {k k' : Nat} (hh : .hup ∈ arr k) (hp : (sigRun arr k).1 ∈ [.usr1, .usr2, .no2, .no1, .none])
    (hk : k + 5 ≤ k') (hs : arr k' ≠ []) : ∃ j, k < j ∧ j ≤ k' + 10 ∧ (sigRun arr j).1 = .reading := by
  have h0 : ∀ m, (∃ j, k < j ∧ j ≤ k + 1 + m ∧ (sigRun arr j).1 = .reading) ∨
      HupKept (sigRun arr (k + 1 + m)) ∧ hupWindowLeft (sigRun arr (k + 1 + m)).1 ≤ 4 - m := by
    intro m
    induction m with
    | zero =>
      refine .inr ?_
      have hd := (deliver_hup (arr k) (sigRun arr k).2).2 (.inr hh)
      show HupKept (sigStep _ _) ∧ hupWindowLeft (sigStep _ _).1 ≤ 4
      generalize deliver (sigRun arr k).2 (arr k) = g at *
      revert hp
      generalize (sigRun arr k).1 = pc
      intro hp
      cases h1 : g.usr1 <;> cases h2 : g.usr2 <;> cases pc <;> simp_all [sigStep, hupWindowLeft] <;> constructor <;> simp_all [BeforeHup]
    | succ m ih =>
      rcases ih with ⟨j, hj, hj', hr⟩ | ⟨h1, h2⟩
      · exact .inl ⟨j, hj, by omega, hr⟩
      · obtain ⟨h3, h4⟩ := hupKept_step h1 (arr (k + 1 + m))
        rcases h3 with h3 | h3
        · exact .inr ⟨h3, Nat.le_trans h4 (by omega)⟩
        · exact .inl ⟨k + 1 + (m + 1), by omega, Nat.le_refl _, h3⟩
  have h := h0 (k' - (k + 1))
  rw [show k + 1 + (k' - (k + 1)) = k' from by omega] at h
  rcases h with ⟨j, hj, hj', hr⟩ | ⟨h1, h2⟩
  · exact ⟨j, hj, by omega, hr⟩
  · have hpl : BeforeHup (sigRun arr k').1 ∨ (sigRun arr k').1 = .hNoHup := by
      rcases h1.place with hw | hw
      · exfalso
        have h2 : hupWindowLeft (sigRun arr k').1 = 0 := by omega
        revert hw h2
        generalize (sigRun arr k').1 = pc
        cases pc <;> simp [hupWindowLeft]
      · exact hw
    obtain ⟨h3, h4⟩ := toReload_step (l := arr k') hpl ((deliver_hup _ _).2 (.inl h1.hup)) (fun _ => (deliver_any _ _).2 (.inr hs))
    have h5 : untilRead (sigRun arr k').1 ≤ 9 := by cases (sigRun arr k').1 <;> simp [untilRead]
    obtain ⟨j, hj, hr⟩ := toReload_reads 9 (k' + 1) h3 (show untilRead (sigStep _ _).1 ≤ 9 by omega)
    exact ⟨k' + 1 + j, by omega, by omega, hr⟩

/-- A SIGUSR1, a SIGHUP in the window, and a SIGCHLD later. -/
example : ∃ j, 6 < j ∧ j ≤ 30 ∧ (sigRun (at_ [(1, .usr1), (6, .hup), (20, .chld)]) j).1 = .reading :=
  C105_hup_is_kept_partial (k := 6) (k' := 20) (by decide) (by decide) (by decide) (by decide)

/-- **C105 is false** of SIGHUP in the window: one that arrives while the daemon deals with a SIGUSR1 has no effect if no other signal
follows. -/
theorem C105_false_hup_in_the_window (n : Nat) : (sigRun (at_ [(1, .usr1), (6, .hup)]) n).1 ≠ .reading := by
  by_cases hn : n < 9
  · revert hn
    revert n
    decide
  · have := quiet (arr := at_ [(1, .usr1), (6, .hup)]) (k := 9) (at_none (by decide)) (by decide) (n - 9)
    rw [show 9 + (n - 9) = n from by omega] at this
    intro h
    rw [h] at this
    exact absurd this.1 (by decide)

/-- **C105 is false** of SIGHUP during a reload: a change of the files after they were read is not noticed, though a SIGHUP followed it. -/
theorem C105_false_hup_during_a_reload (n : Nat) (hn : 10 ≤ n) : (sigRun (at_ [(1, .hup), (10, .hup)]) n).1 ≠ .reading := by
  by_cases h16 : n < 16
  · have h : ∀ m < 16, 10 ≤ m → (sigRun (at_ [(1, .hup), (10, .hup)]) m).1 ≠ .reading := by decide
    exact h n h16 hn
  · have := quiet (arr := at_ [(1, .hup), (10, .hup)]) (k := 16) (at_none (by decide)) (by decide) (n - 16)
    rw [show 16 + (n - 16) = n from by omega] at this
    intro h
    rw [h] at this
    exact absurd this.1 (by decide)

end Fwknop.Props
