import Verif.Model.Stop

/-!
# C127: what `fwknopd --kill` says and does
-/

namespace Fwknop.Props

open Fwknop

theorem settle_same (p : StopProc) : p.settle.permitted = p.permitted ∧ p.settle.ends = p.ends ∧ p.settle.onTerm = p.onTerm ∧
    p.settle.onKill = p.onKill ∧ p.settle.got = p.got := by
  unfold StopProc.settle
  split <;> simp

theorem signal_permitted (p : StopProc) (s : StopSig) : (p.signal s).1.permitted = p.permitted := by
  unfold StopProc.signal
  split
  · exact (settle_same _).1
  · rfl

theorem second_permitted (p : StopProc) : p.second.permitted = p.permitted := (settle_same _).1

theorem second_got (p : StopProc) : p.second.got = p.got := (settle_same _).2.2.2.2

theorem loop_permitted : ∀ n (p : StopProc), (stopLoop n p).1.permitted = p.permitted
  | 0, _ => rfl
  | n + 1, p => by
    unfold stopLoop
    split
    · rfl
    · rw [loop_permitted n, second_permitted]

theorem loop_probe : ∀ n (p : StopProc), (stopLoop n p).2 = true → (stopLoop n p).1.probe = false
  | 0, _, h => by cases h
  | n + 1, p, h => by
    unfold stopLoop at h ⊢
    split
    · rename_i hp; simpa using hp
    · rename_i hp
      rw [if_neg hp] at h
      exact loop_probe n _ h

/-- **C127** (part): if the process may be signalled, `--kill` says that it succeeded exactly if the process is gone then.
What is missing: `C127_false_not_permitted`. -/
theorem C127_says_so_partial (p q : StopProc) (b : Bool) (hp : p.permitted = true) (h : stop_fwknopd (some p) = (some q, b)) :
    b = true ↔ q.alive = false := by
  have hprobe : ∀ r : StopProc, r.permitted = true → r.probe = r.alive := fun r hr => by unfold StopProc.probe; rw [hr, Bool.and_true]
  unfold stop_fwknopd at h
  simp only at h
  have h1 : (p.signal .term).1.permitted = true := (signal_permitted p _).trans hp
  split at h
  · rename_i hx
    simp only [Prod.mk.injEq, Option.some.injEq] at h
    obtain ⟨rfl, rfl⟩ := h
    rw [hprobe _ h1] at hx
    simpa using (by simpa using hx : _ ∧ _).2
  · have h2 : (stopLoop 4 (p.signal .term).1).1.permitted = true := (loop_permitted 4 _).trans h1
    split at h
    · rename_i hx
      simp only [Prod.mk.injEq, Option.some.injEq] at h
      obtain ⟨rfl, rfl⟩ := h
      have := loop_probe 4 _ hx
      rw [hprobe _ h2] at this
      simpa using this
    · have h3 : ((stopLoop 4 (p.signal .term).1).1.signal .kill).1.permitted = true := (signal_permitted _ _).trans h2
      split at h
      · rename_i hx
        simp only [Prod.mk.injEq, Option.some.injEq] at h
        obtain ⟨rfl, rfl⟩ := h
        rw [hprobe _ h3] at hx
        simpa using (by simpa using hx : _ ∧ _).2
      · simp only [Prod.mk.injEq, Option.some.injEq] at h
        obtain ⟨rfl, rfl⟩ := h
        rw [hprobe _ ((second_permitted _).trans h3)]
        simp

/-- **C127**: without a number in the pid file `--kill` fails. -/
theorem C127_no_number : stop_fwknopd none = (none, false) := rfl

/-- **C127 is false** of a process that the user may not signal: nothing is sent, it goes on, and `--kill` says that it was
killed. -/
theorem C127_false_not_permitted (p : StopProc) (hp : p.permitted = false) : stop_fwknopd (some p) = (some p, true) := by
  simp [stop_fwknopd, StopProc.signal, stopLoop, StopProc.probe, hp]

/-- A process that runs and that nothing has been sent to. -/
structure Runs (p : StopProc) : Prop where
  alive : p.alive = true
  permitted : p.permitted = true
  ends : p.ends = none
  got : p.got = []

theorem second_waits {p : StopProc} {n : Nat} (ha : p.alive = true) (he : p.ends = some (n + 2)) : p.second = { p with ends := some (n + 1) } := by
  unfold StopProc.second StopProc.settle
  simp [he]

theorem second_ends {p : StopProc} (he : p.ends = some 1) : p.second = { p with ends := some 0, alive := false } := by
  unfold StopProc.second StopProc.settle
  simp [he]

theorem second_never {p : StopProc} (he : p.ends = none) : p.second = p := by
  unfold StopProc.second StopProc.settle
  obtain ⟨a, b, c, d, e, f⟩ := p
  simp only at he
  subst he
  rfl

/-- **C127**: a daemon that ends within four seconds after SIGTERM gets no other signal (so that it can clean up), and `--kill`
says that it succeeded. -/
theorem C127_can_clean_up (p : StopProc) (hr : Runs p) (n : Nat) (hn : n ≤ 4) (ht : p.onTerm = some n) :
    ∃ q, stop_fwknopd (some p) = (some q, true) ∧ q.alive = false ∧ q.got = [.term] := by
  obtain ⟨a, b, c, d, e, f⟩ := p
  obtain ⟨h1, h2, h3, h4⟩ := hr
  simp only at h1 h2 h3 h4 ht
  subst h1 h2 h3 h4 ht
  match n, hn with
  | 0, _ => exact ⟨_, rfl, rfl, rfl⟩
  | 1, _ => exact ⟨_, rfl, rfl, rfl⟩
  | 2, _ => exact ⟨_, rfl, rfl, rfl⟩
  | 3, _ => exact ⟨_, rfl, rfl, rfl⟩
  | 4, _ => exact ⟨_, rfl, rfl, rfl⟩

/-- **C127**: one that takes longer is killed, whatever it is doing; and if SIGKILL works within a second, `--kill` says that
it succeeded. -/
theorem C127_killed (p : StopProc) (hr : Runs p) (ht : ∀ n, p.onTerm = some n → 4 < n) (m : Nat) (hm : m ≤ 1) (hk : p.onKill = some m) :
    ∃ q, stop_fwknopd (some p) = (some q, true) ∧ q.alive = false ∧ q.got = [.term, .kill] := by
  obtain ⟨a, b, c, d, e, f⟩ := p
  obtain ⟨h1, h2, h3, h4⟩ := hr
  simp only at h1 h2 h3 h4 ht hk
  subst h1 h2 h3 h4 hk
  have hm : m = 0 ∨ m = 1 := by omega
  cases d with
  | none => rcases hm with rfl | rfl <;> exact ⟨_, rfl, rfl, rfl⟩
  | some n =>
    have := ht n rfl
    obtain ⟨n, rfl⟩ : ∃ k, n = k + 5 := ⟨n - 5, by omega⟩
    refine ⟨⟨false, true, some 0, some (n + 5), some m, [.term, .kill]⟩, ?_, rfl, rfl⟩
    have e0 : (StopProc.signal ⟨true, true, none, some (n + 5), some m, []⟩ .term) = (⟨true, true, some (n + 5), some (n + 5), some m, [.term]⟩, true) := by
      simp [StopProc.signal, StopProc.settle, sooner]
    have e1 : stopLoop 4 ⟨true, true, some (n + 5), some (n + 5), some m, [.term]⟩ = (⟨true, true, some (n + 1), some (n + 5), some m, [.term]⟩, false) := by
      simp [stopLoop, StopProc.probe, StopProc.second, StopProc.settle]
    unfold stop_fwknopd
    simp only [e0, e1]
    rcases hm with rfl | rfl
    · simp [StopProc.probe, StopProc.signal, StopProc.settle, sooner]
    · simp [StopProc.probe, StopProc.signal, StopProc.settle, sooner, StopProc.second]

theorem signal_got (p : StopProc) (s : StopSig) : (p.signal s).1.got = p.got ∨ (p.signal s).1.got = p.got ++ [s] := by
  unfold StopProc.signal
  split
  · exact .inr (settle_same _).2.2.2.2
  · exact .inl rfl

theorem loop_got : ∀ n (p : StopProc), (stopLoop n p).1.got = p.got
  | 0, _ => rfl
  | n + 1, p => by
    unfold stopLoop
    split
    · rfl
    · rw [loop_got n, second_got]

theorem signal_probe {p : StopProc} {s : StopSig} (h : (p.signal s).2 = false) : p.probe = false ∧ (p.signal s).1 = p := by
  unfold StopProc.signal at h ⊢
  split at h
  · cases h
  · rename_i hx
    rw [if_neg hx]
    exact ⟨by simpa [StopProc.probe] using hx, rfl⟩

/-- **C127**: no process gets SIGKILL without having got SIGTERM before. -/
theorem C127_term_first (p q : StopProc) (b : Bool) (hg : p.got = []) (h : stop_fwknopd (some p) = (some q, b)) :
    q.got = [] ∨ q.got = [.term] ∨ q.got = [.term, .kill] := by
  unfold stop_fwknopd at h
  simp only at h
  have h1 : (p.signal .term).1.got = [] ∨ (p.signal .term).1.got = [.term] := by
    rcases signal_got p .term with k | k <;> rw [k, hg] <;> simp
  split at h
  · cases h
    rcases h1 with h1 | h1
    · exact .inl h1
    · exact .inr (.inl h1)
  · have h2 := loop_got 4 (p.signal .term).1
    split at h
    · cases h
      rw [h2]
      rcases h1 with h1 | h1
      · exact .inl h1
      · exact .inr (.inl h1)
    · rename_i hl
      -- the process was there at every look, so it got SIGTERM
      have hterm : (p.signal .term).1.got = [.term] := by
        cases hs : (p.signal .term).2 with
        | false =>
          obtain ⟨k1, k2⟩ := signal_probe hs
          rw [k2] at hl
          simp [stopLoop, k1] at hl
        | true =>
          unfold StopProc.signal at hs ⊢
          split
          · rw [(settle_same _).2.2.2.2]; simp [hg]
          · rename_i hx; rw [if_neg hx] at hs; cases hs
      have h3 : ((stopLoop 4 (p.signal .term).1).1.signal .kill).1.got = [.term] ∨ ((stopLoop 4 (p.signal .term).1).1.signal .kill).1.got = [.term, .kill] := by
        rcases signal_got (stopLoop 4 (p.signal .term).1).1 .kill with k | k <;> rw [k, h2, hterm] <;> simp
      split at h
      · cases h
        exact .inr h3
      · cases h
        rw [second_got]
        exact .inr h3

/-- The hypotheses are met: a daemon that needs two seconds. -/
example : Runs ⟨true, true, none, some 2, some 0, []⟩ := ⟨rfl, rfl, rfl, rfl⟩

end Fwknop.Props
