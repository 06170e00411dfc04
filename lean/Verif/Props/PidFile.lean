import Verif.Lemmas.PidFile

/-!
# C106: the pid file keeps a second daemon away
-/

namespace Fwknop.Props
open Spec

/-- C106, partial: whatever is started, in whatever order the processes make their steps and whenever they end, at most
one daemon runs.  Missing: SIGHUP, after which the daemon does not have the lock (C106_false_after_hup), numbers of
processes that come again (C106_false_for_a_number_that_comes_again), a file without a number that is read before its
first number is written (C106_false_in_a_race), and calls that fail. -/
theorem C106_one_daemon_partial {w : PidWorld} {es : List PidEvent} (hw : Empty w) (ho : Orderly w es) {p q : Nat}
    (hp : Runs (w.run es) p) (hq : Runs (w.run es) q) : p = q := by
  have h := (PidInv.empty hw).run ho
  obtain ⟨x, hx, hx'⟩ := hp
  obtain ⟨y, hy, hy'⟩ := hq
  have a := (h.1 p x hx).2.2
  have b := (h.1 q y hy).2.2
  rw [hx'] at a
  rw [hy'] at b
  exact Option.some.inj (a.1.symm.trans b.1)

/-- The file has a number from the beginning. -/
def NumberedEvent (w : PidWorld) : PidEvent → Prop
  | .start p _ => NewPid w p
  | .step p c => ∀ x, w.procs p = some x → x.pc = .fork → NewPid w c
  | .fails _ => False
  | .hup _ => False
  | .ends _ => True

def NumberedRun (w : PidWorld) : List PidEvent → Prop
  | [] => True
  | e :: es => NumberedEvent w e ∧ NumberedRun (w.event e) es

theorem target_at (w : PidWorld) (p : Nat) (x : Option PidProc) : (w.at_ p x).target = w.target := rfl

theorem goesOn_target (w : PidWorld) (p : Nat) (x : PidProc) : (w.goesOn p x).target = w.target := by
  unfold PidWorld.goesOn
  split <;> rfl

theorem number_stays {w : PidWorld} {e : PidEvent} (hi : PidInv w) (h : w.target ≠ 0) (ho : OrderlyEvent w e) :
    (w.event e).target ≠ 0 := by
  cases e with
  | fails p => exact ho.elim
  | hup p => exact ho.elim
  | ends p => exact h
  | start p m =>
    unfold PidWorld.event
    dsimp only
    split <;> exact h
  | step p c =>
    unfold PidWorld.event PidWorld.step
    dsimp only
    split
    · exact h
    · rename_i x hx
      split
      · split
        · unfold PidWorld.afterLook; split <;> exact h
        · exact h
      · unfold PidWorld.afterLook; split <;> exact h
      · exact h
      · rw [target_open]; exact h
      · split <;> exact h
      · rw [goesOn_target]
        have e : ({ w with file := some (overwrite (pidText p) (w.file.getD [])) } : PidWorld).target = p :=
          pid_written (hi.1 p x hx).1 _
        rw [e]
        have := (hi.1 p x hx).1.1
        omega
      · split
        · rw [goesOn_target]; exact h
        · exact h
      · split
        · rw [goesOn_target]; exact h
        · split <;> exact h
      · exact h

theorem numbered_orderly {es : List PidEvent} : ∀ {w : PidWorld}, PidInv w → w.target ≠ 0 → NumberedRun w es → Orderly w es := by
  induction es with
  | nil => intro w _ _ _; trivial
  | cons e es ih =>
    intro w hi ht h
    have ho : OrderlyEvent w e := by
      have := h.1
      cases e with
      | step p c => exact ⟨this, fun _ _ _ => ht⟩
      | _ => exact this
    exact ⟨ho, ih (hi.event ho) (number_stays hi ht ho) h.2⟩

/-- C106, partial: when the file has a number at the beginning, which a daemon of the past has left there, nothing has
to be assumed about when it is read. -/
theorem C106_one_daemon_numbered_partial {w : PidWorld} {es : List PidEvent} (hw : Empty w) (ht : w.target ≠ 0)
    (ho : NumberedRun w es) {p q : Nat} (hp : Runs (w.run es) p) (hq : Runs (w.run es) q) : p = q :=
  C106_one_daemon_partial hw (numbered_orderly (PidInv.empty hw) ht ho) hp hq

/-- C106, partial: the running daemon has the lock, its number is in the file, and it is the process that `--kill` and
`--restart` signal. -/
theorem C106_right_process_is_signalled_partial {w : PidWorld} {es : List PidEvent} (hw : Empty w) (ho : Orderly w es)
    {p : Nat} (hp : Runs (w.run es) p) : (w.run es).target = p ∧ (w.run es).holder = some p := by
  have h := (PidInv.empty hw).run ho
  obtain ⟨x, hx, hx'⟩ := hp
  have a := (h.1 p x hx).2.2
  rw [hx'] at a
  exact ⟨a.2, a.1⟩

theorem run_append (w : PidWorld) (a b : List PidEvent) : w.run (a ++ b) = (w.run a).run b := List.foldl_append

/-- The steps of `--status`. -/
def statusRun (q : Nat) : List PidEvent := .start q .status :: List.replicate 4 (.step q 0)

theorem status_held {w : PidWorld} {q r : Nat} (hq : w.procs q = none) (hh : w.holder = some r) (e : r ≠ q) (ht : w.target ≠ 0) :
    (w.run (statusRun q)).answers = (q, w.target) :: w.answers := by
  obtain ⟨f, hf⟩ : ∃ f, w.file = some f := by
    cases hf : w.file with
    | none => simp [PidWorld.target, hf] at ht
    | some f => exact ⟨f, rfl⟩
  have ht' : pidNumber f ≠ 0 := by simpa [PidWorld.target, hf] using ht
  simp [PidWorld.run, statusRun, List.replicate, PidWorld.event, PidWorld.step, PidWorld.at_, hq, hh, hf, e, ht',
    PidWorld.answered, PidWorld.gone, PidWorld.unlock, PidWorld.target]

theorem status_free {w : PidWorld} {q : Nat} (hq : w.procs q = none) (hh : w.holder = none) :
    (w.run (statusRun q)).answers = (q, 0) :: w.answers := by
  simp [PidWorld.run, statusRun, List.replicate, PidWorld.event, PidWorld.step, PidWorld.at_, hq, hh,
    PidWorld.answered, PidWorld.gone, PidWorld.unlock, PidWorld.goesOn]

/-- C106, partial: after any history, `--status` gives the number of the daemon that runs, and 0 when there is no
fwknopd process.  Missing: a `--status` whose steps are mixed with those of others. -/
theorem C106_status_partial {w : PidWorld} {es : List PidEvent} (hw : Empty w) (ho : Orderly w es) {q : Nat}
    (hq : NewPid (w.run es) q) :
    (∀ p, Runs (w.run es) p → ((w.run es).run (statusRun q)).answers = (q, p) :: (w.run es).answers) ∧
      ((∀ p, (w.run es).procs p = none) → ((w.run es).run (statusRun q)).answers = (q, 0) :: (w.run es).answers) := by
  have h := (PidInv.empty hw).run ho
  have hn : (w.run es).procs q = none := by
    cases hx : (w.run es).procs q with
    | none => rfl
    | some x => exact absurd (h.1 q x hx).2.1 hq.2.1
  refine ⟨fun p hp => ?_, fun hp => ?_⟩
  · have a := C106_right_process_is_signalled_partial hw ho hp
    have e : p ≠ q := by
      intro e
      obtain ⟨x, hx, _⟩ := hp
      rw [e, hn] at hx
      simp at hx
    have := status_held hn a.2 e (by
      obtain ⟨x, hx, _⟩ := hp
      have := (h.1 p x hx).1.1
      rw [a.1]
      omega)
    rw [a.1] at this
    exact this
  · refine status_free hn ?_
    cases hh : (w.run es).holder with
    | none => rfl
    | some p =>
      obtain ⟨x, hx, _⟩ := h.2 p hh
      rw [hp p] at hx
      simp at hx

/-- Somebody is on the way to the lock. -/
def OnTheWay (x : PidProc) : Prop := x.mode ≠ .status ∧
  match x.pc with | .look | .looked _ | .fork | .open | .lock => True | _ => False

def SomeoneWill (w : PidWorld) : Prop :=
  w.used = [] ∨ w.holder ≠ none ∨ ∃ p x, w.procs p = some x ∧ OnTheWay x

def NoStatus (w : PidWorld) : Prop := ∀ p x, w.procs p = some x → x.mode ≠ .status

/-- One daemon comes to run: nobody is turned away for nothing. -/
theorem someone_event {w : PidWorld} {e : PidEvent} (hi : PidInv w) (hs : SomeoneWill w) (hn : NoStatus w)
    (ho : OrderlyEvent w e) (hu : Undisturbed e) : SomeoneWill (w.event e) ∧ NoStatus (w.event e) := by
  have set : ∀ {w' : PidWorld} {p : Nat} {x x' : PidProc}, w.procs p = some x → x'.mode = x.mode →
      (∀ q, w'.procs q = if q = p then some x' else w.procs q) →
      (OnTheWay x → OnTheWay x' ∨ w'.holder ≠ none) → (w.holder ≠ none → w'.holder ≠ none) →
      w'.used = w.used → SomeoneWill w' ∧ NoStatus w' := by
    intro w' p x x' hx hm hp hw hh hus
    refine ⟨?_, ?_⟩
    · rcases hs with hs | hs | ⟨q, y, hy, hy'⟩
      · exact .inl (hus.trans hs)
      · exact .inr (.inl (hh hs))
      · by_cases e : q = p
        · subst e
          rw [hx] at hy
          cases hy
          rcases hw hy' with h | h
          · exact .inr (.inr ⟨q, x', by rw [hp, if_pos rfl], h⟩)
          · exact .inr (.inl h)
        · exact .inr (.inr ⟨q, y, by rw [hp, if_neg e]; exact hy, hy'⟩)
    · intro q y hy
      rw [hp] at hy
      by_cases e : q = p
      · rw [if_pos e] at hy
        cases hy
        rw [hm]
        exact hn p x hx
      · rw [if_neg e] at hy
        exact hn q y hy
  cases e with
  | fails p => exact ho.elim
  | hup p => exact ho.elim
  | ends p => exact hu.elim
  | start p m =>
    have hm : m ≠ .status := by intro h; subst h; exact hu.elim
    unfold PidWorld.event
    dsimp only
    split
    · exact ⟨hs, hn⟩
    · refine ⟨.inr (.inr ⟨p, ⟨m, .look⟩, by simp [PidWorld.at_, hm], hm, trivial⟩), ?_⟩
      intro q y hy
      simp [PidWorld.at_] at hy
      split at hy
      · cases hy; exact hm
      · exact hn q y hy
  | step p c =>
    unfold PidWorld.event PidWorld.step
    dsimp only
    split
    · exact ⟨hs, hn⟩
    · rename_i x hx
      have hm := hn p x hx
      have g := hi.1 p x hx
      have nh : ¬ PidCrit x → w.holder ≠ some p := fun hc hh => by
        obtain ⟨z, hz, hz'⟩ := hi.2 p hh
        rw [hx] at hz
        cases hz
        exact absurd hz' hc
      have after : ∀ r, r ≠ p → SomeoneWill (w.afterLook p x r) ∧ NoStatus (w.afterLook p x r) := by
        intro r hr
        unfold PidWorld.afterLook
        rw [if_neg hr]
        refine set (p := p) (x := x) (x' := { x with pc := if x.mode = .background then .fork else .open }) hx rfl (fun q => rfl) (fun _ => .inl ⟨hm, ?_⟩) (fun h => h) rfl
        by_cases hb : x.mode = .background <;> simp [hb]
      split <;> rename_i hpc
      · split
        · exact after 0 (by have := g.1.1; omega)
        · exact set (p := p) (x := x) (x' := { x with pc := .looked _ }) hx rfl (fun q => rfl) (fun _ => .inl ⟨hm, trivial⟩) (fun h => h) rfl
      · rw [unlock_other (nh (by simp [PidCrit, hpc]))]
        have g3 := g.2.2
        rw [hpc] at g3
        exact after _ g3
      · refine ⟨.inr (.inr ⟨c, { x with pc := .open }, by simp [PidWorld.at_], hm, trivial⟩), ?_⟩
        intro q y hy
        simp [PidWorld.at_, PidWorld.gone, PidWorld.unlock] at hy
        split at hy
        · cases hy; exact hm
        · split at hy
          · simp at hy
          · exact hn q y hy
      · exact set (p := p) (x := x) (x' := { x with pc := .lock }) hx rfl (fun q => rfl) (fun _ => .inl ⟨hm, trivial⟩) (fun h => h) rfl
      · split
        · exact set (p := p) (x := x) (x' := { x with pc := .write }) hx rfl (fun q => rfl) (fun _ => .inr (by simp)) (fun h => by simp) rfl
        · rename_i hh
          exact set (p := p) (x := x) (x' := { x with pc := .refused }) hx rfl (fun q => rfl) (fun _ => .inr (fun h => hh (.inl h))) (fun h => h) rfl
      · unfold PidWorld.goesOn
        split
        · rename_i h; exact absurd h hm
        · exact set (p := p) (x := x) (x' := { x with pc := .running }) hx rfl (fun q => rfl) (fun h => by simp [OnTheWay, hpc] at h) (fun h => h) rfl
      · have ht := ho.2 x hx hpc
        split
        · rename_i hf
          simp [PidWorld.target, hf] at ht
        · exact set (p := p) (x := x) (x' := { x with pc := .refusedRead _ }) hx rfl (fun q => rfl) (fun h => by simp [OnTheWay, hpc] at h) (fun h => h) rfl
      · have g3 := g.2.2
        rw [hpc] at g3
        dsimp only at g3
        rw [if_neg g3]
        split
        · rename_i h; exact absurd h hm
        · refine ⟨?_, ?_⟩
          · rcases hs with hs | hs | ⟨q, y, hy, hy'⟩
            · exact .inl hs
            · refine .inr (.inl ?_)
              unfold PidWorld.gone
              rw [unlock_other (nh (by simp [PidCrit, hpc]))]
              exact hs
            · refine .inr (.inr ⟨q, y, ?_, hy'⟩)
              have : q ≠ p := by
                intro e
                rw [e, hx] at hy
                cases hy
                simp [OnTheWay, hpc] at hy'
              simpa [PidWorld.gone, PidWorld.at_, PidWorld.unlock, this] using hy
          · intro q y hy
            simp [PidWorld.gone, PidWorld.at_, PidWorld.unlock] at hy
            exact hn q y hy.2
      · exact ⟨hs, hn⟩

theorem someone_run {es : List PidEvent} : ∀ {w : PidWorld}, PidInv w → SomeoneWill w → NoStatus w → Orderly w es →
    (∀ e ∈ es, Undisturbed e) → SomeoneWill (w.run es) := by
  induction es with
  | nil => intro w _ h _ _ _; exact h
  | cons e es ih =>
    intro w hi hs hn ho hu
    have a := someone_event hi hs hn ho.1 (hu e (by simp))
    exact ih (hi.event ho.1) a.1 a.2 ho.2 (fun e he => hu e (by simp [he]))

theorem used_grows {w : PidWorld} {e : PidEvent} : ∀ q ∈ w.used, q ∈ (w.event e).used := by
  intro q hq
  cases e with
  | fails p =>
    unfold PidWorld.event PidWorld.fails PidWorld.afterLook PidWorld.goesOn
    dsimp only
    repeat' split
    all_goals exact hq
  | hup p =>
    unfold PidWorld.event
    dsimp only
    repeat' split
    all_goals exact hq
  | ends p => exact hq
  | start p m =>
    unfold PidWorld.event
    dsimp only
    split
    · exact hq
    · exact List.mem_cons_of_mem _ hq
  | step p c =>
    unfold PidWorld.event PidWorld.step PidWorld.afterLook PidWorld.goesOn
    dsimp only
    repeat' split
    all_goals first | exact hq | exact List.mem_cons_of_mem _ hq

theorem used_run (es : List PidEvent) : ∀ {w : PidWorld}, ∀ q ∈ w.used, q ∈ (w.run es).used := by
  induction es with
  | nil => intro w q h; exact h
  | cons e es ih => intro w q h; exact ih q (used_grows q h)

/-- C106, partial: when daemons are started, nobody is told to end and all have done their steps, exactly one daemon
runs; the others do not turn each other away. -/
theorem C106_one_daemon_stays_partial {w : PidWorld} {es : List PidEvent} {p : Nat} {m : PidMode} (hw : Empty w)
    (ho : Orderly w (.start p m :: es)) (hu : ∀ e ∈ (.start p m :: es : List PidEvent), Undisturbed e)
    (hd : ∀ q x, (w.run (.start p m :: es)).procs q = some x → x.pc = .running) :
    ∃ q, Runs (w.run (.start p m :: es)) q ∧ ∀ r, Runs (w.run (.start p m :: es)) r → r = q := by
  have hs := someone_run (PidInv.empty hw) (.inl hw.2.2) (fun q x hx => by rw [hw.1 q] at hx; simp at hx) ho hu
  have hi := (PidInv.empty hw).run ho
  have huse : p ∈ (w.run (.start p m :: es)).used := by
    show p ∈ ((w.event (.start p m)).run es).used
    refine used_run es p ?_
    simp [PidWorld.event, hw.1 p]
  rcases hs with h | h | ⟨q, x, hx, hx'⟩
  · rw [h] at huse
    simp at huse
  · cases hh : (w.run (.start p m :: es)).holder with
    | none => exact absurd hh h
    | some q =>
      obtain ⟨x, hx, _⟩ := hi.2 q hh
      exact ⟨q, ⟨x, hx, hd q x hx⟩, fun r hr => C106_one_daemon_partial hw ho hr ⟨x, hx, hd q x hx⟩⟩
  · have := hd q x hx
    simp [OnTheWay, this] at hx'

/-- The steps of `fwknopd -f`. -/
def startRun (q : Nat) : List PidEvent := .start q .foreground :: List.replicate 5 (.step q 0)

/-- C106 is false after a SIGHUP: whatever has happened before, a daemon that reads its configuration again closes a
descriptor of the pid file in `get_running_pid` and so gives its lock up.  A daemon that is started then runs beside
it. -/
theorem C106_false_after_hup {w : PidWorld} {es : List PidEvent} (hw : Empty w) (ho : Orderly w es) {p q : Nat}
    (hp : Runs (w.run es) p) (hq : NewPid (w.run es) q) :
    let w' := (w.run es).run ([.hup p, .step p 0, .step p 0] ++ startRun q)
    p ≠ q ∧ Runs w' p ∧ Runs w' q := by
  have h := (PidInv.empty hw).run ho
  have a := C106_right_process_is_signalled_partial hw ho hp
  obtain ⟨x, hx, hx'⟩ := hp
  have hn : (w.run es).procs q = none := by
    cases hy : (w.run es).procs q with
    | none => rfl
    | some y => exact absurd (h.1 q y hy).2.1 hq.2.1
  have e : p ≠ q := fun e => by rw [e, hn] at hx; simp at hx
  have e' : q ≠ p := fun e2 => e e2.symm
  obtain ⟨f, hf⟩ : ∃ f, (w.run es).file = some f := by
    cases hf : (w.run es).file with
    | none =>
      have := (h.1 p x hx).1.1
      have t := a.1
      simp [PidWorld.target, hf] at t
      omega
    | some f => exact ⟨f, rfl⟩
  have ht : pidNumber f = p := by simpa [PidWorld.target, hf] using a.1
  generalize w.run es = v at *
  refine ⟨e, ⟨{ x with pc := .running }, ?_, rfl⟩, ⟨⟨.foreground, .running⟩, ?_, rfl⟩⟩ <;>
  · simp [PidWorld.run, startRun, List.replicate, PidWorld.event, PidWorld.step, PidWorld.at_, hx, hx', hf, ht, e, e', hn,
      a.2, PidWorld.unlock, PidWorld.afterLook, PidWorld.goesOn]

/-- No file, nobody there. -/
def noWorld : PidWorld := { file := none }

/-- A daemon with number 42 was there once. -/
def oldWorld : PidWorld := { file := some b!"42\n" }

/-- The steps of two daemons that are started at the same time. -/
def raceRun : List PidEvent :=
  [.start 7 .foreground, .start 8 .foreground, .step 7 0, .step 8 0, .step 7 0, .step 8 0, .step 7 0, .step 8 0,
    .step 8 0, .step 8 0, .step 7 0]

/-- A daemon is started while somebody asks for the status. -/
def statusRace : List PidEvent :=
  [.start 7 .status, .step 7 0, .step 7 0, .start 8 .foreground] ++ List.replicate 6 (.step 8 0) ++ [.step 7 0]

/-- C106 is false in a race for the first number: process 7 has the lock and has not written its number, 8 finds no
number and goes on. -/
theorem C106_false_in_a_race : Runs (noWorld.run raceRun) 7 ∧ Runs (noWorld.run raceRun) 8 :=
  ⟨⟨⟨.foreground, .running⟩, by decide, rfl⟩, ⟨⟨.foreground, .running⟩, by decide, rfl⟩⟩

/-- C106 is false for a number that comes again: a daemon with the number that is in the file takes itself for one that
reads its configuration again, and does without the lock (and stays in the foreground). -/
theorem C106_false_for_a_number_that_comes_again :
    let w := oldWorld.run ([.start 42 .background, .step 42 0, .step 42 0] ++ startRun 43)
    Runs w 42 ∧ Runs w 43 :=
  ⟨⟨⟨.background, .running⟩, by decide, rfl⟩, ⟨⟨.foreground, .running⟩, by decide, rfl⟩⟩

/-- `--status` leaves its own number: with no daemon, `--kill` then signals whatever has that number, after any
history. -/
theorem C106_status_leaves_its_number {w : PidWorld} {es : List PidEvent} (hw : Empty w) (ho : Orderly w es) {q : Nat}
    (hq : NewPid (w.run es) q) (hn : ∀ p, (w.run es).procs p = none) :
    ((w.run es).run (statusRun q)).target = q ∧ ∀ p, ((w.run es).run (statusRun q)).procs p = none := by
  have h := (PidInv.empty hw).run ho
  have hh : (w.run es).holder = none := by
    cases hh : (w.run es).holder with
    | none => rfl
    | some p =>
      obtain ⟨x, hx, _⟩ := h.2 p hh
      rw [hn p] at hx
      simp at hx
  generalize w.run es = v at *
  have hq' := pid_written hq.1 (v.file.getD [])
  refine ⟨?_, fun p => ?_⟩
  · simpa [PidWorld.run, statusRun, List.replicate, PidWorld.event, PidWorld.step, PidWorld.at_, hn, hh,
      PidWorld.answered, PidWorld.gone, PidWorld.unlock, PidWorld.goesOn, PidWorld.target] using hq'
  · simp [PidWorld.run, statusRun, List.replicate, PidWorld.event, PidWorld.step, PidWorld.at_, hn, hh,
      PidWorld.answered, PidWorld.gone, PidWorld.unlock, PidWorld.goesOn]
    intro e
    simp [e]

/-- `--status` turns a daemon away that is started at the same time: in the end none runs. -/
theorem C106_status_turns_a_daemon_away : ∀ p, (oldWorld.run statusRace).procs p = none := by
  intro p
  by_cases h7 : p = 7
  · subst h7; decide
  · by_cases h8 : p = 8
    · subst h8; decide
    · have n' : pidNumber [52, 50, 10] = 42 := by decide
      simp [PidWorld.run, statusRace, oldWorld, List.replicate, PidWorld.event, PidWorld.step, PidWorld.at_, PidWorld.afterLook,
        PidWorld.answered, PidWorld.gone, PidWorld.unlock, PidWorld.goesOn, h7, h8, n']

/-- The hypotheses of the theorems are met: a daemon is started in the background, another in the foreground, a third
asks for the status. -/
def busy : List PidEvent :=
  [.start 100 .background, .start 101 .foreground, .step 100 0, .step 101 0, .step 100 0, .step 101 0, .step 100 102,
    .step 102 0, .step 102 0, .step 101 0, .step 101 0, .step 102 0, .start 103 .status, .step 103 0, .step 101 0,
    .step 103 0, .step 103 0, .step 101 0, .step 103 0]

theorem sample_empty : Empty oldWorld := ⟨fun _ => rfl, rfl, rfl⟩

theorem sample_busy : NumberedRun oldWorld busy := by
  simp only [busy, NumberedRun, NumberedEvent, NewPid, PidOk]
  refine ⟨by decide, by decide, ?_, ?_, ?_, ?_, ?_, ?_, ?_, ?_, ?_, ?_, by decide, ?_, ?_, ?_, ?_, ?_, ?_, trivial⟩
  all_goals (intro x hx hpc; first | decide | (exfalso; revert hpc; rw [← Option.some.inj hx]; decide) | (exfalso; revert hx; decide))

example : Runs (oldWorld.run busy) 102 ∧ (oldWorld.run busy).answers = [(103, 102)] :=
  ⟨⟨⟨.background, .running⟩, by decide, rfl⟩, by decide⟩

example : ∀ q, Runs (oldWorld.run busy) q → q = 102 := fun _ h =>
  C106_one_daemon_numbered_partial sample_empty (by decide) sample_busy h ⟨⟨.background, .running⟩, by decide, rfl⟩

end Fwknop.Props
