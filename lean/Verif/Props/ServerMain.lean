import Verif.Spec.ServerMain

/-!
# C132: the parts of the daemon come in their order, and the firewall is cleaned up at the end
-/

namespace Fwknop.Props
open Fwknop Spec

/-- A turn that ends the program, and whose acts have a property. -/
structure EndsWith (Q : MainAct → Prop) (r : List MainAct × Bool) : Prop where
  ends : r.2 = false
  last : ∃ l ok, r.1 = l ++ [.exit ok]
  acts : ∀ x ∈ r.1, Q x

theorem endsWith_after {Q : MainAct → Prop} {l : List MainAct} {r : List MainAct × Bool} (hl : ∀ x ∈ l, Q x) (h : EndsWith Q r) :
    EndsWith Q (mainAfter l r) := by
  obtain ⟨h1, ⟨m, ok, h2⟩, h3⟩ := h
  refine ⟨h1, ⟨l ++ m, ok, by simp [mainAfter, h2]⟩, ?_⟩
  intro x hx
  rcases List.mem_append.1 hx with h | h
  · exact hl x h
  · exact h3 x h

theorem endsWith_exit {Q : MainAct → Prop} {a : MainArgs} {fw flag ok : Bool} (he : Q (.exit ok))
    (hc : a.test = false → fw = true → flag = true → Q .fwCleanup) : EndsWith Q (mainExit a fw flag ok) := by
  unfold mainExit
  refine ⟨rfl, ?_, ?_⟩
  · split
    · exact ⟨[.fwCleanup], ok, rfl⟩
    · exact ⟨[], ok, rfl⟩
  · split
    · rename_i h
      intro x hx
      simp at h hx
      rcases hx with rfl | rfl
      · exact hc h.1.1 h.1.2 h.2
      · exact he
    · intro x hx
      simp at hx
      exact hx ▸ he

theorem endsWith_ite {Q : MainAct → Prop} {c : Prop} [Decidable c] {x y : List MainAct × Bool} (h1 : c → EndsWith Q x) (h2 : ¬ c → EndsWith Q y) :
    EndsWith Q (if c then x else y) := by
  split
  · exact h1 ‹_›
  · exact h2 ‹_›

/-- What an act of a run with an option that asks for one thing may be. -/
def OneAct (a : MainArgs) (x : MainAct) : Prop := ¬ Serves x ∧ x ≠ .fwInit ∧ (x = .fwCleanup → a.fw_flush = true ∧ a.test = false)

theorem turn_oneShot (b : MainBuild) (a : MainArgs) (t : MainTurn) (h : OneShot a) : EndsWith (OneAct a) (mainTurn b a t) := by
  unfold OneShot at h
  have hx : ∀ ok, OneAct a (.exit ok) := fun ok => ⟨by simp [Serves], by simp, by simp⟩
  unfold mainTurn mainStart
  repeat' first
    | (refine endsWith_exit (hx _) ?_; intro h1 h2 h3; first | exact absurd h3 (by decide) | (refine ⟨by simp [Serves], by simp, fun _ => ⟨by assumption, h1⟩⟩))
    | refine endsWith_after (by intro x hx; simp at hx; subst hx; simp [OneAct, Serves]) ?_
    | refine endsWith_after (by intro x hx; split at hx <;> simp at hx; subst hx; simp [OneAct, Serves]) ?_
    | (exfalso; simp_all; done)
    | refine endsWith_ite (fun _ => ?_) (fun _ => ?_)

/-- **C132**: with an option that asks for one thing, fwknopd takes no packet and does not prepare the firewall; it cleans the firewall
only for `--fw-flush`, and not even then with `--test`.  It ends after one turn. -/
theorem C132_one_shot (b : MainBuild) (a : MainArgs) (h : OneShot a) (t : MainTurn) (ts : List MainTurn) :
    (∀ x ∈ mainRun b a (t :: ts), ¬ Serves x ∧ x ≠ .fwInit ∧ (x = .fwCleanup → a.fw_flush = true ∧ a.test = false)) ∧
      (∃ l ok, mainRun b a (t :: ts) = l ++ [.exit ok]) ∧ mainRun b a (t :: ts) = mainRun b a [t] := by
  obtain ⟨h1, h2, h3⟩ := turn_oneShot b a t h
  simp only [mainRun, h1]
  simp only [Bool.false_eq_true, if_false, List.append_nil]
  exact ⟨h3, h2, trivial⟩

/-- The acts of any turn have a property. -/
def AllActs (Q : MainAct → Prop) (r : List MainAct × Bool) : Prop := ∀ x ∈ r.1, Q x

theorem allActs_after {Q : MainAct → Prop} {l : List MainAct} {r : List MainAct × Bool} (hl : ∀ x ∈ l, Q x) (h : AllActs Q r) :
    AllActs Q (mainAfter l r) := by
  intro x hx
  rcases List.mem_append.1 hx with h' | h'
  · exact hl x h'
  · exact h x h'

theorem allActs_ite {Q : MainAct → Prop} {c : Prop} [Decidable c] {x y : List MainAct × Bool} (h1 : c → AllActs Q x) (h2 : ¬ c → AllActs Q y) :
    AllActs Q (if c then x else y) := by
  split
  · exact h1 ‹_›
  · exact h2 ‹_›

theorem turn_test (b : MainBuild) (a : MainArgs) (t : MainTurn) (h : a.test = true) : AllActs (fun x => ¬ ChangesFw x) (mainTurn b a t) := by
  have he : ∀ fw flag ok, AllActs (fun x => ¬ ChangesFw x) (mainExit a fw flag ok) := by
    intro fw flag ok x hx
    simp [mainExit, h] at hx
    subst hx
    simp [ChangesFw]
  have hn : AllActs (fun x => ¬ ChangesFw x) ([], true) := by intro x hx; cases hx
  unfold mainTurn mainStart mainModes mainTcp mainPcap
  repeat' first
    | exact he _ _ _
    | exact hn
    | (exfalso; simp_all; done)
    | refine allActs_after (by intro x hx; simp at hx; subst hx; simp [ChangesFw]) ?_
    | refine allActs_after (by intro x hx; split at hx <;> simp at hx; subst hx; simp [ChangesFw]) ?_
    | refine allActs_ite (fun _ => ?_) (fun _ => ?_)

/-- **C132**: with `--test` the firewall is not changed by any run, however often the configuration is read again. -/
theorem C132_test_changes_nothing (b : MainBuild) (a : MainArgs) (h : a.test = true) (ts : List MainTurn) :
    ∀ x ∈ mainRun b a ts, ¬ ChangesFw x := by
  induction ts with
  | nil => intro x hx; cases hx
  | cons t ts ih =>
    intro x hx
    simp only [mainRun] at hx
    rcases List.mem_append.1 hx with h' | h'
    · exact turn_test b a t h x h'
    · split at h'
      · exact ih x h'
      · cases h'

/-- After the preparation of the firewall: an end comes with the clean-up. -/
structure Closes (r : List MainAct × Bool) : Prop where
  ends : r.2 = false → .fwCleanup ∈ r.1
  goesOn : r.2 = true → ∀ ok, .exit ok ∉ r.1

theorem closes_after {l : List MainAct} {r : List MainAct × Bool} (hl : ∀ ok, .exit ok ∉ l) (h : Closes r) : Closes (mainAfter l r) :=
  ⟨fun e => List.mem_append_right _ (h.ends e), fun e ok hm => (List.mem_append.1 hm).elim (hl ok) (h.goesOn e ok)⟩

theorem closes_ite {c : Prop} [Decidable c] {x y : List MainAct × Bool} (h1 : c → Closes x) (h2 : ¬ c → Closes y) : Closes (if c then x else y) := by
  split
  · exact h1 ‹_›
  · exact h2 ‹_›

theorem modes_close (b : MainBuild) (a : MainArgs) (t : MainTurn) (ha : a.test = false) (hf : t.needsFw = true) : Closes (mainModes b a t) := by
  have he : ∀ ok, Closes (mainExit a t.needsFw true ok) := fun ok => ⟨fun _ => by simp [mainExit, ha, hf], fun h => by cases h⟩
  have hn : Closes ([], true) := ⟨(fun h => by cases h), fun _ _ h => by cases h⟩
  unfold mainModes mainTcp mainPcap
  repeat' first
    | exact he _
    | exact hn
    | refine closes_after (by simp) ?_
    | refine closes_ite (fun _ => ?_) (fun _ => ?_)

theorem modes_noInit (b : MainBuild) (a : MainArgs) (t : MainTurn) : AllActs (fun x => x ≠ .fwInit) (mainModes b a t) := by
  have he : ∀ fw flag ok, AllActs (fun x => x ≠ .fwInit) (mainExit a fw flag ok) := by
    intro fw flag ok x hx
    unfold mainExit at hx
    split at hx <;> simp at hx
    · rcases hx with rfl | rfl <;> simp
    · simp [hx]
  have hn : AllActs (fun x => x ≠ .fwInit) ([], true) := by intro x hx; cases hx
  unfold mainModes mainTcp mainPcap
  repeat' first
    | exact he _ _ _
    | exact hn
    | refine allActs_after (by simp) ?_
    | refine allActs_ite (fun _ => ?_) (fun _ => ?_)

/-- A turn: from the preparation of the firewall on, an end comes with the clean-up. -/
def InitCloses (r : List MainAct × Bool) : Prop :=
  ∀ pre post, r.1 = pre ++ .fwInit :: post → (r.2 = false → .fwCleanup ∈ post) ∧ (r.2 = true → ∀ ok, .exit ok ∉ post)

theorem initCloses_none {r : List MainAct × Bool} (h : AllActs (fun x => x ≠ .fwInit) r) : InitCloses r := by
  intro pre post e
  exact absurd rfl (h .fwInit (by rw [e]; simp))

theorem initCloses_one {x : MainAct} {r : List MainAct × Bool} (hx : x ≠ .fwInit) (h : InitCloses r) : InitCloses (mainAfter [x] r) := by
  intro pre post e
  cases pre with
  | nil => simp [mainAfter, hx] at e
  | cons y pre =>
    simp [mainAfter] at e
    exact h pre post e.2

theorem initCloses_here {r : List MainAct × Bool} (hn : AllActs (fun x => x ≠ .fwInit) r) (h : Closes r) : InitCloses (mainAfter [.fwInit] r) := by
  intro pre post e
  cases pre with
  | nil =>
    simp [mainAfter] at e
    subst e
    exact ⟨h.ends, h.goesOn⟩
  | cons y pre =>
    simp [mainAfter] at e
    exact absurd rfl (hn .fwInit (by rw [e.2]; simp))

theorem initCloses_ite {c : Prop} [Decidable c] {x y : List MainAct × Bool} (h1 : c → InitCloses x) (h2 : ¬ c → InitCloses y) :
    InitCloses (if c then x else y) := by
  split
  · exact h1 ‹_›
  · exact h2 ‹_›

theorem exit_noInit (a : MainArgs) (fw flag ok : Bool) : AllActs (fun x => x ≠ .fwInit) (mainExit a fw flag ok) := by
  intro x hx
  unfold mainExit at hx
  split at hx <;> simp at hx
  · rcases hx with rfl | rfl <;> simp
  · simp [hx]

theorem turn_initCloses (b : MainBuild) (a : MainArgs) (t : MainTurn) : InitCloses (mainTurn b a t) := by
  have he : ∀ fw flag ok, InitCloses (mainExit a fw flag ok) := fun fw flag ok => initCloses_none (exit_noInit a fw flag ok)
  have hm : InitCloses (mainModes b a t) := initCloses_none (modes_noInit b a t)
  have hp : ∀ {r}, InitCloses r → InitCloses (mainAfter (if a.exit_parse_digest_cache then [] else [.pid]) r) := by
    intro r h
    split
    · exact h
    · exact initCloses_one (by simp) h
  have hi : (!a.test && t.needsFw) = true → InitCloses (mainAfter [.fwInit] (if t.fwInit then mainModes b a t else mainExit a t.needsFw true false)) := by
    intro h
    simp at h
    refine initCloses_here (allActs_ite (fun _ => modes_noInit b a t) (fun _ => exit_noInit _ _ _ _)) (closes_ite (fun _ => modes_close b a t h.1 h.2) fun _ => ?_)
    exact ⟨fun _ => by simp [mainExit, h], fun h => by cases h⟩
  unfold mainTurn mainStart
  repeat' first
    | exact he _ _ _
    | exact hm
    | exact hi (by assumption)
    | refine initCloses_one (by simp) ?_
    | refine hp ?_
    | refine initCloses_ite (fun _ => ?_) (fun _ => ?_)

theorem good_closes (b : MainBuild) (a : MainArgs) (t : MainTurn) (ha : ¬ OneShot a) (hs : a.test = false) (h : GoodTurn t) : Closes (mainTurn b a t) := by
  obtain ⟨h1, h2, h3, h4, h5, h6, h7, h8, h9⟩ := h
  simp [OneShot] at ha
  obtain ⟨a1, a2, a3, a4, a5, a6, a7, a8⟩ := ha
  have hm := modes_close b a t hs h7
  have he : Closes (mainExit a t.needsFw true false) := ⟨fun _ => by simp [mainExit, hs, h7], fun h => by cases h⟩
  unfold mainTurn mainStart
  simp only [h1, h2, h3, h4, h5, h6, h8, h9, a1, a2, a3, a4, a5, a6, a7, a8, hs, Bool.not_true, Bool.false_eq_true, if_false, Bool.not_false, Bool.true_and]
  repeat' first
    | exact hm
    | exact he
    | refine closes_after (by simp) ?_
    | refine closes_ite (fun _ => ?_) (fun _ => ?_)

theorem good_run (b : MainBuild) (a : MainArgs) (ha : ¬ OneShot a) (hs : a.test = false) (ts : List MainTurn) (h : ∀ t ∈ ts, GoodTurn t) {ok : Bool}
    (he : .exit ok ∈ mainRun b a ts) : .fwCleanup ∈ mainRun b a ts := by
  induction ts with
  | nil => cases he
  | cons t ts ih =>
    obtain ⟨c1, c2⟩ := good_closes b a t ha hs (h t (by simp))
    simp only [mainRun] at he ⊢
    cases hr : (mainTurn b a t).2 with
    | false => exact List.mem_append_left _ (c1 hr)
    | true =>
      rw [hr] at he
      rcases List.mem_append.1 he with h' | h'
      · exact absurd h' (c2 hr ok)
      · exact List.mem_append_right _ (ih (fun t ht => h t (by simp [ht])) h')

theorem run_noInit_oneShot (b : MainBuild) (a : MainArgs) (ha : OneShot a) (ts : List MainTurn) : .fwInit ∉ mainRun b a ts := by
  cases ts with
  | nil => simp [mainRun]
  | cons t ts => intro h; exact ((C132_one_shot b a ha t ts).1 _ h).2.1 rfl

/-- **C132** (partial: each time the configuration is read again it must be a good one, and need the firewall): a daemon that has prepared the firewall
does not end without cleaning it up. -/
theorem C132_cleans_up_partial (b : MainBuild) (a : MainArgs) (t : MainTurn) (ts : List MainTurn) (h : ∀ t ∈ ts, GoodTurn t) :
    CleansUp (mainRun b a (t :: ts)) := by
  by_cases ha : OneShot a
  · intro pre post e
    exact absurd (by rw [e]; simp) (run_noInit_oneShot b a ha (t :: ts))
  cases hs : a.test with
  | true =>
    intro pre post e
    exact absurd (.inl rfl) (C132_test_changes_nothing b a hs (t :: ts) .fwInit (by rw [e]; simp))
  | false =>
    induction ts generalizing t with
    | nil =>
      intro pre post e ⟨ok, he⟩
      have e' : (mainTurn b a t).1 = pre ++ .fwInit :: post := by simpa [mainRun] using e
      obtain ⟨h1, h2⟩ := turn_initCloses b a t pre post e'
      cases hr : (mainTurn b a t).2 with
      | false => exact h1 hr
      | true => exact absurd he (h2 hr ok)
    | cons u ts ih =>
      intro pre post e ⟨ok, he⟩
      rw [mainRun] at e
      rcases List.append_eq_append_iff.1 e with ⟨l, e1, e2⟩ | ⟨l, e1, e2⟩
      · cases hr : (mainTurn b a t).2 with
        | false => simp [hr] at e2
        | true =>
          rw [hr, if_pos rfl] at e2
          exact ih u (fun v hv => h v (by simp [hv])) l post e2 ⟨ok, he⟩
      · cases l with
        | nil =>
          cases hr : (mainTurn b a t).2 with
          | false => simp [hr] at e2
          | true =>
            rw [hr, if_pos rfl] at e2
            exact ih u (fun v hv => h v (by simp [hv])) [] post e2.symm ⟨ok, he⟩
        | cons y l =>
          simp only [List.cons_append, List.cons.injEq] at e2
          obtain ⟨rfl, rfl⟩ := e2
          obtain ⟨h1, h2⟩ := turn_initCloses b a t pre l e1
          cases hr : (mainTurn b a t).2 with
          | false => exact List.mem_append_left _ (h1 hr)
          | true =>
            rw [hr] at he
            rw [if_pos rfl] at he ⊢
            rcases List.mem_append.1 he with h' | h'
            · exact absurd h' (h2 hr ok)
            · exact List.mem_append_right _ (good_run b a ha hs (u :: ts) h h')

/-- A turn in which all is well; `again` is whether it ends with a SIGHUP. -/
def allWell (again : Bool) : MainTurn :=
  { config := true, control := true, runDir := true, handlers := true, fwConfig := true, access := true, stanzas := true, needsFw := true, pid := true,
    cache := true, fwInit := true, confNfq := b!"N", confUdp := b!"N", confTcp := b!"N", nfq := true, udp := true, tcp := true, pcap := true, again }

/-- A daemon that reads its configuration again twice, and ends. -/
example : CleansUp (mainRun ⟨true, false⟩ {} [allWell true, allWell true, allWell false]) ∧
    mainRun ⟨true, false⟩ {} [allWell true, allWell false] =
      [.runDir, .handlers, .fwConfig, .access, .pid, .cache, .fwInit, .pcap, .signals,
       .runDir, .handlers, .fwConfig, .access, .pid, .cache, .fwInit, .pcap, .signals, .fwCleanup, .exit true] :=
  ⟨C132_cleans_up_partial _ _ _ _ (by simp [GoodTurn, allWell]), by decide⟩

/-- **C132 is false** if the configuration that is read after a SIGHUP has an error: the daemon ends and leaves its rules. -/
theorem C132_false_bad_reload : ¬ CleansUp (mainRun ⟨true, false⟩ {} [allWell true, { allWell true with access := false }]) := by
  intro h
  exact absurd (h [.runDir, .handlers, .fwConfig, .access, .pid, .cache] [.pcap, .signals, .runDir, .handlers, .fwConfig, .access, .exit false] (by decide)
    ⟨false, by decide⟩) (by decide)

/-- **C132 is false** if no stanza needs the firewall any more after a SIGHUP. -/
theorem C132_false_not_needed_any_more : ¬ CleansUp (mainRun ⟨true, false⟩ {} [allWell true, { allWell false with needsFw := false }]) := by
  intro h
  exact absurd (h [.runDir, .handlers, .fwConfig, .access, .pid, .cache]
    [.pcap, .signals, .runDir, .handlers, .fwConfig, .access, .pid, .cache, .pcap, .signals, .exit true] (by decide)
    ⟨true, by decide⟩) (by decide)

/-- The options of the examples. -/
example : OneShot { status := true } ∧ mainRun ⟨true, false⟩ { status := true } [allWell true, allWell true] = [.askOther, .exit true] :=
  ⟨by simp [OneShot], by decide⟩

example : mainRun ⟨true, false⟩ { fw_flush := true } [allWell true] = [.runDir, .handlers, .fwConfig, .fwCleanup, .exit true] := by decide

theorem turn_ready (b : MainBuild) (a : MainArgs) (t : MainTurn) (hx : ∃ x ∈ (mainTurn b a t).1, Serves x) : Ready a t (mainTurn b a t).1 := by
  obtain ⟨x, hx, hs⟩ := hx
  have he : ∀ fw flag ok, ¬ x ∈ (mainExit a fw flag ok).1 := by
    intro fw flag ok h
    unfold mainExit at h
    split at h <;> simp at h
    · rcases h with rfl | rfl <;> simp [Serves] at hs
    · subst h; simp [Serves] at hs
  have hn : ∀ y ∈ [MainAct.stopOther, .askOther, .restartOther, .runDir, .handlers, .fwConfig, .fwList, .access, .dump, .pid, .cache, .fwInit], x ≠ y := by
    intro y hy e
    subst e
    simp at hy
    rcases hy with rfl | rfl | rfl | rfl | rfl | rfl | rfl | rfl | rfl | rfl | rfl | rfl <;> simp [Serves] at hs
  simp at hn
  refine Classical.byContradiction fun hc => ?_
  revert hx
  unfold Ready at hc
  cases h1 : t.config <;> cases h2 : a.kill <;> cases h3 : a.status <;> cases h4 : a.restart <;> (try (simp [mainTurn, mainAfter, *]; done))
  cases h5 : t.runDir <;> cases h6 : t.handlers <;> cases h7 : t.fwConfig <;> cases h8 : a.fw_list <;> (try (simp [mainTurn, mainAfter, *]; done))
  cases h9 : a.fw_flush <;> cases h10 : t.access <;> cases h11 : t.stanzas <;> cases h12 : a.dump_config <;> (try (simp [mainTurn, mainAfter, *]; done))
  cases h13 : a.exit_after_parse_config <;> cases h14 : a.exit_parse_digest_cache <;> cases h15 : t.pid <;> cases h16 : t.cache <;>
    (try (simp [mainTurn, mainStart, mainAfter, *]; done))
  cases h17 : a.test <;> cases h18 : t.needsFw <;> cases h19 : t.fwInit <;> simp [mainTurn, mainStart, mainAfter, *] at hc ⊢

/-- **C132**: packets and connections are taken only in a turn in which the configuration and the access file were good, the pid file was written, the digest
cache read, and, if a stanza needs it, the firewall prepared, all in this order. -/
theorem C132_serves_when_ready (b : MainBuild) (a : MainArgs) (ts : List MainTurn) {x : MainAct} (hx : x ∈ mainRun b a ts) (hs : Serves x) :
    ∃ t ∈ ts, x ∈ (mainTurn b a t).1 ∧ Ready a t (mainTurn b a t).1 := by
  induction ts with
  | nil => cases hx
  | cons t ts ih =>
    simp only [mainRun] at hx
    rcases List.mem_append.1 hx with h | h
    · exact ⟨t, by simp, h, turn_ready b a t ⟨x, h, hs⟩⟩
    · split at h
      · obtain ⟨u, hu, h'⟩ := ih h
        exact ⟨u, by simp [hu], h'⟩
      · cases h

/-- **C132**: what the options that ask for one thing do, and that the exit status tells how it went. -/
theorem C132_one_shot_status (b : MainBuild) (a : MainArgs) (t : MainTurn) (ts : List MainTurn) (h : t.config = true) :
    (a.kill = true → mainRun b a (t :: ts) = [.stopOther, .exit t.control]) ∧
    (a.kill = false → a.status = true → mainRun b a (t :: ts) = [.askOther, .exit t.control]) ∧
    (a.kill = false → a.status = false → a.restart = true → mainRun b a (t :: ts) = [.restartOther, .exit t.control]) ∧
    (a.kill = false → a.status = false → a.restart = false → t.runDir = true → t.handlers = true → t.fwConfig = true →
      (a.fw_list = true → mainRun b a (t :: ts) = [.runDir, .handlers, .fwConfig, .fwList, .exit true]) ∧
      (a.fw_list = false → a.fw_flush = true → a.test = false → mainRun b a (t :: ts) = [.runDir, .handlers, .fwConfig, .fwCleanup, .exit true]) ∧
      (a.fw_list = false → a.fw_flush = false → a.dump_config = true → t.access = true → t.stanzas = true →
        mainRun b a (t :: ts) = [.runDir, .handlers, .fwConfig, .access, .dump, .exit true])) := by
  refine ⟨?_, ?_, ?_, ?_⟩
  · intro h1; simp [mainRun, mainTurn, mainAfter, mainExit, h, h1]
  · intro h1 h2; simp [mainRun, mainTurn, mainAfter, mainExit, h, h1, h2]
  · intro h1 h2 h3; simp [mainRun, mainTurn, mainAfter, mainExit, h, h1, h2, h3]
  · intro h1 h2 h3 h4 h5 h6
    refine ⟨?_, ?_, ?_⟩
    · intro h7; simp [mainRun, mainTurn, mainAfter, mainExit, h, h1, h2, h3, h4, h5, h6, h7]
    · intro h7 h8 h9; simp [mainRun, mainTurn, mainAfter, mainExit, h, h1, h2, h3, h4, h5, h6, h7, h8, h9]
    · intro h7 h8 h9 h10 h11; simp [mainRun, mainTurn, mainAfter, mainExit, h, h1, h2, h3, h4, h5, h6, h7, h8, h9, h10, h11]

theorem startsY_iff (s : Str) : startsY s = true ↔ SaysYes s := by
  cases s with
  | nil => simp [startsY, SaysYes]
  | cons c r =>
    simp [startsY, SaysYes]
    exact ⟨fun h => ⟨r, h.elim (fun h => .inl ⟨h, rfl⟩) (fun h => .inr ⟨h, rfl⟩)⟩, fun ⟨_, h⟩ => h.elim (fun h => .inl h.1) (fun h => .inr h.1)⟩

theorem startsN_iff (s : Str) : startsN s = true ↔ SaysNo s := by
  cases s with
  | nil => simp [startsN, SaysNo]
  | cons c r =>
    simp [startsN, SaysNo]
    exact ⟨fun h => ⟨r, h.elim (fun h => .inl ⟨h, rfl⟩) (fun h => .inr ⟨h, rfl⟩)⟩, fun ⟨_, h⟩ => h.elim (fun h => .inl h.1) (fun h => .inr h.1)⟩

/-- A turn of a daemon for which all goes well up to the modes. -/
theorem turn_modes (b : MainBuild) (a : MainArgs) (t : MainTurn) (ha : ¬ OneShot a) (h : GoodTurn t) (hf : t.fwInit = true) :
    ∃ l, (∀ x ∈ l, ¬ Serves x) ∧ (mainTurn b a t).1 = l ++ (mainModes b a t).1 := by
  obtain ⟨h1, h2, h3, h4, h5, h6, h7, h8, h9⟩ := h
  simp [OneShot] at ha
  obtain ⟨a1, a2, a3, a4, a5, a6, a7, a8⟩ := ha
  refine ⟨[.runDir, .handlers, .fwConfig, .access, .pid, .cache] ++ if a.test then [] else [.fwInit], ?_, ?_⟩
  · cases a.test <;> simp [Serves]
  · cases hs : a.test <;> simp [mainTurn, mainStart, mainAfter, *]

theorem mem_exit {a : MainArgs} {fw flag ok : Bool} {x : MainAct} (hx : Serves x) : x ∉ (mainExit a fw flag ok).1 := by
  intro h
  unfold mainExit at h
  split at h <;> simp at h
  · rcases h with rfl | rfl <;> simp [Serves] at hx
  · subst h; simp [Serves] at hx

/-- **C132**: which of the servers run in a build with libpcap. -/
theorem C132_which_server (b : MainBuild) (hb : b.pcap = true) (hn : b.nfq = false) (a : MainArgs) (t : MainTurn) (ha : ¬ OneShot a) (h : GoodTurn t)
    (hf : t.fwInit = true) :
    (.udp ∈ (mainTurn b a t).1 ↔ a.udp = true ∨ SaysYes t.confUdp) ∧
    (.tcp ∈ (mainTurn b a t).1 ↔ ¬ (a.udp = true ∨ SaysYes t.confUdp) ∧ SaysYes t.confTcp) ∧
    (.pcap ∈ (mainTurn b a t).1 ↔ ¬ (a.udp = true ∨ SaysYes t.confUdp) ∧ SaysNo t.confUdp ∧ (SaysYes t.confTcp → t.tcp = true)) ∧
    .nfq ∉ (mainTurn b a t).1 := by
  obtain ⟨l, hl, e⟩ := turn_modes b a t ha h hf
  have hl' : ∀ x, Serves x → x ∉ l := fun x hx hm => hl x hm hx
  have l1 := hl' .udp (by simp [Serves])
  have l2 := hl' .tcp (by simp [Serves])
  have l3 := hl' .pcap (by simp [Serves])
  have l4 := hl' .nfq (by simp [Serves])
  have e1 : ∀ fw flag ok, MainAct.udp ∉ (mainExit a fw flag ok).1 := fun _ _ _ => mem_exit (by simp [Serves])
  have e2 : ∀ fw flag ok, MainAct.tcp ∉ (mainExit a fw flag ok).1 := fun _ _ _ => mem_exit (by simp [Serves])
  have e3 : ∀ fw flag ok, MainAct.pcap ∉ (mainExit a fw flag ok).1 := fun _ _ _ => mem_exit (by simp [Serves])
  have e4 : ∀ fw flag ok, MainAct.nfq ∉ (mainExit a fw flag ok).1 := fun _ _ _ => mem_exit (by simp [Serves])
  rw [e, ← startsY_iff, ← startsY_iff, ← startsN_iff]
  cases hu : a.udp <;> cases hy : startsY t.confUdp <;> cases ht : startsY t.confTcp <;> cases hN : startsN t.confUdp <;> cases h1 : t.tcp <;>
    cases h2 : t.pcap <;> cases h3 : t.again <;> simp [mainModes, mainTcp, mainPcap, mainAfter, *]

/-- **C132**: which of the servers run in a build with libnetfilter_queue (configure then leaves libpcap out). -/
theorem C132_which_server_nfq (b : MainBuild) (hb : b.pcap = false) (hn : b.nfq = true) (a : MainArgs) (t : MainTurn) (ha : ¬ OneShot a) (h : GoodTurn t)
    (hf : t.fwInit = true) :
    (.nfq ∈ (mainTurn b a t).1 ↔ a.nfq = true ∨ SaysYes t.confNfq) ∧
    (.udp ∈ (mainTurn b a t).1 ↔ ¬ (a.nfq = true ∨ SaysYes t.confNfq) ∧ (a.udp = true ∨ SaysYes t.confUdp)) ∧
    .pcap ∉ (mainTurn b a t).1 := by
  obtain ⟨l, hl, e⟩ := turn_modes b a t ha h hf
  have hl' : ∀ x, Serves x → x ∉ l := fun x hx hm => hl x hm hx
  have l1 := hl' .udp (by simp [Serves])
  have l3 := hl' .pcap (by simp [Serves])
  have l4 := hl' .nfq (by simp [Serves])
  have e1 : ∀ fw flag ok, MainAct.udp ∉ (mainExit a fw flag ok).1 := fun _ _ _ => mem_exit (by simp [Serves])
  have e3 : ∀ fw flag ok, MainAct.pcap ∉ (mainExit a fw flag ok).1 := fun _ _ _ => mem_exit (by simp [Serves])
  have e4 : ∀ fw flag ok, MainAct.nfq ∉ (mainExit a fw flag ok).1 := fun _ _ _ => mem_exit (by simp [Serves])
  rw [e, ← startsY_iff, ← startsY_iff]
  cases hu : a.udp <;> cases hq : a.nfq <;> cases hy : startsY t.confUdp <;> cases hz : startsY t.confNfq <;> cases ht : startsY t.confTcp <;>
    cases h1 : t.tcp <;> cases h2 : t.nfq <;> cases h3 : t.again <;> simp [mainModes, mainTcp, mainPcap, mainAfter, *]

/-- With the settings of `allWell` packets are captured. -/
example : MainAct.pcap ∈ (mainTurn ⟨true, false⟩ {} (allWell true)).1 :=
  (C132_which_server _ rfl rfl _ _ (by simp [OneShot]) (by simp [GoodTurn, allWell]) rfl).2.2.1.2
    ⟨by simp [SaysYes, allWell], ⟨[], .inl rfl⟩, fun _ => rfl⟩

end Fwknop.Props
