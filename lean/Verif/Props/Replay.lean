import Verif.Lemmas.Replay
import Verif.Spec.Replay

/-!
# Properties C24, C25: the replay cache across restarts and crashes
-/

namespace Fwknop.Props
open Fwknop Spec

/-- The daemon's memory and its file. -/
structure ReplayState where
  cache : List Str
  file : Str

/-- Starting the daemon with a file, or with none. -/
def replayStart (f : Option Str) : ReplayState :=
  ⟨(replay_file_cache_init f).1, (replay_file_cache_init f).2⟩

def toInfo (i : PacketInfo) : ReplayInfo := ⟨i.proto, i.src, i.dst, i.srcPort, i.dstPort, i.time⟩

/-- One event. -/
def replayStep (s : ReplayState) : ReplayEvent → ReplayState
  | .record i d =>
    ⟨(add_replay true (toInfo i) d s.cache s.file).1, (add_replay true (toInfo i) d s.cache s.file).2.1⟩
  | .recordFailed i d =>
    ⟨(add_replay false (toInfo i) d s.cache s.file).1, (add_replay false (toInfo i) d s.cache s.file).2.1⟩
  | .restart => replayStart (some s.file)
  | .crash i d k => replayStart (some (s.file ++ (replayLine (toInfo i) d).take k))

def replayRun (s : ReplayState) (h : List ReplayEvent) : ReplayState := h.foldl replayStep s

theorem b64_not_special {c : Nat} (h : IsB64Char c) :
    isSpace c = false ∧ c ≠ 0 ∧ c ≠ 35 ∧ c ≠ 59 := by
  unfold IsB64Char at h
  simp [isSpace]
  omega

theorem digestText_of {d : Str} (h : IsPacketDigest d) : DigestText d := by
  have hne : d ≠ [] := by rintro rfl; have := h.1; simp at this
  refine ⟨hne, by rw [h.1]; omega, fun c hc => ?_, ?_⟩
  · have := b64_not_special (h.2 c hc); exact ⟨this.1, this.2.1⟩
  · cases d with
    | nil => exact absurd rfl hne
    | cons c cs =>
      have := b64_not_special (h.2 c (by simp))
      exact ⟨this.2.2.1, this.2.2.2⟩

/-- What a history leaves in memory is at least what its file holds. -/
theorem run_cache_sub : ∀ (h : List ReplayEvent) (s : ReplayState), (∀ e ∈ h, e.Ok) →
    (∀ d ∈ cacheOf s.file, d ∈ s.cache) → EndsLine s.file → (∀ e ∈ h, e.isCrash = false) →
    (∀ d ∈ cacheOf s.file, d ∈ cacheOf (replayRun s h).file) ∧ EndsLine (replayRun s h).file ∧
    (∀ d ∈ cacheOf (replayRun s h).file, d ∈ (replayRun s h).cache) := by
  intro h
  induction h with
  | nil => intro s _ hc he _; exact ⟨fun d h => h, he, hc⟩
  | cons e es ih =>
    intro s hok hc he hcr
    have hok' : ∀ e ∈ es, e.Ok := fun x hx => hok x (by simp [hx])
    have hcr' : ∀ e ∈ es, e.isCrash = false := fun x hx => hcr x (by simp [hx])
    have he0 := hok e (by simp)
    cases e with
    | record i d =>
      obtain ⟨h1, h2, h3, h4⟩ := he0
      have key : cacheOf (s.file ++ replayLine (toInfo i) d) = d :: cacheOf s.file := by
        rw [cacheOf_append _ _ he, cacheOf_line (toInfo i) d (digestText_of h4) ⟨h1, h2, h3⟩]; rfl
      have := ih ⟨d :: s.cache, s.file ++ replayLine (toInfo i) d⟩ hok' (by
        intro x hx; rw [key] at hx
        rcases List.mem_cons.1 hx with h | h
        · exact List.mem_cons.2 (.inl h)
        · exact List.mem_cons.2 (.inr (hc x h))) (endsLine_line _ _ _) hcr'
      refine ⟨fun x hx => this.1 x ?_, this.2⟩
      show x ∈ cacheOf (s.file ++ replayLine (toInfo i) d)
      rw [key]; exact List.mem_cons.2 (.inr hx)
    | recordFailed i d =>
      exact ih ⟨d :: s.cache, s.file⟩ hok' (fun x hx => List.mem_cons.2 (.inr (hc x hx))) he hcr'
    | restart => exact ih ⟨cacheOf s.file, s.file⟩ hok' (fun x hx => hx) he hcr'
    | crash i d k => exact absurd (hcr (.crash i d k) (by simp)) (by simp [ReplayEvent.isCrash])

/-- A file whose last line is complete: what `fwknopd` itself leaves behind, and a missing one. -/
def CleanFile : Option Str → Prop
  | none => True
  | some f => f = [] ∨ ∃ g, f = g ++ [10]

theorem start_endsLine {f : Option Str} (h : CleanFile f) : EndsLine (replayStart f).file := by
  cases f with
  | none => exact .inr ⟨_, rfl⟩
  | some f => exact h

theorem start_cache (f : Option Str) : (replayStart f).cache = cacheOf (replayStart f).file := by
  cases f with
  | none => show [] = cacheOf replayHeader; decide +kernel
  | some f => rfl

theorem replayRun_append (s : ReplayState) (h1 h2 : List ReplayEvent) :
    replayRun s (h1 ++ h2) = replayRun (replayRun s h1) h2 := List.foldl_append

/-- C24: whatever the file held and whatever the daemon does before and after, including any
number of restarts, a recorded digest is recognised.  What is missing: files that end in the middle of a line, kills. -/
theorem C24_recorded_digest_recognised_partial (f : Option Str) (hf : CleanFile f) (h1 h2 : List ReplayEvent)
    (i : PacketInfo) (d : Str)
    (hok : ∀ e ∈ h1 ++ .record i d :: h2, e.Ok)
    (hcr : ∀ e ∈ h1 ++ .record i d :: h2, e.isCrash = false) :
    is_replay (replayRun (replayStart f) (h1 ++ .record i d :: h2)).cache d = true := by
  obtain ⟨-, he, hc⟩ := run_cache_sub h1 (replayStart f) (fun e h => hok e (by simp [h]))
    (by rw [start_cache]; exact fun d h => h) (start_endsLine hf) (fun e h => hcr e (by simp [h]))
  obtain ⟨p1, p2, p3, p4⟩ := hok (.record i d) (by simp)
  rw [replayRun_append]
  have key : cacheOf ((replayRun (replayStart f) h1).file ++ replayLine (toInfo i) d) =
      d :: cacheOf (replayRun (replayStart f) h1).file := by
    rw [cacheOf_append _ _ he, cacheOf_line (toInfo i) d (digestText_of p4) ⟨p1, p2, p3⟩]; rfl
  have := run_cache_sub h2 ⟨d :: (replayRun (replayStart f) h1).cache,
      (replayRun (replayStart f) h1).file ++ replayLine (toInfo i) d⟩
    (fun e h => hok e (by simp [h])) (by
      intro x hx; rw [key] at hx
      rcases List.mem_cons.1 hx with h | h
      · exact List.mem_cons.2 (.inl h)
      · exact List.mem_cons.2 (.inr (hc x h))) (endsLine_line _ _ _)
    (fun e h => hcr e (by simp [h]))
  exact is_replay_of_mem (this.2.2 d (this.1 d (by
    show d ∈ cacheOf ((replayRun (replayStart f) h1).file ++ replayLine (toInfo i) d)
    rw [key]; exact List.mem_cons.2 (.inl rfl))))

/-- C24: what the file of an earlier run held is recognised too: a digest recognised right after a
start is recognised for ever.  What is missing: files that end in the middle of a line, kills. -/
theorem C24_loaded_digest_recognised_partial (f : Option Str) (hf : CleanFile f) (h : List ReplayEvent)
    (d : Str) (hok : ∀ e ∈ h, e.Ok) (hcr : ∀ e ∈ h, e.isCrash = false)
    (hd : is_replay (replayStart f).cache d = true) :
    is_replay (replayRun (replayStart f) h).cache d = true := by
  obtain ⟨hm, -, hc⟩ := run_cache_sub h (replayStart f) hok (by rw [start_cache]; exact fun d h => h)
    (start_endsLine hf) hcr
  unfold is_replay at *
  rw [List.any_eq_true] at *
  obtain ⟨e, he, hx⟩ := hd
  rw [start_cache] at he
  exact ⟨e, hc e (hm e he), hx⟩

theorem is_replay_iff {cache : List Str} {d : Str} (hc : ∀ e ∈ cache, e.length = d.length) :
    is_replay cache d = true ↔ d ∈ cache := by
  constructor
  · intro h
    unfold is_replay at h
    rw [List.any_eq_true] at h
    obtain ⟨e, he, hx⟩ := h
    have hl := hc e he
    have := (constant_runtime_cmp_iff e d d.length (by omega) (Nat.le_refl _)).1 (by simpa using hx)
    rw [← hl, List.take_length, hl, List.take_length] at this
    exact this ▸ he
  · exact is_replay_of_mem

/-- The digests a history tries to record. -/
def recordedIn (h : List ReplayEvent) (d : Str) : Prop :=
  (∃ i, .record i d ∈ h) ∨ ∃ i, .recordFailed i d ∈ h

theorem run_from_empty : ∀ (h : List ReplayEvent) (s : ReplayState) (D : Str → Prop),
    (∀ e ∈ h, e.Ok) → EndsLine s.file → (∀ d ∈ s.cache, D d) → (∀ d ∈ cacheOf s.file, D d) →
    (∀ e ∈ h, e.isCrash = false) →
    ∀ d ∈ (replayRun s h).cache, D d ∨ recordedIn h d := by
  intro h
  induction h with
  | nil => intro s D _ _ hc _ _ d hd; exact .inl (hc d hd)
  | cons e es ih =>
    intro s D hok he hc hf hcr d hd
    have hok' : ∀ e ∈ es, e.Ok := fun x hx => hok x (by simp [hx])
    have hcr' : ∀ e ∈ es, e.isCrash = false := fun x hx => hcr x (by simp [hx])
    have he0 := hok e (by simp)
    have lift : recordedIn es d → recordedIn (e :: es) d := by
      rintro (⟨i, h⟩ | ⟨i, h⟩)
      · exact .inl ⟨i, by simp [h]⟩
      · exact .inr ⟨i, by simp [h]⟩
    cases e with
    | record i d' =>
      obtain ⟨h1, h2, h3, h4⟩ := he0
      have key : cacheOf (s.file ++ replayLine (toInfo i) d') = d' :: cacheOf s.file := by
        rw [cacheOf_append _ _ he, cacheOf_line (toInfo i) d' (digestText_of h4) ⟨h1, h2, h3⟩]; rfl
      have := ih ⟨d' :: s.cache, s.file ++ replayLine (toInfo i) d'⟩ (fun x => D x ∨ x = d') hok'
        (endsLine_line _ _ _) (by
          intro x hx
          rcases List.mem_cons.1 hx with h | h
          · exact .inr h
          · exact .inl (hc x h)) (by
          intro x hx; rw [key] at hx
          rcases List.mem_cons.1 hx with h | h
          · exact .inr h
          · exact .inl (hf x h)) hcr' d hd
      rcases this with (h | h) | h
      · exact .inl h
      · subst h; exact .inr (.inl ⟨i, by simp⟩)
      · exact .inr (lift h)
    | recordFailed i d' =>
      have := ih ⟨d' :: s.cache, s.file⟩ (fun x => D x ∨ x = d') hok' he (by
          intro x hx
          rcases List.mem_cons.1 hx with h | h
          · exact .inr h
          · exact .inl (hc x h)) (fun x hx => .inl (hf x hx)) hcr' d hd
      rcases this with (h | h) | h
      · exact .inl h
      · subst h; exact .inr (.inr ⟨i, by simp⟩)
      · exact .inr (lift h)
    | restart =>
      rcases ih ⟨cacheOf s.file, s.file⟩ D hok' he hf hf hcr' d hd with h | h
      · exact .inl h
      · exact .inr (lift h)
    | crash i d k => exact absurd (hcr (.crash i d k) (by simp)) (by simp [ReplayEvent.isCrash])

/-- C24: there are no false alarms: starting from nothing, only digests the history recorded are
taken for replays. -/
theorem C24_no_false_alarm (h : List ReplayEvent) (d : Str) (hd : IsPacketDigest d)
    (hok : ∀ e ∈ h, e.Ok) (hcr : ∀ e ∈ h, e.isCrash = false)
    (hr : is_replay (replayRun (replayStart none) h).cache d = true) :
    (∃ i, .record i d ∈ h) ∨ ∃ i, .recordFailed i d ∈ h := by
  have hsub := run_from_empty h (replayStart none) (fun _ => False) hok (.inr ⟨_, rfl⟩)
    (by intro d h; cases h) (by rw [← start_cache]; intro d h; cases h) hcr
  have hlen : ∀ e ∈ (replayRun (replayStart none) h).cache, e.length = d.length := by
    intro e he
    rcases hsub e he with h | ⟨i, h⟩ | ⟨i, h⟩
    · exact h.elim
    · rw [(hok _ h).2.2.2.1, hd.1]
    · rw [(hok _ h).1, hd.1]
  rcases hsub d ((is_replay_iff hlen).1 hr) with h | h
  · exact h.elim
  · exact h

/-! ## Crashes -/

def sampleDigest (c : Nat) : Str := List.replicate 43 c
def sampleInfo : PacketInfo := ⟨17, 0x7F000001, 0x7F000001, 40305, 62201, 1313283481⟩

/-- C25 is false of the code: the daemon dies after 10 bytes of the record of `aaa…` have reached
the file, is started again and records `bbb…`, which is appended to the torn line.  After the next
restart `bbb…`, whose append completed, is not recognised. -/
theorem C25_record_lost_after_crash :
    let h := [ReplayEvent.crash sampleInfo (sampleDigest 97) 10, .record sampleInfo (sampleDigest 98), .restart]
    (∀ e ∈ h, e.Ok) ∧
    is_replay (replayRun (replayStart none) (h.take 2)).cache (sampleDigest 98) = true ∧
    is_replay (replayRun (replayStart none) h).cache (sampleDigest 98) = false := by
  refine ⟨?_, by decide +kernel, by decide +kernel⟩
  intro e he
  have hd : ∀ c, IsB64Char c → IsPacketDigest (sampleDigest c) := by
    intro c hc
    exact ⟨by simp [sampleDigest], fun x hx => by rw [List.eq_of_mem_replicate hx]; exact hc⟩
  simp only [List.mem_cons, List.not_mem_nil, or_false] at he
  rcases he with rfl | rfl | rfl
  · exact ⟨by decide, by decide, by decide, hd _ (by simp [IsB64Char])⟩
  · exact ⟨by decide, by decide, by decide, hd _ (by simp [IsB64Char])⟩
  · trivial

/-- What a complete line contributes stays, whatever is appended after it. -/
theorem run_file_sub : ∀ (h : List ReplayEvent) (s : ReplayState) (a d : Str), EndsLine a →
    (∃ x, s.file = a ++ x) → d ∈ cacheOf a → d ∈ s.cache → d ∈ (replayRun s h).cache := by
  intro h
  induction h with
  | nil => intro s a d _ _ _ hc; exact hc
  | cons e es ih =>
    intro s a d ha hx hd hc
    obtain ⟨x, hx⟩ := hx
    have re : ∀ y, d ∈ cacheOf (a ++ y) := by
      intro y; rw [cacheOf_append _ _ ha]; exact List.mem_append.2 (.inr hd)
    cases e with
    | record i d' =>
      exact ih ⟨d' :: s.cache, s.file ++ replayLine (toInfo i) d'⟩ a d ha
        ⟨x ++ replayLine (toInfo i) d', by simp [hx]⟩ hd (List.mem_cons.2 (.inr hc))
    | recordFailed i d' =>
      exact ih ⟨d' :: s.cache, s.file⟩ a d ha ⟨x, hx⟩ hd (List.mem_cons.2 (.inr hc))
    | restart =>
      exact ih ⟨cacheOf s.file, s.file⟩ a d ha ⟨x, hx⟩ hd (by
        show d ∈ cacheOf s.file
        rw [hx]; exact re x)
    | crash i d' k =>
      exact ih ⟨cacheOf (s.file ++ (replayLine (toInfo i) d').take k), s.file ++ (replayLine (toInfo i) d').take k⟩
        a d ha ⟨x ++ (replayLine (toInfo i) d').take k, by simp [hx]⟩ hd (by
          show d ∈ cacheOf (s.file ++ _)
          rw [hx, List.append_assoc]; exact re _)

theorem run_endsLine : ∀ (h : List ReplayEvent) (s : ReplayState), EndsLine s.file →
    (∀ e ∈ h, e.isCrash = false) → EndsLine (replayRun s h).file := by
  intro h
  induction h with
  | nil => intro s he _; exact he
  | cons e es ih =>
    intro s he hcr
    have hcr' : ∀ e ∈ es, e.isCrash = false := fun x hx => hcr x (by simp [hx])
    cases e with
    | record i d => exact ih ⟨_, _⟩ (endsLine_line _ _ _) hcr'
    | recordFailed i d => exact ih ⟨_, _⟩ he hcr'
    | restart => exact ih ⟨_, _⟩ he hcr'
    | crash i d k => exact absurd (hcr (.crash i d k) (by simp)) (by simp [ReplayEvent.isCrash])

/-- C25, partial: a digest whose append completed is recognised in every later state, whatever
crashes and restarts come before and after, provided another append has completed between the last
crash before it and itself (or there was no crash before it).  Missing: the first append after a
crash, which the code writes onto the torn line (`C25_record_lost_after_crash`). -/
theorem C25_recorded_digest_recognised_partial (f : Option Str) (hf : CleanFile f)
    (h1 h2 : List ReplayEvent) (i : PacketInfo) (d : Str)
    (hok : (ReplayEvent.record i d).Ok)
    (hline : (∀ e ∈ h1, e.isCrash = false) ∨
      ∃ h0 j e h', h1 = h0 ++ .record j e :: h' ∧ ∀ e ∈ h', e.isCrash = false) :
    is_replay (replayRun (replayStart f) (h1 ++ .record i d :: h2)).cache d = true := by
  have he : EndsLine (replayRun (replayStart f) h1).file := by
    rcases hline with h | ⟨h0, j, e, h', rfl, h⟩
    · exact run_endsLine h1 _ (start_endsLine hf) h
    · rw [replayRun_append]
      exact run_endsLine h' ⟨_, _⟩ (endsLine_line _ _ _) h
  obtain ⟨p1, p2, p3, p4⟩ := hok
  rw [replayRun_append]
  have key : cacheOf ((replayRun (replayStart f) h1).file ++ replayLine (toInfo i) d) =
      d :: cacheOf (replayRun (replayStart f) h1).file := by
    rw [cacheOf_append _ _ he, cacheOf_line (toInfo i) d (digestText_of p4) ⟨p1, p2, p3⟩]; rfl
  exact is_replay_of_mem (run_file_sub h2
    ⟨d :: (replayRun (replayStart f) h1).cache, (replayRun (replayStart f) h1).file ++ replayLine (toInfo i) d⟩
    ((replayRun (replayStart f) h1).file ++ replayLine (toInfo i) d) d (endsLine_line _ _ _)
    ⟨[], by simp⟩ (by rw [key]; simp) (by simp))

/-- C25: until the daemon next stops or dies, every digest it recorded is recognised, whatever the
file looks like. -/
theorem C25_recognised_until_stopped (s : ReplayState) (h : List ReplayEvent) (i : PacketInfo) (d : Str)
    (hrun : ∀ e ∈ h, (∃ j x, e = .record j x) ∨ ∃ j x, e = .recordFailed j x) :
    is_replay (replayRun (replayStep s (.record i d)) h).cache d = true := by
  have : ∀ (h : List ReplayEvent) (s : ReplayState),
      (∀ e ∈ h, (∃ j x, e = .record j x) ∨ ∃ j x, e = .recordFailed j x) → d ∈ s.cache →
      d ∈ (replayRun s h).cache := by
    intro h
    induction h with
    | nil => intro s _ hd; exact hd
    | cons e es ih =>
      intro s hr hd
      rcases hr e (by simp) with ⟨j, x, rfl⟩ | ⟨j, x, rfl⟩
      · exact ih ⟨_, _⟩ (fun e h => hr e (by simp [h])) (List.mem_cons.2 (.inr hd))
      · exact ih ⟨_, _⟩ (fun e h => hr e (by simp [h])) (List.mem_cons.2 (.inr hd))
  exact is_replay_of_mem (this h _ hrun (List.mem_cons.2 (.inl rfl)))

/- A concrete history: two records, a restart, a crash in the middle of a third, a fourth, a fifth
and another restart; the first two and the fifth are still recognised. -/
example :
    let r := fun c => ReplayEvent.record sampleInfo (sampleDigest c)
    let s := replayRun (replayStart none)
      [r 65, r 66, .restart, .crash sampleInfo (sampleDigest 67) 50, r 68, r 69, .restart]
    is_replay s.cache (sampleDigest 65) = true ∧ is_replay s.cache (sampleDigest 66) = true ∧
    is_replay s.cache (sampleDigest 69) = true ∧ is_replay s.cache (sampleDigest 70) = false := by
  decide +kernel

/- The hypotheses of the theorems above are met by it. -/
example : (ReplayEvent.record sampleInfo (sampleDigest 69)).Ok :=
  ⟨by decide, by decide, by decide, by simp [sampleDigest], fun x hx => by
    rw [List.eq_of_mem_replicate hx]; simp [IsB64Char]⟩

end Fwknop.Props
