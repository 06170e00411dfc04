import Verif.Model.Dbm
import Verif.Props.Replay
import Verif.Props.Incoming

/-!
# C121, C122: the replay cache in a database; rotation
-/

namespace Fwknop.Props

open Fwknop Spec

/-! ## C121: no packet is honoured twice -/

/-- The digests of the packets that were honoured. -/
def honoured (ps : List DbPacket) (bs : List Bool) : List Str := ((ps.zip bs).filter (·.2)).map fun x => x.1.digest

/-- Nothing that is in the database disappears. -/
theorem add_keeps {k : DbCalls} {i : ReplayInfo} {db : Db} {d x : Str} (h : db x ≠ none) : (add_replay_dbm_cache k i db d).2 x ≠ none := by
  unfold add_replay_dbm_cache
  split
  · exact h
  · split
    · split
      · simp only [Db.store]; split <;> simp [h]
      · exact h
    · exact h

theorem stanzas_keep {i : ReplayInfo} {d x : Str} : ∀ (ks : List DbCalls) (db : Db), db x ≠ none → (addForStanzas i d ks db).2 x ≠ none
  | [], db, h => h
  | k :: ks, db, h => by
    have := add_keeps (k := k) (i := i) (d := d) h
    unfold addForStanzas
    split
    · rename_i db' e; rw [e] at this; exact this
    · rename_i r db' _ e; rw [e] at this; exact stanzas_keep ks db' this

theorem lookup_keeps {k : DbCalls} {now : Int} {db : Db} {d x : Str} (h : db x ≠ none) : (is_replay_dbm_cache k now db d).2 x ≠ none := by
  unfold is_replay_dbm_cache
  split
  · exact h
  · split
    · exact h
    · simp only
      split
      · simp only [Db.store]; split <;> simp [h]
      · exact h

theorem packet_keeps {db : Db} {p : DbPacket} {x : Str} (h : db x ≠ none) : (dbPacket db p).2 x ≠ none := by
  have := lookup_keeps (k := p.lookup) (now := p.now) (d := p.digest) h
  unfold dbPacket
  split
  · rename_i db' e; rw [e] at this; exact stanzas_keep _ _ this
  · rename_i r db' _ e; rw [e] at this; exact this

/-- What is known is not honoured. -/
theorem known_dropped {db : Db} {p : DbPacket} (h : db p.digest ≠ none) : (dbPacket db p).1 = false := by
  unfold dbPacket is_replay_dbm_cache
  split
  · rename_i db' e
    split at e
    · cases e
    · split at e
      · rename_i h'; exact absurd h' h
      · cases e
  · rfl

/-- What is honoured is in the database, if the calls of `gdbm_store` work. -/
theorem stanzas_record {i : ReplayInfo} {d : Str} : ∀ (ks : List DbCalls) (db : Db), (∀ k ∈ ks, k.stores = true) →
    (addForStanzas i d ks db).1 = true → (addForStanzas i d ks db).2 d ≠ none
  | [], _, _, h => by cases h
  | k :: ks, db, hk, h => by
    unfold addForStanzas at h ⊢
    split
    · rename_i db' e
      unfold add_replay_dbm_cache at e
      split at e
      · cases e
      · split at e
        · rw [hk k List.mem_cons_self, if_pos rfl] at e
          cases e
          simp [Db.store]
        · cases e
    · rename_i r db' hr e
      rw [e] at h
      refine stanzas_record ks db' (fun k h => hk k (List.mem_cons_of_mem _ h)) ?_
      cases r with
      | success => exact absurd rfl hr
      | replay => exact h
      | error => exact h

theorem packet_records {db : Db} {p : DbPacket} (hk : ∀ k ∈ p.stanzas, k.stores = true) (h : (dbPacket db p).1 = true) :
    (dbPacket db p).2 p.digest ≠ none := by
  unfold dbPacket at h ⊢
  split
  · rename_i db' e
    rw [e] at h
    exact stanzas_record _ _ hk h
  · rename_i r db' hr e
    rw [e] at h
    cases r with
    | success => exact absurd rfl hr
    | replay => cases h
    | error => cases h

theorem honoured_cons (p : DbPacket) (ps : List DbPacket) (db : Db) :
    honoured (p :: ps) (dbRun (p :: ps) db).1 =
      (if (dbPacket db p).1 = true then [p.digest] else []) ++ honoured ps (dbRun ps (dbPacket db p).2).1 := by
  show (((p, (dbPacket db p).1) :: ps.zip (dbRun ps (dbPacket db p).2).1).filter (·.2)).map _ = _
  rw [List.filter_cons]
  split <;> rfl

theorem honoured_unknown : ∀ (ps : List DbPacket) (db : Db), ∀ d ∈ honoured ps (dbRun ps db).1, db d = none
  | [], _, d, h => by cases h
  | p :: ps, db, d, h => by
    rw [honoured_cons] at h
    rcases List.mem_append.1 h with h | h
    · split at h
      · rename_i hp
        rcases List.mem_singleton.1 h with rfl
        cases hd : db p.digest with
        | none => rfl
        | some e => rw [known_dropped (by rw [hd]; simp)] at hp; cases hp
      · cases h
    · have := honoured_unknown ps _ d h
      cases hd : db d with
      | none => rfl
      | some e => exact absurd this (packet_keeps (by rw [hd]; simp))

/-- **C121** (part): whatever the database holds, whatever packets arrive and whenever opening the database or
counting a replay fails: if the calls that add a digest work, no two packets with the same digest are honoured,
and none whose digest is in the database.  What is missing: calls that add a digest and fail
(`C121_false_a_full_disk`), and a database that cannot be opened at the start (`C121_false_not_remembered`). -/
theorem C121_once_partial : ∀ (ps : List DbPacket) (db : Db), (∀ p ∈ ps, ∀ k ∈ p.stanzas, k.stores = true) →
    (honoured ps (dbRun ps db).1).Nodup ∧ ∀ d ∈ honoured ps (dbRun ps db).1, db d = none
  | [], _, _ => ⟨.nil, fun d h => by cases h⟩
  | p :: ps, db, hk => by
    refine ⟨?_, honoured_unknown _ _⟩
    obtain ⟨ih, _⟩ := C121_once_partial ps (dbPacket db p).2 fun p h => hk p (List.mem_cons_of_mem _ h)
    rw [honoured_cons]
    split
    · rename_i hp
      refine List.nodup_cons.2 ⟨fun h => ?_, ih⟩
      exact packet_records (hk p List.mem_cons_self) hp (honoured_unknown _ _ _ h)
    · exact ih

/-- **C121 is false** if the database cannot be written: the error is overwritten, and one packet is honoured as
often as it is sent. -/
theorem C121_false_a_full_disk (db : Db) (p : DbPacket) (hd : db p.digest = none) (hl : p.lookup.opens = true)
    (hk : ∃ ks, p.stanzas = ⟨true, false⟩ :: ks) (n : Nat) : (dbRun (List.replicate n p) db).1 = List.replicate n true := by
  obtain ⟨ks, hk⟩ := hk
  have hp : dbPacket db p = (true, db) := by
    simp [dbPacket, is_replay_dbm_cache, addForStanzas, add_replay_dbm_cache, hl, hd, hk]
  induction n with
  | zero => rfl
  | succ n ih =>
    show (dbPacket db p).1 :: (dbRun (List.replicate n p) (dbPacket db p).2).1 = true :: _
    rw [hp, ih]

/-- **C121**: a packet that is not in the database, and that some stanza authenticates, is honoured and added with
its addresses and no replays, if the calls work; other entries stay. -/
theorem C121_new_packets (db : Db) (p : DbPacket) (hd : db p.digest = none) (hl : p.lookup.opens = true)
    (hs : p.stanzas ≠ []) (hk : ∀ k ∈ p.stanzas, k.opens = true ∧ k.stores = true) :
    (dbPacket db p).1 = true ∧ (∃ e, (dbPacket db p).2 p.digest = some e ∧ e.info = p.info ∧ e.replay_count = 0) ∧
      ∀ x, x ≠ p.digest → (dbPacket db p).2 x = db x := by
  cases hps : p.stanzas with
  | nil => exact absurd hps hs
  | cons k ks =>
    obtain ⟨h1, h2⟩ := hk k (by rw [hps]; exact List.mem_cons_self)
    have hp : dbPacket db p = (true, db.store p.digest { info := p.info }) := by
      simp [dbPacket, is_replay_dbm_cache, addForStanzas, add_replay_dbm_cache, hl, hd, hps, h1, h2]
    rw [hp]
    exact ⟨rfl, ⟨_, by simp [Db.store]; rfl, rfl, rfl⟩, fun x h => by simp [Db.store, h]⟩

/-- The times of replays. -/
def replayTimes (ps : List DbPacket) : List Int := ps.map (·.now)

/-- **C121**: replays are counted.  After any replays of a packet that is in the database, if the calls work, none
of them was honoured, its entry has their number and the times of the first and the last one, and still the
addresses of the packet that was honoured. -/
theorem C121_replays_are_counted : ∀ (ps : List DbPacket) (db : Db) (d : Str) (e : DbmInfo), db d = some e →
    (∀ p ∈ ps, p.digest = d ∧ p.lookup.opens = true ∧ p.lookup.stores = true) →
    (dbRun ps db).1 = List.replicate ps.length false ∧
    ∃ e', (dbRun ps db).2 d = some e' ∧ e'.info = e.info ∧ e'.replay_count = e.replay_count + ps.length ∧
      e'.last_replay = (replayTimes ps).getLast?.getD e.last_replay ∧
      e'.first_replay = if e.replay_count = 0 then (replayTimes ps).head?.getD e.first_replay else e.first_replay
  | [], db, d, e, h, _ => ⟨rfl, e, h, rfl, rfl, rfl, by split <;> rfl⟩
  | p :: ps, db, d, e, h, hp => by
    obtain ⟨rfl, h2, h3⟩ := hp p List.mem_cons_self
    have hr : dbPacket db p = (false, db.store p.digest (replay_warning p.now e)) := by
      unfold dbPacket is_replay_dbm_cache
      rw [h2, h, h3]
      rfl
    obtain ⟨i1, e', i2, i3, i4, i5, i6⟩ := C121_replays_are_counted ps (db.store p.digest (replay_warning p.now e)) p.digest
      (replay_warning p.now e) (by simp [Db.store]) fun q h => hp q (List.mem_cons_of_mem _ h)
    have h1 : (dbRun (p :: ps) db) = (false :: (dbRun ps (db.store p.digest (replay_warning p.now e))).1,
        (dbRun ps (db.store p.digest (replay_warning p.now e))).2) := by
      show ((dbPacket db p).1 :: _, _) = _
      rw [hr]
    rw [h1]
    refine ⟨by show false :: _ = _; rw [i1]; rfl, e', i2, i3, by rw [i4]; simp [replay_warning]; omega, ?_, ?_⟩
    · rw [i5]
      show _ = ((p.now :: replayTimes ps).getLast?).getD _
      rw [List.getLast?_cons]
      rfl
    · rw [i6]
      by_cases h0 : e.replay_count = 0
      · simp [replay_warning, replayTimes, h0]
      · simp [replay_warning, h0]

/-- **C121 is false** if the cache cannot be opened at the start, also with the file: the daemon goes on without one,
and a replayed packet is honoured.  If it can be opened, it is not. -/
theorem C121_false_not_remembered (rotate renames opens : Bool) (f : CacheFiles) :
    counts { persistence := (startCache rotate renames opens f).1 } [sampleStanza]
      [sampleArrival 1700000010 sampleText, sampleArrival 1700000011 sampleText] = .ok [1, if opens then 0 else 1] := by
  cases opens
  · show counts { persistence := false } _ _ = _
    decide +kernel
  · show counts { persistence := true } _ _ = _
    decide +kernel

/-! ## C122: rotation -/

/-- **C122** (part): with --rotate-digest-cache, the first start puts the file aside as it is and begins a new
one. -/
theorem C122_put_aside_partial (c : Str) (old : Option Str) :
    startCache true true true ⟨some c, old⟩ = (true, [], ⟨some replayHeader, some c⟩) := rfl

/-- **C122**: without the option, or if the file cannot be renamed, nothing is put aside, and every digest of the
file is known. -/
theorem C122_without (rotate : Bool) (c : Str) (old : Option Str) (renames : Bool) (h : rotate = false ∨ renames = false) :
    startCache rotate renames true ⟨some c, old⟩ = (true, cacheOf c, ⟨some c, old⟩) := by
  rcases h with rfl | rfl
  · rfl
  · cases rotate <;> rfl

/-- **C122 is false**: the option is obeyed again at every SIGHUP.  Whatever has been recorded since the start
is not recognised after it. -/
theorem C122_false_a_reload_forgets (f : CacheFiles) (hc : f.current ≠ none) (d : Str) :
    is_replay (startCache true true true f).2.1 d = false := by
  obtain ⟨c, o⟩ := f
  cases c with
  | none => exact absurd rfl hc
  | some c => rfl

/-- **C122 is false**: what was put aside at the start is gone after a SIGHUP; with two of them in a row
nothing is left of what was recorded before. -/
theorem C122_false_put_aside_is_lost (f : CacheFiles) (hc : f.current ≠ none) :
    let s := (startCache true true true f).2.2
    (startCache true true true s).2.2 = ⟨some replayHeader, some replayHeader⟩ := by
  obtain ⟨c, o⟩ := f
  cases c with
  | none => exact absurd rfl hc
  | some c => rfl

/-- A packet is sent to a daemon that has started with this option, and again after SIGHUP: how often it is
honoured. -/
def aroundReload (rotate : Bool) : Res (List Nat) := do
  let s := startCache rotate true true ⟨none, none⟩
  let r ← serve {} sampleEnv ⟨[sampleStanza], s.2.1, s.2.2.current.getD [], []⟩ [sampleArrival 1700000010 sampleText]
  let t := startCache rotate true true { s.2.2 with current := some r.1.file }
  let r' ← serve {} sampleEnv ⟨[sampleStanza], t.2.1, t.2.2.current.getD [], []⟩ [sampleArrival 1700000011 sampleText]
  return r.2.map (·.length) ++ r'.2.map (·.length)

/-- **C122 is false**: with the option, a packet is honoured again after SIGHUP; without, it is not. -/
theorem C122_false_replay_after_reload : aroundReload true = .ok [1, 1] ∧ aroundReload false = .ok [1, 0] :=
  ⟨by decide +kernel, by decide +kernel⟩

/-- A daemon with --rotate-digest-cache honours a packet, gets SIGHUP, and honours it again: the digest is recorded in
the file, but not known after the reload. -/
example : let f : CacheFiles := ⟨some (replayHeader ++ replayLine ⟨17, 1, 2, 40000, 62201, 1700000000⟩ (List.replicate 43 97)), none⟩
    is_replay (startCache false true true f).2.1 (List.replicate 43 97) = true ∧
    is_replay (startCache true true true f).2.1 (List.replicate 43 97) = false := by decide +kernel

/-! ## Examples -/

/-- A packet, with these calls when it is added. -/
def dbSample (c : Nat) (now : Int) (k : List DbCalls) : DbPacket := ⟨List.replicate 43 c, ⟨17, 1, 2, 40000, 62201, now⟩, now, ⟨true, true⟩, k⟩

/-- Two packets, the first one twice; with a full disk it is honoured twice. -/
example : (dbRun [dbSample 97 1 [⟨true, true⟩], dbSample 98 2 [⟨false, true⟩, ⟨true, true⟩], dbSample 97 3 [⟨true, true⟩]] fun _ => none).1 =
      [true, true, false] ∧
    (dbRun [dbSample 97 1 [⟨true, false⟩], dbSample 97 3 [⟨true, true⟩]] fun _ => none).1 = [true, true] := by decide +kernel

/-- The hypotheses of `C121_once_partial`, `C121_new_packets` and `C121_replays_are_counted` are met. -/
example : (∀ p ∈ [dbSample 97 1 [⟨true, true⟩], dbSample 98 2 [⟨false, true⟩, ⟨true, true⟩]], ∀ k ∈ p.stanzas, k.stores = true) ∧
    (dbSample 97 1 [⟨true, true⟩]).stanzas ≠ [] := ⟨by simp [dbSample], by simp [dbSample]⟩

end Fwknop.Props
