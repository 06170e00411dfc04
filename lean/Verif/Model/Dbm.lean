import Verif.Model.Replay

/-!
# The replay cache in a database, rotation, and the start of the cache (server/replay_cache.c)

The variant without USE_FILE_CACHE, with gdbm.  A database is a map from digests to entries; opening and
storing may fail.  Also here: the rotation of the cache and what the daemon does if the cache cannot be
opened, for both variants.  Not modelled: ndbm (whose loop at the start reads an uninitialised variable), a crash
in the middle of `gdbm_store`, the width of the number of replays.
-/

namespace Fwknop

/-- `digest_cache_info_t`, server/replay_cache.h:36-53. -/
structure DbmInfo where
  info : ReplayInfo
  first_replay : Int := 0
  last_replay : Int := 0
  replay_count : Nat := 0

/-- A database: `gdbm_fetch` gives the entry of a key. -/
abbrev Db := Str → Option DbmInfo

/-- What the cache says of a digest, server/fwknopd_errors.h. -/
inductive CacheRes where
  | success
  | replay
  | error
deriving DecidableEq

/-- `gdbm_store` that works. -/
def Db.store (db : Db) (d : Str) (e : DbmInfo) : Db := fun x => if x = d then some e else db x

/-- `replay_warning`, server/replay_cache.c:155-170: the entry with the replay counted. -/
def replay_warning (now : Int) (e : DbmInfo) : DbmInfo :=
  { e with
    last_replay := now, replay_count := e.replay_count + 1
    first_replay := if e.replay_count + 1 = 1 then now else e.first_replay }

/-- Which calls work. -/
structure DbCalls where
  opens : Bool
  stores : Bool

/-- `is_replay_dbm_cache`, server/replay_cache.c:529-596. -/
def is_replay_dbm_cache (k : DbCalls) (now : Int) (db : Db) (digest : Str) : CacheRes × Db :=
  if !k.opens then (.error, db)
  else
    match db digest with
    | none => (.success, db)
    | some e => (.replay, if k.stores then db.store digest (replay_warning now e) else db)

/-- `add_replay_dbm_cache`, server/replay_cache.c:599-679.  The error of a store that fails is overwritten at
line 670. -/
def add_replay_dbm_cache (k : DbCalls) (i : ReplayInfo) (db : Db) (digest : Str) : CacheRes × Db :=
  if !k.opens then (.error, db)
  else
    match db digest with
    | none => (.success, if k.stores then db.store digest { info := i } else db)
    | some _ => (.error, db)

/-- A packet as far as the cache is concerned: its digest, the calls when it is looked up, and for each stanza
that authenticates it the calls when it is added. -/
structure DbPacket where
  digest : Str
  info : ReplayInfo
  now : Int
  lookup : DbCalls
  stanzas : List DbCalls

/-- The stanzas, server/incoming_spa.c:967-1037: the digest is added for the first one for which that works;
whether the packet gets on to the other checks. -/
def addForStanzas (i : ReplayInfo) (digest : Str) : List DbCalls → Db → Bool × Db
  | [], db => (false, db)
  | k :: ks, db =>
    match add_replay_dbm_cache k i db digest with
    | (.success, db) => (true, db)
    | (_, db) => addForStanzas i digest ks db

/-- A packet with persistence on, server/incoming_spa.c:377-391, 1032-1037: whether it is honoured. -/
def dbPacket (db : Db) (p : DbPacket) : Bool × Db :=
  match is_replay_dbm_cache p.lookup p.now db p.digest with
  | (.success, db) => addForStanzas p.info p.digest p.stanzas db
  | (_, db) => (false, db)

/-- A history of packets: which were honoured, and the database. -/
def dbRun : List DbPacket → Db → List Bool × Db
  | [], db => ([], db)
  | p :: ps, db =>
    let r := dbPacket db p
    let s := dbRun ps r.2
    (r.1 :: s.1, s.2)

/-! ## Rotation and start -/

/-- The file of the cache and the one beside it with `-old`. -/
structure CacheFiles where
  current : Option Str
  old : Option Str

/-- `rotate_digest_cache_file`, server/replay_cache.c:85-140: `rename`, which fails if there is no file. -/
def rotate_digest_cache_file (works : Bool) (f : CacheFiles) : CacheFiles :=
  match f.current with
  | some c => if works then ⟨none, some c⟩ else f
  | none => f

/-- `replay_cache_init` with the file cache, server/replay_cache.c:719-738, and what `main` does with the result,
server/fwknopd.c:481-495: whether digests are remembered, the cache, the files. -/
def startCache (rotate renames opens : Bool) (f : CacheFiles) : Bool × List Str × CacheFiles :=
  let f := if rotate then rotate_digest_cache_file renames f else f
  if opens then
    let r := replay_file_cache_init f.current
    (true, r.1, { f with current := some r.2 })
  else (false, [], f)

end Fwknop
