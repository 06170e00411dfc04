import Verif.Model.Ctx

/-!
# The replay cache (server/replay_cache.c, USE_FILE_CACHE, which configure.ac makes the default)

Addresses are numbers in host order (the text of `inet_ntop` is their dotted quad).  The cache
is a list of digests; the other members of an entry are only logged.  A cached digest lives in a
zero-filled buffer, so comparing beyond its text reads zeros.  File permissions, and failures of
`fprintf` and `fclose`, which the code does not look at, are not modelled here; a crash in the
middle of the append is.
-/

namespace Fwknop

abbrev MAX_LINE_LEN : Nat := 1024
abbrev MAX_DIGEST_SIZE : Nat := 64

/-- `inet_ntop(AF_INET, ...)` for the address with host order value `v`. -/
def inet_ntop (v : Nat) : Str :=
  decStr (v / 2 ^ 24 % 256) ++ 46 :: (decStr (v / 2 ^ 16 % 256) ++ 46 ::
    (decStr (v / 2 ^ 8 % 256) ++ 46 :: decStr (v % 256)))

/-- One part of a dotted quad as glibc's `inet_pton` reads it: digits, at most 255, no superfluous
leading zero. -/
def ptonOctet (s : Str) : Bool :=
  s ≠ [] && s.all isDigit && digitsVal 10 s ≤ 255 && !(s.length > 1 && s.headD 0 = 48)

/-- The parts of a text between dots. -/
def splitDots : Str → Str × List Str
  | [] => ([], [])
  | c :: cs =>
    let r := splitDots cs
    if c = 46 then ([], r.1 :: r.2) else (c :: r.1, r.2)

/-- `inet_pton(AF_INET, s, ...) == 1`. -/
def inet_pton (s : Str) : Bool :=
  match splitDots s with
  | (a, [b, c, d]) => ptonOctet a && ptonOctet b && ptonOctet c && ptonOctet d
  | _ => false

/-- The packet data written beside a digest, server/replay_cache.h:36-49. -/
structure ReplayInfo where
  proto : Nat
  src_ip : Nat
  dst_ip : Nat
  src_port : Nat
  dst_port : Nat
  created : Int

/-- The line written by `add_replay_file_cache`, server/replay_cache.c:513-520. -/
def replayLine (i : ReplayInfo) (digest : Str) : Str :=
  digest ++ 32 :: (decStr i.proto ++ 32 :: (inet_ntop i.src_ip ++ 32 :: (decStr i.src_port ++ 32 ::
    (inet_ntop i.dst_ip ++ 32 :: (decStr i.dst_port ++ 32 :: (decStrInt (toInt32 i.created) ++ [10]))))))

/-- The header of a new file, server/replay_cache.c:219. -/
abbrev replayHeader : Str := b!"# <digest> <proto> <src_ip> <src_port> <dst_ip> <dst_port> <time>" ++ [10]

/-- `fgets`: at most `room` bytes, up to and including the first newline; and what is left. -/
def fgetsOne : (room : Nat) → Str → Str × Str
  | 0, s => ([], s)
  | _ + 1, [] => ([], [])
  | n + 1, c :: cs =>
    if c = 10 then ([c], cs)
    else
      let r := fgetsOne n cs
      (c :: r.1, r.2)

/-- The successive results of `fgets(line_buf, MAX_LINE_LEN, ...)`. -/
def fgetsLines : (fuel : Nat) → Str → List Str
  | 0, _ => []
  | _ + 1, [] => []
  | f + 1, c :: cs =>
    let r := fgetsOne (MAX_LINE_LEN - 1) (c :: cs)
    r.1 :: fgetsLines f r.2

/-- `IS_EMPTY_LINE`, server/utils.h:52-54. -/
def isEmptyLine (c : Nat) : Bool := c = 35 || c = 10 || c = 13 || c = 59 || c = 0

/-- The `sscanf` conversion `%ws`. -/
def scanStr (w : Nat) (s : Str) : Option (Str × Str) :=
  let s' := s.dropWhile isSpace
  let t := (s'.takeWhile fun c => !isSpace c).take w
  if t = [] then none else some (t, s'.drop t.length)

/-- The `sscanf` conversions `%hhu`, `%hu` and `%ld`: what is left after the number. -/
def scanNum (s : Str) : Option Str :=
  let r := splitSign (s.dropWhile isSpace)
  let ds := r.2.takeWhile isDigit
  if ds = [] then none else some (r.2.drop ds.length)

/-- `sscanf(line, "%64s %hhu %16s %hu %16s %hu %ld", ...) == 7`, server/replay_cache.c:292-299: the
digest and the two addresses. -/
def scanEntry (line : Str) : Option (Str × Str × Str) := do
  let d ← scanStr MAX_DIGEST_SIZE line
  let s ← scanNum d.2
  let a ← scanStr 16 s
  let s ← scanNum a.2
  let b ← scanStr 16 s
  let s ← scanNum b.2
  let _ ← scanNum s
  return (d.1, a.1, b.1)

/-- One pass of the loop of `replay_file_cache_init`, server/replay_cache.c:268-343: the digest the
line contributes. -/
def lineDigest (line : Str) : Option Str :=
  if isEmptyLine (line.headD 0) then none
  else
    match scanEntry (line.takeWhile (· ≠ 0)) with
    | none => none
    | some (d, a, b) => if inet_pton a && inet_pton b then some d else none

/-- `replay_file_cache_init`, server/replay_cache.c:210-352, for an existing readable file: the
list, the last line's digest first. -/
def cacheOf (file : Str) : List Str :=
  ((fgetsLines (file.length + 1) file).filterMap lineDigest).reverse

/-- `replay_file_cache_init`: `none` is a file that does not exist; the cache and the file
afterwards. -/
def replay_file_cache_init : Option Str → List Str × Str
  | none => ([], replayHeader)
  | some f => (cacheOf f, f)

/-- `is_replay_file_cache`, server/replay_cache.c:424-447: is the digest in the cache? -/
def is_replay (cache : List Str) (digest : Str) : Bool :=
  cache.any fun e => constant_runtime_cmp e digest digest.length = 0

/-- `add_replay_file_cache`, server/replay_cache.c:450-526: the cache, the file and success;
`open_ok` says whether `fopen` succeeds. -/
def add_replay (open_ok : Bool) (i : ReplayInfo) (digest : Str) (cache : List Str) (file : Str) :
    List Str × Str × Bool :=
  if open_ok then (digest :: cache, file ++ replayLine i digest, true)
  else (digest :: cache, file, false)

example : inet_ntop 0x7F000001 = b!"127.0.0.1" := by decide
example : inet_pton b!"127.0.0.1" = true ∧ inet_pton b!"127.0.0.01" = false ∧
    inet_pton b!"1.2.3" = false ∧ inet_pton b!"1.2.3.256" = false := by decide
/- the example line in the comment at server/replay_cache.c:262-266 -/
example : lineDigest b!"7XgadOyqv0tF5xG8uhg2iIrheeNKglCWKmxQDgYP1dY 17 127.0.0.1 40305 127.0.0.1 62201 1313283481" =
    some b!"7XgadOyqv0tF5xG8uhg2iIrheeNKglCWKmxQDgYP1dY" := by decide +kernel
example : cacheOf replayHeader = [] := by decide +kernel

end Fwknop
