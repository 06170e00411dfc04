import Verif.Model.Words

/-!
# SHA-1 (lib/sha1.c), compiled without UNRAVEL and UNROLL_LOOPS
-/

namespace Fwknop.Sha1

/-- `digest[0]` to `digest[4]`, or the registers A to E. -/
abbrev State := BitVec 32 × BitVec 32 × BitVec 32 × BitVec 32 × BitVec 32

/-- `SHA1_INFO`, lib/sha1.h:52-57.  The counters are `uint32_t` values. -/
structure Info where
  digest : State
  count_lo : Nat
  count_hi : Nat
  data : Str
  loc : Nat
  deriving DecidableEq, Repr

/-- `f1` to `f4`, lib/sha1.c:21-24. -/
def f (n : Nat) (x y z : BitVec 32) : BitVec 32 :=
  match n with
  | 1 => (x &&& y) ||| (~~~x &&& z)
  | 2 => x ^^^ y ^^^ z
  | 3 => (x &&& y) ||| (x &&& z) ||| (y &&& z)
  | _ => x ^^^ y ^^^ z

/-- `CONST1` to `CONST4`, lib/sha1.c:27-30. -/
def CONST (n : Nat) : BitVec 32 :=
  match n with
  | 1 => 0x5a827999
  | 2 => 0x6ed9eba1
  | 3 => 0x8f1bbcdc
  | _ => 0xca62c1d6

/-- `R32`, lib/sha1.c:36.  (`T32` is the reduction to 32 bits, which the bit vectors do.) -/
def R32 (x : BitVec 32) (n : Nat) : BitVec 32 := x <<< n ||| x >>> (32 - n)

/-- The byte swap on a little-endian host, lib/sha1.c:76-82. -/
def swap (T : BitVec 32) : BitVec 32 :=
  ((T <<< 24) &&& 0xff000000) ||| ((T <<< 8) &&& 0x00ff0000) |||
    ((T >>> 8) &&& 0x0000ff00) ||| ((T >>> 24) &&& 0x000000ff)

/-- `W`, lib/sha1.c:76-83 and 130-133: the first `16 + n` elements. -/
def W (data : Str) : Nat → List (BitVec 32)
  | 0 => (List.range 16).map fun i => swap (loadW 4 data i)
  | n + 1 =>
    let w := W data n
    let i := 16 + n
    w ++ [R32 (w.getD (i - 3) 0 ^^^ w.getD (i - 8) 0 ^^^ w.getD (i - 14) 0 ^^^ w.getD (i - 16) 0) 1]

/-- `FG(n)`, lib/sha1.c:39-41, with the element `*WP++`. -/
def FG (n : Nat) : State → BitVec 32 → State
  | (A, B, C, D, E), w =>
    let T := R32 A 5 + f n B C D + E + w + CONST n
    (T, A, R32 B 30, C, D)

/-- `sha1_transform`, lib/sha1.c:63-176. -/
def sha1_transform (s : Info) : Info :=
  let w := W s.data 64
  let r := (w.take 20).foldl (FG 1) s.digest
  let r := ((w.drop 20).take 20).foldl (FG 2) r
  let r := ((w.drop 40).take 20).foldl (FG 3) r
  let r := ((w.drop 60).take 20).foldl (FG 4) r
  let d := s.digest
  { s with
    digest := (d.1 + r.1, d.2.1 + r.2.1, d.2.2.1 + r.2.2.1, d.2.2.2.1 + r.2.2.2.1,
      d.2.2.2.2 + r.2.2.2.2) }

/-- `sha1_init`, lib/sha1.c:180-191.  `data` is not initialised: `junk` is what the memory held. -/
def sha1_init (junk : Str) : Info where
  digest := (0x67452301, 0xefcdab89, 0x98badcfe, 0x10325476, 0xc3d2e1f0)
  count_lo := 0
  count_hi := 0
  data := junk
  loc := 0

/-- The loop over whole blocks and the final copy, lib/sha1.c:222-229. -/
def updateLoop : (fuel : Nat) → Info → Str → Res Info
  | 0, _, _ => .ub
  | fuel + 1, s, buffer =>
    if buffer.length ≥ 64 then do
      let x ← fetch buffer 64
      let data ← put s.data 0 x
      updateLoop fuel (sha1_transform { s with data }) (buffer.drop 64)
    else do
      let data ← put s.data 0 buffer
      return { s with data, loc := buffer.length }

/-- The bit count, lib/sha1.c:201-206. -/
def addBits (s : Info) (count : Nat) : Info :=
  let clo := (s.count_lo + count * 8 % 2 ^ 32) % 2 ^ 32
  let hi := if clo < s.count_lo then (s.count_hi + 1) % 2 ^ 32 else s.count_hi
  { s with count_lo := clo, count_hi := (hi + count / 2 ^ 29) % 2 ^ 32 }

/-- `sha1_update`, lib/sha1.c:195-230, for a `count` that is the length of `buffer` and fits an
`int`. -/
def sha1_update (s0 : Info) (buffer : Str) : Res Info :=
  let count := buffer.length
  let s := addBits s0 count
  if s.loc ≠ 0 then
    let i := if 64 - s.loc > count then count else 64 - s.loc
    do
      let x ← fetch buffer i
      let data ← put s.data s.loc x
      let s := { s with data, loc := s.loc + i }
      if s.loc = 64 then updateLoop (count + 1) (sha1_transform s) (buffer.drop i)
      else return s
  else updateLoop (count + 1) s buffer

/-- The four bytes of a word as lib/sha1.c:237-256 and 278-285 write them. -/
def bytes (w : Nat) : Str := [w / 2 ^ 24 % 256, w / 2 ^ 16 % 256, w / 2 ^ 8 % 256, w % 256]

/-- `sha1_transform_and_copy`, lib/sha1.c:233-257. -/
def sha1_transform_and_copy (s : Info) : Str :=
  let d := (sha1_transform s).digest
  bytes d.1.toNat ++ bytes d.2.1.toNat ++ bytes d.2.2.1.toNat ++ bytes d.2.2.2.1.toNat ++
    bytes d.2.2.2.2.toNat

/-- The padding, lib/sha1.c:268-277. -/
def pad (s : Info) : Res Info := do
  let count := s.count_lo / 8 % 64
  let data ← put s.data count [0x80]
  let count := count + 1
  if count > 64 - 8 then do
    let data ← put data count (List.replicate (64 - count) 0)
    let s := sha1_transform { s with data }
    let data ← put s.data 0 (List.replicate (64 - 8) 0)
    return { s with data }
  else do
    let data ← put data count (List.replicate (64 - 8 - count) 0)
    return { s with data }

/-- `sha1_final`, lib/sha1.c:260-287. -/
def sha1_final (s0 : Info) : Res Str := do
  let s ← pad s0
  let data ← put s.data 56 (bytes s0.count_hi)
  let data ← put data 60 (bytes s0.count_lo)
  return sha1_transform_and_copy { s with data }

/-- `sha1`, lib/digest.c:62-70: the digest of `m`, with the context in memory that held `junk`.  The
length is converted to `int`; if that makes it negative, `memcpy` is called with a huge length. -/
def sha1 (junk m : Str) : Res Str := do
  Res.mem (2 ^ 31 ≤ m.length % 2 ^ 32)
  let s ← sha1_update (sha1_init junk) (m.take (m.length % 2 ^ 32))
  sha1_final s

end Fwknop.Sha1
