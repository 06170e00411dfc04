import Verif.Model.Words

/-!
# MD5 (lib/md5.c)
-/

namespace Fwknop.Md5

/-- `uint32_t buf[4]`. -/
abbrev State := BitVec 32 × BitVec 32 × BitVec 32 × BitVec 32

/-- `MD5Context`, lib/md5.h:44-48.  The two counters are `uint32_t` values. -/
structure Ctx where
  buf : State
  bits0 : Nat
  bits1 : Nat
  inp : Str
  deriving DecidableEq, Repr

/-- `MD5Init`, lib/md5.c:58-68.  `in` is not initialised: `junk` is what the memory held. -/
def MD5Init (junk : Str) : Ctx where
  buf := (0x67452301, 0xefcdab89, 0x98badcfe, 0x10325476)
  bits0 := 0
  bits1 := 0
  inp := junk

/-- The names of the four macros. -/
inductive Fn where
  | F1
  | F2
  | F3
  | F4
  deriving DecidableEq, Repr

/-- `F1`, lib/md5.c:179. -/
def f1 (x y z : BitVec 32) : BitVec 32 := z ^^^ (x &&& (y ^^^ z))

/-- `F1` to `F4`, lib/md5.c:179-182. -/
def Fn.eval : Fn → BitVec 32 → BitVec 32 → BitVec 32 → BitVec 32
  | .F1, x, y, z => f1 x y z
  | .F2, x, y, z => f1 z x y
  | .F3, x, y, z => x ^^^ y ^^^ z
  | .F4, x, y, z => y ^^^ (x ||| ~~~z)

/-- `MD5STEP`, lib/md5.c:186-187: the new value of `w`. -/
def MD5STEP (f : Fn) (w x y z data : BitVec 32) (s : Nat) : BitVec 32 :=
  let w := w + (f.eval x y z + data)
  let w := w <<< s ||| w >>> (32 - s)
  w + x

/-- The 64 invocations of MD5STEP, lib/md5.c:203-269: the function, the order of the registers
(0 for a b c d, 1 for d a b c, 2 for c d a b, 3 for b c d a), the index into `in`, the constant
and the rotation. -/
def lines : List (Fn × Nat × Nat × BitVec 32 × Nat) := [
  (.F1, 0,  0, 0xd76aa478,  7), (.F1, 1,  1, 0xe8c7b756, 12),
  (.F1, 2,  2, 0x242070db, 17), (.F1, 3,  3, 0xc1bdceee, 22),
  (.F1, 0,  4, 0xf57c0faf,  7), (.F1, 1,  5, 0x4787c62a, 12),
  (.F1, 2,  6, 0xa8304613, 17), (.F1, 3,  7, 0xfd469501, 22),
  (.F1, 0,  8, 0x698098d8,  7), (.F1, 1,  9, 0x8b44f7af, 12),
  (.F1, 2, 10, 0xffff5bb1, 17), (.F1, 3, 11, 0x895cd7be, 22),
  (.F1, 0, 12, 0x6b901122,  7), (.F1, 1, 13, 0xfd987193, 12),
  (.F1, 2, 14, 0xa679438e, 17), (.F1, 3, 15, 0x49b40821, 22),
  (.F2, 0,  1, 0xf61e2562,  5), (.F2, 1,  6, 0xc040b340,  9),
  (.F2, 2, 11, 0x265e5a51, 14), (.F2, 3,  0, 0xe9b6c7aa, 20),
  (.F2, 0,  5, 0xd62f105d,  5), (.F2, 1, 10, 0x02441453,  9),
  (.F2, 2, 15, 0xd8a1e681, 14), (.F2, 3,  4, 0xe7d3fbc8, 20),
  (.F2, 0,  9, 0x21e1cde6,  5), (.F2, 1, 14, 0xc33707d6,  9),
  (.F2, 2,  3, 0xf4d50d87, 14), (.F2, 3,  8, 0x455a14ed, 20),
  (.F2, 0, 13, 0xa9e3e905,  5), (.F2, 1,  2, 0xfcefa3f8,  9),
  (.F2, 2,  7, 0x676f02d9, 14), (.F2, 3, 12, 0x8d2a4c8a, 20),
  (.F3, 0,  5, 0xfffa3942,  4), (.F3, 1,  8, 0x8771f681, 11),
  (.F3, 2, 11, 0x6d9d6122, 16), (.F3, 3, 14, 0xfde5380c, 23),
  (.F3, 0,  1, 0xa4beea44,  4), (.F3, 1,  4, 0x4bdecfa9, 11),
  (.F3, 2,  7, 0xf6bb4b60, 16), (.F3, 3, 10, 0xbebfbc70, 23),
  (.F3, 0, 13, 0x289b7ec6,  4), (.F3, 1,  0, 0xeaa127fa, 11),
  (.F3, 2,  3, 0xd4ef3085, 16), (.F3, 3,  6, 0x04881d05, 23),
  (.F3, 0,  9, 0xd9d4d039,  4), (.F3, 1, 12, 0xe6db99e5, 11),
  (.F3, 2, 15, 0x1fa27cf8, 16), (.F3, 3,  2, 0xc4ac5665, 23),
  (.F4, 0,  0, 0xf4292244,  6), (.F4, 1,  7, 0x432aff97, 10),
  (.F4, 2, 14, 0xab9423a7, 15), (.F4, 3,  5, 0xfc93a039, 21),
  (.F4, 0, 12, 0x655b59c3,  6), (.F4, 1,  3, 0x8f0ccc92, 10),
  (.F4, 2, 10, 0xffeff47d, 15), (.F4, 3,  1, 0x85845dd1, 21),
  (.F4, 0,  8, 0x6fa87e4f,  6), (.F4, 1, 15, 0xfe2ce6e0, 10),
  (.F4, 2,  6, 0xa3014314, 15), (.F4, 3, 13, 0x4e0811a1, 21),
  (.F4, 0,  4, 0xf7537e82,  6), (.F4, 1, 11, 0xbd3af235, 10),
  (.F4, 2,  2, 0x2ad7d2bb, 15), (.F4, 3,  9, 0xeb86d391, 21)]

/-- One invocation. -/
def step (inp : Str) : State → Fn × Nat × Nat × BitVec 32 × Nat → State
  | (a, b, c, d), (f, o, k, t, s) =>
    let data := loadW 4 inp k + t
    match o with
    | 0 => (MD5STEP f a b c d data s, b, c, d)
    | 1 => (a, b, c, MD5STEP f d a b c data s)
    | 2 => (a, b, MD5STEP f c d a b data s, d)
    | _ => (a, MD5STEP f b c d a data s, c, d)

/-- `MD5Transform`, lib/md5.c:193-275.  `byteReverse` is empty on a little-endian host. -/
def MD5Transform (s : State) (inp : Str) : State :=
  let r := lines.foldl (step inp) s
  (s.1 + r.1, s.2.1 + r.2.1, s.2.2.1 + r.2.2.1, s.2.2.2 + r.2.2.2)

/-- The loop over 64-byte chunks and the final copy, lib/md5.c:108-119 (`fuel` bounds the number of
iterations). -/
def updateLoop : (fuel : Nat) → Ctx → Str → Res Ctx
  | 0, _, _ => .ub
  | fuel + 1, c, buf =>
    if buf.length ≥ 64 then do
      let x ← fetch buf 64
      let inp ← put c.inp 0 x
      updateLoop fuel { c with inp, buf := MD5Transform c.buf inp } (buf.drop 64)
    else do
      let inp ← put c.inp 0 buf
      return { c with inp }

/-- The bit count, lib/md5.c:79-82. -/
def addBits (c : Ctx) (len : Nat) : Ctx :=
  let b0 := (c.bits0 + len * 8 % 2 ^ 32) % 2 ^ 32
  let b1 := if b0 < c.bits0 then (c.bits1 + 1) % 2 ^ 32 else c.bits1
  { c with bits0 := b0, bits1 := (b1 + len / 2 ^ 29) % 2 ^ 32 }

/-- `MD5Update`, lib/md5.c:73-120, with `len` the length of `buf` (an `unsigned`). -/
def MD5Update (c0 : Ctx) (buf : Str) : Res Ctx :=
  let len := buf.length
  let c := addBits c0 len
  let t := c0.bits0 / 8 % 64
  if t ≠ 0 then
    if len < 64 - t then do
      let inp ← put c.inp t buf
      return { c with inp }
    else do
      let x ← fetch buf (64 - t)
      let inp ← put c.inp t x
      updateLoop (len + 1) { c with inp, buf := MD5Transform c.buf inp } (buf.drop (64 - t))
  else updateLoop (len + 1) c buf

/-- The padding, lib/md5.c:130-160: `in` with the one bit and the zeros. -/
def pad (c : Ctx) : Res Ctx := do
  let count := c.bits0 / 8 % 64
  let inp ← put c.inp count [0x80]
  let left := 64 - 1 - count
  if left < 8 then do
    let inp ← put inp (count + 1) (List.replicate left 0)
    let buf := MD5Transform c.buf inp
    let inp ← put inp 0 (List.replicate 56 0)
    return { c with inp, buf }
  else do
    let inp ← put inp (count + 1) (List.replicate (left - 8) 0)
    return { c with inp }

/-- `memcpy(digest, ctx->buf, 16)`, lib/md5.c:171. -/
def out (s : State) : Str :=
  toLE 4 s.1.toNat ++ toLE 4 s.2.1.toNat ++ toLE 4 s.2.2.1.toNat ++ toLE 4 s.2.2.2.toNat

/-- `MD5Final`, lib/md5.c:124-174.  That the context is cleared afterwards is not modelled. -/
def MD5Final (c0 : Ctx) : Res Str := do
  let c ← pad c0
  let inp ← put c.inp 56 (toLE 4 c.bits0)
  let inp ← put inp 60 (toLE 4 c.bits1)
  return out (MD5Transform c.buf inp)

/-- `md5`, lib/digest.c:37-45: the digest of `m`, with the context in memory that held `junk`.  The
length is converted to `unsigned`. -/
def md5 (junk m : Str) : Res Str := do
  let c ← MD5Update (MD5Init junk) (m.take (m.length % 2 ^ 32))
  MD5Final c

end Fwknop.Md5
