import Verif.Model.Words

/-!
# SHA-256, SHA-384 and SHA-512 (lib/sha2.c), compiled without SHA2_UNROLL_TRANSFORM on a
little-endian host

`W256` and `W512` are the context's own buffer, and in most calls of the transform so is `data`:
the buffer is therefore a run of bytes that the transform reads and writes as words.
(The unaligned reads through `data` are taken to work, as they do on the common hosts.)
-/

namespace Fwknop.Sha2

/-- `state[8]`, or the registers a to h. -/
abbrev State (w : Nat) :=
  BitVec w × BitVec w × BitVec w × BitVec w × BitVec w × BitVec w × BitVec w × BitVec w

/-- `Ch`, lib/sha2.c:221. -/
def Ch {w : Nat} (x y z : BitVec w) : BitVec w := (x &&& y) ^^^ (~~~x &&& z)

/-- `Maj`, lib/sha2.c:222. -/
def Maj {w : Nat} (x y z : BitVec w) : BitVec w := (x &&& y) ^^^ (x &&& z) ^^^ (y &&& z)

/-- `REVERSE64`, lib/sha2.c:154-161. -/
def REVERSE64 (w : BitVec 64) : BitVec 64 :=
  let tmp := w >>> 32 ||| w <<< 32
  let tmp := (tmp &&& 0xff00ff00ff00ff00) >>> 8 ||| (tmp &&& 0x00ff00ff00ff00ff) <<< 8
  (tmp &&& 0xffff0000ffff0000) >>> 16 ||| (tmp &&& 0x0000ffff0000ffff) <<< 16

/-- Component-wise addition, lib/sha2.c:518-525 and 808-815. -/
def addState {w : Nat} (s r : State w) : State w :=
  (s.1 + r.1, s.2.1 + r.2.1, s.2.2.1 + r.2.2.1, s.2.2.2.1 + r.2.2.2.1, s.2.2.2.2.1 + r.2.2.2.2.1,
    s.2.2.2.2.2.1 + r.2.2.2.2.2.1, s.2.2.2.2.2.2.1 + r.2.2.2.2.2.2.1,
    s.2.2.2.2.2.2.2 + r.2.2.2.2.2.2.2)

/-! ## SHA-256 -/

/-- `REVERSE32`, lib/sha2.c:149-153. -/
def REVERSE32 (w : BitVec 32) : BitVec 32 :=
  let tmp := w >>> 16 ||| w <<< 16
  (tmp &&& 0xff00ff00) >>> 8 ||| (tmp &&& 0x00ff00ff) <<< 8

/-- `S32`, lib/sha2.c:216. -/
def S32 (b : Nat) (x : BitVec 32) : BitVec 32 := x >>> b ||| x <<< (32 - b)

/-- `Sigma0_256`, lib/sha2.c:225. -/
def Sigma0_256 (x : BitVec 32) : BitVec 32 := S32 2 x ^^^ S32 13 x ^^^ S32 22 x

/-- `Sigma1_256`, lib/sha2.c:226. -/
def Sigma1_256 (x : BitVec 32) : BitVec 32 := S32 6 x ^^^ S32 11 x ^^^ S32 25 x

/-- `sigma0_256`, lib/sha2.c:227. -/
def sigma0_256 (x : BitVec 32) : BitVec 32 := S32 7 x ^^^ S32 18 x ^^^ x >>> 3

/-- `sigma1_256`, lib/sha2.c:228. -/
def sigma1_256 (x : BitVec 32) : BitVec 32 := S32 17 x ^^^ S32 19 x ^^^ x >>> 10

/-- `K256`, lib/sha2.c:248-265. -/
def K256 : List (BitVec 32) := [
  0x428a2f98, 0x71374491, 0xb5c0fbcf, 0xe9b5dba5, 0x3956c25b, 0x59f111f1, 0x923f82a4, 0xab1c5ed5,
  0xd807aa98, 0x12835b01, 0x243185be, 0x550c7dc3, 0x72be5d74, 0x80deb1fe, 0x9bdc06a7, 0xc19bf174,
  0xe49b69c1, 0xefbe4786, 0x0fc19dc6, 0x240ca1cc, 0x2de92c6f, 0x4a7484aa, 0x5cb0a9dc, 0x76f988da,
  0x983e5152, 0xa831c66d, 0xb00327c8, 0xbf597fc7, 0xc6e00bf3, 0xd5a79147, 0x06ca6351, 0x14292967,
  0x27b70a85, 0x2e1b2138, 0x4d2c6dfc, 0x53380d13, 0x650a7354, 0x766a0abb, 0x81c2c92e, 0x92722c85,
  0xa2bfe8a1, 0xa81a664b, 0xc24b8b70, 0xc76c51a3, 0xd192e819, 0xd6990624, 0xf40e3585, 0x106aa070,
  0x19a4c116, 0x1e376c08, 0x2748774c, 0x34b0bcb5, 0x391c0cb3, 0x4ed8aa4a, 0x5b9cca4f, 0x682e6ff3,
  0x748f82ee, 0x78a5636f, 0x84c87814, 0x8cc70208, 0x90befffa, 0xa4506ceb, 0xbef9a3f7, 0xc67178f2]

/-- `SHA256_CTX`, lib/sha2.h:101-105.  `bitcount` is a `uint64_t` value. -/
structure Ctx256 where
  state : State 32
  bitcount : Nat
  buffer : Str

/-- `SHA256_Init`, lib/sha2.c:349-356, with the initial value of lib/sha2.c:268-277. -/
def SHA256_Init : Ctx256 where
  state := (0x6a09e667, 0xbb67ae85, 0x3c6ef372, 0xa54ff53a,
    0x510e527f, 0x9b05688c, 0x1f83d9ab, 0x5be0cd19)
  bitcount := 0
  buffer := List.replicate 64 0

/-- The compression step of lib/sha2.c:476-489 and 502-513, with the word of the schedule. -/
def round256 : State 32 → (k w : BitVec 32) → State 32
  | (a, b, c, d, e, f, g, h), k, w =>
    let T1 := h + Sigma1_256 e + Ch e f g + k + w
    let T2 := Sigma0_256 a + Maj a b c
    (T1 + T2, a, b, c, d + T1, e, f, g)

/-- The body of the first loop, lib/sha2.c:472-491.  `data` is `none` when it is the buffer
itself. -/
def first256 (data : Option Str) (s : State 32 × Str) (j : Nat) : State 32 × Str :=
  let W := storeW 4 s.2 j (REVERSE32 (loadW 4 (data.getD s.2) j))
  (round256 s.1 (K256.getD j 0) (loadW 4 W j), W)

/-- The body of the second loop, lib/sha2.c:495-515. -/
def second256 (s : State 32 × Str) (j : Nat) : State 32 × Str :=
  let s0 := sigma0_256 (loadW 4 s.2 ((j + 1) &&& 0x0f))
  let s1 := sigma1_256 (loadW 4 s.2 ((j + 14) &&& 0x0f))
  let w := loadW 4 s.2 (j &&& 0x0f) + (s1 + loadW 4 s.2 ((j + 9) &&& 0x0f) + s0)
  (round256 s.1 (K256.getD j 0) w, storeW 4 s.2 (j &&& 0x0f) w)

/-- `SHA256_Transform`, lib/sha2.c:453-529. -/
def SHA256_Transform (c : Ctx256) (data : Option Str) : Ctx256 :=
  let r := (List.range 16).foldl (first256 data) (c.state, c.buffer)
  let r := (List.range' 16 48).foldl second256 r
  { c with state := addState c.state r.1, buffer := r.2 }

/-- The loop over whole blocks and the left-overs, lib/sha2.c:565-577. -/
def loop256 : (fuel : Nat) → Ctx256 → Str → Res Ctx256
  | 0, _, _ => .ub
  | fuel + 1, c, data =>
    if data.length ≥ 64 then do
      let x ← fetch data 64
      let c := SHA256_Transform c (some x)
      loop256 fuel { c with bitcount := (c.bitcount + 512) % 2 ^ 64 } (data.drop 64)
    else if data.length > 0 then do
      let buffer ← put c.buffer 0 data
      return { c with buffer, bitcount := (c.bitcount + data.length * 8) % 2 ^ 64 }
    else return c

/-- `SHA256_Update`, lib/sha2.c:533-579. -/
def SHA256_Update (c : Ctx256) (data : Str) : Res Ctx256 :=
  let len := data.length
  if len = 0 then .ok c
  else
    let usedspace := c.bitcount / 8 % 64
    if usedspace > 0 then
      let freespace := 64 - usedspace
      if len ≥ freespace then do
        let x ← fetch data freespace
        let buffer ← put c.buffer usedspace x
        let c := { c with buffer, bitcount := (c.bitcount + freespace * 8) % 2 ^ 64 }
        loop256 (len + 1) (SHA256_Transform c none) (data.drop freespace)
      else do
        let buffer ← put c.buffer usedspace data
        return { c with buffer, bitcount := (c.bitcount + len * 8) % 2 ^ 64 }
    else loop256 (len + 1) c data

/-- The padding, lib/sha2.c:590-618. -/
def pad256 (c : Ctx256) : Res Ctx256 :=
  let usedspace := c.bitcount / 8 % 64
  if usedspace > 0 then do
    let buffer ← put c.buffer usedspace [0x80]
    let usedspace := usedspace + 1
    if usedspace ≤ 56 then do
      let buffer ← put buffer usedspace (List.replicate (56 - usedspace) 0)
      return { c with buffer }
    else do
      let buffer ← put buffer usedspace (List.replicate (64 - usedspace) 0)
      let c := SHA256_Transform { c with buffer } none
      let buffer ← put c.buffer 0 (List.replicate 56 0)
      return { c with buffer }
  else do
    let buffer ← put c.buffer 0 (List.replicate 56 0)
    let buffer ← put buffer 0 [0x80]
    return { c with buffer }

/-- The eight words as the little-endian host stores them after the reversal, lib/sha2.c:625-633. -/
def out256 (s : State 32) : Str :=
  ([s.1, s.2.1, s.2.2.1, s.2.2.2.1, s.2.2.2.2.1, s.2.2.2.2.2.1, s.2.2.2.2.2.2.1, s.2.2.2.2.2.2.2] :
    List (BitVec 32)).flatMap fun x => toLE 4 (REVERSE32 x).toNat

/-- `SHA256_Final`, lib/sha2.c:581-642.  That the context is cleared afterwards is not modelled. -/
def SHA256_Final (c0 : Ctx256) : Res Str := do
  let c ← pad256 c0
  let buffer ← put c.buffer 56 (toLE 8 (REVERSE64 (BitVec.ofNat 64 c0.bitcount)).toNat)
  return out256 (SHA256_Transform { c with buffer } none).state

/-- `sha256`, lib/digest.c:87-95. -/
def sha256 (m : Str) : Res Str := do
  let c ← SHA256_Update SHA256_Init m
  SHA256_Final c

/-! ## SHA-512 and SHA-384 -/

/-- `S64`, lib/sha2.c:218. -/
def S64 (b : Nat) (x : BitVec 64) : BitVec 64 := x >>> b ||| x <<< (64 - b)

/-- `Sigma0_512`, lib/sha2.c:231. -/
def Sigma0_512 (x : BitVec 64) : BitVec 64 := S64 28 x ^^^ S64 34 x ^^^ S64 39 x

/-- `Sigma1_512`, lib/sha2.c:232. -/
def Sigma1_512 (x : BitVec 64) : BitVec 64 := S64 14 x ^^^ S64 18 x ^^^ S64 41 x

/-- `sigma0_512`, lib/sha2.c:233. -/
def sigma0_512 (x : BitVec 64) : BitVec 64 := S64 1 x ^^^ S64 8 x ^^^ x >>> 7

/-- `sigma1_512`, lib/sha2.c:234. -/
def sigma1_512 (x : BitVec 64) : BitVec 64 := S64 19 x ^^^ S64 61 x ^^^ x >>> 6

/-- `K512`, lib/sha2.c:280-321. -/
def K512 : List (BitVec 64) := [
  0x428a2f98d728ae22, 0x7137449123ef65cd, 0xb5c0fbcfec4d3b2f, 0xe9b5dba58189dbbc,
  0x3956c25bf348b538, 0x59f111f1b605d019, 0x923f82a4af194f9b, 0xab1c5ed5da6d8118,
  0xd807aa98a3030242, 0x12835b0145706fbe, 0x243185be4ee4b28c, 0x550c7dc3d5ffb4e2,
  0x72be5d74f27b896f, 0x80deb1fe3b1696b1, 0x9bdc06a725c71235, 0xc19bf174cf692694,
  0xe49b69c19ef14ad2, 0xefbe4786384f25e3, 0x0fc19dc68b8cd5b5, 0x240ca1cc77ac9c65,
  0x2de92c6f592b0275, 0x4a7484aa6ea6e483, 0x5cb0a9dcbd41fbd4, 0x76f988da831153b5,
  0x983e5152ee66dfab, 0xa831c66d2db43210, 0xb00327c898fb213f, 0xbf597fc7beef0ee4,
  0xc6e00bf33da88fc2, 0xd5a79147930aa725, 0x06ca6351e003826f, 0x142929670a0e6e70,
  0x27b70a8546d22ffc, 0x2e1b21385c26c926, 0x4d2c6dfc5ac42aed, 0x53380d139d95b3df,
  0x650a73548baf63de, 0x766a0abb3c77b2a8, 0x81c2c92e47edaee6, 0x92722c851482353b,
  0xa2bfe8a14cf10364, 0xa81a664bbc423001, 0xc24b8b70d0f89791, 0xc76c51a30654be30,
  0xd192e819d6ef5218, 0xd69906245565a910, 0xf40e35855771202a, 0x106aa07032bbd1b8,
  0x19a4c116b8d2d0c8, 0x1e376c085141ab53, 0x2748774cdf8eeb99, 0x34b0bcb5e19b48a8,
  0x391c0cb3c5c95a63, 0x4ed8aa4ae3418acb, 0x5b9cca4f7763e373, 0x682e6ff3d6b2b8a3,
  0x748f82ee5defb2fc, 0x78a5636f43172f60, 0x84c87814a1f0ab72, 0x8cc702081a6439ec,
  0x90befffa23631e28, 0xa4506cebde82bde9, 0xbef9a3f7b2c67915, 0xc67178f2e372532b,
  0xca273eceea26619c, 0xd186b8c721c0c207, 0xeada7dd6cde0eb1e, 0xf57d4f7fee6ed178,
  0x06f067aa72176fba, 0x0a637dc5a2c898a6, 0x113f9804bef90dae, 0x1b710b35131c471b,
  0x28db77f523047d84, 0x32caab7b40c72493, 0x3c9ebe0a15c9bebc, 0x431d67c49c100d4c,
  0x4cc5d4becb3e42b6, 0x597f299cfc657e2a, 0x5fcb6fab3ad6faec, 0x6c44198c4a475817]

/-- `SHA512_CTX`, lib/sha2.h:106-110, also `SHA384_CTX`.  The two halves of `bitcount` are
`uint64_t` values, the low one first. -/
structure Ctx512 where
  state : State 64
  bits0 : Nat
  bits1 : Nat
  buffer : Str

/-- `SHA512_Init`, lib/sha2.c:645-652, with the initial value of lib/sha2.c:336-345. -/
def SHA512_Init : Ctx512 where
  state := (0x6a09e667f3bcc908, 0xbb67ae8584caa73b, 0x3c6ef372fe94f82b, 0xa54ff53a5f1d36f1,
    0x510e527fade682d1, 0x9b05688c2b3e6c1f, 0x1f83d9abfb41bd6b, 0x5be0cd19137e2179)
  bits0 := 0
  bits1 := 0
  buffer := List.replicate 128 0

/-- `SHA384_Init`, lib/sha2.c:943-950, with the initial value of lib/sha2.c:324-333. -/
def SHA384_Init : Ctx512 where
  state := (0xcbbb9d5dc1059ed8, 0x629a292a367cd507, 0x9159015a3070dd17, 0x152fecd8f70e5939,
    0x67332667ffc00b31, 0x8eb44a8768581511, 0xdb0c2e0d64f98fa7, 0x47b5481dbefa4fa4)
  bits0 := 0
  bits1 := 0
  buffer := List.replicate 128 0

/-- The compression step of lib/sha2.c:766-779 and 792-803, with the word of the schedule. -/
def round512 : State 64 → (k w : BitVec 64) → State 64
  | (a, b, c, d, e, f, g, h), k, w =>
    let T1 := h + Sigma1_512 e + Ch e f g + k + w
    let T2 := Sigma0_512 a + Maj a b c
    (T1 + T2, a, b, c, d + T1, e, f, g)

/-- The body of the first loop, lib/sha2.c:762-781.  `data` is `none` when it is the buffer
itself. -/
def first512 (data : Option Str) (s : State 64 × Str) (j : Nat) : State 64 × Str :=
  let W := storeW 8 s.2 j (REVERSE64 (loadW 8 (data.getD s.2) j))
  (round512 s.1 (K512.getD j 0) (loadW 8 W j), W)

/-- The body of the second loop, lib/sha2.c:785-805. -/
def second512 (s : State 64 × Str) (j : Nat) : State 64 × Str :=
  let s0 := sigma0_512 (loadW 8 s.2 ((j + 1) &&& 0x0f))
  let s1 := sigma1_512 (loadW 8 s.2 ((j + 14) &&& 0x0f))
  let w := loadW 8 s.2 (j &&& 0x0f) + (s1 + loadW 8 s.2 ((j + 9) &&& 0x0f) + s0)
  (round512 s.1 (K512.getD j 0) w, storeW 8 s.2 (j &&& 0x0f) w)

/-- `SHA512_Transform`, lib/sha2.c:745-819. -/
def SHA512_Transform (c : Ctx512) (data : Option Str) : Ctx512 :=
  let r := (List.range 16).foldl (first512 data) (c.state, c.buffer)
  let r := (List.range' 16 64).foldl second512 r
  { c with state := addState c.state r.1, buffer := r.2 }

/-- `ADDINC128`, lib/sha2.c:169-174, on a `uint64_t` value. -/
def ADDINC128 (c : Ctx512) (n : Nat) : Ctx512 :=
  let w0 := (c.bits0 + n) % 2 ^ 64
  { c with bits0 := w0, bits1 := if w0 < n then (c.bits1 + 1) % 2 ^ 64 else c.bits1 }

/-- The loop over whole blocks and the left-overs, lib/sha2.c:855-867.  `len << 3` is a `size_t`. -/
def loop512 : (fuel : Nat) → Ctx512 → Str → Res Ctx512
  | 0, _, _ => .ub
  | fuel + 1, c, data =>
    if data.length ≥ 128 then do
      let x ← fetch data 128
      loop512 fuel (ADDINC128 (SHA512_Transform c (some x)) 1024) (data.drop 128)
    else if data.length > 0 then do
      let buffer ← put c.buffer 0 data
      return ADDINC128 { c with buffer } (data.length * 8 % 2 ^ 64)
    else return c

/-- `SHA512_Update`, lib/sha2.c:823-869, and `SHA384_Update`, lib/sha2.c:952-954. -/
def SHA512_Update (c : Ctx512) (data : Str) : Res Ctx512 :=
  let len := data.length
  if len = 0 then .ok c
  else
    let usedspace := c.bits0 / 8 % 128
    if usedspace > 0 then
      let freespace := 128 - usedspace
      if len ≥ freespace then do
        let x ← fetch data freespace
        let buffer ← put c.buffer usedspace x
        let c := ADDINC128 { c with buffer } (freespace * 8)
        loop512 (len + 1) (SHA512_Transform c none) (data.drop freespace)
      else do
        let buffer ← put c.buffer usedspace data
        return ADDINC128 { c with buffer } (len * 8 % 2 ^ 64)
    else loop512 (len + 1) c data

/-- The padding, lib/sha2.c:874-904. -/
def pad512 (c : Ctx512) : Res Ctx512 :=
  let usedspace := c.bits0 / 8 % 128
  if usedspace > 0 then do
    let buffer ← put c.buffer usedspace [0x80]
    let usedspace := usedspace + 1
    if usedspace ≤ 112 then do
      let buffer ← put buffer usedspace (List.replicate (112 - usedspace) 0)
      return { c with buffer }
    else do
      let buffer ← put buffer usedspace (List.replicate (128 - usedspace) 0)
      let c := SHA512_Transform { c with buffer } none
      let buffer ← put c.buffer 0 (List.replicate (128 - 2) 0)
      return { c with buffer }
  else do
    let buffer ← put c.buffer 0 (List.replicate 112 0)
    let buffer ← put buffer 0 [0x80]
    return { c with buffer }

/-- `SHA512_Last`, lib/sha2.c:871-910. -/
def SHA512_Last (c0 : Ctx512) : Res Ctx512 := do
  let c ← pad512 c0
  let buffer ← put c.buffer 112 (toLE 8 (REVERSE64 (BitVec.ofNat 64 c0.bits1)).toNat)
  let buffer ← put buffer 120 (toLE 8 (REVERSE64 (BitVec.ofNat 64 c0.bits0)).toNat)
  return SHA512_Transform { c with buffer } none

/-- The words as the little-endian host stores them after the reversal, lib/sha2.c:923-932. -/
def out512 (s : State 64) : Str :=
  ([s.1, s.2.1, s.2.2.1, s.2.2.2.1, s.2.2.2.2.1, s.2.2.2.2.2.1, s.2.2.2.2.2.2.1, s.2.2.2.2.2.2.2] :
    List (BitVec 64)).flatMap fun x => toLE 8 (REVERSE64 x).toNat

/-- `SHA512_Final`, lib/sha2.c:912-940. -/
def SHA512_Final (c : Ctx512) : Res Str := do
  let c ← SHA512_Last c
  return out512 c.state

/-- `SHA384_Final`, lib/sha2.c:956-983: the first six words. -/
def SHA384_Final (c : Ctx512) : Res Str := do
  let c ← SHA512_Last c
  let s := c.state
  return ([s.1, s.2.1, s.2.2.1, s.2.2.2.1, s.2.2.2.2.1, s.2.2.2.2.2.1] :
    List (BitVec 64)).flatMap fun x => toLE 8 (REVERSE64 x).toNat

/-- `sha384`, lib/digest.c:112-120. -/
def sha384 (m : Str) : Res Str := do
  let c ← SHA512_Update SHA384_Init m
  SHA384_Final c

/-- `sha512`, lib/digest.c:137-145. -/
def sha512 (m : Str) : Res Str := do
  let c ← SHA512_Update SHA512_Init m
  SHA512_Final c

end Fwknop.Sha2
