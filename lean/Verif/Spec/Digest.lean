import Verif.Model.Basic

/-!
# Independent specification of MD5 (RFC 1321), SHA-1, SHA-256, SHA-384 and SHA-512 (FIPS 180-4)

Messages and digests are lists of bytes; words are bit vectors.  Nothing here refers to the model
of the code.
-/

namespace Fwknop.Spec

/-- The number whose base-256 digits are `b`, least significant first. -/
def leNum : List Nat → Nat
  | [] => 0
  | x :: xs => x + 256 * leNum xs

/-- The number whose base-256 digits are `b`, most significant first. -/
def beNum (b : List Nat) : Nat := b.foldl (fun v x => v * 256 + x) 0

/-- `v` modulo `256 ^ n` as `n` bytes, least significant first. -/
def leBytes : Nat → Nat → List Nat
  | 0, _ => []
  | n + 1, v => v % 256 :: leBytes n (v / 256)

/-- `v` modulo `256 ^ n` as `n` bytes, most significant first. -/
def beBytes (n v : Nat) : List Nat := (leBytes n v).reverse

/-- Word `i` of a block of words of `w / 8` bytes each, most significant byte first. -/
def beWord (w : Nat) (block : List Nat) (i : Nat) : BitVec w :=
  BitVec.ofNat w (beNum ((block.drop (w / 8 * i)).take (w / 8)))

/-- Word `i` of a block of words of `w / 8` bytes each, least significant byte first. -/
def leWord (w : Nat) (block : List Nat) (i : Nat) : BitVec w :=
  BitVec.ofNat w (leNum ((block.drop (w / 8 * i)).take (w / 8)))

/-! ## Padding and iteration, common to all of them -/

/-- RFC 1321 3.1-3.2, FIPS 180-4 5.1: a one bit, then as few zero bits as make the length congruent
to `B - L` bytes, then the length of the message in bits in `L` bytes. -/
def mdPad (B L : Nat) (len : Nat → List Nat) (m : List Nat) : List Nat :=
  m ++ [0x80] ++ List.replicate ((B - (m.length + 1 + L) % B) % B) 0 ++ len (8 * m.length)

/-- `f` applied to the hash value and to each of the first `n` blocks of `B` bytes in turn. -/
def foldBlocks {σ : Type} (f : σ → List Nat → σ) (B : Nat) : Nat → σ → List Nat → σ
  | 0, h, _ => h
  | n + 1, h, p => foldBlocks f B n (f h (p.take B)) (p.drop B)

/-- The hash value after all the complete blocks of `p`. -/
def absorbed {σ : Type} (f : σ → List Nat → σ) (B : Nat) (h : σ) (p : List Nat) : σ :=
  foldBlocks f B (p.length / B) h p

/-! ## MD5, RFC 1321 -/

/-- Four words. -/
abbrev Four := BitVec 32 × BitVec 32 × BitVec 32 × BitVec 32

/-- Section 3.4: `T[i]`, the integer part of 4294967296 times abs(sin(i + 1)), i from 0. -/
def md5T : List (BitVec 32) := [
  0xd76aa478, 0xe8c7b756, 0x242070db, 0xc1bdceee, 0xf57c0faf, 0x4787c62a, 0xa8304613, 0xfd469501,
  0x698098d8, 0x8b44f7af, 0xffff5bb1, 0x895cd7be, 0x6b901122, 0xfd987193, 0xa679438e, 0x49b40821,
  0xf61e2562, 0xc040b340, 0x265e5a51, 0xe9b6c7aa, 0xd62f105d, 0x02441453, 0xd8a1e681, 0xe7d3fbc8,
  0x21e1cde6, 0xc33707d6, 0xf4d50d87, 0x455a14ed, 0xa9e3e905, 0xfcefa3f8, 0x676f02d9, 0x8d2a4c8a,
  0xfffa3942, 0x8771f681, 0x6d9d6122, 0xfde5380c, 0xa4beea44, 0x4bdecfa9, 0xf6bb4b60, 0xbebfbc70,
  0x289b7ec6, 0xeaa127fa, 0xd4ef3085, 0x04881d05, 0xd9d4d039, 0xe6db99e5, 0x1fa27cf8, 0xc4ac5665,
  0xf4292244, 0x432aff97, 0xab9423a7, 0xfc93a039, 0x655b59c3, 0x8f0ccc92, 0xffeff47d, 0x85845dd1,
  0x6fa87e4f, 0xfe2ce6e0, 0xa3014314, 0x4e0811a1, 0xf7537e82, 0xbd3af235, 0x2ad7d2bb, 0xeb86d391]

/-- Section 3.4: the functions F, G, H and I of rounds 1 to 4. -/
def md5F (i : Nat) (x y z : BitVec 32) : BitVec 32 :=
  if i < 16 then (x &&& y) ||| (~~~x &&& z)
  else if i < 32 then (x &&& z) ||| (y &&& ~~~z)
  else if i < 48 then x ^^^ y ^^^ z
  else y ^^^ (x ||| ~~~z)

/-- Section 3.4: which word of the block operation `i` uses. -/
def md5K (i : Nat) : Nat :=
  if i < 16 then i else if i < 32 then (5 * i + 1) % 16
  else if i < 48 then (3 * i + 5) % 16 else 7 * i % 16

/-- Section 3.4: the rotation of operation `i`. -/
def md5S (i : Nat) : Nat :=
  ([7, 12, 17, 22, 5, 9, 14, 20, 4, 11, 16, 23, 6, 10, 15, 21] : List Nat).getD (i / 16 * 4 + i % 4) 0

/-- Section 3.4: operation `i`, `a = b + ((a + F(b,c,d) + X[k] + T[i]) <<< s)`; the registers then
change names. -/
def md5Op (X : Nat → BitVec 32) (i : Nat) : Four → Four
  | (a, b, c, d) =>
    (d, b + (a + md5F i b c d + X (md5K i) + md5T.getD i 0).rotateLeft (md5S i), b, c)

/-- Section 3.4: one block. -/
def md5Block : Four → List Nat → Four
  | (a, b, c, d), M =>
    let r := (List.range 64).foldl (fun s i => md5Op (leWord 32 M) i s) (a, b, c, d)
    (a + r.1, b + r.2.1, c + r.2.2.1, d + r.2.2.2)

/-- Section 3.3: the bytes 01 23 45 67, 89 ab cd ef, fe dc ba 98, 76 54 32 10. -/
def md5H0 : Four := (0x67452301, 0xefcdab89, 0x98badcfe, 0x10325476)

/-- Section 3.5: the words, low-order byte first. -/
def md5Out : Four → List Nat
  | (a, b, c, d) => leBytes 4 a.toNat ++ leBytes 4 b.toNat ++ leBytes 4 c.toNat ++ leBytes 4 d.toNat

/-- MD5. -/
def md5 (m : List Nat) : List Nat :=
  md5Out (absorbed md5Block 64 md5H0 (mdPad 64 8 (leBytes 8) m))

/-! ## SHA-1, FIPS 180-4 -/

/-- Five words. -/
abbrev Five := BitVec 32 × BitVec 32 × BitVec 32 × BitVec 32 × BitVec 32

/-- 4.1.1 -/
def sha1F (t : Nat) (x y z : BitVec 32) : BitVec 32 :=
  if t < 20 then (x &&& y) ^^^ (~~~x &&& z)
  else if t < 40 then x ^^^ y ^^^ z
  else if t < 60 then (x &&& y) ^^^ (x &&& z) ^^^ (y &&& z)
  else x ^^^ y ^^^ z

/-- 4.2.1 -/
def sha1K (t : Nat) : BitVec 32 :=
  if t < 20 then 0x5a827999 else if t < 40 then 0x6ed9eba1
  else if t < 60 then 0x8f1bbcdc else 0xca62c1d6

/-- 6.1.2 step 1: the words `W_0` to `W_(15+n)` of the message schedule. -/
def sha1W (M : List Nat) : Nat → List (BitVec 32)
  | 0 => (List.range 16).map (beWord 32 M)
  | n + 1 =>
    let W := sha1W M n
    let t := 16 + n
    W ++ [(W.getD (t - 3) 0 ^^^ W.getD (t - 8) 0 ^^^ W.getD (t - 14) 0 ^^^ W.getD (t - 16) 0).rotateLeft 1]

/-- 6.1.2 step 3. -/
def sha1Round (t : Nat) (W : BitVec 32) : Five → Five
  | (a, b, c, d, e) =>
    (a.rotateLeft 5 + sha1F t b c d + e + sha1K t + W, a, b.rotateLeft 30, c, d)

/-- 6.1.2: one block. -/
def sha1Block : Five → List Nat → Five
  | (a, b, c, d, e), M =>
    let r := (List.range 80).foldl (fun s t => sha1Round t ((sha1W M 64).getD t 0) s) (a, b, c, d, e)
    (a + r.1, b + r.2.1, c + r.2.2.1, d + r.2.2.2.1, e + r.2.2.2.2)

/-- 5.3.1 -/
def sha1H0 : Five := (0x67452301, 0xefcdab89, 0x98badcfe, 0x10325476, 0xc3d2e1f0)

/-- The digest: the words, high-order byte first. -/
def sha1Out : Five → List Nat
  | (a, b, c, d, e) =>
    beBytes 4 a.toNat ++ beBytes 4 b.toNat ++ beBytes 4 c.toNat ++ beBytes 4 d.toNat ++ beBytes 4 e.toNat

/-- SHA-1. -/
def sha1 (m : List Nat) : List Nat :=
  sha1Out (absorbed sha1Block 64 sha1H0 (mdPad 64 8 (beBytes 8) m))

/-! ## SHA-2, FIPS 180-4 -/

/-- Eight words. -/
abbrev Eight (w : Nat) :=
  BitVec w × BitVec w × BitVec w × BitVec w × BitVec w × BitVec w × BitVec w × BitVec w

/-- 4.1.2, 4.1.3 -/
def sha2Ch {w : Nat} (x y z : BitVec w) : BitVec w := (x &&& y) ^^^ (~~~x &&& z)

/-- 4.1.2, 4.1.3 -/
def sha2Maj {w : Nat} (x y z : BitVec w) : BitVec w := (x &&& y) ^^^ (x &&& z) ^^^ (y &&& z)

/-- The parts of the algorithm in which the two word sizes differ. -/
structure Sha2 (w : Nat) where
  rounds : Nat
  K : List (BitVec w)
  S0 : BitVec w → BitVec w
  S1 : BitVec w → BitVec w
  s0 : BitVec w → BitVec w
  s1 : BitVec w → BitVec w

/-- 6.2.2, 6.4.2 step 1: the words `W_0` to `W_(15+n)` of the message schedule. -/
def sha2W {w : Nat} (P : Sha2 w) (M : List Nat) : Nat → List (BitVec w)
  | 0 => (List.range 16).map (beWord w M)
  | n + 1 =>
    let W := sha2W P M n
    let t := 16 + n
    W ++ [P.s1 (W.getD (t - 2) 0) + W.getD (t - 7) 0 + P.s0 (W.getD (t - 15) 0) + W.getD (t - 16) 0]

/-- 6.2.2, 6.4.2 step 3. -/
def sha2Round {w : Nat} (P : Sha2 w) (K W : BitVec w) : Eight w → Eight w
  | (a, b, c, d, e, f, g, h) =>
    let T1 := h + P.S1 e + sha2Ch e f g + K + W
    let T2 := P.S0 a + sha2Maj a b c
    (T1 + T2, a, b, c, d + T1, e, f, g)

/-- 6.2.2, 6.4.2: one block. -/
def sha2Block {w : Nat} (P : Sha2 w) : Eight w → List Nat → Eight w
  | (a, b, c, d, e, f, g, h), M =>
    let r := (List.range P.rounds).foldl
      (fun s t => sha2Round P (P.K.getD t 0) ((sha2W P M (P.rounds - 16)).getD t 0) s)
      (a, b, c, d, e, f, g, h)
    (a + r.1, b + r.2.1, c + r.2.2.1, d + r.2.2.2.1, e + r.2.2.2.2.1, f + r.2.2.2.2.2.1,
      g + r.2.2.2.2.2.2.1, h + r.2.2.2.2.2.2.2)

/-- The words, high-order byte first. -/
def sha2Out {w : Nat} : Eight w → List Nat
  | (a, b, c, d, e, f, g, h) =>
    ([a, b, c, d, e, f, g, h] : List (BitVec w)).flatMap fun x => beBytes (w / 8) x.toNat

/-- 4.2.2 -/
def sha256K : List (BitVec 32) := [
  0x428a2f98, 0x71374491, 0xb5c0fbcf, 0xe9b5dba5, 0x3956c25b, 0x59f111f1, 0x923f82a4, 0xab1c5ed5,
  0xd807aa98, 0x12835b01, 0x243185be, 0x550c7dc3, 0x72be5d74, 0x80deb1fe, 0x9bdc06a7, 0xc19bf174,
  0xe49b69c1, 0xefbe4786, 0x0fc19dc6, 0x240ca1cc, 0x2de92c6f, 0x4a7484aa, 0x5cb0a9dc, 0x76f988da,
  0x983e5152, 0xa831c66d, 0xb00327c8, 0xbf597fc7, 0xc6e00bf3, 0xd5a79147, 0x06ca6351, 0x14292967,
  0x27b70a85, 0x2e1b2138, 0x4d2c6dfc, 0x53380d13, 0x650a7354, 0x766a0abb, 0x81c2c92e, 0x92722c85,
  0xa2bfe8a1, 0xa81a664b, 0xc24b8b70, 0xc76c51a3, 0xd192e819, 0xd6990624, 0xf40e3585, 0x106aa070,
  0x19a4c116, 0x1e376c08, 0x2748774c, 0x34b0bcb5, 0x391c0cb3, 0x4ed8aa4a, 0x5b9cca4f, 0x682e6ff3,
  0x748f82ee, 0x78a5636f, 0x84c87814, 0x8cc70208, 0x90befffa, 0xa4506ceb, 0xbef9a3f7, 0xc67178f2]

/-- 4.1.2 -/
def sha256Fns : Sha2 32 where
  rounds := 64
  K := sha256K
  S0 x := x.rotateRight 2 ^^^ x.rotateRight 13 ^^^ x.rotateRight 22
  S1 x := x.rotateRight 6 ^^^ x.rotateRight 11 ^^^ x.rotateRight 25
  s0 x := x.rotateRight 7 ^^^ x.rotateRight 18 ^^^ x >>> 3
  s1 x := x.rotateRight 17 ^^^ x.rotateRight 19 ^^^ x >>> 10

/-- 5.3.3 -/
def sha256H0 : Eight 32 :=
  (0x6a09e667, 0xbb67ae85, 0x3c6ef372, 0xa54ff53a, 0x510e527f, 0x9b05688c, 0x1f83d9ab, 0x5be0cd19)

/-- SHA-256. -/
def sha256 (m : List Nat) : List Nat :=
  sha2Out (absorbed (sha2Block sha256Fns) 64 sha256H0 (mdPad 64 8 (beBytes 8) m))

/-- 4.2.3 -/
def sha512K : List (BitVec 64) := [
  0x428a2f98d728ae22, 0x7137449123ef65cd, 0xb5c0fbcfec4d3b2f, 0xe9b5dba58189dbbc,
  0x3956c25bf348b538, 0x59f111f1b605d019, 0x923f82a4af194f9b, 0xab1c5ed5da6d8118,
  0xd807aa98a3030242, 0x12835b0145706fbe, 0x243185be4ee4b28c, 0x550c7dc3d5ffb4e2,
  0x72be5d74f27b896f, 0x80deb1fe3b1696b1, 0x9bdc06a725c71235, 0xc19bf174cf692694,
  0xe49b69c19ef14ad2, 0xefbe4786384f25e3, 0x0fc19dc68b8cd5b5, 0x240ca1cc77ac9c65,
  0x2de92c6f592b0275, 0x4a7484aa6ea6e483, 0x5cb0a9dcbd41fbd4, 0x76f988da831153b5,
  0x983e5152ee66dfab, 0xa831c66d2db43210, 0xb00327c898fb213f, 0xbf597fc7beef0ee4,
  0xc6e00bf33da88fc2, 0xd5a79147930aa725, 0x06ca6351e003826f, 0x142929670a0e6e70,
  0x27b70a8546d22ffc, 0x2e1b21385c26c926, 0x4d2c6dfc5ac42aed, 0x53380d139d95b3df,
  0x650a73548baf63de, 0x766a0abb3c77b2a8, 0x81c2c92e47edaee6, 0x92722c851482353b,
  0xa2bfe8a14cf10364, 0xa81a664bbc423001, 0xc24b8b70d0f89791, 0xc76c51a30654be30,
  0xd192e819d6ef5218, 0xd69906245565a910, 0xf40e35855771202a, 0x106aa07032bbd1b8,
  0x19a4c116b8d2d0c8, 0x1e376c085141ab53, 0x2748774cdf8eeb99, 0x34b0bcb5e19b48a8,
  0x391c0cb3c5c95a63, 0x4ed8aa4ae3418acb, 0x5b9cca4f7763e373, 0x682e6ff3d6b2b8a3,
  0x748f82ee5defb2fc, 0x78a5636f43172f60, 0x84c87814a1f0ab72, 0x8cc702081a6439ec,
  0x90befffa23631e28, 0xa4506cebde82bde9, 0xbef9a3f7b2c67915, 0xc67178f2e372532b,
  0xca273eceea26619c, 0xd186b8c721c0c207, 0xeada7dd6cde0eb1e, 0xf57d4f7fee6ed178,
  0x06f067aa72176fba, 0x0a637dc5a2c898a6, 0x113f9804bef90dae, 0x1b710b35131c471b,
  0x28db77f523047d84, 0x32caab7b40c72493, 0x3c9ebe0a15c9bebc, 0x431d67c49c100d4c,
  0x4cc5d4becb3e42b6, 0x597f299cfc657e2a, 0x5fcb6fab3ad6faec, 0x6c44198c4a475817]

/-- 4.1.3 -/
def sha512Fns : Sha2 64 where
  rounds := 80
  K := sha512K
  S0 x := x.rotateRight 28 ^^^ x.rotateRight 34 ^^^ x.rotateRight 39
  S1 x := x.rotateRight 14 ^^^ x.rotateRight 18 ^^^ x.rotateRight 41
  s0 x := x.rotateRight 1 ^^^ x.rotateRight 8 ^^^ x >>> 7
  s1 x := x.rotateRight 19 ^^^ x.rotateRight 61 ^^^ x >>> 6

/-- 5.3.4 -/
def sha384H0 : Eight 64 :=
  (0xcbbb9d5dc1059ed8, 0x629a292a367cd507, 0x9159015a3070dd17, 0x152fecd8f70e5939,
   0x67332667ffc00b31, 0x8eb44a8768581511, 0xdb0c2e0d64f98fa7, 0x47b5481dbefa4fa4)

/-- 5.3.5 -/
def sha512H0 : Eight 64 :=
  (0x6a09e667f3bcc908, 0xbb67ae8584caa73b, 0x3c6ef372fe94f82b, 0xa54ff53a5f1d36f1,
   0x510e527fade682d1, 0x9b05688c2b3e6c1f, 0x1f83d9abfb41bd6b, 0x5be0cd19137e2179)

/-- SHA-512. -/
def sha512 (m : List Nat) : List Nat :=
  sha2Out (absorbed (sha2Block sha512Fns) 128 sha512H0 (mdPad 128 16 (beBytes 16) m))

/-- SHA-384: the leftmost 384 bits. -/
def sha384 (m : List Nat) : List Nat :=
  (sha2Out (absorbed (sha2Block sha512Fns) 128 sha384H0 (mdPad 128 16 (beBytes 16) m))).take 48

/-! ## Where the constants come from -/

/-- `p` is prime. -/
def isPrime (p : Nat) : Bool := 2 ≤ p && (List.range p).all fun d => d < 2 || p % d != 0

/-- The primes up to 409: the first eighty. -/
def primes : List Nat := (List.range 410).filter isPrime

/-- `k` is the first `w` bits of the fractional part of the `e`-th root of `p`. -/
def RootBits (e w p : Nat) (k : BitVec w) : Prop :=
  ∃ n < 8, (n * 2 ^ w + k.toNat) ^ e ≤ p * 2 ^ (e * w) ∧
    p * 2 ^ (e * w) < (n * 2 ^ w + k.toNat + 1) ^ e

end Fwknop.Spec
