import Verif.Spec.Digest

/-!
# Independent specification of SHA3-256 and SHA3-512 (FIPS 202)

The state array is given by its 25 lanes of 64 bits: bit `z` of lane `(x, y)` is `A[x, y, z]`.
-/

namespace Fwknop.Spec

/-- 3.1.3: a lane of the state. -/
abbrev Lanes := Nat → Nat → BitVec 64

/-- 3.1.2, 3.1.3: lane `(x, y)` of a string of 200 bytes is its word `5 y + x`, low-order byte
first. -/
def keccakLanes (s : List Nat) : Lanes := fun x y => leWord 64 s (5 * y + x)

/-- 3.1.3: the string of a state. -/
def keccakString (A : Lanes) : List Nat :=
  (List.range 25).flatMap fun i => leBytes 8 (A (i % 5) (i / 5)).toNat

/-- 3.2.1: `C[x, z]`, the parity of a column. -/
def keccakC (A : Lanes) (x : Nat) : BitVec 64 := A x 0 ^^^ A x 1 ^^^ A x 2 ^^^ A x 3 ^^^ A x 4

/-- 3.2.1: `A'[x, y, z] = A[x, y, z] ⊕ C[(x-1) mod 5, z] ⊕ C[(x+1) mod 5, (z-1) mod w]`. -/
def keccakTheta (A : Lanes) : Lanes := fun x y =>
  A x y ^^^ (keccakC A ((x + 4) % 5) ^^^ (keccakC A ((x + 1) % 5)).rotateLeft 1)

/-- 3.2.2, table 2 modulo 64: the offsets, by `x` and `y`. -/
def keccakOffset (x y : Nat) : Nat :=
  (([[0, 36, 3, 41, 18], [1, 44, 10, 45, 2], [62, 6, 43, 15, 61], [28, 55, 25, 21, 56],
    [27, 20, 39, 8, 14]] : List (List Nat)).getD x []).getD y 0

/-- 3.2.2: each lane is rotated by its offset. -/
def keccakRho (A : Lanes) : Lanes := fun x y => (A x y).rotateLeft (keccakOffset x y)

/-- 3.2.3: `A'[x, y, z] = A[(x + 3y) mod 5, x, z]`. -/
def keccakPi (A : Lanes) : Lanes := fun x y => A ((x + 3 * y) % 5) x

/-- 3.2.4: `A'[x, y, z] = A[x, y, z] ⊕ ((A[(x+1) mod 5, y, z] ⊕ 1) · A[(x+2) mod 5, y, z])`. -/
def keccakChi (A : Lanes) : Lanes := fun x y =>
  A x y ^^^ (~~~(A ((x + 1) % 5) y) &&& A ((x + 2) % 5) y)

/-- 3.2.5, algorithm 5: the eight bits `R` after `t` steps. -/
def keccakR : Nat → List Bool
  | 0 => [true, false, false, false, false, false, false, false]
  | t + 1 =>
    match keccakR t with
    | [r0, r1, r2, r3, r4, r5, r6, r7] => [r7, r0, r1, r2, r3 ^^ r7, r4 ^^ r7, r5 ^^ r7, r6]
    | r => r

/-- 3.2.5: `rc(t)`. -/
def keccakRc (t : Nat) : Bool := (keccakR t).headD false

/-- 3.2.5, algorithm 6: bit `2^j - 1` of `RC` is `rc(j + 7 i_r)`, the others are zero. -/
def keccakRC (ir : Nat) : BitVec 64 :=
  BitVec.ofNat 64 (((List.range 7).map fun j => if keccakRc (j + 7 * ir) then 2 ^ (2 ^ j - 1) else 0).sum)

/-- 3.2.5 -/
def keccakIota (ir : Nat) (A : Lanes) : Lanes := fun x y =>
  if x = 0 ∧ y = 0 then A x y ^^^ keccakRC ir else A x y

/-- 3.3: `Rnd(A, i_r)`, on the string. -/
def keccakRnd (s : List Nat) (ir : Nat) : List Nat :=
  keccakString (keccakIota ir (keccakChi (keccakPi (keccakRho (keccakTheta (keccakLanes s))))))

/-- 3.3: Keccak-p[1600, 24]. -/
def keccakP (s : List Nat) : List Nat := (List.range 24).foldl keccakRnd s

/-- Algorithm 8, with `rate` in bytes: the state after one more block. -/
def keccakAbsorb (rate : Nat) (s block : List Nat) : List Nat :=
  keccakP (List.zipWith (· ^^^ ·) s (block ++ List.replicate (200 - rate) 0))

/-- Appendix B.2: the message followed by the suffix 01 and by pad10*1, in bytes. -/
def sha3Pad (rate : Nat) (m : List Nat) : List Nat :=
  let q := rate - m.length % rate
  m ++ if q = 1 then [0x86] else 0x06 :: (List.replicate (q - 2) 0 ++ [0x80])

/-- 6.1 and algorithm 8: the first `d` bytes of the state, `d` being at most the rate. -/
def sha3 (rate d : Nat) (m : List Nat) : List Nat :=
  (absorbed (keccakAbsorb rate) rate (List.replicate 200 0) (sha3Pad rate m)).take d

/-- 6.1: SHA3-256. -/
def sha3_256 (m : List Nat) : List Nat := sha3 136 32 m

/-- 6.1: SHA3-512. -/
def sha3_512 (m : List Nat) : List Nat := sha3 72 64 m

end Fwknop.Spec
