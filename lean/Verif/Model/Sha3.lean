import Verif.Model.Words

/-!
# SHA-3 (lib/sha3.c)

The header includes nothing, so LITTLE_ENDIAN is not defined and the byte-wise accessors are the
ones compiled.
-/

namespace Fwknop.Sha3

/-- `load64`, lib/sha3.c:146-156: the bytes `x[7]` down to `x[0]`. -/
def load64 (x : Str) : BitVec 64 :=
  [7, 6, 5, 4, 3, 2, 1, 0].foldl (fun u i => u <<< 8 ||| BitVec.ofNat 64 (x.getD i 0)) 0

/-- `store64`, lib/sha3.c:161-169: the eight bytes that end up in `x`. -/
def store64 : (n : Nat) → (u : BitVec 64) → Str
  | 0, _ => []
  | n + 1, u => u.toNat % 256 :: store64 n (u >>> 8)

/-- `xor64`, lib/sha3.c:174-182: the bytes that end up in `x`. -/
def xor64 : (x : Str) → (u : BitVec 64) → Str
  | [], _ => []
  | c :: x, u => (c ^^^ u.toNat) % 256 :: xor64 x (u >>> 8)

/-- `ROL64`, lib/sha3.c:191; the offset is between 1 and 63 in every use. -/
def ROL64 (a : BitVec 64) (offset : Nat) : BitVec 64 := (a <<< offset) ^^^ (a >>> (64 - offset))

/-- `i`, lib/sha3.c:192. -/
def idx (x y : Nat) : Nat := x + 5 * y

/-- `readLane`, lib/sha3.c:199. -/
def readLane (state : Str) (x y : Nat) : BitVec 64 := load64 ((state.drop (8 * idx x y)).take 8)

/-- `writeLane`, lib/sha3.c:200. -/
def writeLane (state : Str) (x y : Nat) (lane : BitVec 64) : Str :=
  state.take (8 * idx x y) ++ store64 8 lane ++ state.drop (8 * idx x y + 8)

/-- `XORLane`, lib/sha3.c:201. -/
def XORLane (state : Str) (x y : Nat) (lane : BitVec 64) : Str :=
  state.take (8 * idx x y) ++ xor64 ((state.drop (8 * idx x y)).take 8) lane ++
    state.drop (8 * idx x y + 8)

/-- `LFSR86540`, lib/sha3.c:208-217: the result and the new register. -/
def LFSR86540 (l : Nat) : Bool × Nat :=
  (l &&& 0x01 ≠ 0, if l &&& 0x80 ≠ 0 then ((l * 2) ^^^ 0x71) % 256 else l * 2 % 256)

/-- The theta step, lib/sha3.c:228-241. -/
def theta (state : Str) : Str :=
  let C := (List.range 5).map fun x =>
    readLane state x 0 ^^^ readLane state x 1 ^^^ readLane state x 2 ^^^ readLane state x 3 ^^^
      readLane state x 4
  (List.range 5).foldl (fun s x =>
    let D := C.getD ((x + 4) % 5) 0 ^^^ ROL64 (C.getD ((x + 1) % 5) 0) 1
    (List.range 5).foldl (fun s y => XORLane s x y D) s) state

/-- One iteration of the rho and pi loop, lib/sha3.c:249-258; the variables are the state, `x`, `y`
and `current`. -/
def rhoPiStep (s : Str × Nat × Nat × BitVec 64) (t : Nat) : Str × Nat × Nat × BitVec 64 :=
  let r := (t + 1) * (t + 2) / 2 % 64
  let Y := (2 * s.2.1 + 3 * s.2.2.1) % 5
  let x := s.2.2.1
  let y := Y
  let temp := readLane s.1 x y
  (writeLane s.1 x y (ROL64 s.2.2.2 r), x, y, temp)

/-- The rho and pi steps, lib/sha3.c:243-259. -/
def rhoPi (state : Str) : Str :=
  ((List.range 24).foldl rhoPiStep (state, 1, 0, readLane state 1 0)).1

/-- The chi step, lib/sha3.c:261-271. -/
def chi (state : Str) : Str :=
  (List.range 5).foldl (fun s y =>
    let temp := (List.range 5).map fun x => readLane s x y
    (List.range 5).foldl (fun s x =>
      writeLane s x y (temp.getD x 0 ^^^ (~~~(temp.getD ((x + 1) % 5) 0) &&& temp.getD ((x + 2) % 5) 0)))
      s) state

/-- One iteration of the iota loop, lib/sha3.c:274-278. -/
def iotaStep (s : Str × Nat) (j : Nat) : Str × Nat :=
  let bitPosition := 2 ^ j - 1
  let r := LFSR86540 s.2
  (if r.1 then XORLane s.1 0 0 ((1 : BitVec 64) <<< bitPosition) else s.1, r.2)

/-- One round, lib/sha3.c:227-280: the state and the register `LFSRstate`. -/
def round (s : Str × Nat) (_ : Nat) : Str × Nat :=
  (List.range 7).foldl iotaStep (chi (rhoPi (theta s.1)), s.2)

/-- `KeccakF1600_StatePermute`, lib/sha3.c:222-281. -/
def KeccakF1600_StatePermute (state : Str) : Str := ((List.range 24).foldl round (state, 0x01)).1

/-- `state[i] ^= input[i]` for the first bytes, lib/sha3.c:309-310. -/
def xorBytes (state input : Str) : Str :=
  List.zipWith (· ^^^ ·) state input ++ state.drop input.length

/-- The absorbing loop, lib/sha3.c:307-318 (`fuel` bounds the number of iterations): the state and
the last `blockSize`. -/
def absorb (rateInBytes : Nat) : (fuel : Nat) → (state input : Str) → (blockSize : Nat) →
    Res (Str × Nat)
  | 0, _, _, _ => .ub
  | fuel + 1, state, input, blockSize =>
    if input.length > 0 then
      let n := min input.length rateInBytes
      do
        Res.mem (state.length < n)
        let s := xorBytes state (input.take n)
        if n = rateInBytes then
          absorb rateInBytes fuel (KeccakF1600_StatePermute s) (input.drop n) 0
        else absorb rateInBytes fuel s (input.drop n) n
    else return (state, blockSize)

/-- `state[i] ^= v`, lib/sha3.c:322 and 327. -/
def xorAt (state : Str) (i v : Nat) : Res Str := do
  Res.mem (state.length ≤ i)
  return state.set i (state.getD i 0 ^^^ v)

/-- The padding and the switch to squeezing, lib/sha3.c:320-329. -/
def finish (rateInBytes delimitedSuffix : Nat) (state : Str) (blockSize : Nat) : Res Str := do
  let s ← xorAt state blockSize delimitedSuffix
  let s := if delimitedSuffix &&& 0x80 ≠ 0 ∧ blockSize = rateInBytes - 1 then
    KeccakF1600_StatePermute s else s
  let s ← xorAt s (rateInBytes - 1) 0x80
  return KeccakF1600_StatePermute s

/-- The squeezing loop, lib/sha3.c:331-340. -/
def squeeze (rateInBytes : Nat) : (fuel : Nat) → (state : Str) → (outputByteLen : Nat) → Res Str
  | 0, _, _ => .ub
  | fuel + 1, state, outputByteLen =>
    if outputByteLen > 0 then do
      let n := min outputByteLen rateInBytes
      let x ← fetch state n
      if outputByteLen - n > 0 then do
        let y ← squeeze rateInBytes fuel (KeccakF1600_StatePermute state) (outputByteLen - n)
        return x ++ y
      else return x
    else return []

/-- `Keccak`, lib/sha3.c:292-342: what is written to `output`. -/
def Keccak (rate capacity : Nat) (input : Str) (delimitedSuffix outputByteLen : Nat) : Res Str :=
  let rateInBytes := rate / 8
  if rate + capacity ≠ 1600 ∨ rate % 8 ≠ 0 then .err
  else do
    let r ← absorb rateInBytes (input.length + 1) (List.replicate 200 0) input 0
    let s ← finish rateInBytes delimitedSuffix r.1 r.2
    squeeze rateInBytes (outputByteLen + 1) s outputByteLen

/-- `FIPS202_SHA3_256`, lib/sha3.c:110-113, and `sha3_256`, lib/digest.c:160-164.  The length is
converted to `unsigned int`. -/
def sha3_256 (m : Str) : Res Str := Keccak 1088 512 (m.take (m.length % 2 ^ 32)) 0x06 32

/-- `FIPS202_SHA3_512`, lib/sha3.c:126-129, and `sha3_512`, lib/digest.c:177-181. -/
def sha3_512 (m : Str) : Res Str := Keccak 576 1024 (m.take (m.length % 2 ^ 32)) 0x06 64

end Fwknop.Sha3
