import Verif.Model.Basic

/-!
# FIPS 197, the Advanced Encryption Standard

An independent definition of AES, written from the standard: arithmetic in GF(2^8), the S-box as
inversion followed by the affine map, and the four round transformations.  A state gives the byte
in row `r` and column `c`.
-/

namespace Fwknop.Spec.Aes

/-- Multiplication by x modulo x^8 + x^4 + x^3 + x + 1 (FIPS 197, 4.2.1). -/
def xt (a : Nat) : Nat := if a < 128 then 2 * a else (2 * a) ^^^ 0x11b

/-- Multiplication by x^i. -/
def xtPow : Nat → Nat → Nat
  | 0, b => b
  | i + 1, b => xt (xtPow i b)

/-- Multiplication in GF(2^8) (FIPS 197, 4.2): the sum of x^i b over the set bits i of `a`. -/
def gmul (a b : Nat) : Nat :=
  (List.range 8).foldl (fun acc i => if a.testBit i then acc ^^^ xtPow i b else acc) 0

/-- The inverse in GF(2^8): the `b` with a b = 1, and zero for zero. -/
def ginv (a : Nat) : Nat := ((List.range 256).find? fun b => gmul a b == 1).getD 0

/-- FIPS 197, (5.1): bit i of the affine image, with c = 01100011. -/
def affineBit (b i : Nat) : Bool :=
  b.testBit i ^^ b.testBit ((i + 4) % 8) ^^ b.testBit ((i + 5) % 8) ^^ b.testBit ((i + 6) % 8)
    ^^ b.testBit ((i + 7) % 8) ^^ Nat.testBit 0x63 i

/-- The S-box (FIPS 197, 5.1.1): inversion, then the affine map. -/
def S (a : Nat) : Nat :=
  (List.range 8).foldl (fun acc i => acc + if affineBit (ginv a) i then 2 ^ i else 0) 0

/-- A state: the byte in a row and a column. -/
abbrev State := Nat → Nat → Nat

/-- The state of a block: byte `r + 4c` is in row `r`, column `c` (3.4). -/
def load (block : List Nat) : State := fun r c => block.getD (r + 4 * c) 0

/-- The block of a state (3.4). -/
def store (s : State) : List Nat := (List.range 16).map fun n => s (n % 4) (n / 4)

def subBytes (s : State) : State := fun r c => S (s r c)

/-- 5.1.2: row `r` is rotated left by `r` places. -/
def shiftRows (s : State) : State := fun r c => s r ((c + r) % 4)

/-- 5.1.3: every column is multiplied by 03 x^3 + 01 x^2 + 01 x + 02. -/
def mixColumns (s : State) : State := fun r c =>
  gmul 2 (s r c) ^^^ gmul 3 (s ((r + 1) % 4) c) ^^^ s ((r + 2) % 4) c ^^^ s ((r + 3) % 4) c

/-- 5.1.4: round key `n` is the words `4n .. 4n+3`, one for each column. -/
def addRoundKey (w : Nat → List Nat) (n : Nat) (s : State) : State :=
  fun r c => s r c ^^^ (w (4 * n + c)).getD r 0

def subWord (w : List Nat) : List Nat := w.map S

def rotWord (w : List Nat) : List Nat := w.drop 1 ++ w.take 1

def xorWord (a b : List Nat) : List Nat := List.zipWith (· ^^^ ·) a b

/-- The round constant word: x^(j-1), 0, 0, 0. -/
def rcon (j : Nat) : List Nat := [xtPow (j - 1) 1, 0, 0, 0]

/-- The key expansion (5.2), word `i` of the schedule for a key of `nk` words. -/
def keyWord (nk : Nat) (key : List Nat) (i : Nat) : List Nat :=
  if h : i < nk ∨ nk = 0 then (key.drop (4 * i)).take 4
  else
    let temp := keyWord nk key (i - 1)
    let temp :=
      if i % nk = 0 then xorWord (subWord (rotWord temp)) (rcon (i / nk))
      else if nk > 6 ∧ i % nk = 4 then subWord temp
      else temp
    xorWord (keyWord nk key (i - nk)) temp
termination_by i
decreasing_by all_goals omega

/-- The first rounds of the cipher, up to round `n`. -/
def rounds (w : Nat → List Nat) : Nat → State → State
  | 0, s => addRoundKey w 0 s
  | n + 1, s => addRoundKey w (n + 1) (mixColumns (shiftRows (subBytes (rounds w n s))))

/-- `Cipher` (5.1) with `nr` rounds under the expansion of a key of `nk` words. -/
def cipher (nk nr : Nat) (key block : List Nat) : List Nat :=
  store (addRoundKey (keyWord nk key) nr
    (shiftRows (subBytes (rounds (keyWord nk key) (nr - 1) (load block)))))

end Fwknop.Spec.Aes
