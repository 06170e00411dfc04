import Verif.Model.Ctx

/-!
# Byte buffers read and written as words

`uint32_t` and `uint64_t` values are bit vectors; the host is little-endian
(`BYTEORDER == 1234`, lib/fko_common.h:94-133).
-/

namespace Fwknop

/-- The value of a run of bytes in the memory of a little-endian host. -/
def fromLE : Str → Nat
  | [] => 0
  | c :: cs => c + 256 * fromLE cs

/-- The `n` bytes of a value in the memory of a little-endian host. -/
def toLE : Nat → Nat → Str
  | 0, _ => []
  | n + 1, v => v % 256 :: toLE n (v / 256)

/-- Element `j` of the array of `8 k`-bit words that starts at `b`. -/
def loadW (k : Nat) (b : Str) (j : Nat) : BitVec (8 * k) :=
  BitVec.ofNat (8 * k) (fromLE ((b.drop (k * j)).take k))

/-- Assignment to element `j` of the array of `8 k`-bit words that starts at `b`. -/
def storeW (k : Nat) (b : Str) (j : Nat) (w : BitVec (8 * k)) : Str :=
  b.take (k * j) ++ toLE k w.toNat ++ b.drop (k * j + k)

/-- `memcpy(b + off, src, n)` with `n` the length of `src`, or `memset`: writing outside `b` is
undefined. -/
def put (b : Str) (off : Nat) (src : Str) : Res Str := do
  Res.mem (b.length < off + src.length)
  return b.take off ++ src ++ b.drop (off + src.length)

/-- The first `n` bytes at a pointer into an object that ends after `src`: reading further is
undefined. -/
def fetch (src : Str) (n : Nat) : Res Str := do
  Res.mem (src.length < n)
  return src.take n

end Fwknop
