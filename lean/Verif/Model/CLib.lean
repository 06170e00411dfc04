import Verif.Model.Basic

/-!
# C library functions used by the code (C locale, glibc semantics, 64-bit long, 32-bit int)
-/

namespace Fwknop

/-- `isdigit`. -/
def isDigit (c : Nat) : Bool := 48 ≤ c && c ≤ 57

/-- `isspace` in the C locale: space, \t \n \v \f \r. -/
def isSpace (c : Nat) : Bool := c = 32 || (9 ≤ c && c ≤ 13)

/-- `isalpha` in the C locale. -/
def isAlpha (c : Nat) : Bool := (65 ≤ c && c ≤ 90) || (97 ≤ c && c ≤ 122)

/-- `isalnum` in the C locale. -/
def isAlnum (c : Nat) : Bool := isDigit c || isAlpha c

/-- `tolower` in the C locale. -/
def toLower (c : Nat) : Nat := if 65 ≤ c && c ≤ 90 then c + 32 else c

/-- Value of a run of digits in base `b`, most significant first (used with b = 8, 10). -/
def digitsVal (b : Nat) (ds : Str) : Nat := ds.foldl (fun acc d => b * acc + (d - 48)) 0

abbrev LONG_MAX : Int := 2 ^ 63 - 1
abbrev LONG_MIN : Int := -(2 ^ 63)

/-- The optional sign `strtol` accepts: is it negative, and what follows. -/
def splitSign : Str → Bool × Str
  | 45 :: t => (true, t)
  | 43 :: t => (false, t)
  | t => (false, t)

/-- glibc `strtol(s, NULL, 10)`: leading white space, an optional sign, then digits up to the
first other character; no digits gives 0; out of range values are clamped and reported
(`true` in the second component stands for `errno == ERANGE`). -/
def strtol (s : Str) : Int × Bool :=
  let s1 := s.dropWhile isSpace
  let r := splitSign s1
  let v : Int := digitsVal 10 (r.2.takeWhile isDigit)
  let v := if r.1 then -v else v
  if v > LONG_MAX then (LONG_MAX, true)
  else if v < LONG_MIN then (LONG_MIN, true)
  else (v, false)

/-- Conversion of a C `long` to `int` (two's complement wrap-around). -/
def toInt32 (x : Int) : Int := (x + 2 ^ 31) % 2 ^ 32 - 2 ^ 31

/-- `strtol_wrapper` with NO_EXIT_UPON_ERR, common/fko_util.c:507-563: the value returned and
whether `*err` is FKO_SUCCESS.  `val` is an `int`, so the `long` is truncated before the bounds
are checked. -/
def strtol_wrapper (s : Str) (min max : Int) : Int × Bool :=
  let (l, erange) := strtol s
  let val := toInt32 l
  let err1 := erange
  let err2 := val < min
  let err3 := max ≥ 0 ∧ val > max
  (val, !(err1 || err2 || err3))

/-- Decimal digits of a number (`%u`), with fuel. -/
def decStrAux : (fuel n : Nat) → Str
  | 0, _ => []
  | fuel + 1, n => if n < 10 then [48 + n] else decStrAux fuel (n / 10) ++ [48 + n % 10]

/-- What `printf("%u")` prints (`%i`, `%ld` for non-negative values). -/
def decStr (n : Nat) : Str := decStrAux (n + 1) n

/-- What `printf("%i")` prints. -/
def decStrInt (z : Int) : Str := if z < 0 then 45 :: decStr z.natAbs else decStr z.natAbs

/-- Is `c` a digit of the base selected by `strtoul(_, _, 0)`? -/
def hexVal (c : Nat) : Option Nat :=
  if isDigit c then some (c - 48)
  else if 97 ≤ c ∧ c ≤ 102 then some (c - 87)
  else if 65 ≤ c ∧ c ≤ 70 then some (c - 55)
  else none

/-- Digits of `strtoul(s, &end, 0)` for an `s` that starts with a digit: value (unbounded,
`inet_aton` rejects everything above 2^32-1 anyway) and the rest of the string. -/
def strtoul0 (s : Str) : Nat × Str :=
  match s with
  | 48 :: x :: d :: t =>
    if (x = 120 ∨ x = 88) ∧ (hexVal d).isSome then
      let ds := (d :: t).takeWhile (fun c => (hexVal c).isSome)
      (ds.foldl (fun acc c => 16 * acc + (hexVal c).getD 0) 0, (d :: t).drop ds.length)
    else
      let ds := s.takeWhile (fun c => 48 ≤ c && c ≤ 55)
      (digitsVal 8 ds, s.drop ds.length)
  | 48 :: _ =>
      let ds := s.takeWhile (fun c => 48 ≤ c && c ≤ 55)
      (digitsVal 8 ds, s.drop ds.length)
  | _ =>
      let ds := s.takeWhile isDigit
      (digitsVal 10 ds, s.drop ds.length)

/-- `inet_aton` accepts the end of the string or white space after the address. -/
def aton_end : Str → Bool
  | [] => true
  | d :: _ => isSpace d

/-- Main loop of glibc `inet_aton` (resolv/inet_addr.c): `n` parts have been read into `acc`.
The address is returned as a host-order 32-bit number. -/
def inetAtonLoop : (fuel : Nat) → (n acc : Nat) → Str → Option Nat
  | 0, _, _, _ => none
  | fuel + 1, n, acc, s =>
    match s with
    | [] => none
    | c :: _ =>
      if !isDigit c then none
      else
        let r := strtoul0 s
        let val := r.1
        if val > 0xffffffff then none
        else match r.2 with
          | 46 :: rest =>
            if n ≥ 3 ∨ val > 0xff then none
            else inetAtonLoop fuel (n + 1) (acc + val * 2 ^ (8 * (3 - n))) rest
          | rest =>
            if aton_end rest = true ∧ val ≤ 2 ^ (8 * (4 - n)) - 1
            then some (acc + val) else none

/-- `inet_aton`: the address as a host-order number, `none` when it returns 0.  At most four
parts can be read, so five rounds of fuel are enough. -/
def inet_aton (s : Str) : Option Nat := inetAtonLoop 5 0 0 s

/-- `strlcpy(dst, src, size)` into a buffer of its own: the resulting C string (`size > 0`). -/
def strlcpy (src : Str) (size : Nat) : Str := src.take (size - 1)

/-- Index of the first occurrence (`strchr(s, c) - s`), `none` for NULL. -/
def strchr : Str → Nat → Option Nat
  | [], _ => none
  | x :: xs, c => if x = c then some 0 else (strchr xs c).map (· + 1)

/-- `strncmp(s, lit, strlen(lit)) == 0` for a literal `lit`. -/
def hasPrefix (lit s : Str) : Bool := lit.isPrefixOf s

/-- `strncasecmp(s, lit, strlen(lit)) == 0` for a literal `lit`. -/
def hasPrefixI (lit s : Str) : Bool := (lit.map toLower).isPrefixOf (s.map toLower)

example : strtol b!" -12x" = (-12, false) := by decide
example : strtol_wrapper b!"4294967297" 0 100 = (1, true) := by decide
example : decStr 65535 = b!"65535" := by decide
example : inet_aton b!"127.0.0.1" = some 2130706433 := by decide
example : inet_aton b!"127.0.0.256" = none := by decide
example : inet_aton b!"010.0.0.1" = some 134217729 := by decide
example : inet_aton b!"0x7f.0.0.1" = some 2130706433 := by decide
example : inet_aton b!"1.2.3" = some 16908291 := by decide

end Fwknop
