import Verif.Spec.Message
import Verif.Spec.Spa

/-!
# Finding one's own address with the help of a web server

The answer of the server is a text with a header, an empty line and the address.  A URL has a scheme, a
host, perhaps a port, and perhaps a path.
-/

namespace Fwknop.Spec

/-- An address in the usual form. -/
def dotted (a b c d : Nat) : List Nat :=
  decimal a ++ 46 :: (decimal b ++ 46 :: (decimal c ++ 46 :: decimal d))

/-- A character of an address. -/
def IpChar (c : Nat) : Prop := IsDigitChar c ∨ c = 46

/-- The end of a line and an empty line. -/
def blankLine : List Nat := [13, 10, 13, 10]

/-- `resp` is an answer whose content begins with the text `ip`: the first empty line is in front of it, and
no character of an address behind it. -/
structure Answers (resp ip : List Nat) : Prop where
  text : ∃ head tail, resp = head ++ (blankLine ++ (ip ++ tail)) ∧ 0 ∉ head ∧
    (∀ i < head.length, ¬ blankLine <+: resp.drop i) ∧ ∀ c, tail.head? = some c → ¬ IpChar c

/-- A stream of bytes that arrives in pieces. -/
def Arrives (resp : List Nat) (pieces : List (List Nat)) : Prop := pieces.flatten = resp ∧ [] ∉ pieces

/-- `http://` and `https://`, in small letters or capitals, or nothing. -/
def IsScheme (s : List Nat) : Prop :=
  s = [] ∨ ∃ t, s.map (fun c => if 65 ≤ c ∧ c ≤ 90 then c + 32 else c) = t ∧
    (t = [104, 116, 116, 112, 58, 47, 47] ∨ t = [104, 116, 116, 112, 115, 58, 47, 47])

/-- The port of a URL: 80 if it is not given. -/
inductive UrlPort : List Nat → Nat → Prop
  | default : UrlPort [] 80
  | given (p : Nat) : UrlPort (58 :: decimal p) p

/-- The path of a URL: `/` if it is not given. -/
inductive UrlPath : List Nat → List Nat → Prop
  | default : UrlPath [] [47]
  | given (rest : List Nat) : UrlPath (47 :: rest) (47 :: rest)

/-- A URL and its parts: a port of at most four digits, a colon in the path only behind a port, a path that
does not end with a slash, a host and a path of moderate length. -/
def PlainUrl (url host : List Nat) (port : Nat) (path : List Nat) : Prop :=
  ∃ scheme p q, url = scheme ++ (host ++ (p ++ q)) ∧ IsScheme scheme ∧ UrlPort p port ∧ UrlPath q path ∧
    (58 ∉ host ∧ 47 ∉ host) ∧ host ≠ [] ∧ (p = [] → 58 ∉ q) ∧ (1 ≤ port ∧ port < 10000) ∧ host.length ≤ 255 ∧
    path.length ≤ 1024 ∧ q.getLast? ≠ some 47

/-- The words of the command that asks `wget` for the address; `own` if `wget` is to say who it is by itself. -/
def wgetWords (bin agent url : List Nat) (own : Bool) : List (List Nat) :=
  [bin] ++ (if own then [] else [b!"-U", agent]) ++ [b!"--secure-protocol=auto", b!"--quiet", b!"-O", b!"-", url]

end Fwknop.Spec
