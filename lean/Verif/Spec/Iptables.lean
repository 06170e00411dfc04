import Verif.Spec.Access
import Verif.Spec.Message
import Verif.Spec.Spa

/-!
# Independent description of the iptables program

What `iptables` does with the command lines the daemon uses, for any way of printing a rule.
-/

namespace Fwknop.Spec

/-- A word of a command line. -/
abbrev Word := List Nat

/-- A rule: the words that describe it, in the order given. -/
abbrev Rule := List Word

/-- The rules of the chain of a table; `none` if there is no such chain. -/
abbrev Tables := (table chain : Word) → Option (List Rule)

/-- Replace the content of a chain. -/
def Tables.put (K : Tables) (t c : Word) (rs : List Rule) : Tables :=
  fun t' c' => if t' = t ∧ c' = c then some rs else K t' c'

inductive Op where
  | nothing | append | insert | delete | list | check | create | flush | remove
  deriving DecidableEq

/-- What the next word of a command line is. -/
inductive Next where
  | word | table | chain (op : Op) | number
  deriving DecidableEq

/-- A command line, as far as it has been read. -/
structure Call where
  next : Next := .word
  table : Word := b!"filter"
  op : Op := .nothing
  chain : Word := []
  number : Option Nat := none
  rule : Rule := []

/-- An option or a word of the rule. -/
def Call.plain (k : Call) (w : Word) : Call :=
  if w = b!"-t" then { k with next := .table }
  else if w = b!"-A" then { k with next := .chain .append }
  else if w = b!"-I" then { k with next := .chain .insert }
  else if w = b!"-D" then { k with next := .chain .delete }
  else if w = b!"-L" then { k with next := .chain .list }
  else if w = b!"-C" then { k with next := .chain .check }
  else if w = b!"-N" then { k with next := .chain .create }
  else if w = b!"-F" then { k with next := .chain .flush }
  else if w = b!"-X" then { k with next := .chain .remove }
  else { k with rule := k.rule ++ [w] }

/-- Is the word a number? -/
def isNumber (w : Word) : Bool := w ≠ [] && w.all fun c => 48 ≤ c && c ≤ 57

/-- Read one word. -/
def Call.feed (k : Call) (w : Word) : Call :=
  match k.next with
  | .word => k.plain w
  | .table => { k with next := .word, table := w }
  | .chain op => { k with next := if op = .insert ∨ op = .delete then .number else .word, op := op, chain := w }
  | .number =>
    if isNumber w then { k with next := .word, number := some (Spec.number 10 w) }
    else { k with next := .word }.plain w

/-- A line of a listing: the number, padded to four characters, a space and the rule. -/
def line (print : Rule → List Nat) (n : Nat) (r : Rule) : List Nat :=
  decimal n ++ List.replicate (4 - (decimal n).length) 32 ++ 32 :: print r

/-- The lines of a listing, each after a line feed. -/
def lines (print : Rule → List Nat) : Nat → List Rule → List Nat
  | _, [] => []
  | n, r :: rs => 10 :: line print n r ++ lines print (n + 1) rs

/-- The two lines before the rules. -/
def header (c : Word) : List Nat :=
  b!"Chain " ++ c ++ b!" (1 references)" ++ 10 ::
    b!"num  target     prot opt source               destination         "

/-- What `-L --line-numbers -n` prints. -/
def listing (print : Rule → List Nat) (c : Word) (rs : List Rule) : List Nat :=
  header c ++ lines print 1 rs ++ [10]

abbrev noChain : List Nat := b!"iptables: No chain/target/match by that name." ++ [10]
abbrev noRule : List Nat := b!"iptables: Bad rule (does a matching rule exist in that chain?)." ++ [10]
abbrev badIndex : List Nat := b!"iptables: Index of deletion too big." ++ [10]
abbrev badInsert : List Nat := b!"iptables: Index of insertion too big." ++ [10]
abbrev chainThere : List Nat := b!"iptables: Chain already exists." ++ [10]

abbrev notEmpty : List Nat := b!"iptables: Directory not empty." ++ [10]
abbrev inUse : List Nat := b!"iptables: Too many links." ++ [10]
abbrev builtinChain : List Nat := b!"iptables: Invalid argument. Run `dmesg' for more information." ++ [10]

/-- A host with iptables: how it prints a rule, and the names of all its chains. -/
structure Host where
  show_ : Rule → List Nat
  chains : List Word

instance : CoeFun Host fun _ => Rule → List Nat := ⟨Host.show_⟩

/-- Does a rule send packets to a chain? -/
def jumpsTo (c : Word) : Rule → Bool
  | a :: b :: r => (a = b!"-j" && b = c) || jumpsTo c (b :: r)
  | _ => false

/-- Does a chain of the table refer to the chain? -/
def Tables.refers (K : Tables) (names : List Word) (t c : Word) : Bool :=
  names.any fun c' => ((K t c').getD []).any (jumpsTo c)

/-- The chains that the kernel has by itself. -/
def isBuiltin (c : Word) : Bool :=
  c = b!"INPUT" || c = b!"OUTPUT" || c = b!"FORWARD" || c = b!"PREROUTING" || c = b!"POSTROUTING"

/-- Take a chain away. -/
def Tables.drop (K : Tables) (t c : Word) : Tables := fun t' c' => if t' = t ∧ c' = c then none else K t' c'

/-- What a command line, once read, does to the tables, and what it prints. -/
def Call.perform (print : Host) (k : Call) (K : Tables) : List Nat × Tables :=
  match k.op, K k.table k.chain with
  | .nothing, _ => (b!"iptables: no command specified" ++ [10], K)
  | .create, none => ([], K.put k.table k.chain [])
  | .create, some _ => (chainThere, K)
  | _, none => (noChain, K)
  | .append, some rs => ([], K.put k.table k.chain (rs ++ [k.rule]))
  | .insert, some rs =>
    let n := k.number.getD 1
    if 1 ≤ n ∧ n ≤ rs.length + 1 then ([], K.put k.table k.chain (rs.take (n - 1) ++ k.rule :: rs.drop (n - 1)))
    else (badInsert, K)
  | .delete, some rs =>
    let n := k.number.getD (rs.idxOf k.rule + 1)
    if 1 ≤ n ∧ n ≤ rs.length then ([], K.put k.table k.chain (rs.eraseIdx (n - 1))) else (badIndex, K)
  | .list, some rs => (listing print k.chain rs, K)
  | .check, some rs => (if k.rule ∈ rs then [] else noRule, K)
  | .flush, some _ => ([], K.put k.table k.chain [])
  | .remove, some rs =>
    if isBuiltin k.chain then (builtinChain, K)
    else if K.refers print.chains k.table k.chain then (inUse, K)
    else if rs ≠ [] then (notEmpty, K)
    else ([], K.drop k.table k.chain)

/-- What a command line does to the tables, and what it prints. -/
def iptables (print : Host) (argv : List Word) (K : Tables) : List Nat × Tables :=
  (argv.tail.foldl Call.feed {}).perform print K

/-- What becomes of a call of iptables. -/
inductive Fate where
  /-- it works -/
  | works
  /-- it exits with an error status and does nothing (for example because another process holds
  the lock of the tables) -/
  | refused
  /-- it is killed, or never started, and does nothing -/
  | killed
  deriving DecidableEq

/-- The text printed by a call that is refused. -/
abbrev refusal : List Nat := b!"iptables: Resource temporarily unavailable." ++ [10]

/-- iptables with the fates of the coming calls: what is printed, did the program exit normally, the
tables and the remaining fates.  Calls without a fate work. -/
def iptablesUnder (print : Host) (argv : List Word) (K : Tables) :
    List Fate → List Nat × Bool × Tables × List Fate
  | [] => ((iptables print argv K).1, true, (iptables print argv K).2, [])
  | .works :: fs => ((iptables print argv K).1, true, (iptables print argv K).2, fs)
  | .refused :: fs => (refusal, true, K, fs)
  | .killed :: fs => ([], false, K, fs)

/-- A text without the marker of the daemon's comments. -/
def NoMark (s : List Nat) : Prop := ¬ b!"_exp_" <:+: s

/-- The expiry of a rule as printed: `/* _exp_N */` in it and no other marker; `none` for a rule
without the marker.  Rules are printed in one line. -/
def HasExpiry (print : Rule → List Nat) (r : Rule) : Option Nat → Prop
  | none => 10 ∉ print r ∧ NoMark (print r)
  | some e => 10 ∉ print r ∧ ∃ a b, NoMark a ∧ NoMark b ∧
      print r = a ++ b!"/* _exp_" ++ decimal e ++ b!" */" ++ b

/-- Has a rule with this expiry passed it? -/
def expired (now : Int) : Option Nat → Bool
  | none => false
  | some e => (e : Int) ≤ now

/-- A word of a command line as the daemon writes it. -/
def PlainWord (w : Word) : Prop := w ≠ [] ∧ ∀ c ∈ w, ¬ IsBlank c

/-- Some of the rules that satisfy `p` have been removed, nothing else. -/
inductive Pruned (p : Rule → Prop) : List Rule → List Rule → Prop where
  | nil : Pruned p [] []
  | keep (r : Rule) {a b : List Rule} : Pruned p a b → Pruned p (r :: a) (r :: b)
  | drop (r : Rule) {a b : List Rule} : p r → Pruned p a b → Pruned p (r :: a) b

/-- Make a chain, if it is not there. -/
def Tables.make (K : Tables) (t c : Word) : Tables :=
  match K t c with
  | none => K.put t c []
  | some _ => K

/-- The rules of `rs` with `r` as number `n`. -/
def insertAt (rs : List Rule) (n : Nat) (r : Rule) : List Rule := rs.take (n - 1) ++ r :: rs.drop (n - 1)

/-- Have the chain `from_` jump to `c`, by rule number `n`, unless it does already. -/
def Tables.jump (K : Tables) (t from_ : Word) (n : Nat) (c : Word) : Tables :=
  match K t from_ with
  | none => K
  | some fr =>
    if [b!"-j", c] ∈ fr then K
    else if 1 ≤ n ∧ n ≤ fr.length + 1 then K.put t from_ (insertAt fr n [b!"-j", c]) else K

/-- Add a rule at the end or at the front of a chain, unless the chain has it already. -/
def addRule (front : Bool) (rs : List Rule) (r : Rule) : List Rule :=
  if r ∈ rs then rs else if front then r :: rs else rs ++ [r]

/-- Make the chain `c` if need be, have the chain `from_` jump to it by rule number `n` if it does
not, and add a rule to it if it does not have it. -/
def Tables.grant (K : Tables) (t from_ : Word) (n : Nat) (c : Word) (front : Bool) (r : Rule) : Tables :=
  let K1 := (K.make t c).jump t from_ n c
  match K1 t c with
  | none => K1
  | some rs => K1.put t c (addRule front rs r)

/-- The rule that lets packets of a protocol from an address in to a port until a time. -/
def inputRule (proto : Nat) (src dst : Word) (port e : Nat) (target : Word) : Rule :=
  [b!"-p", decimal proto, b!"-s", src, b!"-d", dst, b!"--dport", decimal port, b!"-m", b!"comment",
    b!"--comment", b!"_exp_" ++ decimal e, b!"-j", target]

/-- The rule that lets packets of a protocol from a port out to an address until a time. -/
def outputRule (proto : Nat) (src dst : Word) (port e : Nat) (target : Word) : Rule :=
  [b!"-p", decimal proto, b!"-d", src, b!"-s", dst, b!"--sport", decimal port, b!"-m", b!"comment",
    b!"--comment", b!"_exp_" ++ decimal e, b!"-j", target]

/-- The rule that lets packets of a protocol from an address be forwarded to a port until a time. -/
def forwardRule (proto : Nat) (src : Word) (port e : Nat) (target : Word) : Rule :=
  [b!"-p", decimal proto, b!"-s", src, b!"--dport", decimal port, b!"-m", b!"comment",
    b!"--comment", b!"_exp_" ++ decimal e, b!"-j", target]

/-- The rule that sends packets of a protocol from an address for a port on to another host and port,
until a time. -/
def dnatRule (proto : Nat) (src dst : Word) (port e : Nat) (target ip : Word) (toPort : Nat) : Rule :=
  [b!"-p", decimal proto, b!"-s", src, b!"-d", dst, b!"--dport", decimal port, b!"-m", b!"comment",
    b!"--comment", b!"_exp_" ++ decimal e, b!"-j", target, b!"--to-destination", ip ++ 58 :: decimal toPort]

/-- The rule that changes the source of packets of a protocol for a host and port, until a time. -/
def snatRule (proto : Nat) (ip : Word) (port e : Nat) (target opt val : Word) : Rule :=
  [b!"-p", decimal proto, b!"-d", ip, b!"--dport", decimal port, b!"-m", b!"comment",
    b!"--comment", b!"_exp_" ++ decimal e, b!"-j", target, opt, val]

/-- A packet: its protocol, addresses and ports. -/
structure Packet where
  proto : Nat
  src : Word
  dst : Word
  sport : Nat
  dport : Nat

/-- Does an address belong to what a rule says?  (Single addresses and the one that stands for all.) -/
def inNet (w addr : Word) : Bool := w = b!"0.0.0.0/0" || w = addr

/-- Does a packet match a rule? -/
def ruleMatches (pk : Packet) : Rule → Bool
  | o :: w :: ws =>
    (if o = b!"-p" then decide (w = decimal pk.proto)
     else if o = b!"-s" then inNet w pk.src
     else if o = b!"-d" then inNet w pk.dst
     else if o = b!"--dport" then decide (w = decimal pk.dport)
     else if o = b!"--sport" then decide (w = decimal pk.sport)
     else true) && ruleMatches pk ws
  | _ => true

/-- Which source NAT a configuration asks for: the number of the chain (4: SNAT, 5: MASQUERADE) and the
option with its value.  `force`: FORCE_SNAT or FORCE_MASQUERADE, `forceIp` the address of FORCE_SNAT,
`translate`: SNAT_TRANSLATE_IP, `port`: the port asked for. -/
inductive SourceNat (force masq : Bool) (forceIp translate : Option Word) (port : Nat) : Nat → Word → Word → Prop where
  | forced (ip : Word) : force = true → forceIp = some ip → IsIPv4 ip →
      SourceNat force masq forceIp translate port 4 b!"--to-source" ip
  | masquerade : force = true → masq = true → (∀ ip, forceIp = some ip → ¬ IsIPv4 ip) →
      SourceNat force masq forceIp translate port 5 b!"--to-ports" (decimal port)
  | translated (ip : Word) : (force = true → masq = false ∧ ∀ ip, forceIp = some ip → ¬ IsIPv4 ip) →
      translate = some ip → IsIPv4 ip → SourceNat force masq forceIp translate port 4 b!"--to-source" ip
  | default : (force = true → masq = false ∧ ∀ ip, forceIp = some ip → ¬ IsIPv4 ip) →
      (∀ ip, translate = some ip → ¬ IsIPv4 ip) →
      SourceNat force masq forceIp translate port 5 b!"--to-ports" (decimal port)

/-- A request that is to be handled by NAT: the stanza forces it (FORCE_NAT), or the type of the message is
one of NAT access (2), with a client timeout (4), local NAT access (5), with a client timeout (6). -/
def ForNat (forced : Bool) (type : Int) : Prop := forced = true ∨ type = 2 ∨ type = 4 ∨ type = 5 ∨ type = 6

instance (f : Bool) (t : Int) : Decidable (ForNat f t) := by unfold ForNat; infer_instance

/-- A word that can be part of a rule: not one of the options of `Call.plain`. -/
def RuleWord (w : Word) : Prop :=
  PlainWord w ∧ w ≠ b!"-t" ∧ w ≠ b!"-A" ∧ w ≠ b!"-I" ∧ w ≠ b!"-D" ∧ w ≠ b!"-L" ∧ w ≠ b!"-C" ∧ w ≠ b!"-N" ∧
    w ≠ b!"-F" ∧ w ≠ b!"-X"

end Fwknop.Spec
