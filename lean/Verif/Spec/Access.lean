import Verif.Spec.Message

/-!
# Independent specification of the access configuration texts

What a network, a list of networks, a proto/port and a list of them mean to the person who writes
them.
-/

namespace Fwknop.Spec

/-- A dotted quad of at most 15 characters and the number it denotes. -/
def IsAddr (s : List Nat) (v : Nat) : Prop :=
  ∃ a b c d, IsOctet a ∧ IsOctet b ∧ IsOctet c ∧ IsOctet d ∧
    s = a ++ 46 :: (b ++ 46 :: (c ++ 46 :: d)) ∧ s.length ≤ 15 ∧
    v = octetVal a * 2 ^ 24 + octetVal b * 2 ^ 16 + octetVal c * 2 ^ 8 + octetVal d

/-- Lower case of a letter. -/
def lower (c : Nat) : Nat := if 65 ≤ c ∧ c ≤ 90 then c + 32 else c

/-- A network as written in SOURCE or DESTINATION and the addresses it stands for. -/
inductive Network : List Nat → (Nat → Prop) → Prop where
  /-- ANY, in any case: every address -/
  | any (s : List Nat) : s.map lower = b!"any" → Network s (fun _ => True)
  /-- a.b.c.d: that address -/
  | host (s : List Nat) (v : Nat) : IsAddr s v → Network s (fun x => x = v)
  /-- a.b.c.d/n: the addresses with the same first n bits -/
  | cidr (ip ds : List Nat) (v : Nat) : IsAddr ip v → (∀ c ∈ ds, IsDigitChar c) → ds ≠ [] →
      ds.length ≤ 2 → 1 ≤ number 10 ds → number 10 ds ≤ 32 →
      Network (ip ++ 47 :: ds) (fun x => x / 2 ^ (32 - number 10 ds) = v / 2 ^ (32 - number 10 ds))
  /-- a.b.c.d/m.m.m.m: the addresses that agree on the bits set in the mask -/
  | masked (ip m : List Nat) (v w : Nat) : IsAddr ip v → IsAddr m w → w ≠ 32 →
      Network (ip ++ 47 :: m) (fun x => ∀ i, w.testBit i → x.testBit i = v.testBit i)

/-- Texts separated by commas. -/
def commaJoin : List (List Nat) → List Nat
  | [] => []
  | [x] => x
  | x :: y :: r => x ++ 44 :: commaJoin (y :: r)

/-- White space. -/
def IsBlank (c : Nat) : Prop := c = 32 ∨ (9 ≤ c ∧ c ≤ 13)

/-- A list of networks, separated by commas and optional white space, and the addresses it
stands for. -/
def Networks (s : List Nat) (A : Nat → Prop) : Prop :=
  ∃ items : List (List Nat × List Nat × (Nat → Prop)), items ≠ [] ∧
    (∀ i ∈ items, (∀ c ∈ i.1, IsBlank c) ∧ Network i.2.1 i.2.2) ∧
    s = commaJoin (items.map fun i => i.1 ++ i.2.1) ∧
    A = fun x => ∃ i ∈ items, i.2.2 x

/-- A protocol and port as written, `tcp/22`, and what it denotes (6 is TCP, 17 is UDP). -/
def ProtoPort (s : List Nat) (proto port : Nat) : Prop :=
  ∃ name digits, s = name ++ 47 :: digits ∧
    (name.map lower = b!"tcp" ∧ proto = 6 ∨ name.map lower = b!"udp" ∧ proto = 17) ∧
    digits ≠ [] ∧ (∀ c ∈ digits, IsDigitChar c) ∧ number 10 digits = port ∧ port ≤ 65535 ∧
    s.length ≤ 31

/-- A list of them, separated by commas and optional white space. -/
def ProtoPorts (s : List Nat) (ps : List (Nat × Nat)) : Prop :=
  ∃ items : List (List Nat × List Nat × (Nat × Nat)), items ≠ [] ∧
    (∀ i ∈ items, (∀ c ∈ i.1, IsBlank c) ∧ ProtoPort i.2.1 i.2.2.1 i.2.2.2) ∧
    s = commaJoin (items.map fun i => i.1 ++ i.2.1) ∧ ps = items.map fun i => i.2.2

/-- The list in a request: no white space. -/
def RequestPorts (s : List Nat) (ps : List (Nat × Nat)) : Prop :=
  ∃ items : List (List Nat × (Nat × Nat)), items ≠ [] ∧
    (∀ i ∈ items, ProtoPort i.1 i.2.1 i.2.2) ∧
    s = commaJoin (items.map fun i => i.1) ∧ ps = items.map fun i => i.2

end Fwknop.Spec
