import Verif.Spec.Daemon
import Verif.Spec.AccessFile

/-!
# What a request for NAT entitles to
-/

namespace Fwknop.Spec

/-- Digits and dots, at most 15 of them. -/
def Dotted (w : Word) : Prop := w ≠ [] ∧ w.length ≤ 15 ∧ ∀ c ∈ w, c = 46 ∨ IsDigitChar c

/-- Where the packets of a request are sent on to.  A stanza with FORCE_NAT decides it.  Otherwise the client does: its
text is a host, a comma and a port.  An address is taken as it is, a name is looked up, if that is allowed. -/
structure SentOn (cf : FwConf) (acc : Stanza) (c : Ctx) (ip : Word) (port : Nat) : Prop where
  forced : acc.force_nat = true → port = acc.force_nat_port ∧ ∃ a, acc.force_nat_ip = some a ∧ (a.length ≤ 15 → ip = a)
  asked : acc.force_nat = false → ∃ host p, c.nat_access = some (host ++ 44 :: p) ∧ 44 ∉ host ∧
    (IsIPv4 host → ip = host) ∧ ((∃ x ∈ host, x ≠ 46 ∧ ¬ IsDigitChar x) → cf.nat_dns = true ∧ cf.resolve host = some ip) ∧
    ∀ n, Decimal p n → n < 2 ^ 31 → port = n

/-- The rule that lets all packets from an address be forwarded until a time. -/
def forwardAllRule (src : Word) (e : Nat) (target : Word) : Rule :=
  [b!"-s", src, b!"-m", b!"comment", b!"--comment", b!"_exp_" ++ decimal e, b!"-j", target]

/-- The rule that sends all packets from an address on to another host, until a time. -/
def dnatAllRule (src dst : Word) (e : Nat) (target ip : Word) : Rule :=
  [b!"-s", src, b!"-d", dst, b!"-m", b!"comment", b!"--comment", b!"_exp_" ++ decimal e, b!"-j", target,
    b!"--to-destination", ip]

/-- The rule that changes the source of all packets from an address, until a time. -/
def snatAllRule (src : Word) (e : Nat) (target : Word) (opts : List Word) : Rule :=
  [b!"-s", src, b!"-m", b!"comment", b!"--comment", b!"_exp_" ++ decimal e, b!"-j", target] ++ opts

/-- Which source NAT a configuration asks for with FORWARD_ALL: the number of the chain (4: SNAT, 5: MASQUERADE) and the
options.  `force`: FORCE_SNAT or FORCE_MASQUERADE, `forceIp` the address of FORCE_SNAT, `translate`: SNAT_TRANSLATE_IP. -/
inductive SourceNatAll (force : Bool) (forceIp translate : Option Word) : Nat → List Word → Prop where
  | forced (ip : Word) : force = true → forceIp = some ip → IsIPv4 ip → SourceNatAll force forceIp translate 4 [b!"--to-source", ip]
  | translated (ip : Word) : (force = true → ∀ ip, forceIp = some ip → ¬ IsIPv4 ip) → translate = some ip → IsIPv4 ip →
      SourceNatAll force forceIp translate 4 [b!"--to-source", ip]
  | default : (force = true → ∀ ip, forceIp = some ip → ¬ IsIPv4 ip) → (∀ ip, translate = some ip → ¬ IsIPv4 ip) →
      SourceNatAll force forceIp translate 5 []

/-- The rule `x` in the chain `h` is one of those for sending the packets of `src` to a port of `dst` on to `toPort` of
`ip`, until a time; with FORWARD_ALL, all packets of `src`.  The packets are let in, for local NAT, or else let
through; their destination is changed, unless the stanza has DISABLE_DNAT; their source is changed, if the stanza or
the configuration demand it.  The chains are, in turn, those for input, output, forwarding, destinations and, the last
two, sources. -/
inductive LetsNat (cf : FwConf) (chs : List FwChain) (acc : Stanza) (c : Ctx) (h : Hook) (src dst : Word) (proto port e : Nat)
    (ip : Word) (toPort : Nat) (x : Rule) : Prop where
  | input : WantsLocalNat c → h.table = (chs.getD 0 {}).table → h.to = (chs.getD 0 {}).to_chain →
      x = inputRule proto src dst toPort e (chs.getD 0 {}).target → LetsNat cf chs acc c h src dst proto port e ip toPort x
  | forward : ¬ WantsLocalNat c → h.table = (chs.getD 2 {}).table → h.to = (chs.getD 2 {}).to_chain →
      x = (if acc.forward_all then forwardAllRule src e (chs.getD 2 {}).target
        else forwardRule proto src toPort e (chs.getD 2 {}).target) → LetsNat cf chs acc c h src dst proto port e ip toPort x
  | destination : acc.disable_dnat = false → h.table = (chs.getD 3 {}).table → h.to = (chs.getD 3 {}).to_chain →
      x = (if acc.forward_all then dnatAllRule src dst e (chs.getD 3 {}).target ip
        else dnatRule proto src dst port e (chs.getD 3 {}).target ip toPort) → LetsNat cf chs acc c h src dst proto port e ip toPort x
  | source (k : Nat) (opt val : Word) : acc.force_snat = true ∨ cf.snat = true → acc.forward_all = false →
      SourceNat acc.force_snat acc.force_masquerade acc.force_snat_ip cf.snat_translate_ip port k opt val →
      h.table = (chs.getD k {}).table → h.to = (chs.getD k {}).to_chain →
      x = snatRule proto ip toPort e (chs.getD k {}).target opt val → LetsNat cf chs acc c h src dst proto port e ip toPort x
  | sourceAll (k : Nat) (opts : List Word) : acc.force_snat = true ∨ cf.snat = true → acc.forward_all = true →
      SourceNatAll acc.force_snat acc.force_snat_ip cf.snat_translate_ip k opts →
      h.table = (chs.getD k {}).table → h.to = (chs.getD k {}).to_chain →
      x = snatAllRule src e (chs.getD k {}).target opts → LetsNat cf chs acc c h src dst proto port e ip toPort x

/-- Some packet of the history entitles to what the rule does: to reach the port, or to have it sent on, which needs
a stanza with FORCE_NAT, or a client that asks for it and a configuration that allows it. -/
def BackedNat (D : DConf) (E : Env) (stanzas : List Stanza) (chs : List FwChain) (hist : List Act) (h : Hook) (x : Rule) : Prop :=
  ∃ acc ∈ stanzas, ∃ now p o src proto port until_ text proxy c ip rest, Act.packet now p o ∈ hist ∧
    Entitles D.conf E acc now p src proto port until_ text proxy c ip rest ∧ 0 ≤ until_ ∧
    (WantsForward c → D.conf.forwarding = true) ∧ (WantsLocalNat c → D.conf.local_nat = true) ∧
    ((¬ ForNat acc.force_nat c.message_type ∧
        Lets chs h src (if D.fw.use_destination then inet_ntop p.dst_ip else b!"0.0.0.0/0") proto port until_.toNat x) ∨
     (ForNat acc.force_nat c.message_type ∧ (∀ ps, RequestPorts rest ps → ps.head? = some (proto, port)) ∧
        ∃ toIp toPort, SentOn D.fw acc c toIp toPort ∧
          LetsNat D.fw chs acc c h src (if D.fw.use_destination then inet_ntop p.dst_ip else b!"0.0.0.0/0") proto port until_.toNat
            toIp toPort x))

/-- What is needed of a stanza under which addresses are translated: the target of FORCE_NAT is an
address and a port, the addresses of FORCE_SNAT and SNAT_TRANSLATE_IP are not longer than an address, names stand for
addresses, and the chain for the sources is configured. -/
structure NatReady (cf : FwConf) (chs : List FwChain) (acc : Stanza) : Prop where
  ip : acc.force_nat = true → ∀ a, acc.force_nat_ip = some a → Dotted (a.take 15)
  port : acc.force_nat_port ≤ 65535
  source : ∀ a, acc.force_snat_ip = some a → a.length ≤ 15
  resolve : ∀ n a, cf.resolve n = some a → IsIPv4 a
  translate : ∀ a, cf.snat_translate_ip = some a → a.length ≤ 15
  chains : acc.force_snat = true ∨ cf.snat = true → acc.forward_all = false → ∀ port k opt val,
    SourceNat acc.force_snat acc.force_masquerade acc.force_snat_ip cf.snat_translate_ip port k opt val → (chs.getD k {}).target ≠ []
  chainsAll : acc.force_snat = true ∨ cf.snat = true → acc.forward_all = true → ∀ k opts,
    SourceNatAll acc.force_snat acc.force_snat_ip cf.snat_translate_ip k opts → (chs.getD k {}).target ≠ []

/-- A firewall program that may fail: what a call does to the tables is what iptables does, or nothing.  What it prints,
and whether it exits normally, is left open. -/
structure AtMost {σ : Type} (T : Tool σ) (print : Host) (tab : σ → Tables) : Prop where
  step : ∀ argv w, tab (T.exec argv w).2 = tab w ∨ tab (T.exec argv w).2 = (iptables print argv (tab w)).2

end Fwknop.Spec
