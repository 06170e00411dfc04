import Verif.Model.ServerMain

/-!
# What a run of fwknopd may do

The acts of a run are the names of the calls in `main`.
-/

namespace Fwknop.Spec

/-- The firewall is changed. -/
def ChangesFw (x : MainAct) : Prop := x = .fwInit ∨ x = .fwCleanup

/-- Packets or connections are taken. -/
def Serves (x : MainAct) : Prop := x = .nfq ∨ x = .udp ∨ x = .tcp ∨ x = .pcap

/-- The options that ask for one thing and no daemon. -/
def OneShot (a : MainArgs) : Prop :=
  a.kill = true ∨ a.status = true ∨ a.restart = true ∨ a.fw_list = true ∨ a.fw_flush = true ∨ a.dump_config = true ∨
    a.exit_after_parse_config = true ∨ a.exit_parse_digest_cache = true

/-- The preparation of the firewall is undone before the program ends. -/
def CleansUp (l : List MainAct) : Prop :=
  ∀ pre post, l = pre ++ .fwInit :: post → (∃ ok, .exit ok ∈ post) → .fwCleanup ∈ post

/-- The configuration that a turn meets is a good one and needs the firewall. -/
def GoodTurn (t : MainTurn) : Prop :=
  t.config = true ∧ t.runDir = true ∧ t.handlers = true ∧ t.fwConfig = true ∧ t.access = true ∧ t.stanzas = true ∧ t.needsFw = true ∧
    t.pid = true ∧ t.cache = true

/-- What must have gone well before packets are taken. -/
def Ready (a : MainArgs) (t : MainTurn) (l : List MainAct) : Prop :=
  t.config = true ∧ t.runDir = true ∧ t.handlers = true ∧ t.fwConfig = true ∧ t.access = true ∧ t.stanzas = true ∧ t.pid = true ∧ t.cache = true ∧
    (a.test = false → t.needsFw = true → t.fwInit = true) ∧
    ([.runDir, .handlers, .fwConfig, .access, .pid, .cache] ++ if !a.test && t.needsFw then [.fwInit] else []) <+: l

/-- A setting that means yes: its first letter is a Y. -/
def SaysYes (s : Str) : Prop := ∃ r, s = b!"Y" ++ r ∨ s = b!"y" ++ r

/-- A setting that means no: its first letter is an N. -/
def SaysNo (s : Str) : Prop := ∃ r, s = b!"N" ++ r ∨ s = b!"n" ++ r

end Fwknop.Spec
