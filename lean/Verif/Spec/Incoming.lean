import Verif.Model.Incoming
import Verif.Spec.Access
import Verif.Spec.Hmac

/-!
# What a stanza demands of a request, and what a packet may cause

The types are those of the model (settings, stanza, decoded packet, effects); the demands are
written out here, as access.conf(5) describes them.
-/

namespace Fwknop.Spec

/-- The number of the stanza that caused an effect. -/
def stanzaNo : Effect → Nat
  | .cycle n _ => n
  | .command n _ _ => n
  | .access n _ _ => n

/-- Stanza number `n`, counted from 1. -/
def stanzaAt (stanzas : List Stanza) (n : Nat) : Option Stanza := stanzas[n - 1]?

/-- Some entry of the list has the same bits under its mask. -/
def InList (l : List AddrEnt) (x : Nat) : Prop := ∃ e ∈ l, x &&& e.mask = e.maddr &&& e.mask

/-- SOURCE, and DESTINATION if there is one. -/
def AddressesOk (acc : Stanza) (src dst : Nat) : Prop :=
  InList acc.source_list src ∧ (acc.destination_list = [] ∨ InList acc.destination_list dst)

/-- ACCESS_EXPIRE lies in the past, or was found to. -/
def Expired (acc : Stanza) (now : Int) : Prop :=
  acc.access_expire_time > 0 ∧ (acc.expired = true ∨ acc.access_expire_time < now)

/-- The message type of a command. -/
def IsCommand (c : Ctx) : Prop := c.message_type = 0

/-- The message types that ask for forwarding to another host. -/
def WantsForward (c : Ctx) : Prop := c.message_type = 2 ∨ c.message_type = 4

/-- The message types that ask for NAT to the server itself. -/
def WantsLocalNat (c : Ctx) : Prop := c.message_type = 5 ∨ c.message_type = 6

/-- The time a request asks for and a stanza grants: the client's, but not more than the maximum,
or the stanza's, or 30 seconds. -/
def grantedTime (acc : Stanza) (c : Ctx) : Int :=
  if 0 < c.client_timeout then min c.client_timeout acc.max_fw_timeout
  else if 0 < acc.fw_access_timeout then acc.fw_access_timeout else 30

/-- The packet's message is an address, a comma and the rest. -/
def Message (c : Ctx) (ip rest : List Nat) : Prop := IsIPv4 ip ∧ c.message = some (ip ++ 44 :: rest)

/-- The wildcard address. -/
def anyAddr : List Nat := b!"0.0.0.0"

/-- The address that gets access: the one in the message, or for the wildcard the one the packet
came from (as told by a proxy, if one told). -/
def grantee (network proxy ip : List Nat) : List Nat :=
  if ip ≠ anyAddr then ip else if proxy ≠ [] then proxy else network

/-- The demands of a stanza on the sender's network addresses, the clock and the decoded packet. -/
structure Meets (conf : Conf) (now : Int) (src dst : Nat) (acc : Stanza) (c : Ctx) (ip : List Nat) :
    Prop where
  addresses : AddressesOk acc src dst
  live : ¬ Expired acc now
  fresh : conf.aging = true → now - c.timestamp ≤ conf.max_age ∧ c.timestamp - now ≤ conf.max_age
  user : ∀ u, acc.require_username = some u → c.username = some u
  source : acc.require_source_address = true → ip ≠ anyAddr
  forward : WantsForward c → conf.forwarding = true
  localNat : WantsLocalNat c → conf.local_nat = true

/-- A user name that the server takes for the administrator's, so that it does not change its
identity. -/
def IsRoot (u : List Nat) : Prop := b!"root" <+: u.map lower

/-- A stanza that uses Rijndael has a key, as the parser makes sure (server/access.c:1651-1692). -/
def KeysOk (acc : Stanza) : Prop := acc.use_rijndael = true → acc.key ≠ none

/-- The closing command of the stanza can be written whenever its opening command can. -/
def ClosingBuilds (acc : Stanza) : Prop :=
  acc.cmd_cycle_open ≠ none → acc.cmd_cycle_do_close = true → ∀ sp cmd,
    build_cmd sp (acc.cmd_cycle_open.getD []) acc.cmd_cycle_timer = .ok (some cmd) →
    ∃ cmd', build_cmd sp (acc.cmd_cycle_close.getD []) acc.cmd_cycle_timer = .ok (some cmd')

/-- A stanza that runs commands with sudo and names CMD_EXEC_GROUP names CMD_SUDO_EXEC_GROUP too. -/
def SudoOk (acc : Stanza) : Prop :=
  acc.enable_cmd_sudo_exec = true → acc.cmd_exec_group ≠ none → acc.cmd_sudo_exec_group ≠ none

/-- The text of a cycle command leaves room for its variables' values: each dollar sign may add 16
characters (a value has at most 19 and replaces at least 3). -/
def RoomFor (t : List Nat) : Prop := t.length + 16 * t.count 36 ≤ 255

/-- A stanza whose handling stays inside memory. -/
structure StanzaSafe (acc : Stanza) : Prop where
  keys : KeysOk acc
  sudo : SudoOk acc
  opening : ∀ t, acc.cmd_cycle_open = some t → RoomFor t
  closing : ∀ t, acc.cmd_cycle_open ≠ none → acc.cmd_cycle_close = some t → RoomFor t

/-- The stanza allows what the request asks for: a command cycle whose command can be written, a
command if commands are enabled, ports if the lists allow them. -/
def Permitted (conf : Conf) (acc : Stanza) (c : Ctx) (sp : SpaData) (rest : List Nat) : Prop :=
  (acc.cmd_cycle_open ≠ none → ∃ cmd,
    build_cmd sp (acc.cmd_cycle_open.getD []) acc.cmd_cycle_timer = .ok (some cmd)) ∧
  (acc.cmd_cycle_open = none → IsCommand c → acc.enable_cmd_exec = true ∧ conf.test = false) ∧
  (acc.cmd_cycle_open = none → ¬ IsCommand c → acc_check_port_access acc rest = true ∧ conf.test = false)

/-- The SPA text the server takes from a packet, and the X-Forwarded-For address (empty if none). -/
def Received (conf : Conf) (p : Pkt) (text proxy : List Nat) : Prop :=
  ∃ buf, preprocess_spa_data conf p.data p.len = .ok (buf, proxy) ∧ text = cstr buf

/-- The packet text ends in the HMAC, under the key, of `data`, which is the ciphertext text in
front of it with the constant part put back. -/
def SignedOver (H : List Nat → List Nat) (B : Nat) (key text data : List Nat) : Prop :=
  ∃ gpg body, text = body ++ b64NoPad (rfc2104 H B key data) ∧ data = restored gpg body

/-- The array holds the packet's text, ended by a NUL (server/process_packet.c:223-226,
server/udp_server.c:208-209). -/
def Terminated (p : Pkt) : Prop := p.data.length = 1501 ∧ 0 ∈ p.data.take (p.len + 1)

/-- What is behind an effect of a packet: the stanza it belongs to, the text taken from the packet,
the packet as that stanza's keys decode it, and the two parts of its message.  All are determined
by the packet and the effect. -/
structure Cause (conf : Conf) (E : Env) (p : Pkt) (sv : Server) (e : Effect) (acc : Stanza)
    (text proxy : List Nat) (c : Ctx) (ip rest : List Nat) : Prop where
  received : Received conf p text proxy
  stanza : stanzaAt sv.stanzas (stanzaNo e) = some acc
  decoded : authenticate E acc text = .ok c
  message : Message c ip rest

/-- A packet that reaches the server: when, what, and for each stanza whether the replay cache file
can be opened then. -/
structure Arrival where
  now : Int
  pkt : Pkt
  open_ok : Nat → Bool

/-- The server handles one packet after the other: its state in the end and the effects of each
packet. -/
def serve (conf : Conf) (E : Env) : Server → List Arrival → Res (Server × List (List Effect))
  | sv, [] => .ok (sv, [])
  | sv, a :: as => do
    let r ← incoming_spa conf E a.now a.pkt a.open_ok sv
    let q ← serve conf E r.1 as
    return (q.1, r.2 :: q.2)

end Fwknop.Spec
