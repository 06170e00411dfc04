import Verif.Spec.Client
import Verif.Spec.Incoming

/-!
# What it takes for a knock to be answered

The conditions on the server and its stanza under which the packet of a client is to have an effect,
in terms of the request `r` that the client sends.
-/

namespace Fwknop.Spec

/-- The number of characters that are sent for a text of `plain` characters, with an HMAC of `tag`
characters: PKCS#7 padding to a multiple of 16, 16 bytes of salt header, base64 without padding
characters, 10 characters that are left out, and the HMAC. -/
def sentLength (plain tag : Nat) : Nat := (4 * (16 + (plain + (16 - plain % 16))) + 2) / 3 - 10 + tag

/-- The packet's array holds the text and a NUL. -/
def Holds (p : Pkt) (t : List Nat) : Prop := (∃ rest, p.data = t ++ 0 :: rest) ∧ p.len = t.length

/-- The stanza has the keys, the encryption mode and the HMAC type that the client used.  (Without an
HMAC key the stanza's HMAC type is 0; encryption mode 2 is CBC, which is used if none is chosen.) -/
structure SharesKeys (acc : Stanza) (p : Packed) (o : CliOpts) : Prop where
  rijndael : acc.use_rijndael = true
  key : acc.key = some p.key
  mode : acc.encryption_mode = if o.encryption_mode = 0 then 2 else o.encryption_mode
  hmac : acc.hmac_key = p.hmac
  hmac_type : acc.hmac_type = if p.hmac = none then 0 else o.hmac_type

/-- The demands of a stanza that does not run a command cycle, on the network addresses, the clock and
the request. -/
structure Expects (conf : Conf) (now : Int) (src dst : Nat) (acc : Stanza) (r : Request) (ip : List Nat) :
    Prop where
  addresses : AddressesOk acc src dst
  live : ¬ Expired acc now
  fresh : conf.aging = true → now - r.ts ≤ conf.max_age ∧ r.ts - now ≤ conf.max_age
  user : ∀ u, acc.require_username = some u → r.user = u
  source : acc.require_source_address = true → ip ≠ anyAddr
  forward : r.type = 2 ∨ r.type = 4 → conf.forwarding = true
  localNat : r.type = 5 ∨ r.type = 6 → conf.local_nat = true
  noCycle : acc.cmd_cycle_open = none

/-- The ports are open to the stanza: none is in RESTRICT_PORTS, and all are in OPEN_PORTS if that is
given.  `O` and `R` are the lists as written; `O` names no port twice. -/
def OpenTo (acc : Stanza) (ps : List (Nat × Nat)) : Prop :=
  ∃ O R : List (Nat × Nat), acc.oport_list = O.map (fun p => ⟨p.1, p.2⟩) ∧ acc.rport_list = R.map (fun p => ⟨p.1, p.2⟩) ∧
    O.Nodup ∧ (∀ p ∈ ps, p ∉ R) ∧ (O = [] ∨ ∀ p ∈ ps, p ∈ O)

/-- The time a stanza gives to a client that asks for `asked` seconds (0 if it does not ask). -/
def timeFor (acc : Stanza) (asked : Nat) : Int :=
  if 0 < asked then min (asked : Int) acc.max_fw_timeout
  else if 0 < acc.fw_access_timeout then acc.fw_access_timeout else 30

end Fwknop.Spec
