import Verif.Spec.Daemon
import Verif.Spec.AccessFile
import Verif.Spec.Hmac

/-!
# What a stanza of access.conf, as text, demands of a packet
-/

namespace Fwknop.Spec

/-- The packet `p` with the text `text`, that arrives at `now` and holds `c` with the address `ip` in its message,
meets the demands of the stanza with the value `src` of SOURCE and the options `opts`; the system is `env`. -/
structure FilePermits (env : AccEnv) (E : Env) (src : List Nat) (opts : List Entry) (now : Int) (p : Pkt) (text : List Nat) (c : Ctx) (ip : List Nat) : Prop where
  source : ∀ A, Networks src A → A p.src_ip
  destination : ∀ v A, lastOf [b!"DESTINATION"] opts = some v → Networks v A → A p.dst_ip
  hmac : ∀ k, keyOf b!"HMAC_KEY" b!"HMAC_KEY_BASE64" opts = some k → k ≠ [] → ∃ (t : Nat) (gpg : Bool),
    Authentic (E.K.H t) (hashBlock t) k gpg text ∧
    (lastOf [b!"HMAC_DIGEST_TYPE"] opts = none → t = 3) ∧
    (∀ n d, (n, d) ∈ hmacNames → ∀ v, lastOf [b!"HMAC_DIGEST_TYPE"] opts = some v → v.map lower = n.map lower → (t : Int) = d)
  user : ∀ u, lastOf [b!"REQUIRE_USERNAME"] opts = some u → c.username = some u
  address : yes (lastOf [b!"REQUIRE_SOURCE_ADDRESS", b!"REQUIRE_SOURCE"] opts) = true → ip ≠ anyAddr
  live : ∀ v n, lastEntry [b!"ACCESS_EXPIRE", b!"ACCESS_EXPIRE_EPOCH"] opts = some (b!"ACCESS_EXPIRE_EPOCH", v) →
    Decimal v n → 0 < n → n < 2 ^ 63 → now ≤ n
  /-- the first moment of a day `MM/DD/YYYY`, which the system computes; months count from 0 -/
  live_date : ∀ m d y : List Nat, ∀ mon day year : Nat,
    lastEntry [b!"ACCESS_EXPIRE", b!"ACCESS_EXPIRE_EPOCH"] opts = some (b!"ACCESS_EXPIRE", m ++ 47 :: (d ++ 47 :: y)) →
    Decimal m mon → Decimal d day → Decimal y year → m.length ≤ 2 → d.length ≤ 2 → y.length = 4 → 1 ≤ mon → 1900 < year →
    0 < env.mktime (mon - 1) day (year - 1900) → now ≤ env.mktime (mon - 1) day (year - 1900)

/-- The stanza opens the port: it is in OPEN_PORTS, if there are any (which list no port twice, see C29), and not in
RESTRICT_PORTS. -/
def FileOpens (opts : List Entry) (proto port : Nat) : Prop :=
  (∀ v O, lastOf [b!"OPEN_PORTS"] opts = some v → ProtoPorts v O → O.Nodup → (proto, port) ∈ O) ∧
  (∀ v R, lastOf [b!"RESTRICT_PORTS"] opts = some v → ProtoPorts v R → (proto, port) ∉ R)

/-- The seconds that the stanza grants when the client asks for `asked` (0 for none): at most MAX_FW_TIMEOUT (300),
and FW_ACCESS_TIMEOUT (30) if the client does not ask. -/
def FileTime (opts : List Entry) (asked granted : Int) : Prop :=
  ∃ dflt most, Seconds (lastOf [b!"FW_ACCESS_TIMEOUT"] opts) 30 dflt ∧ Seconds (lastOf [b!"MAX_FW_TIMEOUT"] opts) 300 most ∧
    granted = if 0 < asked then min asked most else dflt

/-- The stanza asks for no translation of addresses. -/
def FileNoNat (opts : List Entry) : Prop :=
  lastOf [b!"FORCE_NAT"] opts = none ∧ snat opts = false ∧ yes (lastOf [b!"FORCE_MASQUERADE"] opts) = false

end Fwknop.Spec
