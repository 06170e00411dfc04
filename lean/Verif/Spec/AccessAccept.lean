import Verif.Spec.AccessFile
import Verif.Spec.Base64

/-!
# An access.conf that is written as the manual says

Every value is one the manual allows for its option, and every stanza has what a stanza needs.
-/

namespace Fwknop.Spec

/-- A name written in any mixture of cases. -/
def OneOf (names : List (List Nat × Int)) (v : List Nat) : Prop := ∃ n k, (n, k) ∈ names ∧ v.map lower = n.map lower

/-- A number of at most `hi` (a limit of the daemon) and at least `lo`. -/
def NumberIn (lo hi : Nat) (v : List Nat) : Prop := ∃ n, Decimal v n ∧ lo ≤ n ∧ n ≤ hi

/-- A date, month/day/year. -/
def Date (v : List Nat) : Prop :=
  ∃ m d y : List Nat, ∃ mon day year : Nat, v = m ++ 47 :: (d ++ 47 :: y) ∧ Decimal m mon ∧ Decimal d day ∧ Decimal y year ∧
    m.length ≤ 2 ∧ d.length ≤ 2 ∧ y.length = 4

/-- An address and a port behind it. -/
def AddrPort (v : List Nat) : Prop :=
  ∃ ip gap port n, v = ip ++ (gap ++ port) ∧ (∃ x, IsAddr ip x) ∧ gap ≠ [] ∧ (∀ c ∈ gap, IsBlank c) ∧
    Decimal port n ∧ port.length ≤ 5 ∧ n ≤ 65535

/-- A key in base64: letters, digits, `+` and `/`, padded with `=`. -/
def KeyText (v : List Nat) : Prop := ∃ key, IsBytes key ∧ v = b64 key

/-- The value that the sample files have in the place of a key. -/
def Placeholder (v : List Nat) : Prop := v.map lower = b!"__changeme__"

/-- The value is one that the option can have.  Options not listed have any value; so have names
that are no options. -/
structure GoodValue (env : AccEnv) (name v : List Nat) : Prop where
  key : name ∈ [b!"KEY", b!"HMAC_KEY", b!"GPG_DECRYPT_PW"] → ¬ Placeholder v
  base64 : name ∈ [b!"KEY_BASE64", b!"HMAC_KEY_BASE64"] → KeyText v
  hmac : name = b!"HMAC_DIGEST_TYPE" → OneOf hmacNames v
  mode : name = b!"ENCRYPTION_MODE" → OneOf modeNames v
  timeout : name ∈ [b!"FW_ACCESS_TIMEOUT", b!"MAX_FW_TIMEOUT"] → NumberIn 0 (2 ^ 23) v
  timer : name = b!"CMD_CYCLE_TIMER" → NumberIn 1 (2 ^ 23) v
  user : name ∈ [b!"CMD_SUDO_EXEC_USER", b!"CMD_SUDO_EXEC_GROUP", b!"CMD_EXEC_USER", b!"CMD_EXEC_GROUP"] →
    env.passwd v ≠ none
  home : name = b!"GPG_HOME_DIR" → env.isDir v = true
  expire : name = b!"ACCESS_EXPIRE" → Date v
  epoch : name = b!"ACCESS_EXPIRE_EPOCH" → ∃ n, Decimal v n ∧ n < 2 ^ 63
  nat : name = b!"FORCE_NAT" → env.nat_enabled = true ∧ AddrPort v
  snat : name = b!"FORCE_SNAT" → env.nat_enabled = true ∧ ∃ x, IsAddr v x

/-- A stanza that has what a stanza needs: `src` is the value of SOURCE, `es` are the entries. -/
structure GoodStanza (env : AccEnv) (src : List Nat) (es : List Entry) : Prop where
  values : ∀ e ∈ es, GoodValue env e.1 e.2
  source : ∃ A, Networks src A
  destination : ∀ v, lastOf [b!"DESTINATION"] es = some v → ∃ A, Networks v A
  open_ports : ∀ v, lastOf [b!"OPEN_PORTS"] es = some v → ∃ ps, ProtoPorts v ps
  restrict_ports : ∀ v, lastOf [b!"RESTRICT_PORTS"] es = some v → ∃ ps, ProtoPorts v ps
  /-- an encryption key, or a GPG passphrase, or `GPG_ALLOW_NO_PW Y` -/
  key : (∃ k, keyOf b!"KEY" b!"KEY_BASE64" es = some k ∧ k ≠ []) ∨
    (∃ p, gpgPw es = some p ∧ (p ≠ [] ∨ yes (lastOf [b!"GPG_ALLOW_NO_PW"] es) = true))
  /-- the HMAC key is another than the encryption key, also when that is cut to 16 bytes, and
  another than the passphrase -/
  differ : ∀ h, keyOf b!"HMAC_KEY" b!"HMAC_KEY_BASE64" es = some h → h ≠ [] →
    (∀ k, keyOf b!"KEY" b!"KEY_BASE64" es = some k → k ≠ h ∧ k.take 16 ≠ h) ∧ gpgPw es ≠ some h
  /-- with GPG the signers are named, or signatures are switched off -/
  signer : gpgPw es ≠ none → yes (lastOf [b!"GPG_DISABLE_SIG"] es) = true ∨ lastOf [b!"GPG_REMOTE_ID"] es ≠ none ∨
    lastOf [b!"GPG_FINGERPRINT_ID"] es ≠ none
  /-- where source addresses are translated there is FORCE_NAT or `FORWARD_ALL Y` -/
  forward : snat es = true ∨ yes (lastOf [b!"FORCE_MASQUERADE"] es) = true →
    lastOf [b!"FORCE_NAT"] es ≠ none ∨ yes (lastOf [b!"FORWARD_ALL"] es) = true
  /-- a cycle has both commands, of at most 255 characters, and a timer, unless the second command
  is not to be run -/
  cycle : (lastOf [b!"CMD_CYCLE_OPEN"] es = none ∧ lastOf [b!"CMD_CYCLE_CLOSE"] es = none) ∨
    ∃ o c, lastOf [b!"CMD_CYCLE_OPEN"] es = some o ∧ lastOf [b!"CMD_CYCLE_CLOSE"] es = some c ∧
      o.length ≤ 255 ∧ c.length ≤ 255 ∧ (c.take 4 = b!"NONE" ∨ lastOf [b!"CMD_CYCLE_TIMER"] es ≠ none)

end Fwknop.Spec
