import Verif.Spec.Client
import Verif.Model.ClientRc

/-!
# What an rc file of the client means

The text of the file as sections with entries, and the options that the entries stand for.  The
definitions mention no function that reads or writes the file.
-/

namespace Fwknop.Spec

/-- A line of an rc file. -/
inductive RcItem where
  | skip
  | head (name : List Nat)
  | entry (name value : List Nat)
  deriving DecidableEq

/-- What a line (without its newline) means: nothing if it is empty or begins with `#` or `;`;
`[name]`; or a name, perhaps a colon, blanks and a value without blanks, `#` and `;`. -/
inductive RcMeans : List Nat → RcItem → Prop
  | empty : RcMeans [] .skip
  | comment (c : Nat) (l : List Nat) : c = 35 ∨ c = 59 → RcMeans (c :: l) .skip
  | head (pre name post : List Nat) : (∀ c ∈ pre, SpTab c) → name ≠ [] → 93 ∉ name →
      RcMeans (pre ++ 91 :: (name ++ 93 :: post)) (.head name)
  | entry (pre name colon gap value post : List Nat) : (∀ c ∈ pre, SpTab c) →
      name ≠ [] → (∀ c ∈ name, c ≠ 32 ∧ ¬ (9 ≤ c ∧ c ≤ 13) ∧ c ≠ 58) → name.headD 0 ≠ 35 → name.headD 0 ≠ 59 →
      name.headD 0 ≠ 91 → (colon = [] ∨ colon = [58]) → gap ≠ [] → (∀ c ∈ gap, SpTab c) → value ≠ [] →
      (∀ c ∈ value, c ≠ 32 ∧ ¬ (9 ≤ c ∧ c ≤ 13) ∧ c ≠ 59 ∧ c ≠ 35) →
      (post = [] ∨ ∃ c t, post = c :: t ∧ (c = 32 ∨ c = 9 ∨ c = 59 ∨ c = 35)) →
      RcMeans (pre ++ (name ++ (colon ++ (gap ++ (value ++ post))))) (.entry name value)

/-- A file whose lines, each of at most 1022 characters and ended by a newline, mean the given
items. -/
def RcHolds (content : List Nat) (items : List RcItem) : Prop :=
  ∃ ls : List (List Nat × RcItem), content = fileOf (ls.map (·.1)) ∧ items = ls.map (·.2) ∧
    ∀ p ∈ ls, RcMeans p.1 p.2 ∧ IsText p.1 ∧ 10 ∉ p.1 ∧ p.1.length ≤ 1022

/-- Names of sections count without regard to case. -/
def sameName (a b : List Nat) : Bool := a.map lower = b.map lower

/-- The entries of the sections of a name; `here` tells whether the text starts in one. -/
def sectionFrom (sect : List Nat) : (here : Bool) → List RcItem → List Entry
  | _, [] => []
  | here, .skip :: is => sectionFrom sect here is
  | _, .head n :: is => sectionFrom sect (sameName n sect) is
  | here, .entry n v :: is => if here then (n, v) :: sectionFrom sect here is else sectionFrom sect here is

def sectionOf (sect : List Nat) (items : List RcItem) : List Entry := sectionFrom sect false items

/-- Whether there is a section of the name. -/
def hasSection (sect : List Nat) (items : List RcItem) : Bool :=
  items.any fun i => match i with
    | .head n => sameName n sect
    | _ => false

/-! ## The option an entry stands for -/

/-- The names an entry may have, in alphabetical order. -/
def rcNames : List (List Nat) :=
  [b!"ACCESS", b!"ALLOW_IP", b!"DIGEST_TYPE", b!"ENCRYPTION_MODE", b!"FW_TIMEOUT", b!"GPG_EXE",
   b!"GPG_HOMEDIR", b!"GPG_NO_SIGNING_PW", b!"GPG_RECIPIENT", b!"GPG_SIGNER", b!"GPG_SIGNING_PW",
   b!"GPG_SIGNING_PW_BASE64", b!"HMAC_DIGEST_TYPE", b!"HMAC_KEY", b!"HMAC_KEY_BASE64", b!"HMAC_KEY_FILE",
   b!"HTTP_USER_AGENT", b!"KEY", b!"KEY_BASE64", b!"KEY_FILE", b!"NAT_ACCESS", b!"NAT_LOCAL", b!"NAT_PORT",
   b!"NAT_RAND_PORT", b!"NO_SAVE_ARGS", b!"RAND_PORT", b!"RESOLVE_HTTP_ONLY", b!"RESOLVE_IP_HTTP",
   b!"RESOLVE_IP_HTTPS", b!"RESOLVE_URL", b!"SERVER_RESOLVE_IPV4", b!"SPA_SERVER", b!"SPA_SERVER_PORT",
   b!"SPA_SERVER_PROTO", b!"SPA_SOURCE_PORT", b!"SPOOF_SOURCE_IP", b!"SPOOF_USER", b!"TIME_OFFSET",
   b!"USE_GPG", b!"USE_GPG_AGENT", b!"USE_HMAC", b!"USE_WGET_USER_AGENT", b!"VERBOSE", b!"WGET_CMD"]

/-- Entries that stand for an option with the same value. -/
def valueVars : List (List Nat × (List Nat → CliArg)) :=
  [(b!"ACCESS", .access), (b!"SPA_SERVER", .destination), (b!"FW_TIMEOUT", .fw_timeout), (b!"KEY_FILE", .get_key),
   (b!"KEY", .key), (b!"KEY_BASE64", .key_base64), (b!"HMAC_KEY", .hmac_key), (b!"HMAC_KEY_BASE64", .hmac_key_base64),
   (b!"HMAC_DIGEST_TYPE", .hmac_digest), (b!"DIGEST_TYPE", .digest), (b!"ENCRYPTION_MODE", .enc_mode),
   (b!"NAT_ACCESS", .nat_access), (b!"SPA_SERVER_PORT", .server_port), (b!"SPA_SERVER_PROTO", .server_proto),
   (b!"SPOOF_SOURCE_IP", .spoof_source), (b!"SPA_SOURCE_PORT", .source_port), (b!"SPOOF_USER", .spoof_user),
   (b!"NAT_PORT", .nat_port)]

/-- Entries that stand for an option if their value is `Y`. -/
def flagVars : List (List Nat × CliArg) :=
  [(b!"RAND_PORT", .rand_port), (b!"RESOLVE_IP_HTTPS", .resolve), (b!"RESOLVE_IP_HTTP", .resolve),
   (b!"NAT_LOCAL", .nat_local), (b!"NAT_RAND_PORT", .nat_rand_port), (b!"USE_HMAC", .use_hmac), (b!"USE_GPG", .gpg)]

/-- ALLOW_IP: -s, -R or -a. -/
def allowOption (v : List Nat) : CliArg :=
  if v.map lower = b!"source" then .source_ip else if v.map lower = b!"resolve" then .resolve else .allow_ip v

/-- TIME_OFFSET, negative with a minus sign. -/
def offsetOption : List Nat → CliArg
  | 45 :: v => .time_minus v
  | v => .time_plus v

/-- The options an entry stands for; `none` for entries outside this table. -/
def optionOf (e : Entry) : Option (List CliArg) :=
  match valueVars.find? fun t => t.1 = e.1 with
  | some t => some [t.2 e.2]
  | none =>
    match flagVars.find? fun t => t.1 = e.1 with
    | some t => some (if e.2 = [89] ∨ e.2 = [121] then [t.2] else [])
    | none =>
      if e.1 = b!"ALLOW_IP" then some [allowOption e.2]
      else if e.1 = b!"TIME_OFFSET" then some [offsetOption e.2]
      else none

def optionsOf : List Entry → Option (List CliArg)
  | [] => some []
  | e :: es =>
    match optionOf e, optionsOf es with
    | some a, some as => some (a ++ as)
    | _, _ => none

/-- The entries that count for a run with -n STANZA (or without, when the name is empty): those of
the section `default`, then those of the stanza. -/
def countingEntries (stanza : List Nat) (items : List RcItem) : List Entry :=
  sectionOf b!"default" items ++ if stanza = [] then [] else sectionOf stanza items

/-- Not both an address and a wish to have it found. -/
def OneAddress (as : List CliArg) : Prop := CliArg.resolve ∈ as → ∀ a ∈ as, argAllow a = none

/-- Options that ask for an HMAC, except the choice of its type. -/
def asksKeyedHmac : CliArg → Bool
  | .hmac_key _ | .hmac_key_base64 _ | .use_hmac => true
  | _ => false

/-- A type of HMAC is only chosen together with an HMAC. -/
def TypedHmac (as : List CliArg) : Prop := (∃ v, CliArg.hmac_digest v ∈ as) → as.any asksKeyedHmac = true

/-! ## Saving a stanza -/

/-- A value that an entry can hold. -/
def PlainValue (v : List Nat) : Prop :=
  v ≠ [] ∧ v.length ≤ 990 ∧ ∀ c ∈ v, (0 < c ∧ c < 256) ∧ c ≠ 32 ∧ ¬ (9 ≤ c ∧ c ≤ 13) ∧ c ≠ 59 ∧ c ≠ 35

/-- Options that a stanza can hold. -/
def Savable : CliArg → Prop
  | .allow_ip v => PlainValue v ∧ ¬ IsResolve v
  | .access v | .destination v | .get_key v | .key v | .key_base64 v | .hmac_key v | .hmac_key_base64 v | .nat_access v
  | .spoof_source v | .spoof_user v | .gpg_recipient v => PlainValue v
  | .server_cmd _ | .get_hmac_key _ | .source_ip | .test => False
  | _ => True

/-- A name that a stanza can have. -/
def StanzaName (s : List Nat) : Prop :=
  s ≠ [] ∧ s.length ≤ 1000 ∧ ¬ sameName s b!"default" = true ∧ ∀ c ∈ s, (0 < c ∧ c < 256) ∧ c ≠ 10 ∧ c ≠ 93

/-- How often a section of the name begins. -/
def sectionCount (sect : List Nat) (items : List RcItem) : Nat :=
  (items.filter fun i => match i with
    | .head n => sameName n sect
    | _ => false).length

/-- Whether options set the clock forward or back. -/
def isPlus : CliArg → Bool | .time_plus _ => true | _ => false
def isMinus : CliArg → Bool | .time_minus _ => true | _ => false

/-- Numbers that an entry can hold: the timeout has a smaller range than on the command line, and there
is one place for the two kinds of time offset, which cannot hold 0. -/
structure SavableNumbers (args : List CliArg) (o : CliOpts) : Prop where
  timeout : o.fw_timeout ≤ 65536
  plus : args.any isPlus = true → 0 < o.time_offset_plus ∧ o.time_offset_plus ≤ 65536 ∧ o.time_offset_minus = 0
  minus : args.any isMinus = true → 0 < o.time_offset_minus ∧ o.time_offset_minus ≤ 65536

/-- Entries that are not replaced before the user has been asked. -/
def secretNames : List (List Nat) :=
  [b!"GPG_RECIPIENT", b!"GPG_SIGNER", b!"GPG_SIGNING_PW", b!"GPG_SIGNING_PW_BASE64", b!"HMAC_KEY", b!"HMAC_KEY_BASE64", b!"KEY",
   b!"KEY_BASE64"]

/-- The entries of a stanza that stay, for the answers to the questions whether they are to be replaced;
`none` if there are not enough answers. -/
def keptEntries : List Entry → (answers : List Bool) → Option (List Entry)
  | [], _ => some []
  | e :: es, as =>
    if e.1 ∈ secretNames then
      match as with
      | [] => none
      | true :: as => keptEntries es as
      | false :: as => (keptEntries es as).map (e :: ·)
    else keptEntries es as

/-- Entries of other names than some entries have. -/
def otherNames (kept es : List Entry) : List Entry := es.filter fun e => e.1 ∉ kept.map (·.1)

end Fwknop.Spec
