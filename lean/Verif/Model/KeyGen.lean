import Verif.Model.Client

/-!
# Key generation: `fwknop -k`, `fwknopd -k` (lib/fko_funcs.c, lib/cipher_funcs.c)
-/

namespace Fwknop

abbrev SHA512_BLOCK_LEN : Nat := 128

/-- Where random bytes come from.  The first argument counts the calls of `get_random_data`. -/
structure RandEnv where
  /-- what `fread` of so many bytes from /dev/urandom gives; `none` if the file cannot be opened or
  gives fewer -/
  urandom : Nat → Nat → Option Str
  /-- the microseconds `gettimeofday` gives -/
  usec : Nat → Nat
  /-- the numbers `rand` gives after `srand` of the seed -/
  rand : Nat → Nat → Nat

/-- `get_random_data`, lib/cipher_funcs.c:57-112 (not WIN32): the bytes of the call number `i`. -/
def get_random_data (E : RandEnv) (i len : Nat) : Str :=
  match E.urandom i len with
  | some d => d
  | none => (List.range len).map fun j => E.rand (E.usec i) j % 0xff

/-- The length of an HMAC key if none is given, lib/fko_funcs.c:385-399; FKO_DEFAULT_HMAC_MODE is
FKO_HMAC_SHA256.  FKO_HMAC_* and FKO_DIGEST_* have the same numbers.  Other types leave the length at 0. -/
def hmacDefaultLen (hmac_type : Int) : Int :=
  if hmac_type = FKO_DIGEST_SHA256 then 64
  else if hmac_type = FKO_DIGEST_MD5 then 16
  else if hmac_type = FKO_DIGEST_SHA1 then 20
  else if hmac_type = FKO_DIGEST_SHA384 then 128
  else if hmac_type = FKO_DIGEST_SHA512 then 128
  else 0

/-- `fko_key_gen`, lib/fko_funcs.c:371-418.  The callers' arrays have MAX_B64_KEY_LEN+1 bytes; the
arrays `key` and `hmac_key` have RIJNDAEL_MAX_KEYSIZE and SHA512_BLOCK_LEN bytes. -/
def fko_key_gen (E : RandEnv) (key_len hmac_key_len hmac_type : Int) : Res (Str × Str) := do
  let klen : Int := if key_len = 0 then RIJNDAEL_MAX_KEYSIZE else key_len
  let hmac_klen : Int := if hmac_key_len = 0 then hmacDefaultLen hmac_type else hmac_key_len
  Res.guard (klen < 1 ∨ klen > RIJNDAEL_MAX_KEYSIZE)
  Res.guard (hmac_klen < 1 ∨ hmac_klen > SHA512_BLOCK_LEN)
  let key := get_random_data E 0 klen.toNat
  Res.mem (key.length > RIJNDAEL_MAX_KEYSIZE)
  let hmac_key := get_random_data E 1 hmac_klen.toNat
  Res.mem (hmac_key.length > SHA512_BLOCK_LEN)
  let k64 := Base64.b64_encode key
  Res.mem (k64.length + 1 > MAX_B64_KEY_LEN + 1)
  Res.guard (k64.length < klen)
  let h64 := Base64.b64_encode hmac_key
  Res.mem (h64.length + 1 > MAX_B64_KEY_LEN + 1)
  Res.guard (h64.length < hmac_klen)
  return (k64, h64)

/-- The options of both programs that key generation looks at. -/
structure GenOpts where
  key_len : Int := 0
  hmac_key_len : Int := 0
  hmac_type : Int := 0
deriving DecidableEq

/-- The options: `--key-len`, `--hmac-key-len` and `--hmac-digest-type`. -/
inductive GenArg where
  | key_len (v : Str)
  | hmac_key_len (v : Str)
  | hmac_digest (v : Str)

/-- The value of `--key-len` or `--hmac-key-len`: `strtol_wrapper` with 1 and MAX_KEY_LEN. -/
def genLen (v : Str) : Res Int :=
  let r := strtol_wrapper v 1 MAX_KEY_LEN
  if r.2 then .ok r.1 else .err

/-- client/config_init.c:2183-2218, server/config_init.c:1111-1141. -/
def genArg (o : GenOpts) : GenArg → Res GenOpts
  | .key_len v => do
    let n ← genLen v
    return { o with key_len := n }
  | .hmac_key_len v => do
    let n ← genLen v
    return { o with hmac_key_len := n }
  | .hmac_digest v => do
    Res.guard (digest_strtoint v < 0)
    return { o with hmac_type := digest_strtoint v }

/-- The options one after the other. -/
def genArgs : GenOpts → List GenArg → Res GenOpts
  | o, [] => .ok o
  | o, a :: r => do
    let o' ← genArg o a
    genArgs o' r

/-- What is written to the file or the terminal, client/config_init.c:725-726, 742-744,
server/config_init.c:264-265, 272-273. -/
def keyLinesText (k64 h64 : Str) : Str :=
  b!"KEY_BASE64: " ++ k64 ++ b!"\n" ++ b!"HMAC_KEY_BASE64: " ++ h64 ++ b!"\n"

/-- `generate_keys` and `keys_status` of the client, client/config_init.c:208-238, 710-751 with the
default of lines 1938-1939, and `generate_keys` of the server, server/config_init.c:221-276: the text
written.  That the file can be opened is assumed; of `--save-rc-stanza` see Model/ClientRc. -/
def generate_keys (E : RandEnv) (args : List GenArg) : Res Str := do
  let o ← genArgs {} args
  let hmac_type := if o.hmac_type = FKO_HMAC_UNKNOWN then FKO_DEFAULT_HMAC_MODE else o.hmac_type
  let r ← fko_key_gen E o.key_len o.hmac_key_len hmac_type
  return keyLinesText r.1 r.2

end Fwknop
