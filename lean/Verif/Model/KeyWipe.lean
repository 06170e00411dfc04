import Verif.Model.Client

/-!
# The arrays of the client's keys, and how they are erased (client/fwknop.c: get_keys, clean_exit; common/fko_util.c: zero_buf)

`main` has two arrays, `key` and `hmac_key`, of MAX_KEY_LEN+1 bytes with a length each.  Model/Client has the keys as texts; here
are all the bytes of an array.  (The copies in the options are erased in their whole length by `free_configs`.)
-/

namespace Fwknop

/-- Where a key comes from, with the answers: what the option says, what base64 decodes to (`none`: -1), the lines of the key file
(`none`: it cannot be opened), what is typed, or no key at all. -/
inductive KeyFrom where
  | given (k : Str)
  | base64 (k : Option Str)
  | file (server : Str) (lines : Option (List Str))
  | typed (k : Option Str)
  | nothing

/-- `memset(key, 0x0, MAX_KEY_LEN+1)`. -/
def emptyKey : Str := List.replicate (MAX_KEY_LEN + 1) 0

/-- The text `k` and its terminator are written to the array, client/getpasswd.c:271-277, and `strlcpy`. -/
def putKey (k buf : Str) : Str := k ++ 0 :: buf.drop (k.length + 1)

/-- The loop of `get_key_file` on the array, client/getpasswd.c:237-278. -/
def keyFileBuf (server : Str) : List Str → Str → Res Str
  | [], buf => .ok buf
  | l :: ls, buf => do
    let k ← keyFileLine server l
    keyFileBuf server ls (match k with | none => buf | some k => putKey k buf)

/-- One half of `get_keys`, client/fwknop.c:1085-1157 and 1159-1204 (`hmac`): the array, the length, and whether it goes on. -/
def fillKey (hmac : Bool) : KeyFrom → Res (Str × Int × Bool)
  | .given k => .ok (putKey (strlcpy k (MAX_KEY_LEN + 1)) emptyKey, (strlcpy k (MAX_KEY_LEN + 1)).length, true)
  | .base64 none => .ok (emptyKey, -1, false)
  | .base64 (some k) =>
    if (if hmac then k.length ≤ MAX_KEY_LEN else 0 < k.length ∧ k.length < MAX_KEY_LEN) then
      .ok (k ++ emptyKey.drop k.length, k.length, true)
    else .ok (emptyKey, k.length, false)
  | .file _ none => .ok (emptyKey, 0, false)
  | .file server (some ls) => do
    let b ← keyFileBuf server ls emptyKey
    if b.headD 0 = 0 then return (b, 0, false) else return (b, (cstr b).length, true)
  | .typed none => .ok (emptyKey, 0, false)
  | .typed (some k) => .ok (putKey (strlcpy k (MAX_KEY_LEN + 1)) emptyKey, (strlcpy k (MAX_KEY_LEN + 1)).length, true)
  | .nothing => .ok (emptyKey, 0, true)

/-- `zero_buf`, common/fko_util.c:614-636; a loop that runs over the end of the array is undefined. -/
def zeroBuf (buf : Str) (len : Int) : Res Str :=
  if len ≤ 0 ∨ len > 1500 then .ok buf
  else if len.toNat > buf.length then .ub
  else .ok (List.replicate len.toNat 0 ++ buf.drop len.toNat)

/-- The array after `clean_exit`, client/fwknop.c:600-614.  `main` gives it the length that `get_keys` found, also when a key for the legacy
mode was cut (`orig_key_len`, client/fwknop.c:381). -/
def keyAtExit (hmac : Bool) (k : KeyFrom) : Res Str := do
  let r ← fillKey hmac k
  zeroBuf r.1 r.2.1

end Fwknop
