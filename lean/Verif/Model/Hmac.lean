import Verif.Model.Fko
import Verif.Model.Md5
import Verif.Model.Sha1
import Verif.Model.Sha2
import Verif.Model.Sha3

/-!
# The HMAC functions with their buffers (lib/hmac.c) and the choice of a digest (lib/digest.c)
-/

namespace Fwknop

/-- The digest function called for a type, lib/digest.c:37-181.  `junk` is what the memory of a
context that is not cleared held before. -/
def digestCode (junk : Str) (t : Int) (m : Str) : Res Str :=
  if t = FKO_DIGEST_MD5 then Md5.md5 junk m
  else if t = FKO_DIGEST_SHA1 then Sha1.sha1 junk m
  else if t = FKO_DIGEST_SHA256 then Sha2.sha256 m
  else if t = FKO_DIGEST_SHA384 then Sha2.sha384 m
  else if t = FKO_DIGEST_SHA512 then Sha2.sha512 m
  else if t = FKO_DIGEST_SHA3_256 then Sha3.sha3_256 m
  else Sha3.sha3_512 m

/-- The key as it is used, lib/hmac.c:80-92: the array `final_key` and `final_len`. -/
def hmacKey (junk : Str) (t : Int) (key : Str) : Res (Str × Nat) := do
  let final_key := List.replicate MAX_DIGEST_BLOCK_LEN 0
  if blockLen t < key.length then do
    let d ← digestCode junk t key
    let fk ← put final_key 0 d
    return (fk, digestLen t)
  else do
    let fk ← put final_key 0 key
    return (fk, key.length)

/-- `hmac_md5` to `hmac_sha3_512`, lib/hmac.c:64-387, with their arrays; `junk` is what the memory
of the three contexts held.  The sums of lengths are taken not to wrap. -/
def hmacCode (junk : Nat → Str) (t : Int) (msg key : Str) : Res Str := do
  let k ← hmacKey (junk 0) t key
  let key := k.1.take k.2
  let padded_msg ← put (List.replicate (msg.length + MAX_DIGEST_BLOCK_LEN + 1) 0) 0
    ((pad_init 0x36 key).take (blockLen t))
  let padded_msg ← put padded_msg (blockLen t) msg
  let x ← fetch padded_msg (msg.length + blockLen t)
  let inner_hash ← digestCode (junk 1) t x
  let padded_hash ← put (List.replicate (blockLen t + digestLen t + 1) 0) 0
    ((pad_init 0x5c key).take (blockLen t))
  let padded_hash ← put padded_hash (blockLen t) inner_hash
  let y ← fetch padded_hash (blockLen t + digestLen t)
  digestCode (junk 2) t y

end Fwknop
