import Verif.Model.Ctx

/-!
# The life of the GnuPG objects of a context (lib/gpgme_funcs.c, lib/fko_encryption.c, lib/fko_funcs.c)

What is allocated, used and released, for any answers of gpgme.  An object is a kind and a number.  Releasing or using
an object that is not alive is undefined.  A null context is refused by gpgme with an error and may be released.
Not modelled here: the data (Model/Gpg does that), the strings of the context, failing allocations outside gpgme.
-/

namespace Fwknop

/-- The kinds of objects: engine contexts, data objects, references to keys, records of signatures. -/
inductive GKind where
  | engine
  | data
  | key
  | sig
deriving DecidableEq

/-- Which objects are alive, and the next number. -/
structure GHeap where
  live : GKind → Nat → Bool
  next : Nat

/-- The members of `struct fko_context` for GnuPG, lib/fko_context.h:115-135; `signer` is whether `gpg_signer` is set, `sigs`
is what can be reached from `gpg_sigs`. -/
structure GState where
  heap : GHeap
  have_gpgme_context : Bool
  gpg_ctx : Option Nat
  recipient_key : Option Nat
  signer_key : Option Nat
  signer : Bool
  sigs : List Nat

/-- `live` with one object changed. -/
def setLive (l : GKind → Nat → Bool) (k : GKind) (i : Nat) (b : Bool) : GKind → Nat → Bool :=
  fun k' i' => if k' = k ∧ i' = i then b else l k' i'

/-- A new object. -/
def GState.alloc (s : GState) (k : GKind) : GState × Nat :=
  ({ s with heap := ⟨setLive s.heap.live k s.heap.next true, s.heap.next + 1⟩ }, s.heap.next)

/-- The end of an object. -/
def GState.release (s : GState) (k : GKind) (i : Nat) : Res GState :=
  if s.heap.live k i then .ok { s with heap := ⟨setLive s.heap.live k i false, s.heap.next⟩ } else .ub

/-- The end of an object that a pointer may point to. -/
def GState.releaseOpt (s : GState) (k : GKind) : Option Nat → Res GState
  | none => .ok s
  | some i => s.release k i

/-- A gpgme function with the engine context: whether there is one. -/
def GState.engine (s : GState) : Res Bool :=
  match s.gpg_ctx with
  | none => .ok false
  | some i => if s.heap.live .engine i then .ok true else .ub

/-- `gpgme_release(gpg_ctx); fko_ctx->gpg_ctx = NULL;`. -/
def GState.drop (s : GState) : Res GState := do
  let s ← s.releaseOpt .engine s.gpg_ctx
  .ok { s with gpg_ctx := none }

/-- What gpgme answers to `init_gpgme`. -/
structure InitAnswer where
  check : Bool
  new : Bool

/-- `init_gpgme`, lib/gpgme_funcs.c:36-82. -/
def glInit (a : InitAnswer) (s : GState) : GState × Bool :=
  if s.have_gpgme_context then (s, true)
  else if !a.check then (s, false)
  else if !a.new then (s, false)
  else
    let r := s.alloc .engine
    ({ r.1 with gpg_ctx := some r.2, have_gpgme_context := true }, true)

/-- What gpgme answers to `get_gpg_key`: `keys` is how many keys match. -/
structure KeyAnswer where
  init : InitAnswer
  start : Bool
  keys : Nat

/-- `get_gpg_key`, lib/gpgme_funcs.c:182-267; the pointer to a released engine context stays. -/
def glGetKey (a : KeyAnswer) (s : GState) : Res (GState × Option Nat) := do
  let r := glInit a.init s
  let s := r.1
  if !r.2 then .ok (s, none)
  else
    let there ← s.engine
    if !(there && a.start) then
      let s ← s.releaseOpt .engine s.gpg_ctx
      .ok (s, none)
    else
      match a.keys with
      | 0 => .ok (s, none)
      | 1 =>
        let k := s.alloc .key
        .ok (k.1, some k.2)
      | _ =>
        let k := s.alloc .key
        let k2 := k.1.alloc .key
        let s ← k2.1.release .key k.2
        let s ← s.release .key k2.2
        .ok (s, none)

/-- `fko_set_gpg_recipient`, lib/fko_encryption.c:708-748, from the key on. -/
def glSetRecipient (a : KeyAnswer) (s : GState) : Res (GState × Bool) := do
  let r ← glGetKey a s
  match r.2 with
  | none => .ok (r.1, false)
  | some k => .ok ({ r.1 with recipient_key := some k }, true)

/-- `fko_set_gpg_signer`, lib/fko_encryption.c:825-865: on an error `gpg_signer` is cleared. -/
def glSetSigner (a : KeyAnswer) (s : GState) : Res (GState × Bool) := do
  let r ← glGetKey a s
  match r.2 with
  | none => .ok ({ r.1 with signer := false }, false)
  | some k => .ok ({ r.1 with signer_key := some k, signer := true }, true)

/-- What gpgme answers to `gpgme_encrypt`. -/
structure EncAnswer where
  init : InitAnswer
  plain : Bool
  protocol : Bool
  cipher : Bool
  signers : Bool
  op : Bool

/-- A reference to a key is used. -/
def GState.useKey (s : GState) : Option Nat → Res Unit
  | none => .ok ()
  | some i => if s.heap.live .key i then .ok () else .ub

/-- `gpgme_encrypt`, lib/gpgme_funcs.c:271-411. -/
def glEncrypt (a : EncAnswer) (s : GState) : Res (GState × Bool) := do
  let r := glInit a.init s
  let s := r.1
  if !r.2 then .ok (s, false)
  else if !a.plain then
    let s ← s.drop
    .ok (s, false)
  else
    let p := s.alloc .data
    let s := p.1
    let there ← s.engine
    if !(there && a.protocol) then
      let s ← s.release .data p.2
      let s ← s.drop
      .ok (s, false)
    else if !a.cipher then
      let s ← s.release .data p.2
      let s ← s.drop
      .ok (s, false)
    else
      let c := s.alloc .data
      let s := c.1
      if s.signer then
        s.useKey s.signer_key
      if s.signer && !a.signers then
        let s ← s.release .data p.2
        let s ← s.release .data c.2
        let s ← s.drop
        .ok (s, false)
      else
        s.useKey s.recipient_key
        if !a.op then
          let s ← s.release .data p.2
          let s ← s.release .data c.2
          let s ← s.drop
          .ok (s, false)
        else
          let s ← s.release .data p.2
          let s ← s.release .data c.2
          .ok (s, true)

/-- The records of `n` signatures, lib/gpgme_funcs.c:127-159: the first is the head of the list, and each later one becomes its
second. -/
def glSigs : Nat → GState → GState
  | 0, s => s
  | n + 1, s =>
    let s := glSigs n s
    let f := s.alloc .sig
    if n = 0 then { f.1 with sigs := [f.2] } else { f.1 with sigs := f.1.sigs.take 1 ++ [f.2] }

/-- What gpgme answers to `gpgme_decrypt`: `sigs` is the number of signatures, `good` is whether the first one is taken
(or errors are ignored). -/
structure DecAnswer where
  init : InitAnswer
  plain : Bool
  cipher : Bool
  op : Bool
  supported : Bool
  verify : Bool
  sigs : Nat
  good : Bool

/-- `gpgme_decrypt`, lib/gpgme_funcs.c:415-536, with `process_sigs`. -/
def glDecrypt (a : DecAnswer) (s : GState) : Res (GState × Bool) := do
  let r := glInit a.init s
  let s := r.1
  if !r.2 then .ok (s, false)
  else if !a.plain then
    let s ← s.drop
    .ok (s, false)
  else
    let p := s.alloc .data
    let s := p.1
    if !a.cipher then
      let s ← s.release .data p.2
      let s ← s.drop
      .ok (s, false)
    else
      let c := s.alloc .data
      let s := c.1
      let there ← s.engine
      if !(there && a.op) then
        let s ← s.release .data p.2
        let s ← s.release .data c.2
        let s ← s.drop
        .ok (s, false)
      else
        let s ← s.release .data c.2
        if !a.supported then
          let s ← s.release .data p.2
          let s ← s.drop
          .ok (s, false)
        else
          let s := if a.verify then glSigs a.sigs s else s
          if a.verify && (a.sigs == 0 || !a.good) then
            let s ← s.release .data p.2
            let s ← s.drop
            .ok (s, false)
          else
            let s ← s.release .data p.2
            .ok (s, true)

/-- The end of records. -/
def glFreeSigs (s : GState) : List Nat → Res GState
  | [] => .ok s
  | i :: is => do
    let s ← s.release .sig i
    glFreeSigs s is

/-- `fko_destroy`, lib/fko_funcs.c:325-358. -/
def glDestroy (s : GState) : Res GHeap := do
  let s ← s.releaseOpt .key s.recipient_key
  let s ← s.releaseOpt .key s.signer_key
  let s ← s.releaseOpt .engine s.gpg_ctx
  let s ← glFreeSigs s s.sigs
  .ok s.heap

/-- A new context: `fko_new` and `fko_new_with_data` clear all members, lib/fko_funcs.c:46-50, 164-168. -/
def glNew : GState := ⟨⟨fun _ _ => false, 0⟩, false, none, none, none, false, []⟩

/-- The calls of the interface that come to gpgme. -/
inductive GCall where
  | recipient (a : KeyAnswer)
  | signer (a : KeyAnswer)
  | encrypt (a : EncAnswer)
  | decrypt (a : DecAnswer)

/-- One call: the state after it and whether it succeeds. -/
def glCall (s : GState) : GCall → Res (GState × Bool)
  | .recipient a => glSetRecipient a s
  | .signer a => glSetSigner a s
  | .encrypt a => glEncrypt a s
  | .decrypt a => glDecrypt a s

/-- A history of calls. -/
def glRun : GState → List GCall → Res GState
  | s, [] => .ok s
  | s, c :: cs => do
    let r ← glCall s c
    glRun r.1 cs

/-- A context from its beginning to its end: the objects that are then still alive. -/
def glLife (cs : List GCall) : Res GHeap := do
  let s ← glRun glNew cs
  glDestroy s

end Fwknop
