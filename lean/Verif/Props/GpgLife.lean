import Verif.Model.GpgLife
import Verif.Lemmas.Post

/-!
# C125, C126: the GnuPG objects of a context
-/

namespace Fwknop.Props

open Fwknop Res

/-! ## The invariant -/

/-- Every pointer of the context is to a living object, no two of them to the same; engine contexts and data objects
that are alive are those of the context. -/
structure GInv (s : GState) : Prop where
  fresh : ∀ k i, s.heap.live k i = true → i < s.heap.next
  engine : ∀ i, s.heap.live .engine i = true ↔ s.gpg_ctx = some i
  data : ∀ i, s.heap.live .data i = false
  recipient : ∀ i, s.recipient_key = some i → s.heap.live .key i = true
  signer : ∀ i, s.signer_key = some i → s.heap.live .key i = true
  apart : ∀ i, s.recipient_key = some i → s.signer_key ≠ some i
  sigs : ∀ i ∈ s.sigs, s.heap.live .sig i = true
  nodup : s.sigs.Nodup
  have_none : s.have_gpgme_context = false → s.gpg_ctx = none

/-- Nothing else is alive. -/
structure GTight (s : GState) : Prop where
  key : ∀ i, s.heap.live .key i = true → s.recipient_key = some i ∨ s.signer_key = some i
  sig : ∀ i, s.heap.live .sig i = true → i ∈ s.sigs

/-- The state with a later next number. -/
def bump (s : GState) (n : Nat) : GState := { s with heap := ⟨s.heap.live, n⟩ }

/-- The state without its engine context. -/
def dropped (s : GState) : GState :=
  { s with heap := ⟨fun k i => if k = .engine then false else s.heap.live k i, s.heap.next⟩, gpg_ctx := none }

theorem GInv.bump {s : GState} (h : GInv s) {n : Nat} (hn : s.heap.next ≤ n) : GInv (bump s n) :=
  { h with fresh := fun k i hl => Nat.lt_of_lt_of_le (h.fresh k i hl) hn }

theorem GInv.dropped {s : GState} (h : GInv s) : GInv (dropped s) where
  fresh k i hl := by
    simp only [Props.dropped] at hl
    split at hl
    · cases hl
    · exact h.fresh k i hl
  engine i := by simp [Props.dropped]
  data i := by simp [Props.dropped, h.data]
  recipient i hi := by simpa [Props.dropped] using h.recipient i hi
  signer i hi := by simpa [Props.dropped] using h.signer i hi
  apart := h.apart
  sigs i hi := by simpa [Props.dropped] using h.sigs i hi
  nodup := h.nodup
  have_none _ := rfl

theorem GTight.bump {s : GState} (h : GTight s) {n : Nat} : GTight (bump s n) := { h with }

theorem GTight.dropped {s : GState} (h : GTight s) : GTight (dropped s) where
  key i hi := h.key i (by simpa [Props.dropped] using hi)
  sig i hi := h.sig i (by simpa [Props.dropped] using hi)

/-- `drop` gives `dropped`. -/
theorem drop_eq {s : GState} (h : GInv s) : s.drop = .ok (dropped s) := by
  unfold GState.drop GState.releaseOpt
  cases hc : s.gpg_ctx with
  | none =>
    simp only [bind_ok]
    unfold dropped
    have : (fun k i => if k = .engine then false else s.heap.live k i) = s.heap.live := by
      funext k i
      split
      · rename_i hk
        subst hk
        have := h.engine i
        rw [hc] at this
        cases hl : s.heap.live .engine i
        · rfl
        · rw [hl] at this; simp at this
      · rfl
    rw [this, ← hc]
  | some e =>
    have he : s.heap.live .engine e = true := (h.engine e).2 hc
    simp only [GState.release, he, if_true, bind_ok]
    unfold dropped
    congr 2
    congr 1
    funext k i
    unfold setLive
    by_cases hk : k = .engine
    · subst hk
      by_cases hi : i = e
      · simp [hi]
      · simp only [hi, and_false, if_false, if_true]
        cases hl : s.heap.live .engine i
        · rfl
        · have := (h.engine i).1 hl
          rw [hc] at this
          cases this
          exact absurd rfl hi
    · simp [hk]

theorem engine_eq {s : GState} (h : GInv s) : s.engine = .ok s.gpg_ctx.isSome := by
  unfold GState.engine
  cases hc : s.gpg_ctx with
  | none => rfl
  | some e => simp [(h.engine e).2 hc]

/-! ## Data objects come and go -/

theorem live_next {s : GState} (h : GInv s) (k : GKind) {n : Nat} (hn : s.heap.next ≤ n) : s.heap.live k n = false := by
  cases hl : s.heap.live k n
  · rfl
  · have := h.fresh k n hl
    omega

/-- The state with one data object. -/
def oneData (s : GState) : GState := (s.alloc .data).1

/-- The state with two. -/
def twoData (s : GState) : GState := ((s.alloc .data).1.alloc .data).1

theorem one_release {s : GState} (h : GInv s) : (s.alloc .data).1.release .data (s.alloc .data).2 = .ok (bump s (s.heap.next + 1)) := by
  unfold GState.alloc GState.release
  simp only [setLive, and_self, if_true]
  unfold bump
  congr 3
  funext k i
  simp only [setLive]
  split
  · rename_i hk
    rw [hk.1, hk.2]
    exact (live_next h _ (Nat.le_refl _)).symm
  · rename_i hk
    simp [hk]

/-- Releasing both of two new objects. -/
theorem two_release {s : GState} (h : GInv s) (k : GKind) : ∃ t, ((s.alloc k).1.alloc k).1.release k (s.alloc k).2 = .ok t ∧
    t.release k ((s.alloc k).1.alloc k).2 = .ok (bump s (s.heap.next + 2)) := by
  refine ⟨_, by simp [GState.alloc, GState.release, setLive]; rfl, ?_⟩
  unfold GState.alloc GState.release
  simp only [setLive]
  rw [if_pos (by simp)]
  unfold bump
  congr 3
  funext k' i
  simp only [setLive]
  split
  · rename_i hk
    rw [hk.1, hk.2]
    exact (live_next h _ (by simp)).symm
  · rename_i hk
    split
    · rename_i hk'
      rw [hk'.1, hk'.2]
      exact (live_next h _ (Nat.le_refl _)).symm
    · rfl

/-- The same in the other order. -/
theorem two_release' {s : GState} (h : GInv s) (k : GKind) :
    ((s.alloc k).1.alloc k).1.release k ((s.alloc k).1.alloc k).2 = .ok (bump (s.alloc k).1 (s.heap.next + 2)) := by
  unfold GState.alloc GState.release
  simp only [setLive, and_self, if_true]
  unfold bump
  congr 3
  funext k' i
  simp only [setLive]
  split
  · rename_i hk
    rw [hk.1, hk.2, if_neg (by simp)]
    exact (live_next h _ (by simp)).symm
  · rename_i hk
    simp [hk]

/-! ## Each call -/

theorem init_inv {a : InitAnswer} {s : GState} (h : GInv s) : GInv (glInit a s).1 := by
  unfold glInit
  split
  · exact h
  · rename_i h0
    have hnone := h.have_none (by simpa using h0)
    split
    · exact h
    · split
      · exact h
      · refine ⟨?_, ?_, ?_, ?_, ?_, h.apart, ?_, h.nodup, ?_⟩
        · intro k i
          simp only [GState.alloc, setLive]
          split
          · rename_i hk; intro _; rw [hk.2]; omega
          · intro hl; have := h.fresh k i hl; omega
        · intro i
          simp only [GState.alloc, setLive]
          by_cases hi : i = s.heap.next
          · simp [hi]
          · have := h.engine i
            rw [hnone] at this
            simp only [hi, and_false, if_false, this]
            constructor
            · intro hx; cases hx
            · intro hx; cases hx; exact absurd rfl hi
        · intro i; simpa [GState.alloc, setLive] using h.data i
        · intro i hi; simpa [GState.alloc, setLive] using h.recipient i hi
        · intro i hi; simpa [GState.alloc, setLive] using h.signer i hi
        · intro i hi; simpa [GState.alloc, setLive] using h.sigs i hi
        · intro hx; cases hx

theorem init_tight {a : InitAnswer} {s : GState} (h : GTight s) : GTight (glInit a s).1 := by
  unfold glInit
  split
  · exact h
  · split
    · exact h
    · split
      · exact h
      · exact ⟨fun i hi => h.key i (by simpa [GState.alloc, setLive] using hi), fun i hi => h.sig i (by simpa [GState.alloc, setLive] using hi)⟩

/-- The members that `glInit` leaves. -/
theorem init_keeps (a : InitAnswer) (s : GState) : (glInit a s).1.recipient_key = s.recipient_key ∧ (glInit a s).1.signer_key = s.signer_key ∧
    (glInit a s).1.sigs = s.sigs ∧ (glInit a s).1.signer = s.signer := by
  unfold glInit
  split
  · simp
  · split
    · simp
    · split <;> simp [GState.alloc]

theorem engine_alloc {s : GState} (h : GInv s) (k : GKind) (hk : k ≠ .engine) : (s.alloc k).1.engine = .ok s.gpg_ctx.isSome := by
  unfold GState.engine GState.alloc
  cases hc : s.gpg_ctx with
  | none => rfl
  | some e => simp [setLive, (h.engine e).2 hc, Ne.symm hk]

theorem useKey_alloc {s : GState} {o : Option Nat} (h : ∀ i, o = some i → s.heap.live .key i = true) : (twoData s).useKey o = .ok () := by
  unfold GState.useKey
  cases o with
  | none => rfl
  | some i => simp [twoData, GState.alloc, setLive, h i rfl]

/-- What the encryption does to the objects: it leaves the state of `init_gpgme`, or without the engine context. -/
theorem encrypt_eq (a : EncAnswer) {s : GState} (h : GInv s) : ∃ n, (glInit a.init s).1.heap.next ≤ n ∧
    (glEncrypt a s = .ok ((glInit a.init s).1, false) ∧ (glInit a.init s).2 = false ∨
     glEncrypt a s = .ok (bump (glInit a.init s).1 n, true) ∧ (glInit a.init s).1.gpg_ctx.isSome = true ∨
     glEncrypt a s = .ok (dropped (bump (glInit a.init s).1 n), false)) := by
  have h0 := init_inv (a := a.init) h
  unfold glEncrypt
  generalize glInit a.init s = r at h0
  obtain ⟨t, ok⟩ := r
  simp only at h0 ⊢
  cases ok with
  | false => exact ⟨t.heap.next, Nat.le_refl _, .inl (by simp)⟩
  | true =>
    simp only [Bool.not_true, Bool.false_eq_true, if_false]
    cases hp : a.plain with
    | false =>
      simp only [Bool.not_false, if_true, drop_eq h0, bind_ok]
      exact ⟨t.heap.next, Nat.le_refl _, .inr (.inr rfl)⟩
    | true =>
      simp only [Bool.not_true, Bool.false_eq_true, if_false, engine_alloc h0 .data (by decide), bind_ok]
      have one : GInv (bump t (t.heap.next + 1)) := h0.bump (by omega)
      have two : GInv (bump t (t.heap.next + 2)) := h0.bump (by omega)
      obtain ⟨u, hu1, hu2⟩ := two_release h0 .data
      split
      · simp only [one_release h0, bind_ok, drop_eq one]
        exact ⟨_, by omega, .inr (.inr rfl)⟩
      · rename_i heng
        have heng : t.gpg_ctx.isSome = true := by
          cases hx : t.gpg_ctx.isSome
          · rw [hx] at heng; simp at heng
          · rfl
        split
        · simp only [one_release h0, bind_ok, drop_eq one]
          exact ⟨_, by omega, .inr (.inr rfl)⟩
        · have k1 : (twoData t).useKey t.signer_key = .ok () := useKey_alloc h0.signer
          have k2 : (twoData t).useKey t.recipient_key = .ok () := useKey_alloc h0.recipient
          have k1' : ((t.alloc .data).1.alloc .data).1.useKey ((t.alloc .data).1.alloc .data).1.signer_key = .ok () := k1
          have k2' : ((t.alloc .data).1.alloc .data).1.useKey ((t.alloc .data).1.alloc .data).1.recipient_key = .ok () := k2
          simp only [k1', k2', hu1, hu2, bind_ok, drop_eq two]
          refine ⟨t.heap.next + 2, by omega, .inr ?_⟩
          cases ((t.alloc .data).1.alloc .data).1.signer <;> cases a.signers <;> cases a.op <;> simp [Res.bind, heng]

/-- What can be reached after `n` signatures. -/
def sigList (old : List Nat) (next : Nat) : Nat → List Nat
  | 0 => old
  | 1 => [next]
  | n + 2 => [next, next + n + 1]

theorem sigs_eq (s : GState) : ∀ n, glSigs n s =
    { s with heap := ⟨fun k i => if k = .sig ∧ s.heap.next ≤ i ∧ i < s.heap.next + n then true else s.heap.live k i, s.heap.next + n⟩,
             sigs := sigList s.sigs s.heap.next n }
  | 0 => by
    unfold glSigs sigList
    have : (fun k i => if k = GKind.sig ∧ s.heap.next ≤ i ∧ i < s.heap.next + 0 then true else s.heap.live k i) = s.heap.live := by
      funext k i
      rw [if_neg (by omega)]
    rw [this]
    rfl
  | n + 1 => by
    unfold glSigs
    simp only [sigs_eq s n]
    have hl : setLive (fun k i => if k = GKind.sig ∧ s.heap.next ≤ i ∧ i < s.heap.next + n then true else s.heap.live k i) .sig (s.heap.next + n) true =
        (fun k i => if k = GKind.sig ∧ s.heap.next ≤ i ∧ i < s.heap.next + (n + 1) then true else s.heap.live k i) := by
      funext k i
      simp only [setLive]
      by_cases hk : k = .sig
      · simp only [hk, true_and]
        by_cases hi : i = s.heap.next + n
        · rw [if_pos hi, if_pos (by omega)]
        · rw [if_neg hi]
          by_cases hj : s.heap.next ≤ i ∧ i < s.heap.next + n
          · rw [if_pos hj, if_pos (by omega)]
          · rw [if_neg hj, if_neg (by omega)]
      · simp [hk]
    simp only [GState.alloc, hl]
    match n with
    | 0 => simp [sigList]
    | 1 => simp [sigList, Nat.add_assoc]
    | n + 2 => simp [sigList, Nat.add_assoc]

theorem sigs_inv {s : GState} (h : GInv s) (n : Nat) : GInv (glSigs n s) := by
  rw [sigs_eq]
  refine ⟨?_, ?_, ?_, ?_, ?_, h.apart, ?_, ?_, h.have_none⟩
  · intro k i
    simp only
    split
    · rename_i hk; intro _; exact hk.2.2
    · intro hl; have := h.fresh k i hl; omega
  · intro i; simpa using h.engine i
  · intro i; simpa using h.data i
  · intro i hi; simpa using h.recipient i hi
  · intro i hi; simpa using h.signer i hi
  · intro i
    match n with
    | 0 => intro hi; simp only; split
           · rfl
           · exact h.sigs i hi
    | 1 => intro hi; simp only [sigList, List.mem_singleton] at hi ⊢; simp; omega
    | n + 2 =>
      intro hi
      simp only [sigList, List.mem_cons, List.not_mem_nil, or_false] at hi ⊢
      simp; omega
  · match n with
    | 0 => exact h.nodup
    | 1 => simp [sigList]
    | n + 2 => simp [sigList]; omega

theorem sigs_tight {s : GState} (h : GTight s) (h0 : s.sigs = []) {n : Nat} (hn : n ≤ 2) : GTight (glSigs n s) := by
  rw [sigs_eq]
  refine ⟨fun i hi => h.key i (by simpa using hi), fun i hi => ?_⟩
  simp only at hi ⊢
  split at hi
  · rename_i hk
    match n, hn with
    | 0, _ => omega
    | 1, _ => simp only [sigList, List.mem_singleton]; omega
    | 2, _ => simp only [sigList, List.mem_cons, List.not_mem_nil, or_false]; omega
  · have := h.sig i hi
    rw [h0] at this
    cases this

/-- Signatures and the data object of the plaintext do not touch each other. -/
theorem sigs_release {t : GState} (h : GInv t) (n : Nat) :
    (glSigs n (bump (t.alloc .data).1 (t.heap.next + 2))).release .data (t.alloc .data).2 = .ok (glSigs n (bump t (t.heap.next + 2))) := by
  rw [sigs_eq, sigs_eq]
  simp only [GState.release, GState.alloc, bump, setLive]
  rw [if_pos (by simp)]
  congr 3
  funext k i
  simp only [setLive]
  by_cases hk : k = .data
  · subst hk
    by_cases hi : i = t.heap.next
    · subst hi; simp [live_next h .data (Nat.le_refl _)]
    · simp [hi]
  · simp only [hk, false_and, if_false]
    by_cases hs : k = .sig ∧ t.heap.next + 2 ≤ i ∧ i < t.heap.next + 2 + n
    · exact (if_pos hs).trans (if_pos hs).symm
    · exact (if_neg hs).trans (if_neg hs).symm

/-- What the decryption does to the objects. -/
theorem decrypt_eq (a : DecAnswer) {s : GState} (h : GInv s) : ∃ n m, (glInit a.init s).1.heap.next ≤ n ∧ m ≤ a.sigs ∧
    (glDecrypt a s = .ok ((glInit a.init s).1, false) ∧ (glInit a.init s).2 = false ∨
     glDecrypt a s = .ok (glSigs m (bump (glInit a.init s).1 n), true) ∧ (glInit a.init s).1.gpg_ctx.isSome = true ∨
     glDecrypt a s = .ok (dropped (glSigs m (bump (glInit a.init s).1 n)), false)) := by
  have h0 := init_inv (a := a.init) h
  unfold glDecrypt
  generalize glInit a.init s = r at h0
  obtain ⟨t, ok⟩ := r
  simp only at h0 ⊢
  cases ok with
  | false => exact ⟨t.heap.next, 0, Nat.le_refl _, Nat.zero_le _, .inl (by simp)⟩
  | true =>
    simp only [Bool.not_true, Bool.false_eq_true, if_false]
    cases hp : a.plain with
    | false =>
      simp only [Bool.not_false, if_true, drop_eq h0, bind_ok]
      exact ⟨t.heap.next, 0, Nat.le_refl _, Nat.zero_le _, .inr (.inr rfl)⟩
    | true =>
      simp only [Bool.not_true, Bool.false_eq_true, if_false]
      have one : GInv (bump t (t.heap.next + 1)) := h0.bump (by omega)
      have two : GInv (bump t (t.heap.next + 2)) := h0.bump (by omega)
      obtain ⟨u, hu1, hu2⟩ := two_release h0 .data
      split
      · simp only [one_release h0, bind_ok, drop_eq one]
        exact ⟨_, 0, by omega, Nat.zero_le _, .inr (.inr rfl)⟩
      · have heng : ((t.alloc .data).1.alloc .data).1.engine = .ok t.gpg_ctx.isSome := by
          unfold GState.engine GState.alloc
          cases hc : t.gpg_ctx with
          | none => rfl
          | some e => simp [setLive, (h0.engine e).2 hc]
        simp only [heng, bind_ok]
        split
        · simp only [hu1, hu2, bind_ok, drop_eq two]
          exact ⟨_, 0, by omega, Nat.zero_le _, .inr (.inr rfl)⟩
        · rename_i hop
          have hsome : t.gpg_ctx.isSome = true := by
            cases hx : t.gpg_ctx.isSome
            · rw [hx] at hop; simp at hop
            · rfl
          simp only [two_release' h0 .data, bind_ok]
          have hz : (bump (t.alloc .data).1 (t.heap.next + 2)).release .data (t.alloc .data).2 = .ok (bump t (t.heap.next + 2)) :=
            sigs_release h0 0
          split
          · simp only [hz, bind_ok, drop_eq two]
            exact ⟨_, 0, by omega, Nat.zero_le _, .inr (.inr rfl)⟩
          · cases hv : a.verify with
            | false =>
              simp only [Bool.false_and, Bool.false_eq_true, if_false, hz, bind_ok]
              exact ⟨_, 0, by omega, Nat.zero_le _, .inr (.inl ⟨rfl, hsome⟩)⟩
            | true =>
              simp only [if_true, Bool.true_and, sigs_release h0, bind_ok, drop_eq (sigs_inv two _)]
              split
              · exact ⟨t.heap.next + 2, a.sigs, by omega, Nat.le_refl _, .inr (.inr rfl)⟩
              · exact ⟨t.heap.next + 2, a.sigs, by omega, Nat.le_refl _, .inr (.inl ⟨rfl, hsome⟩)⟩

/-- What `get_gpg_key` does to the objects, if the listing of keys can be started. -/
theorem getKey_eq (a : KeyAnswer) (ha : a.start = true) {s : GState} (h : GInv s) : ∃ n, (glInit a.init s).1.heap.next ≤ n ∧
    (glGetKey a s = .ok ((glInit a.init s).1, none) ∨
     glGetKey a s = .ok (((glInit a.init s).1.alloc .key).1, some (glInit a.init s).1.heap.next) ∧ (glInit a.init s).1.gpg_ctx.isSome = true ∨
     glGetKey a s = .ok (bump (glInit a.init s).1 n, none)) := by
  have h0 := init_inv (a := a.init) h
  unfold glGetKey
  generalize glInit a.init s = r at h0
  obtain ⟨t, ok⟩ := r
  simp only at h0 ⊢
  cases ok with
  | false => exact ⟨t.heap.next, Nat.le_refl _, .inl (by simp)⟩
  | true =>
    simp only [Bool.not_true, Bool.false_eq_true, if_false, engine_eq h0, bind_ok, ha, Bool.and_true]
    cases hc : t.gpg_ctx with
    | none =>
      simp only [Option.isSome_none, Bool.not_false, if_true, GState.releaseOpt, bind_ok]
      exact ⟨t.heap.next, Nat.le_refl _, .inl trivial⟩
    | some e =>
      simp only [Option.isSome_some, Bool.not_true, Bool.false_eq_true, if_false]
      obtain ⟨u, hu1, hu2⟩ := two_release h0 .key
      split
      · exact ⟨t.heap.next, Nat.le_refl _, .inl rfl⟩
      · exact ⟨t.heap.next, Nat.le_refl _, .inr (.inl ⟨rfl, trivial⟩)⟩
      · simp only [hu1, hu2, bind_ok]
        exact ⟨t.heap.next + 2, by omega, .inr (.inr rfl)⟩

theorem alloc_key {s : GState} (h : GInv s) : GInv { (s.alloc .key).1 with recipient_key := some s.heap.next } ∧
    GInv { (s.alloc .key).1 with signer_key := some s.heap.next, signer := true } := by
  have hf : ∀ k i, (s.alloc .key).1.heap.live k i = true → i < (s.alloc .key).1.heap.next := by
    intro k i
    simp only [GState.alloc, setLive]
    split
    · rename_i hk; intro _; rw [hk.2]; omega
    · intro hl; have := h.fresh k i hl; omega
  have hk : ∀ i, s.heap.live .key i = true → (s.alloc .key).1.heap.live .key i = true := by
    intro i hi
    simp only [GState.alloc, setLive]
    split
    · rfl
    · exact hi
  have hn : (s.alloc .key).1.heap.live .key s.heap.next = true := by simp [GState.alloc, setLive]
  constructor
  · exact { fresh := hf
            engine := fun i => by simpa [GState.alloc, setLive] using h.engine i
            data := fun i => by simpa [GState.alloc, setLive] using h.data i
            recipient := fun i hi => by cases hi; exact hn
            signer := fun i hi => hk i (h.signer i hi)
            apart := fun i hi hj => by
              cases hi
              have := h.fresh _ _ (h.signer _ hj)
              omega
            sigs := fun i hi => by simpa [GState.alloc, setLive] using h.sigs i hi
            nodup := h.nodup
            have_none := h.have_none }
  · exact { fresh := hf
            engine := fun i => by simpa [GState.alloc, setLive] using h.engine i
            data := fun i => by simpa [GState.alloc, setLive] using h.data i
            recipient := fun i hi => hk i (h.recipient i hi)
            signer := fun i hi => by cases hi; exact hn
            apart := fun i hi hj => by
              cases hj
              have := h.fresh _ _ (h.recipient _ hi)
              omega
            sigs := fun i hi => by simpa [GState.alloc, setLive] using h.sigs i hi
            nodup := h.nodup
            have_none := h.have_none }

theorem GInv.unsigned {s : GState} (h : GInv s) (b : Bool) : GInv { s with signer := b } := { h with }

/-- The listing of keys can be started in this call. -/
def starts : GCall → Prop
  | .recipient a => a.start = true
  | .signer a => a.start = true
  | _ => True

theorem call_inv {s : GState} (h : GInv s) (c : GCall) (hc : starts c) : ∃ s' b, glCall s c = .ok (s', b) ∧ GInv s' := by
  cases c with
  | recipient a =>
    have h0 := init_inv (a := a.init) h
    obtain ⟨n, hn, k | ⟨k, -⟩ | k⟩ := getKey_eq a hc h
    · exact ⟨_, _, by simp only [glCall, glSetRecipient, k, bind_ok]; rfl, h0⟩
    · exact ⟨_, _, by simp only [glCall, glSetRecipient, k, bind_ok]; rfl, (alloc_key h0).1⟩
    · exact ⟨_, _, by simp only [glCall, glSetRecipient, k, bind_ok]; rfl, h0.bump hn⟩
  | signer a =>
    have h0 := init_inv (a := a.init) h
    obtain ⟨n, hn, k | ⟨k, -⟩ | k⟩ := getKey_eq a hc h
    · exact ⟨_, _, by simp only [glCall, glSetSigner, k, bind_ok]; rfl, h0.unsigned _⟩
    · exact ⟨_, _, by simp only [glCall, glSetSigner, k, bind_ok]; rfl, (alloc_key h0).2⟩
    · exact ⟨_, _, by simp only [glCall, glSetSigner, k, bind_ok]; rfl, (h0.bump hn).unsigned _⟩
  | encrypt a =>
    have h0 := init_inv (a := a.init) h
    obtain ⟨n, hn, ⟨k, -⟩ | ⟨k, -⟩ | k⟩ := encrypt_eq a h
    · exact ⟨_, _, k, h0⟩
    · exact ⟨_, _, k, h0.bump hn⟩
    · exact ⟨_, _, k, (h0.bump hn).dropped⟩
  | decrypt a =>
    have h0 := init_inv (a := a.init) h
    obtain ⟨n, m, hn, -, ⟨k, -⟩ | ⟨k, -⟩ | k⟩ := decrypt_eq a h
    · exact ⟨_, _, k, h0⟩
    · exact ⟨_, _, k, sigs_inv (h0.bump hn) m⟩
    · exact ⟨_, _, k, (sigs_inv (h0.bump hn) m).dropped⟩

theorem run_inv : ∀ (cs : List GCall) {s : GState}, GInv s → (∀ c ∈ cs, starts c) → ∃ s', glRun s cs = .ok s' ∧ GInv s'
  | [], s, h, _ => ⟨s, rfl, h⟩
  | c :: cs, s, h, hc => by
    obtain ⟨t, b, k, ht⟩ := call_inv h c (hc c List.mem_cons_self)
    obtain ⟨u, k', hu⟩ := run_inv cs ht fun x hx => hc x (List.mem_cons_of_mem _ hx)
    exact ⟨u, by simp only [glRun, k, bind_ok, k'], hu⟩

theorem new_inv : GInv glNew where
  fresh k i h := by cases h
  engine i := by simp [glNew]
  data i := rfl
  recipient i h := by cases h
  signer i h := by cases h
  apart i h := by cases h
  sigs i h := by cases h
  nodup := List.nodup_nil
  have_none _ := rfl

/-! ## The end of a context -/

theorem freeSigs_eq : ∀ (l : List Nat) (s : GState), l.Nodup → (∀ i ∈ l, s.heap.live .sig i = true) →
    ∃ s', glFreeSigs s l = .ok s' ∧ ∀ k i, s'.heap.live k i = (s.heap.live k i && !(decide (k = .sig) && decide (i ∈ l)))
  | [], s, _, _ => ⟨s, rfl, by simp⟩
  | j :: l, s, hn, hl => by
    obtain ⟨hj, hn⟩ := List.nodup_cons.1 hn
    have h1 : s.release .sig j = .ok { s with heap := ⟨setLive s.heap.live .sig j false, s.heap.next⟩ } := by
      simp [GState.release, hl j List.mem_cons_self]
    obtain ⟨t, k1, k2⟩ := freeSigs_eq l { s with heap := ⟨setLive s.heap.live .sig j false, s.heap.next⟩ } hn fun i hi => by
      simp only [setLive]
      rw [if_neg]
      · exact hl i (List.mem_cons_of_mem _ hi)
      · rintro ⟨-, rfl⟩; exact hj hi
    refine ⟨t, by simp only [glFreeSigs, h1, bind_ok, k1], fun k i => ?_⟩
    rw [k2 k i]
    simp only [setLive]
    by_cases hk : k = .sig
    · by_cases hi : i = j
      · simp [hk, hi]
      · simp [hk, hi]
    · simp [hk]

theorem releaseOpt_eq {s : GState} {k : GKind} {o : Option Nat} (h : ∀ i, o = some i → s.heap.live k i = true) :
    ∃ s', s.releaseOpt k o = .ok s' ∧ (∀ k' i, s'.heap.live k' i = (s.heap.live k' i && !(decide (k' = k) && decide (o = some i)))) ∧
      s' = { s with heap := s'.heap } := by
  cases o with
  | none => exact ⟨s, rfl, by simp, rfl⟩
  | some j =>
    refine ⟨_, by simp only [GState.releaseOpt, GState.release, h j rfl, if_true]; rfl, fun k' i => ?_, rfl⟩
    simp only [setLive]
    by_cases hk : k' = k
    · by_cases hi : i = j
      · simp [hk, hi]
      · simp [hk, hi, Ne.symm hi]
    · simp [hk]

/-- At the end everything the context points to is released, once. -/
theorem destroy_eq {s : GState} (h : GInv s) : ∃ H, glDestroy s = .ok H ∧ ∀ k i, H.live k i = (s.heap.live k i &&
    !(decide (k = .key) && (decide (s.recipient_key = some i) || decide (s.signer_key = some i))) &&
    !(decide (k = .engine) && decide (s.gpg_ctx = some i)) && !(decide (k = .sig) && decide (i ∈ s.sigs))) := by
  obtain ⟨s1, a1, b1, c1⟩ := releaseOpt_eq (s := s) (k := .key) (o := s.recipient_key) h.recipient
  have e1 : s1.signer_key = s.signer_key ∧ s1.gpg_ctx = s.gpg_ctx ∧ s1.sigs = s.sigs := by rw [c1]; exact ⟨rfl, rfl, rfl⟩
  obtain ⟨s2, a2, b2, c2⟩ := releaseOpt_eq (s := s1) (k := .key) (o := s1.signer_key) (fun i hi => by
    rw [e1.1] at hi
    rw [b1, h.signer i hi]
    have := fun hr => h.apart i hr hi
    simpa using this)
  have e2 : s2.gpg_ctx = s.gpg_ctx ∧ s2.sigs = s.sigs := by rw [c2]; exact e1.2
  obtain ⟨s3, a3, b3, c3⟩ := releaseOpt_eq (s := s2) (k := .engine) (o := s2.gpg_ctx) (fun i hi => by
    rw [e2.1] at hi
    rw [b2, b1, (h.engine i).2 hi]
    simp)
  have e3 : s3.sigs = s.sigs := by rw [c3]; exact e2.2
  obtain ⟨s4, a4, b4⟩ := freeSigs_eq s3.sigs s3 (e3 ▸ h.nodup) (fun i hi => by
    rw [e3] at hi
    rw [b3, b2, b1, h.sigs i hi]
    simp)
  refine ⟨s4.heap, by simp only [glDestroy, a1, a2, a3, a4, bind_ok], fun k i => ?_⟩
  rw [b4, b3, b2, b1, e3, e2.1, e1.1]
  cases s.heap.live k i <;> cases k <;> simp

/-- **C125** (part): whatever calls are made on a context and whatever gpgme answers, as long as the listing of keys can
be started, no object is used after its end and none is released twice, up to and with the end of the context; and then no
engine context and no data object is alive.  What is missing: `C125_false_released_twice`, and keys and signatures
(`C125_no_leak_partial`). -/
theorem C125_released_once_partial (cs : List GCall) (hs : ∀ c ∈ cs, starts c) :
    ∃ H, glLife cs = .ok H ∧ ∀ i, H.live .engine i = false ∧ H.live .data i = false := by
  obtain ⟨s, k, h⟩ := run_inv cs new_inv hs
  obtain ⟨H, k', hH⟩ := destroy_eq h
  refine ⟨H, by simp only [glLife, k, bind_ok, k'], fun i => ⟨?_, ?_⟩⟩
  · rw [hH]
    have := h.engine i
    cases hl : s.heap.live .engine i
    · simp
    · simp [this.1 hl]
  · rw [hH, h.data i]
    simp

/-! ## Nothing is left -/

/-- `fko_set_gpg_recipient`. -/
def isRecipient : GCall → Bool
  | .recipient _ => true
  | _ => false

/-- `fko_set_gpg_signer`. -/
def isSigner : GCall → Bool
  | .signer _ => true
  | _ => false

/-- A decryption. -/
def isDecrypt : GCall → Bool
  | .decrypt _ => true
  | _ => false

/-- At most two signatures. -/
def fewSigs : GCall → Prop
  | .decrypt a => a.sigs ≤ 2
  | _ => True

theorem call_tight {s s' : GState} {b : Bool} (h : GInv s) (t : GTight s) (c : GCall) (hc : starts c) (h1 : isRecipient c = true → s.recipient_key = none)
    (h2 : isSigner c = true → s.signer_key = none) (h3 : isDecrypt c = true → s.sigs = []) (h4 : fewSigs c) (hr : glCall s c = .ok (s', b)) :
    GTight s' ∧ (isRecipient c = false → s'.recipient_key = s.recipient_key) ∧ (isSigner c = false → s'.signer_key = s.signer_key) ∧
      (isDecrypt c = false → s'.sigs = s.sigs) := by
  cases c with
  | recipient a =>
    have t0 := init_tight (a := a.init) t
    have hk := init_keeps a.init s
    obtain ⟨n, hn, k | ⟨k, -⟩ | k⟩ := getKey_eq a hc h <;> simp only [glCall, glSetRecipient, k, bind_ok] at hr <;> cases hr
    · exact ⟨t0, nofun, fun _ => hk.2.1, fun _ => hk.2.2.1⟩
    · refine ⟨⟨fun i hi => ?_, fun i hi => t0.sig i (by simpa [GState.alloc, setLive] using hi)⟩, nofun, fun _ => hk.2.1, fun _ => hk.2.2.1⟩
      simp only [GState.alloc, setLive] at hi ⊢
      split at hi
      · rename_i hx; exact .inl (by rw [hx.2])
      · rcases t0.key i hi with h' | h'
        · rw [hk.1, h1 rfl] at h'; cases h'
        · exact .inr h'
    · exact ⟨t0.bump, nofun, fun _ => hk.2.1, fun _ => hk.2.2.1⟩
  | signer a =>
    have t0 := init_tight (a := a.init) t
    have hk := init_keeps a.init s
    obtain ⟨n, hn, k | ⟨k, -⟩ | k⟩ := getKey_eq a hc h <;> simp only [glCall, glSetSigner, k, bind_ok] at hr <;> cases hr
    · exact ⟨⟨t0.key, t0.sig⟩, fun _ => hk.1, nofun, fun _ => hk.2.2.1⟩
    · refine ⟨⟨fun i hi => ?_, fun i hi => t0.sig i (by simpa [GState.alloc, setLive] using hi)⟩, fun _ => hk.1, nofun, fun _ => hk.2.2.1⟩
      simp only [GState.alloc, setLive] at hi ⊢
      split at hi
      · rename_i hx; exact .inr (by rw [hx.2])
      · rcases t0.key i hi with h' | h'
        · exact .inl h'
        · rw [hk.2.1, h2 rfl] at h'; cases h'
    · exact ⟨⟨t0.key, t0.sig⟩, fun _ => hk.1, nofun, fun _ => hk.2.2.1⟩
  | encrypt a =>
    have t0 := init_tight (a := a.init) t
    have hk := init_keeps a.init s
    obtain ⟨n, hn, ⟨k, -⟩ | ⟨k, -⟩ | k⟩ := encrypt_eq a h <;> simp only [glCall, k] at hr <;> cases hr
    · exact ⟨t0, fun _ => hk.1, fun _ => hk.2.1, fun _ => hk.2.2.1⟩
    · exact ⟨t0.bump, fun _ => hk.1, fun _ => hk.2.1, fun _ => hk.2.2.1⟩
    · exact ⟨t0.bump.dropped, fun _ => hk.1, fun _ => hk.2.1, fun _ => hk.2.2.1⟩
  | decrypt a =>
    have t0 := init_tight (a := a.init) t
    have hk := init_keeps a.init s
    have hs : (glInit a.init s).1.sigs = [] := hk.2.2.1.trans (h3 rfl)
    have keep : ∀ m n, (glSigs m (bump (glInit a.init s).1 n)).recipient_key = s.recipient_key ∧ (glSigs m (bump (glInit a.init s).1 n)).signer_key = s.signer_key := by
      intro m n
      rw [sigs_eq]
      exact ⟨hk.1, hk.2.1⟩
    obtain ⟨n, m, hn, hm, ⟨k, -⟩ | ⟨k, -⟩ | k⟩ := decrypt_eq a h <;> simp only [glCall, k] at hr <;> cases hr
    · exact ⟨t0, fun _ => hk.1, fun _ => hk.2.1, nofun⟩
    · exact ⟨sigs_tight (GTight.bump (n := n) t0) hs (Nat.le_trans hm h4), fun _ => (keep m n).1, fun _ => (keep m n).2, nofun⟩
    · exact ⟨(sigs_tight (GTight.bump (n := n) t0) hs (Nat.le_trans hm h4)).dropped, fun _ => (keep m n).1, fun _ => (keep m n).2, nofun⟩

theorem run_tight : ∀ (cs : List GCall) {s s' : GState}, GInv s → GTight s → (∀ c ∈ cs, starts c) → (∀ c ∈ cs, fewSigs c) →
    cs.countP isRecipient ≤ 1 → cs.countP isSigner ≤ 1 → cs.countP isDecrypt ≤ 1 →
    (s.recipient_key ≠ none → cs.countP isRecipient = 0) → (s.signer_key ≠ none → cs.countP isSigner = 0) → (s.sigs ≠ [] → cs.countP isDecrypt = 0) →
    glRun s cs = .ok s' → GTight s'
  | [], s, s', _, t, _, _, _, _, _, _, _, _, hr => by cases hr; exact t
  | c :: cs, s, s', h, t, hs, hf, n1, n2, n3, e1, e2, e3, hr => by
    have hc := hs c List.mem_cons_self
    obtain ⟨u, b, k, hu⟩ := call_inv h c hc
    simp only [glRun, k, bind_ok] at hr
    rw [List.countP_cons] at n1 n2 n3 e1 e2 e3
    obtain ⟨tu, k1, k2, k3⟩ := call_tight h t c hc
      (fun hx => by
        cases hy : s.recipient_key with
        | none => rfl
        | some _ => have := e1 (by rw [hy]; simp); rw [hx] at this; simp at this)
      (fun hx => by
        cases hy : s.signer_key with
        | none => rfl
        | some _ => have := e2 (by rw [hy]; simp); rw [hx] at this; simp at this)
      (fun hx => by
        cases hy : s.sigs with
        | nil => rfl
        | cons _ _ => have := e3 (by rw [hy]; simp); rw [hx] at this; simp at this)
      (hf c List.mem_cons_self) k
    refine run_tight cs hu tu (fun x hx => hs x (List.mem_cons_of_mem _ hx)) (fun x hx => hf x (List.mem_cons_of_mem _ hx)) (by omega) (by omega) (by omega) ?_ ?_ ?_ hr
    · intro hx
      cases hy : isRecipient c
      · rw [k1 hy] at hx; have := e1 hx; omega
      · rw [hy] at n1; simp only [if_true] at n1; omega
    · intro hx
      cases hy : isSigner c
      · rw [k2 hy] at hx; have := e2 hx; omega
      · rw [hy] at n2; simp only [if_true] at n2; omega
    · intro hx
      cases hy : isDecrypt c
      · rw [k3 hy] at hx; have := e3 hx; omega
      · rw [hy] at n3; simp only [if_true] at n3; omega

/-- **C125** (part): if a context gets at most one recipient, at most one signer and at most one decryption, with at most two
signatures, then nothing is alive after its end.  What is missing: `C125_false_lost_key`, `C125_false_lost_signature`. -/
theorem C125_no_leak_partial (cs : List GCall) (hs : ∀ c ∈ cs, starts c) (hf : ∀ c ∈ cs, fewSigs c) (n1 : cs.countP isRecipient ≤ 1)
    (n2 : cs.countP isSigner ≤ 1) (n3 : cs.countP isDecrypt ≤ 1) : ∃ H, glLife cs = .ok H ∧ ∀ k i, H.live k i = false := by
  obtain ⟨s, k, h⟩ := run_inv cs new_inv hs
  have t : GTight s := run_tight cs new_inv ⟨nofun, nofun⟩ hs hf n1 n2 n3 (fun h => absurd rfl h) (fun h => absurd rfl h) (fun h => absurd rfl h) k
  obtain ⟨H, k', hH⟩ := destroy_eq h
  refine ⟨H, by simp only [glLife, k, bind_ok, k'], fun k i => ?_⟩
  rw [hH]
  cases hl : s.heap.live k i
  · simp
  · cases k with
    | engine => simp [(h.engine i).1 hl]
    | data => rw [h.data i] at hl; cases hl
    | key => rcases t.key i hl with h' | h' <;> simp [h']
    | sig => simp [t.sig i hl]

/-! ## The missing cases -/

/-- gpgme is there. -/
def initYes : InitAnswer := ⟨true, true⟩

/-- One key matches. -/
def keyYes : KeyAnswer := ⟨initYes, true, 1⟩

/-- A decryption that works, with so many signatures. -/
def decYes (n : Nat) : DecAnswer := ⟨initYes, true, true, true, true, true, n, true⟩

theorem destroy_dangling {u : GState} {e : Nat} (he : u.gpg_ctx = some e) (hl : u.heap.live .engine e = false)
    (h1 : ∀ i, u.recipient_key = some i → u.heap.live .key i = true) (h2 : ∀ i, u.signer_key = some i → u.heap.live .key i = true)
    (h3 : ∀ i, u.recipient_key = some i → u.signer_key ≠ some i) : glDestroy u = .ub := by
  obtain ⟨s1, a1, b1, c1⟩ := releaseOpt_eq (s := u) (k := .key) (o := u.recipient_key) h1
  have e1 : s1.signer_key = u.signer_key ∧ s1.gpg_ctx = some e := by rw [c1]; exact ⟨rfl, he⟩
  obtain ⟨s2, a2, b2, c2⟩ := releaseOpt_eq (s := s1) (k := .key) (o := s1.signer_key) (fun i hi => by
    rw [e1.1] at hi
    rw [b1, h2 i hi]
    have := fun hr => h3 i hr hi
    simpa using this)
  have e2 : s2.gpg_ctx = some e := by rw [c2]; exact e1.2
  have e3 : s2.heap.live .engine e = false := by rw [b2, b1, hl]; rfl
  simp only [glDestroy, a1, a2, bind_ok, e2]
  simp only [GState.releaseOpt, GState.release, e3]
  rfl

/-- **C125 is false** when the listing of keys cannot be started: the engine context is released there and again at the end
of the context; for any history before it in which it is there. -/
theorem C125_false_released_twice (cs : List GCall) (hs : ∀ c ∈ cs, starts c) (a : KeyAnswer) (ha : a.start = false) (s : GState)
    (hr : glRun glNew cs = .ok s) (hthere : (glInit a.init s).1.gpg_ctx.isSome = true) : glLife (cs ++ [.recipient a]) = .ub := by
  obtain ⟨s', k, h⟩ := run_inv cs new_inv hs
  rw [hr] at k
  cases k
  have h0 := init_inv (a := a.init) h
  have hyes : (glInit a.init s).2 = true := by
    unfold glInit at hthere ⊢
    split
    · rfl
    · rename_i hn
      have := h.have_none (by simpa using hn)
      split
      · rename_i hc; rw [if_neg hn, if_pos hc] at hthere; rw [this] at hthere; cases hthere
      · rename_i hc
        split
        · rename_i hd; rw [if_neg hn, if_neg hc, if_pos hd] at hthere; rw [this] at hthere; cases hthere
        · rfl
  have hrun : ∀ (cs : List GCall) (s t : GState) (c : GCall), glRun s cs = .ok t → glRun s (cs ++ [c]) = (glCall t c).bind fun r => .ok r.1 := by
    intro cs
    induction cs with
    | nil => intro s t c hx; cases hx; rfl
    | cons d ds ih =>
      intro s t c hx
      simp only [glRun] at hx
      obtain ⟨r, k1, k2⟩ := bind_eq_ok hx
      simp only [List.cons_append, glRun, k1, bind_ok]
      exact ih _ _ _ k2
  obtain ⟨e, he⟩ := Option.isSome_iff_exists.1 hthere
  have hl : (glInit a.init s).1.heap.live .engine e = true := (h0.engine e).2 he
  unfold glLife
  rw [hrun cs glNew s _ hr]
  simp only [glCall, glSetRecipient, glGetKey, hyes, Bool.not_true, Bool.false_eq_true, if_false, engine_eq h0, bind_ok, ha, Bool.and_false, Bool.not_false, if_true,
    he, GState.releaseOpt, GState.release, hl]
  show glDestroy _ = _
  refine destroy_dangling (e := e) rfl ?_ ?_ ?_ h0.apart
  · simp [setLive]
  · intro i hi; simpa [setLive] using h0.recipient i hi
  · intro i hi; simpa [setLive] using h0.signer i hi

/-- **C125 is false** of a context that gets two recipients: the reference to the first key is lost. -/
theorem C125_false_lost_key : ∃ H, glLife [.recipient keyYes, .recipient keyYes] = .ok H ∧ H.live .key 1 = true := ⟨_, rfl, rfl⟩

/-- **C125 is false** of messages with three signatures: the second record is lost. -/
theorem C125_false_lost_signature : ∃ H, glLife [.decrypt (decYes 3)] = .ok H ∧ H.live .sig 4 = true := ⟨_, rfl, rfl⟩

/-- The hypotheses of `C125_no_leak_partial` are met by a context with everything. -/
example : let cs := [.recipient keyYes, .signer keyYes, .encrypt ⟨initYes, true, true, true, true, true⟩, .decrypt (decYes 2)]
    (∀ c ∈ cs, starts c) ∧ (∀ c ∈ cs, fewSigs c) ∧ cs.countP isRecipient ≤ 1 ∧ cs.countP isSigner ≤ 1 ∧ cs.countP isDecrypt ≤ 1 := by
  refine ⟨by simp [starts, keyYes], by simp [fewSigs, decYes], by decide, by decide, by decide⟩

/-- The hypotheses of `C125_false_released_twice` are met by a new context. -/
example : (glInit initYes glNew).1.gpg_ctx.isSome = true := rfl

/-! ## C126: after a failure -/

/-- GnuPG does what is asked: it is there, keys are found, encryption and decryption work.  `signer` is whether the context has
a signer; without one nothing is signed. -/
def agrees (signer : Bool) : GCall → Prop
  | .recipient a => a.init = initYes ∧ a.start = true ∧ a.keys = 1
  | .signer a => a.init = initYes ∧ a.start = true ∧ a.keys = 1
  | .encrypt a => a = ⟨initYes, true, true, true, a.signers, true⟩ ∧ (signer = true → a.signers = true)
  | .decrypt a => a = ⟨initYes, true, true, true, true, a.verify, a.sigs, true⟩ ∧ (a.verify = true → a.sigs ≠ 0)

/-- The engine context is gone and no new one is made. -/
def Spoilt (s : GState) : Prop := s.have_gpgme_context = true ∧ s.gpg_ctx = none

/-- `init_gpgme` leaves an engine context, unless it was lost. -/
theorem init_there {s : GState} (h : ¬ Spoilt s) : (glInit initYes s).2 = true ∧ (glInit initYes s).1.gpg_ctx.isSome = true := by
  unfold glInit
  split
  · rename_i h1
    refine ⟨rfl, ?_⟩
    cases hc : s.gpg_ctx with
    | none => exact absurd ⟨h1, hc⟩ h
    | some _ => rfl
  · exact ⟨rfl, rfl⟩

/-- With the engine context there, a call that GnuPG agrees to succeeds. -/
theorem call_works {s : GState} (h : GInv s) (hs : ¬ Spoilt s) (c : GCall) (hc : agrees s.signer c) : ∃ s', glCall s c = .ok (s', true) := by
  obtain ⟨hi, he⟩ := init_there hs
  have h0 := init_inv (a := initYes) h
  cases c with
  | recipient a =>
    obtain ⟨i, st, ks⟩ := hc
    simp only [glCall, glSetRecipient, glGetKey, i, hi, engine_eq h0, bind_ok, he, st, ks, Bool.not_true, Bool.false_eq_true, if_false, Bool.and_self]
    exact ⟨_, rfl⟩
  | signer a =>
    obtain ⟨i, st, ks⟩ := hc
    simp only [glCall, glSetSigner, glGetKey, i, hi, engine_eq h0, bind_ok, he, st, ks, Bool.not_true, Bool.false_eq_true, if_false, Bool.and_self]
    exact ⟨_, rfl⟩
  | encrypt a =>
    obtain ⟨hc, hsg⟩ := hc
    obtain ⟨i, p, pr, ci, sg, op⟩ := a
    simp only [EncAnswer.mk.injEq] at hc
    obtain ⟨rfl, rfl, rfl, rfl, -, rfl⟩ := hc
    simp only at hsg
    obtain ⟨u, hu1, hu2⟩ := two_release h0 .data
    have k1' : (((glInit initYes s).1.alloc .data).1.alloc .data).1.useKey (((glInit initYes s).1.alloc .data).1.alloc .data).1.signer_key = .ok () := useKey_alloc h0.signer
    have k2' : (((glInit initYes s).1.alloc .data).1.alloc .data).1.useKey (((glInit initYes s).1.alloc .data).1.alloc .data).1.recipient_key = .ok () := useKey_alloc h0.recipient
    refine ⟨bump (glInit initYes s).1 ((glInit initYes s).1.heap.next + 2), ?_⟩
    simp only [glCall, glEncrypt, hi, engine_alloc h0 .data (by decide), bind_ok, he, k1', k2', hu1, hu2]
    have hsame : (((glInit initYes s).1.alloc .data).1.alloc .data).1.signer = s.signer := (init_keeps initYes s).2.2.2
    rw [hsame]
    cases hx : s.signer with
    | false => simp
    | true => simp [hsg hx]
  | decrypt a =>
    obtain ⟨hc, hv⟩ := hc
    obtain ⟨i, p, c, op, sup, v, n, g⟩ := a
    simp only [DecAnswer.mk.injEq] at hc
    obtain ⟨rfl, rfl, rfl, rfl, rfl, -, -, rfl⟩ := hc
    simp only at hv
    have heng : (((glInit initYes s).1.alloc .data).1.alloc .data).1.engine = .ok (glInit initYes s).1.gpg_ctx.isSome := by
      unfold GState.engine GState.alloc
      cases hc : (glInit initYes s).1.gpg_ctx with
      | none => rfl
      | some e => simp [setLive, (h0.engine e).2 hc]
    have hz := sigs_release h0 0
    cases v with
    | false =>
      refine ⟨bump (glInit initYes s).1 ((glInit initYes s).1.heap.next + 2), ?_⟩
      simp only [glCall, glDecrypt, hi, heng, he, bind_ok, two_release' h0 .data]
      simp only [glSigs] at hz
      simp [hz]
    | true =>
      have hn : (n == 0) = false := by simpa using hv rfl
      refine ⟨glSigs n (bump (glInit initYes s).1 ((glInit initYes s).1.heap.next + 2)), ?_⟩
      simp only [glCall, glDecrypt, hi, heng, he, bind_ok, two_release' h0 .data]
      simp [hn, sigs_release h0]

/-- Calls that were not lost: an encryption or decryption that fails after `init_gpgme` spoils the context. -/
theorem call_unspoilt {s s' : GState} {b : Bool} (h : GInv s) (hs : ¬ Spoilt s) (c : GCall) (hc : starts c)
    (hb : (isRecipient c || isSigner c) = true ∨ b = true) (hr : glCall s c = .ok (s', b)) : ¬ Spoilt s' := by
  have hi : ∀ a, ¬ Spoilt (glInit a s).1 := by
    intro a
    unfold glInit
    split
    · exact hs
    · split
      · exact hs
      · split
        · exact hs
        · rintro ⟨-, hx⟩; cases hx
  cases c with
  | recipient a =>
    obtain ⟨n, hn, k | ⟨k, -⟩ | k⟩ := getKey_eq a hc h <;> simp only [glCall, glSetRecipient, k, bind_ok] at hr <;> cases hr <;> exact hi a.init
  | signer a =>
    obtain ⟨n, hn, k | ⟨k, -⟩ | k⟩ := getKey_eq a hc h <;> simp only [glCall, glSetSigner, k, bind_ok] at hr <;> cases hr <;> exact hi a.init
  | encrypt a =>
    obtain ⟨n, hn, ⟨k, -⟩ | ⟨k, -⟩ | k⟩ := encrypt_eq a h <;> simp only [glCall, k] at hr <;> cases hr
    · rcases hb with hb | hb <;> cases hb
    · exact hi a.init
    · rcases hb with hb | hb <;> cases hb
  | decrypt a =>
    obtain ⟨n, m, hn, hm, ⟨k, -⟩ | ⟨k, -⟩ | k⟩ := decrypt_eq a h <;> simp only [glCall, k] at hr <;> cases hr
    · rcases hb with hb | hb <;> cases hb
    · rw [sigs_eq]; exact hi a.init
    · rcases hb with hb | hb <;> cases hb

/-- Every call of the history is one for a key or succeeds. -/
def NoCipherFails : GState → List GCall → Prop
  | _, [] => True
  | s, c :: cs => ∃ s' b, glCall s c = .ok (s', b) ∧ ((isRecipient c || isSigner c) = true ∨ b = true) ∧ NoCipherFails s' cs

theorem run_unspoilt : ∀ (cs : List GCall) {s t : GState}, GInv s → ¬ Spoilt s → (∀ c ∈ cs, starts c) → NoCipherFails s cs → glRun s cs = .ok t → ¬ Spoilt t
  | [], s, t, _, hs, _, _, hr => by cases hr; exact hs
  | c :: cs, s, t, h, hs, hc, ⟨u, b, k, hb, hn⟩, hr => by
    simp only [glRun, k, bind_ok] at hr
    obtain ⟨u', b', k', hu⟩ := call_inv h c (hc c List.mem_cons_self)
    rw [k] at k'
    cases k'
    exact run_unspoilt cs hu (call_unspoilt h hs c (hc c List.mem_cons_self) hb k) (fun x hx => hc x (List.mem_cons_of_mem _ hx)) hn hr

/-- **C126** (part): as long as no encryption or decryption has failed, a call to which GnuPG agrees succeeds, also after
keys that were not found or not unique.  What is missing: `C126_false_after_failure`. -/
theorem C126_works_partial (cs : List GCall) (hs : ∀ c ∈ cs, starts c) (hn : NoCipherFails glNew cs) (c : GCall) :
    ∃ s, glRun glNew cs = .ok s ∧ (agrees s.signer c → ∃ s', glCall s c = .ok (s', true)) := by
  obtain ⟨s, k, h⟩ := run_inv cs new_inv hs
  exact ⟨s, k, call_works h (run_unspoilt cs new_inv (fun hx => by cases hx.1) hs hn k) c⟩

theorem call_spoilt {s s' : GState} {b : Bool} (h : GInv s) (hs : Spoilt s) (c : GCall) (hc : starts c) (hr : glCall s c = .ok (s', b)) : Spoilt s' ∧ b = false := by
  have hi : ∀ a, glInit a s = (s, true) := fun a => by unfold glInit; rw [if_pos hs.1]
  cases c with
  | recipient a =>
    obtain ⟨n, hn, k | ⟨k, hx⟩ | k⟩ := getKey_eq a hc h <;> simp only [glCall, glSetRecipient, k, bind_ok, hi] at hr
    · cases hr; exact ⟨hs, rfl⟩
    · rw [hi, hs.2] at hx; cases hx
    · cases hr; exact ⟨hs, rfl⟩
  | signer a =>
    obtain ⟨n, hn, k | ⟨k, hx⟩ | k⟩ := getKey_eq a hc h <;> simp only [glCall, glSetSigner, k, bind_ok, hi] at hr
    · cases hr; exact ⟨hs, rfl⟩
    · rw [hi, hs.2] at hx; cases hx
    · cases hr; exact ⟨hs, rfl⟩
  | encrypt a =>
    obtain ⟨n, hn, ⟨k, hx⟩ | ⟨k, hx⟩ | k⟩ := encrypt_eq a h <;> simp only [glCall, k, hi] at hr
    · rw [hi] at hx; cases hx
    · rw [hi, hs.2] at hx; cases hx
    · cases hr; exact ⟨⟨hs.1, rfl⟩, rfl⟩
  | decrypt a =>
    obtain ⟨n, m, hn, hm, ⟨k, hx⟩ | ⟨k, hx⟩ | k⟩ := decrypt_eq a h <;> simp only [glCall, k, hi] at hr
    · rw [hi] at hx; cases hx
    · rw [hi, hs.2] at hx; cases hx
    · cases hr; rw [sigs_eq]; exact ⟨⟨hs.1, rfl⟩, rfl⟩

theorem run_spoilt : ∀ (cs : List GCall) {s t : GState}, GInv s → Spoilt s → (∀ c ∈ cs, starts c) → glRun s cs = .ok t → GInv t ∧ Spoilt t
  | [], s, t, h, hs, _, hr => by cases hr; exact ⟨h, hs⟩
  | c :: cs, s, t, h, hs, hc, hr => by
    obtain ⟨u, b, k, hu⟩ := call_inv h c (hc c List.mem_cons_self)
    simp only [glRun, k, bind_ok] at hr
    exact run_spoilt cs hu (call_spoilt h hs c (hc c List.mem_cons_self) k).1 (fun x hx => hc x (List.mem_cons_of_mem _ hx)) hr

/-- **C126 is false** after an encryption or decryption that failed once gpgme was there, as with a wrong passphrase or a bad
signature: every later call on the context fails, whatever GnuPG answers. -/
theorem C126_false_after_failure (cs ds : List GCall) (hcs : ∀ c ∈ cs, starts c) (hds : ∀ c ∈ ds, starts c) (c d : GCall) (s s' t : GState)
    (hc : isRecipient c = false ∧ isSigner c = false) (hd : starts d) (hr : glRun glNew cs = .ok s) (hfail : glCall s c = .ok (s', false))
    (hinit : s'.have_gpgme_context = true) (ht : glRun s' ds = .ok t) : ∃ t', glCall t d = .ok (t', false) := by
  obtain ⟨s0, k, h⟩ := run_inv cs new_inv hcs
  rw [hr] at k
  cases k
  have hstart : starts c := by
    cases c with
    | recipient a => exact absurd hc.1 (by simp [isRecipient])
    | signer a => exact absurd hc.2 (by simp [isSigner])
    | encrypt a => trivial
    | decrypt a => trivial
  obtain ⟨u, b, k, hu⟩ := call_inv h c hstart
  rw [hfail] at k
  cases k
  have hi : ∀ a : InitAnswer, (glInit a s).2 = false → (glInit a s).1.have_gpgme_context = false := by
    intro a hx
    unfold glInit at hx ⊢
    split
    · rename_i h1; rw [if_pos h1] at hx; cases hx
    · rename_i h1
      split
      · simpa using h1
      · rename_i h2
        split
        · simpa using h1
        · rename_i h3; rw [if_neg h1, if_neg h2, if_neg h3] at hx; cases hx
  have hsp : Spoilt s' := by
    refine ⟨hinit, ?_⟩
    cases c with
    | recipient a => exact absurd hc.1 (by simp [isRecipient])
    | signer a => exact absurd hc.2 (by simp [isSigner])
    | encrypt a =>
      obtain ⟨n, hn, ⟨k, hx⟩ | ⟨k, hx⟩ | k⟩ := encrypt_eq a h <;> simp only [glCall, k] at hfail <;> cases hfail
      · rw [hi _ hx] at hinit; cases hinit
      · rfl
    | decrypt a =>
      obtain ⟨n, m, hn, hm, ⟨k, hx⟩ | ⟨k, hx⟩ | k⟩ := decrypt_eq a h <;> simp only [glCall, k] at hfail <;> cases hfail
      · rw [hi _ hx] at hinit; cases hinit
      · rfl
  obtain ⟨hT, hT2⟩ := run_spoilt ds hu hsp hds ht
  obtain ⟨v, b, k, -⟩ := call_inv hT d hd
  have := (call_spoilt hT hT2 d hd k).2
  subst this
  exact ⟨v, k⟩

/-- The hypotheses of `C126_false_after_failure` are met: a wrong passphrase. -/
example : ∃ s', glCall glNew (.decrypt { decYes 1 with op := false }) = .ok (s', false) ∧ s'.have_gpgme_context = true := ⟨_, rfl, rfl⟩

/-- Those of `C126_works_partial`: a key that is not found, then one that is. -/
example : NoCipherFails glNew [.recipient { keyYes with keys := 0 }, .recipient keyYes, .encrypt ⟨initYes, true, true, true, true, true⟩] :=
  ⟨_, _, rfl, .inl rfl, _, _, rfl, .inl rfl, _, _, rfl, .inr rfl, trivial⟩

theorem glInit_signer (a : InitAnswer) (s : GState) : (glInit a s).1.signer = s.signer := by
  unfold glInit
  repeat' split
  all_goals rfl

/-- **C126**: after an attempt to set a signer that failed, encryption asks for no signature: what GnuPG would answer about the signer
makes no difference. -/
theorem C126_failed_signer (s s' : GState) (a : KeyAnswer) (h : glCall s (.signer a) = .ok (s', false)) (e : EncAnswer) (b : Bool) :
    glCall s' (.encrypt e) = glCall s' (.encrypt { e with signers := b }) := by
  have hs : s'.signer = false := by
    simp only [glCall, glSetSigner] at h
    obtain ⟨r, h1, h2⟩ := bind_eq_ok h
    split at h2 <;> cases h2
    rfl
  have h2 := (glInit_signer e.init s').trans hs
  simp only [glCall, glEncrypt]
  simp [GState.alloc, h2]

/-- A signer that is found, then one that is not: with the first still named GnuPG would refuse. -/
example : ∃ s s', glCall glNew (.signer keyYes) = .ok (s, true) ∧ glCall s (.signer { keyYes with keys := 0 }) = .ok (s', false) ∧
    (∃ t, glCall s (.encrypt ⟨initYes, true, true, true, false, true⟩) = .ok (t, false)) ∧
    ∃ t, glCall s' (.encrypt ⟨initYes, true, true, true, false, true⟩) = .ok (t, true) :=
  ⟨_, _, rfl, rfl, ⟨_, rfl⟩, _, rfl⟩

end Fwknop.Props
