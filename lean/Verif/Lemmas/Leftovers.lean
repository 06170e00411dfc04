import Verif.Lemmas.Http
import Verif.Model.Daemon

/-!
# Lemmas: what follows the text in the packet buffer has no influence
-/

namespace Fwknop

open Spec Res

/-- The same outcome, except for what follows the text in the buffer. -/
inductive Same : Res (Str × Str) → Res (Str × Str) → Prop where
  | ub : Same .ub .ub
  | err : Same .err .err
  | ok (s g1 g2 x : Str) (h : 0 ∉ s) : Same (.ok (s ++ 0 :: g1, x)) (.ok (s ++ 0 :: g2, x))

theorem prefix_nul {q : Str} (hq : 0 ∉ q) (s g : Str) : q <+: s ++ 0 :: g ↔ q <+: s := by
  constructor
  · intro h
    induction q generalizing s with
    | nil => exact List.nil_prefix
    | cons a q ih =>
      simp only [List.mem_cons, not_or] at hq
      cases s with
      | nil =>
        rw [List.nil_append, List.cons_prefix_cons] at h
        exact absurd h.1.symm hq.1
      | cons b s =>
        rw [List.cons_append, List.cons_prefix_cons] at h
        exact List.cons_prefix_cons.2 ⟨h.1, ih hq.2 s h.2⟩
  · exact fun h => h.trans (List.prefix_append _ _)

theorem cmp_nul {q : Str} (hq : 0 ∉ q) (n : Nat) (hn : q.length = n) {s g : Str} (hl : n ≤ (s ++ 0 :: g).length) :
    constant_runtime_cmp (s ++ 0 :: g) q n = 0 ↔ q <+: s := by
  rw [cmp_prefix _ _ n hn hl, prefix_nul hq]

theorem base64_nul {s g : Str} {len : Nat} (hs : s.length ≤ len) :
    Base64.is_base64 ((s ++ 0 :: g).take len) = (decide (s.length = len) && Base64.is_base64 s) := by
  by_cases h : s.length = len
  · rw [List.take_append_of_le_length (by omega), List.take_of_length_le (by omega)]
    simp [h]
  · have : (0 : Nat) ∈ (s ++ 0 :: g).take len := by
      rw [List.take_append, List.take_of_length_le (by omega)]
      refine List.mem_append_right _ ?_
      obtain ⟨k, hk⟩ : ∃ k, len - s.length = k + 1 := ⟨len - s.length - 1, by omega⟩
      rw [hk, List.take_succ_cons]
      exact List.mem_cons_self
    have h0 : Base64.is_base64 ((s ++ 0 :: g).take len) = false := by
      apply Bool.eq_false_iff.2
      intro hq
      exact absurd (List.all_eq_true.1 hq 0 this) (by decide)
    simp [h0, h]

theorem httpChar_ne {c : Nat} (h : c ≠ 0) : httpChar c ≠ 0 := by
  unfold httpChar
  split
  · decide
  · split
    · decide
    · exact h

/-- The loop over the request stops inside the text or runs over its end. -/
theorem httpLoop_nul (t h1 h2 : Str) (ht : 0 ∉ t) (n : Nat) (hn : t.length ≤ n) :
    (∃ u g1 g2, 0 ∉ u ∧ httpLoop n (t ++ 0 :: h1) = (u ++ 0 :: g1, u.length) ∧ httpLoop n (t ++ 0 :: h2) = (u ++ 0 :: g2, u.length)) ∨
    (0 ∈ (httpLoop n (t ++ 0 :: h1)).1.take (httpLoop n (t ++ 0 :: h1)).2 ∧
      0 ∈ (httpLoop n (t ++ 0 :: h2)).1.take (httpLoop n (t ++ 0 :: h2)).2) := by
  induction t generalizing n with
  | nil =>
    cases n with
    | zero => exact .inl ⟨[], h1, h2, by simp, by simp [httpLoop], by simp [httpLoop]⟩
    | succ n => exact .inr (by simp [httpLoop, isSpace, httpChar])
  | cons c t ih =>
    simp only [List.mem_cons, not_or] at ht
    cases n with
    | zero => simp at hn
    | succ n =>
      simp only [List.length_cons, Nat.add_le_add_iff_right] at hn
      simp only [List.cons_append, httpLoop]
      by_cases hc : isSpace c = true
      · rw [if_pos hc, if_pos hc]
        exact .inl ⟨[], _, _, by simp, rfl, rfl⟩
      · rw [if_neg hc, if_neg hc]
        rcases ih ht.2 n hn with ⟨u, g1, g2, hu, e1, e2⟩ | ⟨e1, e2⟩
        · refine .inl ⟨httpChar c :: u, g1, g2, ?_, ?_, ?_⟩
          · simp only [List.mem_cons, not_or]
            exact ⟨(httpChar_ne (Ne.symm ht.1)).symm, hu⟩
          · rw [e1]; rfl
          · rw [e2]; rfl
        · refine .inr ⟨?_, ?_⟩ <;>
          · dsimp only
            rw [List.take_succ_cons]
            exact List.mem_cons_of_mem _ (by assumption)

theorem not_base64 {l : Str} (h : 0 ∈ l) : Base64.is_base64 l = false := by
  apply Bool.eq_false_iff.2
  intro hq
  exact absurd (List.all_eq_true.1 hq 0 h) (by decide)

theorem shift_nul {s g : Str} (hs : 0 ∉ s) {len : Nat} (hl : s.length ≤ len) :
    shiftRequest (s ++ 0 :: g) len = s.drop 5 ++ 0 :: (s ++ 0 :: g).drop ((s.drop 5).length + 1) := by
  unfold shiftRequest
  have : ((cstr (s ++ 0 :: g)).drop 5).take (len - 1) = s.drop 5 := by
    rw [cstr_append hs, List.take_of_length_le]
    simp only [List.length_drop]
    omega
  rw [this]

theorem drop_nul {s g : Str} {p : Nat} (hp : p ≤ s.length) : (s ++ 0 :: g).drop p = s.drop p ++ 0 :: g :=
  List.drop_append_of_le_length hp

theorem not_mem_drop {s : Str} (h : 0 ∉ s) (p : Nat) : 0 ∉ s.drop p := fun hq => h (List.mem_of_mem_drop hq)

theorem not_mem_take {s : Str} (h : 0 ∉ s) (p : Nat) : 0 ∉ s.take p := fun hq => h (List.mem_of_mem_take hq)

theorem cstrAt_nul {s g : Str} (hs : 0 ∉ s) {p : Nat} (hp : p ≤ s.length) : cstrAt (s ++ 0 :: g) p = some (s.drop p) := by
  unfold cstrAt
  rw [drop_nul hp, if_pos (List.mem_append_right _ List.mem_cons_self)]
  have := cstr_append (not_mem_drop hs p) g
  unfold cstr at this
  rw [this]

theorem set_nul {s g : Str} {k : Nat} (hk : k < s.length) :
    (s ++ 0 :: g).set k 0 = s.take k ++ 0 :: (s.drop (k + 1) ++ 0 :: g) := by
  rw [List.set_append_left _ _ hk, List.set_eq_take_append_cons_drop, if_pos hk]
  simp

theorem xffStore_nul {s g1 g2 : Str} (hs : 0 ∉ s) {p i : Nat} (hp : p ≤ s.length) :
    Same (xffStore (s ++ 0 :: g1) p i) (xffStore (s ++ 0 :: g2) p i) := by
  unfold xffStore
  rw [cstrAt_nul hs hp, cstrAt_nul hs hp]
  dsimp only
  split
  · exact .ok _ _ _ _ hs
  · by_cases hm : i ≠ 0 ∧ min (s.drop p).length (i - 1) + 1 > MAX_IPV4_STR_LEN
    · rw [decide_eq_true hm]
      exact .ub
    · rw [decide_eq_false hm]
      exact .ok _ _ _ _ hs

/-- The buffer after the text: empty, or with a NUL. -/
def Closed (g : Str) : Prop := g = [] ∨ 0 ∈ g

theorem hasPrefixI_length {q s : Str} (h : hasPrefixI q s = true) : q.length ≤ s.length := by
  have := List.IsPrefix.length_le (List.isPrefixOf_iff_prefix.1 h)
  simpa using this

theorem xffHeader_nul {s g1 g2 : Str} (hs : 0 ∉ s) (hg : g1.length = g2.length) (h1 : Closed g1) (h2 : Closed g2) :
    Same (xffHeader (s ++ 0 :: g1)) (xffHeader (s ++ 0 :: g2)) := by
  unfold xffHeader
  rw [cstr_append hs, cstr_append hs]
  cases hf : findSuffix (hasPrefixI b!"X-Forwarded-For: ") s with
  | none => exact .ok _ _ _ _ hs
  | some off =>
    dsimp only
    obtain ⟨ho, hp, -⟩ := findSuffix_some hf
    have hlen := hasPrefixI_length hp
    have hlen : off + 17 ≤ s.length := by
      simp only [List.length_drop] at hlen
      have : (b!"X-Forwarded-For: ").length = 17 := by decide
      omega
    unfold xffValue
    rw [drop_nul hlen, drop_nul hlen, cstr_append (not_mem_drop hs _), cstr_append (not_mem_drop hs _)]
    dsimp only
    generalize hn : ((s.drop (off + 17)).takeWhile fun c => !isSpace c).length = n
    have hnl : n ≤ (s.drop (off + 17)).length := by
      rw [← hn]; exact (List.takeWhile_prefix _).length_le
    split
    · rename_i hlt
      simp only [List.length_drop] at hlt
      rw [set_nul (by omega), set_nul (by omega)]
      exact xffStore_nul (not_mem_take hs _) (by simp only [List.length_take]; omega)
    · rename_i hge
      simp only [List.length_drop] at hge hnl
      by_cases h0 : n = 0
      · have hp : off + 17 = s.length := by omega
        rw [hp, h0]
        have hd : ∀ g : Str, (s ++ 0 :: g).drop (s.length + 1) = g := fun g => by
          rw [List.drop_append, List.drop_eq_nil_of_le (by omega)]
          simp
        have hx : ∀ g : Str, 0 ∈ g → xffStore (s ++ 0 :: g) (s.length + 1) 0 = .ok (s ++ 0 :: g, []) := by
          intro g hg
          unfold xffStore cstrAt
          rw [hd, if_pos hg]
          dsimp only
          split
          · rfl
          · rfl
        rcases h1 with rfl | h1
        · have : g2 = [] := List.length_eq_zero_iff.1 hg.symm
          subst this
          unfold xffStore cstrAt
          rw [hd]
          exact .ub
        · rcases h2 with rfl | h2
          · have : g1 = [] := List.length_eq_zero_iff.1 hg
            subst this
            cases h1
          · rw [hx _ h1, hx _ h2]
            exact .ok _ _ _ _ hs
      · exact xffStore_nul hs (by omega)

/-- What `Same` results have to do with the length of the text. -/
theorem xffHeader_length {s g : Str} (hs : 0 ∉ s) {r : Str × Str} (h : xffHeader (s ++ 0 :: g) = .ok r) : (cstr r.1).length ≤ s.length := by
  have key : ∀ (b : Str) (p i : Nat), xffStore b p i = .ok r → r.1 = b := by
    intro b p i h
    unfold xffStore at h
    split at h
    · cases h
    · split at h
      · cases h; rfl
      · obtain ⟨u, -, h⟩ := bind_eq_ok h
        cases h; rfl
  unfold xffHeader at h
  rw [cstr_append hs] at h
  split at h
  · cases h; rw [cstr_append hs]; exact Nat.le_refl _
  · rename_i off hf
    obtain ⟨ho, hp, -⟩ := findSuffix_some hf
    have hlen := hasPrefixI_length hp
    have hlen : off + 17 ≤ s.length := by
      simp only [List.length_drop] at hlen
      have : (b!"X-Forwarded-For: ").length = 17 := by decide
      omega
    unfold xffValue at h
    rw [drop_nul hlen, cstr_append (not_mem_drop hs _)] at h
    dsimp only at h
    split at h
    · rename_i hlt
      simp only [List.length_drop] at hlt
      rw [set_nul (by omega)] at h
      rw [key _ _ _ h, cstr_append (not_mem_take hs _)]
      simp only [List.length_take]
      omega
    · rw [key _ _ _ h, cstr_append hs]
      exact Nat.le_refl _

theorem httpRequest_nul (conf : Conf) {s g1 g2 : Str} (hs : 0 ∉ s) (hg : g1.length = g2.length) (h1 : Closed g1) (h2 : Closed g2)
    {len : Nat} (hl : s.length ≤ len) :
    Same (httpRequest conf (s ++ 0 :: g1) len) (httpRequest conf (s ++ 0 :: g2) len) := by
  unfold httpRequest
  rw [cstr_append hs, cstr_append hs]
  cases (conf.need_agent && (findSuffix (hasPrefix b!"User-Agent: Fwknop") s).isNone) with
  | true => exact .err
  | false =>
    show Same (do
      let x ← (if conf.xff then xffHeader (s ++ 0 :: g1) else Res.ok (s ++ 0 :: g1, []))
      let r := httpLoop (len - 5) (shiftRequest x.1 len)
      Res.guard (r.2 < MIN_SPA_DATA_SIZE)
      Res.guard (!Base64.is_base64 (r.1.take r.2))
      return (r.1, x.2)) (do
      let x ← (if conf.xff then xffHeader (s ++ 0 :: g2) else Res.ok (s ++ 0 :: g2, []))
      let r := httpLoop (len - 5) (shiftRequest x.1 len)
      Res.guard (r.2 < MIN_SPA_DATA_SIZE)
      Res.guard (!Base64.is_base64 (r.1.take r.2))
      return (r.1, x.2))
    have hx : Same (if conf.xff then xffHeader (s ++ 0 :: g1) else Res.ok (s ++ 0 :: g1, []))
        (if conf.xff then xffHeader (s ++ 0 :: g2) else Res.ok (s ++ 0 :: g2, [])) := by
      split
      · exact xffHeader_nul hs hg h1 h2
      · exact .ok _ _ _ _ hs
    have hlen : ∀ r, (if conf.xff then xffHeader (s ++ 0 :: g1) else Res.ok (s ++ 0 :: g1, [])) = .ok r → (cstr r.1).length ≤ s.length := by
      intro r hr
      split at hr
      · exact xffHeader_length hs hr
      · cases hr; rw [cstr_append hs]; exact Nat.le_refl _
    revert hx hlen
    generalize (if conf.xff then xffHeader (s ++ 0 :: g1) else Res.ok (s ++ 0 :: g1, [])) = X
    generalize (if conf.xff then xffHeader (s ++ 0 :: g2) else Res.ok (s ++ 0 :: g2, [])) = Y
    intro hx hlen
    cases hx with
    | ub => exact .ub
    | err => exact .err
    | ok s' g1' g2' x hs' =>
      have hl' := hlen _ rfl
      rw [cstr_append hs'] at hl'
      simp only [Res.bind_ok]
      rw [shift_nul hs' (by omega), shift_nul hs' (by omega)]
      rcases httpLoop_nul (s'.drop 5) ((s' ++ 0 :: g1').drop ((s'.drop 5).length + 1)) ((s' ++ 0 :: g2').drop ((s'.drop 5).length + 1))
        (not_mem_drop hs' 5) (len - 5) (by simp only [List.length_drop]; omega) with ⟨u, k1, k2, hu, e1, e2⟩ | ⟨e1, e2⟩
      · rw [e1, e2]
        dsimp only
        rw [List.take_append_of_le_length (Nat.le_refl _), List.take_append_of_le_length (Nat.le_refl _), List.take_length]
        cases decide (u.length < MIN_SPA_DATA_SIZE) with
        | true => exact .err
        | false =>
          cases Base64.is_base64 u with
          | true => exact .ok _ _ _ _ hu
          | false => exact .err
      · rw [not_base64 e1, not_base64 e2]
        generalize decide (_ < MIN_SPA_DATA_SIZE) = a
        generalize decide (_ < MIN_SPA_DATA_SIZE) = b
        cases a <;> cases b <;> exact .err

theorem preprocess_nul (conf : Conf) {s g1 g2 : Str} (hs : 0 ∉ s) (hg : g1.length = g2.length) (h1 : Closed g1) (h2 : Closed g2)
    {len : Nat} (hl : s.length ≤ len) (h10 : 10 ≤ (s ++ 0 :: g1).length) :
    Same (preprocess_spa_data conf (s ++ 0 :: g1) len) (preprocess_spa_data conf (s ++ 0 :: g2) len) := by
  have h10' : 10 ≤ (s ++ 0 :: g2).length := by
    simp only [List.length_append, List.length_cons] at h10 ⊢
    omega
  unfold preprocess_spa_data
  have hh : isHttp conf (s ++ 0 :: g1) = isHttp conf (s ++ 0 :: g2) := by unfold isHttp; rw [cstr_append hs, cstr_append hs]
  have hc1 : decide (constant_runtime_cmp (s ++ 0 :: g1) B64_RIJNDAEL_SALT 10 = 0) = decide (constant_runtime_cmp (s ++ 0 :: g2) B64_RIJNDAEL_SALT 10 = 0) := by
    apply decide_eq_decide.2
    rw [cmp_nul (by decide) 10 (by decide) h10, cmp_nul (by decide) 10 (by decide) h10']
  have hc2 : decide (constant_runtime_cmp (s ++ 0 :: g1) B64_GPG_PREFIX 2 = 0) = decide (constant_runtime_cmp (s ++ 0 :: g2) B64_GPG_PREFIX 2 = 0) := by
    apply decide_eq_decide.2
    rw [cmp_nul (by decide) 2 (by decide) (by omega), cmp_nul (by decide) 2 (by decide) (by omega)]
  rw [hh, hc1, hc2, base64_nul hl, base64_nul hl]
  cases decide (len < MIN_SPA_DATA_SIZE) with
  | true => exact .err
  | false =>
    cases decide (len > MAX_SPA_PACKET_LEN) with
    | true => exact .err
    | false =>
      cases decide (constant_runtime_cmp (s ++ 0 :: g2) B64_RIJNDAEL_SALT 10 = 0) with
      | true => exact .err
      | false =>
        cases (decide (len > MIN_GNUPG_MSG_SIZE) && decide (constant_runtime_cmp (s ++ 0 :: g2) B64_GPG_PREFIX 2 = 0)) with
        | true => exact .err
        | false =>
          cases isHttp conf (s ++ 0 :: g2) with
          | true => exact httpRequest_nul conf hs hg h1 h2 hl
          | false =>
            cases (decide (s.length = len) && Base64.is_base64 s) with
            | true => exact .ok _ _ _ _ hs
            | false => exact .err

theorem stanzaLoop_data (conf : Conf) (E : Env) (now : Int) (p : Pkt) (b : Str) (a : Addrs) (text : Str) (digest : Option Str)
    (open_ok : Nat → Bool) : ∀ (l : List Stanza) (n : Nat) (s : Loop),
    stanzaLoop conf E now { p with data := b } a text digest open_ok n l s = stanzaLoop conf E now p a text digest open_ok n l s
  | [], _, _ => rfl
  | acc :: l, n, s => by
    unfold stanzaLoop
    rw [show tryStanza conf E now { p with data := b } a text digest (open_ok n) n acc s =
      tryStanza conf E now p a text digest (open_ok n) n acc s from rfl]
    simp only [stanzaLoop_data conf E now p b a text digest open_ok l]

/-- What the server does depends on the text in the buffer and the length only. -/
theorem incoming_nul (conf : Conf) (E : Env) (now : Int) (p q : Pkt) (open_ok : Nat → Bool) (sv : Server) {s g1 g2 : Str} (hs : 0 ∉ s)
    (hp : p.data = s ++ 0 :: g1) (hq : q.data = s ++ 0 :: g2) (hg : g1.length = g2.length) (h1 : Closed g1) (h2 : Closed g2)
    (hl : s.length ≤ p.len) (h10 : 10 ≤ p.data.length) (hrest : { q with data := p.data } = p) :
    incoming_spa conf E now p open_ok sv = incoming_spa conf E now q open_ok sv := by
  obtain ⟨pd, pl, pp, ps, pt, pa, pb⟩ := p
  obtain ⟨qd, ql, qp, qs, qt, qa, qb⟩ := q
  simp only [Pkt.mk.injEq, true_and] at hrest
  dsimp only at hp hq hl h10
  subst hp hq
  obtain ⟨rfl, rfl, rfl, rfl, rfl, rfl⟩ := hrest
  unfold incoming_spa
  dsimp only
  have hsame := preprocess_nul conf hs hg h1 h2 hl h10
  revert hsame
  generalize preprocess_spa_data conf (s ++ 0 :: g1) ql = X
  generalize preprocess_spa_data conf (s ++ 0 :: g2) ql = Y
  intro hsame
  cases hsame with
  | ub => rfl
  | err => rfl
  | ok u k1 k2 x hu =>
    dsimp only
    rw [cstr_append hu, cstr_append hu]
    cases src_check conf E sv.stanzas sv.cache qs u with
    | ub => rfl
    | err => rfl
    | ok d =>
      dsimp only
      unfold process
      have := stanzaLoop_data conf E now ⟨s ++ 0 :: g2, ql, qp, qs, qt, qa, qb⟩ (s ++ 0 :: g1)
        ⟨inet_ntop qs, inet_ntop qt, x⟩ u d open_ok sv.stanzas 1 ⟨sv.cache, sv.file, false, sv.cycles, []⟩
      dsimp only at this ⊢
      rw [this]

end Fwknop
