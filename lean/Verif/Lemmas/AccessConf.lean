import Verif.Lemmas.AccessRead

/-! # The stanza in effect in terms of the entries of its stanza -/

namespace Fwknop
open Spec

/-- `set_acc_defaults` in one record. -/
theorem defaults_image {home : Str} {a b : Stanza} (h : set_acc_defaults home a = some b) :
    b = { a with
      fw_access_timeout := if a.fw_access_timeout < 1 then 30 else a.fw_access_timeout
      max_fw_timeout := if a.max_fw_timeout < 1 then 300 else a.max_fw_timeout
      encryption_mode := if a.encryption_mode = 0 then 2 else a.encryption_mode
      hmac_type := if a.hmac_type = 0 ∧ (a.hmac_key.getD []).length > 0 ∧ a.hmac_key ≠ none then 3 else a.hmac_type
      gpg_home_dir := if a.gpg_decrypt_pw ≠ none ∧ a.gpg_home_dir = none then some home else a.gpg_home_dir
      gpg_require_sig := if a.gpg_decrypt_pw ≠ none ∧ !a.gpg_disable_sig then true else a.gpg_require_sig } := by
  rcases Props.defaults_cases home a b h with ⟨hp, h⟩ | ⟨hp, hs, h⟩
  · have h1 : (if a.gpg_decrypt_pw ≠ none ∧ a.gpg_home_dir = none then some home else a.gpg_home_dir) = a.gpg_home_dir := by
      simp [hp]
    have h2 : (if a.gpg_decrypt_pw ≠ none ∧ (!a.gpg_disable_sig) = true then true else a.gpg_require_sig) =
        a.gpg_require_sig := by simp [hp]
    rw [h, h1, h2]
    rfl
  · rw [h]
    have h1 : (if a.gpg_decrypt_pw ≠ none ∧ a.gpg_home_dir = none then some home else a.gpg_home_dir) =
        if a.gpg_home_dir = none then some home else a.gpg_home_dir := by simp [hp]
    have h2 : (if a.gpg_decrypt_pw ≠ none ∧ (!a.gpg_disable_sig) = true then true else a.gpg_require_sig) =
        if (!a.gpg_require_sig) = true ∧ (!a.gpg_disable_sig) = true then true else a.gpg_require_sig := by
      cases a.gpg_require_sig <;> cases a.gpg_disable_sig <;> simp [hp]
    rw [h1, h2]
    rfl

structure FinalImage (env : AccEnv) (p : Str × List Entry) (a : Stanza) (src dst : List AddrEnt) (op rp : List PortEnt)
    (ids fprs : List Str) (u s : Option Nat) (r : Stanza) : Prop where
  raw : r = (rawOf env p.1 p.2).st
  hsrc : expand_acc_int_list p.1 = some src
  hdst : expandOpt expand_acc_int_list (lastOf [b!"DESTINATION"] p.2) [] = some dst
  hop : expandOpt expand_acc_port_list (lastOf [b!"OPEN_PORTS"] p.2) [] = some op
  hrp : expandOpt expand_acc_port_list (lastOf [b!"RESTRICT_PORTS"] p.2) [] = some rp
  hids : expandOpt (fun s => expandStr s []) (lastOf [b!"GPG_REMOTE_ID"] p.2) [] = some ids
  hfprs : expandOpt (fun s => expandStr s []) (lastOf [b!"GPG_FINGERPRINT_ID"] p.2) [] = some fprs
  both : r.cmd_cycle_open ≠ none ↔ r.cmd_cycle_close ≠ none
  eq : a = { r with
    source_list := src
    destination_list := dst
    oport_list := op
    rport_list := rp
    gpg_remote_id_list := ids
    gpg_remote_fpr_list := fprs
    key := (legacyKey r).key
    force_nat := if needsNat r then true else r.force_nat
    force_nat_ip := if needsNat r then some b!"0.0.0.0" else r.force_nat_ip
    force_nat_port := if needsNat r then 0 else r.force_nat_port
    cmd_exec_gid := gidFrom u r.cmd_exec_uid r.cmd_exec_gid
    cmd_sudo_exec_gid := gidFrom s r.cmd_sudo_exec_uid r.cmd_sudo_exec_gid
    cmd_cycle_do_close := if closeOff r then false else r.cmd_cycle_do_close
    fw_access_timeout := if r.fw_access_timeout < 1 then 30 else r.fw_access_timeout
    max_fw_timeout := if r.max_fw_timeout < 1 then 300 else r.max_fw_timeout
    encryption_mode := if r.encryption_mode = 0 then 2 else r.encryption_mode
    hmac_type := if r.hmac_type = 0 ∧ (r.hmac_key.getD []).length > 0 ∧ r.hmac_key ≠ none then 3 else r.hmac_type
    gpg_home_dir := if r.gpg_decrypt_pw ≠ none ∧ r.gpg_home_dir = none then some env.gpg_home else r.gpg_home_dir
    gpg_require_sig := if r.gpg_decrypt_pw ≠ none ∧ !r.gpg_disable_sig then true else r.gpg_require_sig }

theorem final_image {env : AccEnv} {p : Str × List Entry} {e1 e : AccEnt} (hc : Checked env p e1)
    (hf : finishEnt env.gpg_home e1 = some e) :
    ∃ src dst op rp ids fprs user sudo gid, FinalImage env p e.st src dst op rp ids fprs
      (if user = true then some gid else none) (if sudo = true then some gid else none) (rawOf env p.1 p.2).st ∧
      PwOk env p.2 user sudo gid ∧ Accepted env p.2 := by
  obtain ⟨fr, s, hv, hp, ha⟩ := hc
  unfold validEnt at hv
  cases hb : acc_data_is_valid (if fr.user then some s.gid else none) (if fr.sudo then some s.gid else none)
      (rawOf env p.1 p.2).st with
  | none => rw [hb] at hv; cases hv
  | some b =>
    rw [hb] at hv
    simp only [Option.map_some, Option.some.injEq] at hv
    subst hv
    have vi := valid_image hb
    obtain ⟨e2, hx, hd, _⟩ := finish_image hf
    obtain ⟨src, dst, op, rp, ids, fprs, h1, h2, h3, h4, h5, h6, rfl⟩ := expand_image hx
    have hd' := defaults_image hd
    have hbe := vi.eq
    subst hbe
    exact ⟨src, dst, op, rp, ids, fprs, fr.user, fr.sudo, s.gid, ⟨rfl, h1, h2, h3, h4, h5, h6, vi.both, hd'⟩, hp, ha⟩

/-! ## Values -/

theorem lastEntry_mem {ns : List Str} {es : List Entry} {e : Entry} (h : lastEntry ns es = some e) : e ∈ es ∧ e.1 ∈ ns := by
  have := List.mem_of_getLast? h
  rw [List.mem_filter] at this
  simpa using this

theorem lastOf_mem {ns : List Str} {es : List Entry} {v : Str} (h : lastOf ns es = some v) : ∃ n ∈ ns, (n, v) ∈ es := by
  rw [lastOf_eq, Option.map_eq_some_iff] at h
  obtain ⟨e, he, rfl⟩ := h
  have := lastEntry_mem he
  exact ⟨e.1, this.2, this.1⟩

theorem accepted_of {env : AccEnv} {es : List Entry} (ha : Accepted env es) {n v : Str} {o : Opt} (h : lastOf [n] es = some v)
    (ho : optOf n = some o) : ∃ x x', setOption env o v x = .ok x' := by
  obtain ⟨m, hm, he⟩ := lastOf_mem h
  rw [List.mem_singleton.1 hm] at he
  exact ha _ he o ho

theorem expandOpt_none {α : Type} {f : Str → Option (List α)} {t : Option Str} {l : List α}
    (h : expandOpt f t [] = some l) (ht : t = none) : l = [] := by
  subst ht
  simp only [expandOpt, Option.some.injEq] at h
  exact h.symm

theorem expandOpt_some {α : Type} {f : Str → Option (List α)} {t : Option Str} {l l' : List α} {v : Str}
    (h : expandOpt f t [] = some l) (ht : t = some v) (hv : v ≠ []) (hf : f v = some l') : l = l' := by
  subst ht
  simp only [expandOpt, if_neg hv, hf, Option.map_some, List.nil_append, Option.some.injEq] at h
  exact h.symm

theorem ip_chars {ip : Str} (h : ∃ x, IsAddr ip x) : ip ≠ [] ∧ ip.length ≤ 15 ∧ ∀ c ∈ ip, isSpace c = false := by
  obtain ⟨x, a, b, c, d, ha, hb, hc, hd, rfl, hl, -⟩ := h
  refine ⟨by simp, hl, ?_⟩
  have oct : ∀ t, IsOctet t → ∀ z ∈ t, isSpace z = false := by
    intro t ht z hz
    have : 48 ≤ z ∧ z ≤ 57 := by
      rcases ht.2 with h | h
      · exact h.2.1 z hz
      · have := h.2.1 z hz; omega
    simp only [isSpace, Bool.or_eq_false_iff, Bool.and_eq_false_iff, decide_eq_false_iff_not]
    omega
  intro z hz
  simp only [List.mem_append, List.mem_cons] at hz
  rcases hz with hz | rfl | hz | rfl | hz | rfl | hz
  · exact oct a ha z hz
  · decide
  · exact oct b hb z hz
  · decide
  · exact oct c hc z hz
  · decide
  · exact oct d hd z hz

theorem number_read {v : Str} {n : Nat} (h : Decimal v n) (hn : n < 2 ^ 31) (a b : Int) : (strtol_wrapper v a b).1 = n := by
  obtain ⟨h1, h2, rfl⟩ := h
  rw [number_eq] at hn ⊢
  rw [strtol_wrapper_digits v (fun c hc => (isDigitChar_iff c).1 (h2 c hc)) h1 hn]

theorem seconds_of {t : Option Str} {d lo hi : Int} (hlo : 0 ≤ lo) :
    Seconds t d (if ((t.map fun v => (strtol_wrapper v lo hi).1).getD 0) < 1 then d
      else ((t.map fun v => (strtol_wrapper v lo hi).1).getD 0)) := by
  constructor
  · intro h; subst h; rfl
  · intro v n h hd hn
    subst h
    simp only [Option.map_some, Option.getD_some]
    rw [number_read hd hn]
    split <;> split <;> omega

/-! ## Lists of texts -/

theorem expandStr_noComma (s cur : Str) (h : 44 ∉ s) : expandStr s cur = (strItem (cur ++ s)).map fun x => [x] := by
  induction s generalizing cur with
  | nil => rw [List.append_nil]; rfl
  | cons c s ih =>
    rw [expandStr, if_neg (fun e => h (by simp [e])), ih _ (fun hc => h (by simp [hc]))]
    simp

theorem expandStr_comma (s t cur : Str) (h : 44 ∉ s) :
    expandStr (s ++ 44 :: t) cur = (do
      let x ← strItem (cur ++ s)
      let rest ← expandStr t []
      return x :: rest) := by
  induction s generalizing cur with
  | nil =>
    rw [List.append_nil, List.nil_append, expandStr, if_pos rfl]
  | cons c s ih =>
    rw [List.cons_append, expandStr, if_neg (fun e => h (by simp [e])), ih _ (fun hc => h (by simp [hc]))]
    simp

theorem takeWhile_of_all {α : Type} {p : α → Bool} {l : List α} (h : ∀ c ∈ l, p c = true) : l.takeWhile p = l := by
  induction l with
  | nil => rfl
  | cons a l ih => rw [List.takeWhile_cons, if_pos (h a (by simp)), ih (fun c hc => h c (by simp [hc]))]

theorem strItem_read {ws s x : Str} (hw : ∀ c ∈ ws, IsBlank c) (hs : ¬ IsBlank (s.headD 0)) (h : strItem (ws ++ s) = some x) :
    x = s := by
  unfold strItem at h
  simp only at h
  rw [dropWhile_blank ws s (fun c hc => (isBlank_iff c).1 (hw c hc)) ?_] at h
  · split at h
    · cases h
    · injection h with h
      exact h.symm
  · intro c t e
    subst e
    rw [isBlank_iff] at hs
    simpa using hs

theorem expandStr_items (l : List (Str × Str)) (hne : l ≠ [])
    (h : ∀ i ∈ l, (∀ c ∈ i.1, IsBlank c) ∧ i.2 ≠ [] ∧ (∀ c ∈ i.2, c ≠ 44) ∧ ¬ IsBlank (i.2.headD 0)) {x : List Str}
    (hx : expandStr (commaJoin (l.map fun i => i.1 ++ i.2)) [] = some x) : x = l.map (·.2) := by
  induction l generalizing x with
  | nil => exact absurd rfl hne
  | cons i l ih =>
    obtain ⟨h1, _, h2, h3⟩ := h i (by simp)
    have hbc : (44 : Nat) ∉ i.1 ++ i.2 := by
      intro hx
      rcases List.mem_append.1 hx with hx | hx
      · have := h1 44 hx; revert this; simp [IsBlank]
      · exact h2 44 hx rfl
    by_cases he : l = []
    · subst he
      simp only [List.map_cons, List.map_nil, commaJoin] at hx
      rw [expandStr_noComma _ _ hbc, List.nil_append, Option.map_eq_some_iff] at hx
      obtain ⟨a, ha, rfl⟩ := hx
      rw [strItem_read h1 h3 ha]
      rfl
    · rw [List.map_cons, commaJoin_cons _ _ (by simpa using he), expandStr_comma _ _ _ hbc] at hx
      simp only [List.nil_append, Option.bind_eq_bind, Option.bind_eq_some_iff, Option.pure_def, Option.some.injEq] at hx
      obtain ⟨a, ha, r, hr, rfl⟩ := hx
      rw [strItem_read h1 h3 ha, ih he (fun j hj => h j (by simp [hj])) hr]
      rfl

/-! ## Numbers inside texts -/

theorem splitSign_digit {c : Nat} {t : Str} (h : isDigit c = true) : splitSign (c :: t) = (false, c :: t) := by
  simp only [isDigit, Bool.and_eq_true, decide_eq_true_eq] at h
  unfold splitSign
  split
  · simp_all
  · simp_all
  · rfl

theorem digit_not_space {c : Nat} (h : isDigit c = true) : isSpace c = false := by
  simp only [isDigit, Bool.and_eq_true, decide_eq_true_eq] at h
  simp only [isSpace, Bool.or_eq_false_iff, Bool.and_eq_false_iff, decide_eq_false_iff_not]
  omega

theorem scanD_num (w : Nat) (ws ds rest : Str) (hws : ∀ c ∈ ws, isSpace c = true) (hd : ∀ c ∈ ds, isDigit c = true)
    (hne : ds ≠ []) (hl : ds.length ≤ w) (hr : ds.length = w ∨ rest = [] ∨ isDigit (rest.headD 0) = false) :
    scanD w (ws ++ (ds ++ rest)) = some (((digitsVal 10 ds : Nat) : Int), rest) := by
  unfold scanD
  simp only
  obtain ⟨c, t, rfl⟩ : ∃ c t, ds = c :: t := by cases ds with
    | nil => exact absurd rfl hne
    | cons c t => exact ⟨c, t, rfl⟩
  rw [dropWhile_blank ws _ hws (by
    intro a b e
    simp only [List.cons_append, List.cons.injEq] at e
    rw [← e.1]
    exact digit_not_space (hd c (by simp)))]
  have htake : ((c :: t) ++ rest).take w = (c :: t) ++ rest.take (w - (c :: t).length) := by
    rw [List.take_append]
    rw [List.take_of_length_le hl]
  rw [htake]
  have hsg : splitSign (c :: t ++ rest.take (w - (c :: t).length)) = (false, c :: t ++ rest.take (w - (c :: t).length)) :=
    splitSign_digit (hd c (by simp))
  rw [hsg]
  simp only
  have htw : ((c :: t) ++ rest.take (w - (c :: t).length)).takeWhile isDigit = c :: t := by
    rcases hr with hr | hr | hr
    · rw [hr, Nat.sub_self, List.take_zero, List.append_nil, takeWhile_of_all hd]
    · rw [hr, List.take_nil, List.append_nil, takeWhile_of_all hd]
    · rw [List.takeWhile_append_of_pos hd]
      cases rest with
      | nil => simp
      | cons a b =>
        cases hk : w - (c :: t).length with
        | zero => simp
        | succ k =>
          rw [List.take_succ_cons, List.takeWhile_cons, if_neg (by simpa using hr), List.append_nil]
  rw [htw, if_neg hne]
  simp

theorem scanDate_read {m d y : Str} {mon day year : Nat} (hm : Decimal m mon) (hd : Decimal d day) (hy : Decimal y year)
    (lm : m.length ≤ 2) (ld : d.length ≤ 2) (ly : y.length = 4) :
    scanDate (m ++ 47 :: (d ++ 47 :: y)) = some ((mon : Int), (day : Int), (year : Int)) := by
  obtain ⟨m1, m2, rfl⟩ := hm
  obtain ⟨d1, d2, rfl⟩ := hd
  obtain ⟨y1, y2, rfl⟩ := hy
  have dg : ∀ {s : Str}, (∀ c ∈ s, IsDigitChar c) → ∀ c ∈ s, isDigit c = true := fun h c hc => (isDigitChar_iff c).1 (h c hc)
  unfold scanDate
  have e1 := scanD_num 2 [] m (47 :: (d ++ 47 :: y)) (by simp) (dg m2) m1 lm (.inr (.inr (by simp [isDigit])))
  have e2 := scanD_num 2 [] d (47 :: y) (by simp) (dg d2) d1 ld (.inr (.inr (by simp [isDigit])))
  have e3 := scanD_num 4 [] y [] (by simp) (dg y2) y1 (by omega) (.inr (.inl rfl))
  simp only [List.nil_append, List.append_nil] at e1 e2 e3
  simp only [e1, Option.bind_eq_bind, Option.bind_some, scanLit, if_true, e2, e3, Option.pure_def, number_eq]

theorem force_nat_read {ip gap port tail : Str} {n : Nat} (hip : ∃ x, IsAddr ip x) (hg : gap ≠ [])
    (hb : ∀ c ∈ gap, IsBlank c) (hp : Decimal port n) (hl : port.length ≤ 5) (ht : tail = [] ∨ IsBlank (tail.headD 0))
    {r : Str × Nat} (h : acc_force_nat (ip ++ (gap ++ (port ++ tail))) = some r) : r = (ip, n) := by
  obtain ⟨i1, i2, i3⟩ := ip_chars hip
  obtain ⟨p1, p2, rfl⟩ := hp
  have hb' : ∀ c ∈ gap, isSpace c = true := fun c hc => (isBlank_iff c).1 (hb c hc)
  unfold acc_force_nat at h
  have hs : scanStr 15 (ip ++ (gap ++ (port ++ tail))) = some (ip, gap ++ (port ++ tail)) := by
    unfold scanStr
    simp only
    have e1 : (ip ++ (gap ++ (port ++ tail))).dropWhile isSpace = ip ++ (gap ++ (port ++ tail)) := by
      have := dropWhile_blank [] (ip ++ (gap ++ (port ++ tail))) (by simp) (by
        intro c t e
        cases ip with
        | nil => exact absurd rfl i1
        | cons a b =>
          simp only [List.cons_append, List.cons.injEq] at e
          rw [← e.1]
          exact i3 a (by simp))
      simpa using this
    have e2 : (ip ++ (gap ++ (port ++ tail))).takeWhile (fun c => !isSpace c) = ip := by
      rw [List.takeWhile_append_of_pos (fun c hc => by simp [i3 c hc])]
      cases gap with
      | nil => exact absurd rfl hg
      | cons a b =>
        rw [List.cons_append, List.takeWhile_cons, if_neg (by simp [hb' a (by simp)]), List.append_nil]
    rw [e1, e2, List.take_of_length_le i2, if_neg i1]
    simp
  have hn := scanD_num 5 gap port tail hb' (fun c hc => (isDigitChar_iff c).1 (p2 c hc)) p1 hl (.inr (by
    rcases ht with h | h
    · exact .inl h
    · right
      simp only [IsBlank] at h
      simp only [isDigit, Bool.and_eq_false_iff, decide_eq_false_iff_not]
      omega))
  rw [hs] at h
  simp only at h
  rw [hn] at h
  simp only at h
  have hsmall : digitsVal 10 port < 2 ^ 32 := by
    have := digitsVal_lt port (fun c hc => (isDigitChar_iff c).1 (p2 c hc))
    have h5 : 10 ^ port.length ≤ 10 ^ 5 := Nat.pow_le_pow_right (by omega) hl
    omega
  have hmod : (((digitsVal 10 port : Nat) : Int) % 2 ^ 32).toNat = digitsVal 10 port := by omega
  rw [hmod] at h
  split at h
  · cases h
  · split at h
    · injection h with h
      rw [← h, number_eq]
    · cases h

theorem force_snat_read {ip r : Str} (hip : ∃ x, IsAddr ip x) (h : acc_force_snat ip = some r) : r = ip := by
  obtain ⟨i1, i2, i3⟩ := ip_chars hip
  unfold acc_force_snat at h
  have hs : scanStr 15 ip = some (ip, []) := by
    unfold scanStr
    simp only
    have e1 : ip.dropWhile isSpace = ip := by
      have := dropWhile_blank [] ip (by simp) (by
        intro c t e
        exact i3 c (by rw [e]; simp))
      simpa using this
    have e2 : ip.takeWhile (fun c => !isSpace c) = ip := by
      apply takeWhile_of_all
      intro c hc
      simp [i3 c hc]
    rw [e1, e2, List.take_of_length_le i2, if_neg i1]
    simp
  rw [hs] at h
  simp only at h
  split at h
  · injection h with h
    exact h.symm
  · cases h

theorem epoch_read {v : Str} {n : Nat} (h : Decimal v n) (hn : n < 2 ^ 63) : acc_expire_epoch v = some (n : Int) := by
  obtain ⟨h1, h2, rfl⟩ := h
  have hd : ∀ c ∈ v, isDigit c = true := fun c hc => (isDigitChar_iff c).1 (h2 c hc)
  obtain ⟨c, t, rfl⟩ : ∃ c t, v = c :: t := by cases v with
    | nil => exact absurd rfl h1
    | cons c t => exact ⟨c, t, rfl⟩
  unfold acc_expire_epoch
  have e1 : (c :: t).dropWhile isSpace = c :: t := by
    rw [List.dropWhile_cons, if_neg (by simp [digit_not_space (hd c (by simp))])]
  rw [number_eq] at hn ⊢
  simp only [e1, splitSign_digit (hd c (by simp)), takeWhile_of_all hd]
  rw [if_neg (by omega)]
  simp only [Bool.false_eq_true, if_false, Option.some.injEq]
  omega

/-! ## The stanza in effect -/

theorem hmac_name {n : Str} {k : Int} (h : (n, k) ∈ hmacNames) {v : Str} (hv : v.map lower = n.map lower) :
    digest_strtoint v = k ∧ k ≠ 0 := by
  have hc : ∀ w : Str, strcaseeq v w = strcaseeq n w := by
    intro w
    rw [Bool.eq_iff_iff, strcaseeq_iff, strcaseeq_iff, ← lower_eq, hv]
  unfold digest_strtoint
  simp only [hc]
  simp only [hmacNames, List.mem_cons, Prod.mk.injEq, List.not_mem_nil, or_false] at h
  rcases h with ⟨rfl, rfl⟩ | ⟨rfl, rfl⟩ | ⟨rfl, rfl⟩ | ⟨rfl, rfl⟩ | ⟨rfl, rfl⟩ | ⟨rfl, rfl⟩ | ⟨rfl, rfl⟩ <;> decide

theorem mode_name {n : Str} {k : Int} (h : (n, k) ∈ modeNames) {v : Str} (hv : v.map lower = n.map lower) :
    enc_mode_strtoint v = k ∧ k ≠ 0 := by
  have hc : ∀ w : Str, strcaseeq v w = strcaseeq n w := by
    intro w
    rw [Bool.eq_iff_iff, strcaseeq_iff, strcaseeq_iff, ← lower_eq, hv]
  unfold enc_mode_strtoint
  simp only [hc]
  simp only [modeNames, List.mem_cons, Prod.mk.injEq, List.not_mem_nil, or_false] at h
  rcases h with ⟨rfl, rfl⟩ | ⟨rfl, rfl⟩ | ⟨rfl, rfl⟩ | ⟨rfl, rfl⟩ | ⟨rfl, rfl⟩ | ⟨rfl, rfl⟩ | ⟨rfl, rfl⟩ <;> decide

theorem passwd_user {env : AccEnv} {es : List Entry} (ha : Accepted env es) {v : Str}
    (h : lastOf [b!"CMD_EXEC_USER"] es = some v) : ∃ u, env.passwd v = some u := by
  obtain ⟨x, x', hs⟩ := accepted_of ha h (o := .cmd_exec_user) (by decide)
  unfold setOption at hs
  obtain ⟨u, hu, -⟩ := bind_ok_inv (ite_ok hs).2
  exact ⟨u, orFail_ok hu⟩

theorem passwd_sudo {env : AccEnv} {es : List Entry} (ha : Accepted env es) {v : Str}
    (h : lastOf [b!"CMD_SUDO_EXEC_USER"] es = some v) : ∃ u, env.passwd v = some u := by
  obtain ⟨x, x', hs⟩ := accepted_of ha h (o := .cmd_sudo_exec_user) (by decide)
  unfold setOption at hs
  obtain ⟨u, hu, -⟩ := bind_ok_inv (ite_ok hs).2
  exact ⟨u, orFail_ok hu⟩

theorem nat_accepted {env : AccEnv} {es : List Entry} (ha : Accepted env es) {v : Str}
    (h : lastOf [b!"FORCE_NAT"] es = some v) : ∃ u, acc_force_nat v = some u := by
  obtain ⟨x, x', hs⟩ := accepted_of ha h (o := .force_nat) (by decide)
  unfold setOption at hs
  obtain ⟨_, _, hs⟩ := bind_ok_inv (ite_ok hs).2
  obtain ⟨u, hu, -⟩ := bind_ok_inv hs
  exact ⟨u, orFail_ok hu⟩

theorem snat_accepted {env : AccEnv} {es : List Entry} (ha : Accepted env es) {v : Str}
    (h : lastOf [b!"FORCE_SNAT"] es = some v) : ∃ u, acc_force_snat v = some u := by
  obtain ⟨x, x', hs⟩ := accepted_of ha h (o := .force_snat) (by decide)
  unfold setOption at hs
  obtain ⟨_, _, hs⟩ := bind_ok_inv (ite_ok hs).2
  obtain ⟨u, hu, -⟩ := bind_ok_inv hs
  exact ⟨u, orFail_ok hu⟩

theorem timer_accepted {env : AccEnv} {es : List Entry} (ha : Accepted env es) {v : Str}
    (h : lastOf [b!"CMD_CYCLE_TIMER"] es = some v) :
    1 ≤ (strtol_wrapper v RCHK_MIN_CMD_CYCLE_TIMER RCHK_MAX_CMD_CYCLE_TIMER).1 := by
  obtain ⟨x, x', hs⟩ := accepted_of ha h (o := .cmd_cycle_timer) (by decide)
  unfold setOption at hs
  obtain ⟨n, hn, -⟩ := bind_ok_inv (ite_ok hs).2
  have hn := accNum_ok hn
  have := (strtol_wrapper_range v _ _ n hn).1
  rw [hn]
  simp only [RCHK_MIN_CMD_CYCLE_TIMER] at this ⊢
  omega

theorem prefix_take (p s : Str) : hasPrefix p s = true ↔ s.take p.length = p := by
  unfold hasPrefix
  rw [List.isPrefixOf_iff_prefix, List.prefix_iff_eq_take]
  exact eq_comm

theorem key_cut (r : Stanza) (hr : r.use_rijndael = true ↔ r.key ≠ none) :
    (legacyKey r).key = r.key.map fun k => if r.encryption_mode = 8 then k.take 16 else k := by
  unfold legacyKey
  cases hk : r.key with
  | none => simp [hk]
  | some k =>
    have hu : r.use_rijndael = true := hr.2 (by simp [hk])
    simp only
    by_cases h8 : r.encryption_mode = 8
    · by_cases hl : k.length > 16
      · rw [if_pos ⟨hu, h8, hl⟩]
        simp [h8]
      · rw [if_neg (fun h => hl h.2.2)]
        simp [hk, h8, List.take_of_length_le (Nat.le_of_not_gt hl)]
    · rw [if_neg (fun h => h8 h.2.1)]
      simp [hk, h8]

theorem keyOf_isSome {env : AccEnv} {es : List Entry} (ha : Accepted env es) :
    keyOf b!"KEY" b!"KEY_BASE64" es ≠ none ↔ lastEntry [b!"KEY", b!"KEY_BASE64"] es ≠ none := by
  unfold keyOf
  cases h : lastEntry [b!"KEY", b!"KEY_BASE64"] es with
  | none => simp
  | some e =>
    obtain ⟨n, v⟩ := e
    simp only [ne_eq, reduceCtorEq, not_false_eq_true, iff_true]
    split
    · simp
    · rename_i hn
      obtain ⟨h1, h2⟩ := lastEntry_mem h
      simp only [List.mem_cons, List.not_mem_nil, or_false] at h2
      rcases h2 with h2 | h2
      · exact absurd h2 hn
      · subst h2
        obtain ⟨x, x', hs⟩ := ha _ h1 .key_base64 (by show optOf b!"KEY_BASE64" = _; decide)
        unfold setOption at hs
        obtain ⟨u, hu, -⟩ := bind_ok_inv (ite_ok hs).2
        rw [accB64_ok hu]
        simp

theorem expand_ids {t : Option Str} {x : List Str} (h : expandOpt (fun s => expandStr s []) t [] = some x) {v : Str}
    {l : List (Str × Str)} (ht : t = some v) (hne : l ≠ []) (hj : v = commaJoin (l.map fun i => i.1 ++ i.2))
    (hl : ∀ i ∈ l, (∀ c ∈ i.1, IsBlank c) ∧ i.2 ≠ [] ∧ (∀ c ∈ i.2, c ≠ 44) ∧ ¬ IsBlank (i.2.headD 0)) : x = l.map (·.2) := by
  subst ht
  have hv : v ≠ [] := by
    obtain ⟨i, r, rfl⟩ : ∃ i r, l = i :: r := by cases l with
      | nil => exact absurd rfl hne
      | cons i r => exact ⟨i, r, rfl⟩
    rw [hj]
    have hi := (hl i (by simp)).2.1
    cases r with
    | nil => simp [commaJoin, hi]
    | cons j r => simp [commaJoin]
  simp only [expandOpt, if_neg hv, List.nil_append] at h
  rw [hj] at h
  have h' : expandStr (commaJoin (l.map fun i => i.1 ++ i.2)) [] = some x := by
    cases he : expandStr (commaJoin (l.map fun i => i.1 ++ i.2)) [] with
    | none => rw [he] at h; cases h
    | some y => rw [he] at h; simpa using h
  exact expandStr_items l hne hl h'

theorem configured {env : AccEnv} {p : Str × List Entry} {e1 e : AccEnt} (hc : Checked env p e1)
    (hf : finishEnt env.gpg_home e1 = some e) : Configured env p.1 p.2 e.st := by
  obtain ⟨src, dst, op, rp, ids, fprs, user, sudo, gid, hi, hp, ha⟩ := final_image hc hf
  obtain ⟨-, hsrc, hdst, hop, hrp, hids, hfprs, both, heq⟩ := hi
  generalize e.st = a at heq
  subst heq
  have hkey := keyOf_isSome ha
  have i0 : expand_acc_int_list [] = none := by decide
  have p0 : expand_acc_port_list [] = none := by decide
  constructor
  case source =>
    intro A hA x hx
    obtain ⟨l, h1, h2⟩ := networks_expand hA
    rw [hsrc] at h1
    injection h1 with h1
    subst h1
    exact h2 x hx
  case destination => rfl
  case no_destination => exact expandOpt_none hdst
  case destinations =>
    intro v A hv hA x hx
    obtain ⟨l, h1, h2⟩ := networks_expand hA
    have : v ≠ [] := fun h => by rw [h, i0] at h1; cases h1
    rw [expandOpt_some hdst hv this h1]
    exact h2 x hx
  case no_open => exact expandOpt_none hop
  case open_ports =>
    intro v ps hv hA
    have h1 := protoPorts_expand hA
    have : v ≠ [] := fun h => by rw [h, p0] at h1; cases h1
    exact expandOpt_some hop hv this h1
  case no_restrict => exact expandOpt_none hrp
  case restrict_ports =>
    intro v ps hv hA
    have h1 := protoPorts_expand hA
    have : v ≠ [] := fun h => by rw [h, p0] at h1; cases h1
    exact expandOpt_some hrp hv this h1
  case key =>
    have hk := key_cut (rawOf env p.1 p.2).st (by
      show (lastEntry [b!"KEY", b!"KEY_BASE64"] p.2).isSome = true ↔ keyOf b!"KEY" b!"KEY_BASE64" p.2 ≠ none
      rw [hkey, Option.isSome_iff_ne_none])
    simp only
    rw [hk]
    have hm : ∀ m : Int, ((if m = 0 then 2 else m) = 8) ↔ m = 8 := by intro m; split <;> omega
    simp only [hm]
    rfl
  case rijndael =>
    show (lastEntry [b!"KEY", b!"KEY_BASE64"] p.2).isSome = true ↔ _
    rw [lastOf_eq, Option.isSome_iff_ne_none, ne_eq, ne_eq, Option.map_eq_none_iff]
  case hmac_key => rfl
  case hmac_default =>
    intro h k hk hne
    have h0 : (rawOf env p.1 p.2).st.hmac_type = 0 := by
      show ((lastOf [b!"HMAC_DIGEST_TYPE"] p.2).map digest_strtoint).getD 0 = 0
      rw [h]; rfl
    simp only at hk ⊢
    rw [if_pos]
    refine ⟨h0, ?_, by rw [hk]; simp⟩
    rw [hk]
    exact List.length_pos_iff.2 hne
  case hmac_type =>
    intro n k hnk v hv hvn
    obtain ⟨h1, h2⟩ := hmac_name hnk hvn
    have h0 : (rawOf env p.1 p.2).st.hmac_type = k := by
      show ((lastOf [b!"HMAC_DIGEST_TYPE"] p.2).map digest_strtoint).getD 0 = k
      rw [hv]; exact h1
    simp only
    rw [if_neg (by rw [h0]; exact fun h => h2 h.1), h0]
  case mode_default =>
    intro h
    have h0 : (rawOf env p.1 p.2).st.encryption_mode = 0 := by
      show ((lastOf [b!"ENCRYPTION_MODE"] p.2).map enc_mode_strtoint).getD 0 = 0
      rw [h]; rfl
    simp only
    rw [if_pos h0]
  case mode =>
    intro n k hnk v hv hvn
    obtain ⟨h1, h2⟩ := mode_name hnk hvn
    have h0 : (rawOf env p.1 p.2).st.encryption_mode = k := by
      show ((lastOf [b!"ENCRYPTION_MODE"] p.2).map enc_mode_strtoint).getD 0 = k
      rw [hv]; exact h1
    simp only
    rw [if_neg (by rw [h0]; exact h2), h0]
  case timeout => exact seconds_of (by decide)
  case max_timeout => exact seconds_of (by decide)
  case cmd_exec => rfl
  case cmd_sudo_exec => rfl
  case cmd_exec_user => rfl
  case cmd_exec_uid =>
    intro v hv
    have hv' : lastOf [b!"CMD_EXEC_USER"] p.2 = some v := hv
    obtain ⟨u, hu⟩ := passwd_user ha hv'
    refine ⟨u.2, ?_⟩
    have h0 : (rawOf env p.1 p.2).st.cmd_exec_uid = u.1 := by
      show (((lastOf [b!"CMD_EXEC_USER"] p.2).bind env.passwd).map (·.1)).getD 0 = u.1
      rw [hv', Option.bind_some, hu]; rfl
    simp only
    rw [h0, hu]
  case cmd_exec_root =>
    intro hv
    have hv' : lastOf [b!"CMD_EXEC_USER"] p.2 = none := hv
    show (((lastOf [b!"CMD_EXEC_USER"] p.2).bind env.passwd).map (·.1)).getD 0 = 0
    rw [hv']; rfl
  case cmd_sudo_exec_user => rfl
  case cmd_sudo_exec_uid =>
    intro v hv
    have hv' : lastOf [b!"CMD_SUDO_EXEC_USER"] p.2 = some v := hv
    obtain ⟨u, hu⟩ := passwd_sudo ha hv'
    refine ⟨u.2, ?_⟩
    have h0 : (rawOf env p.1 p.2).st.cmd_sudo_exec_uid = u.1 := by
      show (((lastOf [b!"CMD_SUDO_EXEC_USER"] p.2).bind env.passwd).map (·.1)).getD 0 = u.1
      rw [hv', Option.bind_some, hu]; rfl
    simp only
    rw [h0, hu]
  case cmd_sudo_exec_group => rfl
  case cmd_exec_group => rfl
  case cycle_open => rfl
  case cycle_close => rfl
  case cycle_runs =>
    have both' : lastOf [b!"CMD_CYCLE_OPEN"] p.2 ≠ none ↔ lastOf [b!"CMD_CYCLE_CLOSE"] p.2 ≠ none := both
    show (if closeOff (rawOf env p.1 p.2).st = true then false else (lastOf [b!"CMD_CYCLE_OPEN"] p.2).isSome) = true ↔ _
    cases ho : lastOf [b!"CMD_CYCLE_OPEN"] p.2 with
    | none => simp
    | some o =>
      cases hcl : lastOf [b!"CMD_CYCLE_CLOSE"] p.2 with
      | none => exact absurd hcl (both'.1 (by rw [ho]; simp))
      | some c =>
        have hoff : closeOff (rawOf env p.1 p.2).st = hasPrefix b!"NONE" c := by
          have h1 : (rawOf env p.1 p.2).st.cmd_cycle_open = some o := ho
          have h2 : (rawOf env p.1 p.2).st.cmd_cycle_close = some c := hcl
          simp [closeOff, h1, h2]
        rw [hoff]
        have hpt := prefix_take b!"NONE" c
        simp only [List.length_cons, List.length_nil, Nat.zero_add, Nat.reduceAdd] at hpt
        by_cases hpre : hasPrefix b!"NONE" c = true
        · simp [hpre, hpt.1 hpre]
        · simp only [hpre]
          simp
          exact fun h => hpre (hpt.2 h)
  case cycle_timer =>
    show Seconds (lastOf [b!"CMD_CYCLE_TIMER"] p.2) 0 (((lastOf [b!"CMD_CYCLE_TIMER"] p.2).map fun v =>
        (strtol_wrapper v RCHK_MIN_CMD_CYCLE_TIMER RCHK_MAX_CMD_CYCLE_TIMER).1).getD 0)
    constructor
    · intro h; rw [h]; rfl
    · intro v n h hd hn
      rw [h]
      simp only [Option.map_some, Option.getD_some]
      rw [number_read hd hn]
      split <;> omega
  case username => rfl
  case require_source => rfl
  case gpg_pw => rfl
  case gpg =>
    show (gpgPw p.2).isSome = true ↔ _
    rw [Option.isSome_iff_ne_none]
  case gpg_no_pw => rfl
  case gpg_id => rfl
  case gpg_home =>
    intro v hv
    have h0 : (rawOf env p.1 p.2).st.gpg_home_dir = some v := hv
    simp only
    rw [if_neg (by rw [h0]; simp), h0]
  case gpg_home_default =>
    intro hpw hv
    simp only
    rw [if_pos ⟨hpw, hv⟩]
  case gpg_exe => rfl
  case gpg_disable => rfl
  case gpg_require =>
    intro hpw
    have hpw' : (rawOf env p.1 p.2).st.gpg_decrypt_pw ≠ none := hpw
    show (if (rawOf env p.1 p.2).st.gpg_decrypt_pw ≠ none ∧ (!yes (lastOf [b!"GPG_DISABLE_SIG"] p.2)) = true then true
      else yes (lastOf [b!"GPG_REQUIRE_SIG"] p.2)) = true ↔ yes (lastOf [b!"GPG_DISABLE_SIG"] p.2) = false ∨ _
    cases yes (lastOf [b!"GPG_DISABLE_SIG"] p.2) <;> simp [hpw']
  case gpg_ignore => rfl
  case no_ids => exact expandOpt_none hids
  case ids =>
    exact fun v l hv hne hj hl => expand_ids hids hv hne hj hl
  case no_fprs => exact expandOpt_none hfprs
  case fprs =>
    exact fun v l hv hne hj hl => expand_ids hfprs hv hne hj hl
  case never_expires =>
    intro h
    show (match lastEntry [b!"ACCESS_EXPIRE", b!"ACCESS_EXPIRE_EPOCH"] p.2 with
        | none => 0
        | some e => if e.1 = b!"ACCESS_EXPIRE" then (acc_expire_time env.mktime e.2).getD 0 else (acc_expire_epoch e.2).getD 0) = (0 : Int)
    rw [h]
  case expire_epoch =>
    intro v n h hd hn
    show (match lastEntry [b!"ACCESS_EXPIRE", b!"ACCESS_EXPIRE_EPOCH"] p.2 with
        | none => 0
        | some e => if e.1 = b!"ACCESS_EXPIRE" then (acc_expire_time env.mktime e.2).getD 0 else (acc_expire_epoch e.2).getD 0) = (n : Int)
    rw [h]
    simp only
    rw [if_neg (by decide), epoch_read hd hn]
    rfl
  case expire_date =>
    intro m d y mon day year h hm hd hy lm ld ly h1 hyr
    show (match lastEntry [b!"ACCESS_EXPIRE", b!"ACCESS_EXPIRE_EPOCH"] p.2 with
        | none => 0
        | some e => if e.1 = b!"ACCESS_EXPIRE" then (acc_expire_time env.mktime e.2).getD 0 else (acc_expire_epoch e.2).getD 0) = _
    rw [h]
    simp only
    unfold acc_expire_time
    rw [scanDate_read hm hd hy lm ld ly]
    simp only
    rw [if_pos trivial, if_pos (by omega), if_pos (by omega)]
    rfl
  case nat =>
    intro v hv ip gap port n tail hve hip hg hb hpd hl ht
    obtain ⟨r, hr⟩ := nat_accepted ha hv
    have hre := force_nat_read hip hg hb hpd hl ht (by rw [← hve]; exact hr)
    subst hre
    have hn : needsNat (rawOf env p.1 p.2).st = false := by
      have : (rawOf env p.1 p.2).st.force_nat = true := by
        show (lastOf [b!"FORCE_NAT"] p.2).isSome = true
        rw [hv]; rfl
      simp [needsNat, this]
    refine ⟨?_, ?_, ?_⟩
    · simp only [hn]
      show (lastOf [b!"FORCE_NAT"] p.2).isSome = true
      rw [hv]; rfl
    · simp only [hn]
      show ((lastOf [b!"FORCE_NAT"] p.2).bind acc_force_nat).map (·.1) = some ip
      rw [hv, Option.bind_some, hr]; rfl
    · simp only [hn]
      show (((lastOf [b!"FORCE_NAT"] p.2).bind acc_force_nat).map (·.2)).getD 0 = n
      rw [hv, Option.bind_some, hr]; rfl
  case no_nat =>
    intro h1 h2 h3
    have hn : needsNat (rawOf env p.1 p.2).st = false := by
      have e1 : (rawOf env p.1 p.2).st.force_snat = false := h2
      have e2 : (rawOf env p.1 p.2).st.force_masquerade = false := h3
      simp [needsNat, e1, e2]
    simp only [hn]
    show (lastOf [b!"FORCE_NAT"] p.2).isSome = false
    rw [h1]; rfl
  case snat => rfl
  case snat_ip =>
    intro v hv hip
    obtain ⟨r, hr⟩ := snat_accepted ha hv
    show (lastOf [b!"FORCE_SNAT"] p.2).bind acc_force_snat = some v
    rw [hv, Option.bind_some, hr, force_snat_read hip hr]
  case no_snat_ip =>
    intro hv
    show (lastOf [b!"FORCE_SNAT"] p.2).bind acc_force_snat = none
    rw [hv]; rfl
  case masquerade => rfl
  case dnat => rfl
  case forward => rfl

end Fwknop
