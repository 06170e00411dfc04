import Verif.Lemmas.AccessConf
import Verif.Lemmas.AccessIncl
import Verif.Spec.AccessAccept
import Verif.Props.Base64

/-! A file that is written as the manual says is accepted. -/

namespace Fwknop

open Spec

/-! ## Values -/

theorem accB64_go {v : Str} (h : KeyText v) : Base64.is_base64 v = true ∧ strcaseeq v CHANGEME = false ∧ ∃ k, accB64 v = .ok k := by
  obtain ⟨key, hk, rfl⟩ := h
  have hd : Base64.b64_decode (b64 key) = some key := by
    rw [← Base64.b64_encode_eq key hk]
    exact Props.C01_base64_roundtrip key hk
  have hc : ∀ c ∈ b64 key, IsB64Char c ∨ c = 61 := by
    intro c hc
    rw [Base64.b64_eq_noPad] at hc
    rcases List.mem_append.1 hc with hc | hc
    · exact .inl (Base64.b64NoPad_chars key hk c hc)
    · exact .inr (List.eq_of_mem_replicate hc)
  refine ⟨?_, ?_, key, ?_⟩
  · unfold Base64.is_base64
    rw [List.all_eq_true]
    intro c h
    have := hc c h
    simp only [IsB64Char] at this
    simp only [Base64.isB64Char, Bool.or_eq_true, Bool.and_eq_true, decide_eq_true_eq]
    omega
  · rw [← Bool.not_eq_true, strcaseeq_iff]
    intro he
    have hm : (95 : Nat) ∈ (b64 key).map toLower := by rw [he]; decide
    obtain ⟨c, h, hl⟩ := List.mem_map.1 hm
    have := hc c h
    simp only [IsB64Char] at this
    unfold toLower at hl
    split at hl <;> simp_all <;> omega
  · unfold accB64
    have := Base64.decodeLoop_length (b64 key) 0 0 key hd
    rw [hd]
    simp only [orFail, Res.bind_ok]
    rw [Res.mem, if_neg (by simp; omega)]
    rfl

theorem accNum_go {v : Str} {lo hi : Nat} (h : NumberIn lo hi v) (hh : hi < 2 ^ 31) : ∃ n, accNum v lo hi = .ok n := by
  obtain ⟨n, ⟨h1, h2, rfl⟩, h3, h4⟩ := h
  rw [number_eq] at h3 h4
  refine ⟨((digitsVal 10 v : Nat) : Int), ?_⟩
  unfold accNum
  simp only
  rw [strtol_wrapper_digits v (fun c hc => (isDigitChar_iff c).1 (h2 c hc)) h1 (by omega)]
  simp only
  rw [if_pos (by simp; omega)]

theorem addr_valid {ip : Str} (h : ∃ x, IsAddr ip x) : is_valid_ipv4_addr ip ip.length = true := by
  obtain ⟨x, hx⟩ := h
  exact (valid_ipv4_iff ip (addr_len hx).2).2 (addr_ipv4 hx)

theorem force_nat_go {v : Str} (h : AddrPort v) : ∃ r, acc_force_nat v = some r := by
  obtain ⟨ip, gap, port, n, rfl, hip, hg, hb, hp, hl, hn⟩ := h
  have hv := addr_valid hip
  obtain ⟨i1, i2, i3⟩ := ip_chars hip
  obtain ⟨p1, p2, rfl⟩ := hp
  have hb' : ∀ c ∈ gap, isSpace c = true := fun c hc => (isBlank_iff c).1 (hb c hc)
  have hs : scanStr 15 (ip ++ (gap ++ port)) = some (ip, gap ++ port) := by
    unfold scanStr
    simp only
    have e1 : (ip ++ (gap ++ port)).dropWhile isSpace = ip ++ (gap ++ port) := by
      have := dropWhile_blank [] (ip ++ (gap ++ port)) (by simp) (by
        intro c t e
        cases ip with
        | nil => exact absurd rfl i1
        | cons a b =>
          simp only [List.cons_append, List.cons.injEq] at e
          rw [← e.1]
          exact i3 a (by simp))
      simpa using this
    have e2 : (ip ++ (gap ++ port)).takeWhile (fun c => !isSpace c) = ip := by
      rw [List.takeWhile_append_of_pos (fun c hc => by simp [i3 c hc])]
      cases gap with
      | nil => exact absurd rfl hg
      | cons a b =>
        rw [List.cons_append, List.takeWhile_cons, if_neg (by simp [hb' a (by simp)]), List.append_nil]
    rw [e1, e2, List.take_of_length_le i2, if_neg i1]
    simp
  have hd := scanD_num 5 gap port [] hb' (fun c hc => (isDigitChar_iff c).1 (p2 c hc)) p1 hl (.inr (.inl rfl))
  rw [List.append_nil] at hd
  rw [number_eq] at hn
  unfold acc_force_nat
  rw [hs]
  simp only
  rw [hd]
  simp only
  have hmod : (((digitsVal 10 port : Nat) : Int) % 2 ^ 32).toNat = digitsVal 10 port := by omega
  rw [hmod, if_neg (by simp only [MAX_PORT]; omega), if_pos hv]
  exact ⟨_, rfl⟩

theorem force_snat_go {v : Str} (h : ∃ x, IsAddr v x) : ∃ r, acc_force_snat v = some r := by
  have hv := addr_valid h
  obtain ⟨i1, i2, i3⟩ := ip_chars h
  have hs : scanStr 15 v = some (v, []) := by
    unfold scanStr
    simp only
    have e1 : v.dropWhile isSpace = v := by
      have := dropWhile_blank [] v (by simp) (by
        intro c t e
        exact i3 c (by rw [e]; simp))
      simpa using this
    have e2 : v.takeWhile (fun c => !isSpace c) = v := by
      apply takeWhile_of_all
      intro c hc
      simp [i3 c hc]
    rw [e1, e2, List.take_of_length_le i2, if_neg i1]
    simp
  unfold acc_force_snat
  rw [hs]
  simp only
  rw [if_pos hv]
  exact ⟨_, rfl⟩

theorem guard_go {α : Type} {c : Bool} (h : c = true) (f : Unit → Res α) : (Res.guard (!c) >>= f) = f () := by
  subst h
  rfl

theorem accName_go {n : Int} (h : 0 ≤ n) : accName n = .ok n := by
  unfold accName
  rw [if_neg (by omega)]

theorem hmac_positive {n : Str} {k : Int} (h : (n, k) ∈ hmacNames) : 0 ≤ k := by
  simp only [hmacNames, List.mem_cons, Prod.mk.injEq, List.not_mem_nil, or_false] at h
  omega

theorem mode_positive {n : Str} {k : Int} (h : (n, k) ∈ modeNames) : 0 ≤ k := by
  simp only [modeNames, List.mem_cons, Prod.mk.injEq, List.not_mem_nil, or_false] at h
  omega

theorem date_go {v : Str} (h : Date v) (mk : Int → Int → Int → Int) : ∃ t, acc_expire_time mk v = some t := by
  obtain ⟨m, d, y, mon, day, year, rfl, h1, h2, h3, h4, h5, h6⟩ := h
  unfold acc_expire_time
  rw [scanDate_read h1 h2 h3 h4 h5 h6]
  exact ⟨_, rfl⟩

theorem good_set {env : AccEnv} {n v : Str} {o : Opt} (hn : optOf n = some o) (h : GoodValue env n v) (x : Pw × AccEnt) :
    ∃ x', setOption env o v x = .ok x' := by
  have hm := optOf_cases hn
  simp only [optNames, List.mem_cons, List.not_mem_nil, or_false, Prod.mk.injEq] at hm
  have hch : ¬ Placeholder v → strcaseeq v CHANGEME = false := by
    intro hp
    rw [← Bool.not_eq_true, strcaseeq_iff]
    intro he
    apply hp
    unfold Placeholder
    rw [lower_eq, he]
    decide
  have hpw : n ∈ [b!"CMD_SUDO_EXEC_USER", b!"CMD_SUDO_EXEC_GROUP", b!"CMD_EXEC_USER", b!"CMD_EXEC_GROUP"] → ∃ u, env.passwd v = some u := by
    intro hin
    have := h.user hin
    cases hp : env.passwd v with
    | none => exact absurd hp this
    | some u => exact ⟨u, rfl⟩
  have hkr : ∀ {o'}, o = o' → keyRefused o' v = false := by
    intro o' he
    subst he
    unfold keyRefused
    split
    · exact hch (h.key (by revert hm; simp; intro he; simp [he]))
    · exact hch (h.key (by revert hm; simp; intro he; simp [he]))
    · exact hch (h.key (by revert hm; simp; intro he; simp [he]))
    · obtain ⟨h1, h2, -⟩ := accB64_go (h.base64 (by revert hm; simp; intro he; simp [he]))
      rw [h1, h2]; rfl
    · obtain ⟨h1, h2, -⟩ := accB64_go (h.base64 (by revert hm; simp; intro he; simp [he]))
      rw [h1, h2]; rfl
    · rfl
  rcases hm with ⟨rfl, rfl⟩ | ⟨rfl, rfl⟩ | ⟨rfl, rfl⟩ | ⟨rfl, rfl⟩ | ⟨rfl, rfl⟩ | ⟨rfl, rfl⟩ | ⟨rfl, rfl⟩ | ⟨rfl, rfl⟩ | ⟨rfl, rfl⟩ |
    ⟨rfl, rfl⟩ | ⟨rfl, rfl⟩ | ⟨rfl, rfl⟩ | ⟨rfl, rfl⟩ | ⟨rfl, rfl⟩ | ⟨rfl, rfl⟩ | ⟨rfl, rfl⟩ | ⟨rfl, rfl⟩ | ⟨rfl, rfl⟩ |
    ⟨rfl, rfl⟩ | ⟨rfl, rfl⟩ | ⟨rfl, rfl⟩ | ⟨rfl, rfl⟩ | ⟨rfl, rfl⟩ | ⟨rfl, rfl⟩ | ⟨rfl, rfl⟩ | ⟨rfl, rfl⟩ | ⟨rfl, rfl⟩ |
    ⟨rfl, rfl⟩ | ⟨rfl, rfl⟩ | ⟨rfl, rfl⟩ | ⟨rfl, rfl⟩ | ⟨rfl, rfl⟩ | ⟨rfl, rfl⟩ | ⟨rfl, rfl⟩ | ⟨rfl, rfl⟩ | ⟨rfl, rfl⟩ |
    ⟨rfl, rfl⟩ | ⟨rfl, rfl⟩ | ⟨rfl, rfl⟩ | ⟨rfl, rfl⟩
  all_goals have hr := hkr rfl
  all_goals unfold setOption
  all_goals rw [if_neg (by rw [hr]; decide)]
  all_goals simp only
  all_goals try exact ⟨_, rfl⟩
  -- KEY_BASE64
  · obtain ⟨h1, h2, k, h3⟩ := accB64_go (h.base64 (by simp))
    rw [h3]; exact ⟨_, rfl⟩
  -- HMAC_DIGEST_TYPE
  · obtain ⟨m, k, h1, h2⟩ := h.hmac rfl
    rw [(hmac_name h1 h2).1, accName_go (hmac_positive h1)]; exact ⟨_, rfl⟩
  -- HMAC_KEY_BASE64
  · obtain ⟨h1, h2, k, h3⟩ := accB64_go (h.base64 (by simp))
    rw [h3]; exact ⟨_, rfl⟩
  -- the timeouts
  · obtain ⟨m, h1⟩ := accNum_go (h.timeout (by simp)) (by decide)
    have h1' : accNum v 0 RCHK_MAX_FW_TIMEOUT = .ok m := h1
    rw [h1']; exact ⟨_, rfl⟩
  · obtain ⟨m, h1⟩ := accNum_go (h.timeout (by simp)) (by decide)
    have h1' : accNum v 0 RCHK_MAX_FW_TIMEOUT = .ok m := h1
    rw [h1']; exact ⟨_, rfl⟩
  -- ENCRYPTION_MODE
  · obtain ⟨m, k, h1, h2⟩ := h.mode rfl
    rw [(mode_name h1 h2).1, accName_go (mode_positive h1)]; exact ⟨_, rfl⟩
  -- the users
  · obtain ⟨u, hu⟩ := hpw (by simp)
    rw [hu]; exact ⟨_, rfl⟩
  · obtain ⟨u, hu⟩ := hpw (by simp)
    rw [hu]; exact ⟨_, rfl⟩
  · obtain ⟨u, hu⟩ := hpw (by simp)
    rw [hu]; exact ⟨_, rfl⟩
  · obtain ⟨u, hu⟩ := hpw (by simp)
    rw [hu]; exact ⟨_, rfl⟩
  -- CMD_CYCLE_TIMER
  · obtain ⟨m, h1⟩ := accNum_go (h.timer rfl) (by decide)
    have h1' : accNum v RCHK_MIN_CMD_CYCLE_TIMER RCHK_MAX_CMD_CYCLE_TIMER = .ok m := h1
    rw [h1']; exact ⟨_, rfl⟩
  -- GPG_HOME_DIR
  · rw [h.home rfl]; exact ⟨_, rfl⟩
  -- GPG_ALLOW_NO_PW
  · cases acc_bool v <;> exact ⟨_, rfl⟩
  -- ACCESS_EXPIRE
  · obtain ⟨t, ht⟩ := date_go (h.expire rfl) env.mktime
    rw [ht]; exact ⟨_, rfl⟩
  -- ACCESS_EXPIRE_EPOCH
  · obtain ⟨k, h1, h2⟩ := h.epoch rfl
    rw [epoch_read h1 h2]; exact ⟨_, rfl⟩
  -- FORCE_NAT
  · obtain ⟨h1, h2⟩ := h.nat rfl
    obtain ⟨r, hr⟩ := force_nat_go h2
    rw [h1, hr]; exact ⟨_, rfl⟩
  -- FORCE_SNAT
  · obtain ⟨h1, h2⟩ := h.snat rfl
    obtain ⟨r, hr⟩ := force_snat_go h2
    rw [h1, hr]; exact ⟨_, rfl⟩

/-! ## The check of a stanza -/

theorem cycle_go {a : Stanza}
    (h : (a.cmd_cycle_open = none ∧ a.cmd_cycle_close = none) ∨
      ∃ o c, a.cmd_cycle_open = some o ∧ a.cmd_cycle_close = some c ∧ o.length ≤ 255 ∧ c.length ≤ 255 ∧
        (hasPrefix b!"NONE" c = true ∨ a.cmd_cycle_timer ≠ 0)) : ∃ b, cycleCheck a = some b := by
  unfold cycleCheck
  rcases h with ⟨h1, h2⟩ | ⟨o, c, h1, h2, h3, h4, h5⟩
  · simp only [h1, h2]
    exact ⟨_, rfl⟩
  · simp only [h1, h2]
    by_cases hp : hasPrefix b!"NONE" c = true
    · simp only [hp, if_true, Bool.false_eq_true, and_false, if_false]
      rw [if_neg (by simp only [CMD_CYCLE_BUFSIZE]; omega)]
      simp only [h1, h2]
      rw [if_neg (by simp), if_neg (by simp only [CMD_CYCLE_BUFSIZE]; omega)]
      exact ⟨_, rfl⟩
    · have h6 := h5.resolve_left hp
      simp only [hp, if_false, Bool.false_eq_true, h6, false_and]
      rw [if_neg (by simp only [CMD_CYCLE_BUFSIZE]; omega)]
      simp only [h1, h2]
      rw [if_neg (by simp), if_neg (by simp only [CMD_CYCLE_BUFSIZE]; omega)]
      exact ⟨_, rfl⟩

theorem accepted_good {env : AccEnv} {src : Str} {es : List Entry} (h : GoodStanza env src es) : Accepted env es := by
  intro e he o ho
  exact ⟨({}, {}), good_set ho (h.values e he) ({}, {})⟩

theorem timer_good {env : AccEnv} {src : Str} {es : List Entry} (h : GoodStanza env src es)
    (ht : lastOf [b!"CMD_CYCLE_TIMER"] es ≠ none) : (rawOf env src es).st.cmd_cycle_timer ≠ 0 := by
  cases hv : lastOf [b!"CMD_CYCLE_TIMER"] es with
  | none => exact absurd hv ht
  | some v =>
    obtain ⟨n, hn, hm⟩ := lastOf_mem hv
    rw [List.mem_singleton.1 hn] at hm
    obtain ⟨k, hk, h1, h2⟩ := (h.values _ hm).timer rfl
    show (((lastOf [b!"CMD_CYCLE_TIMER"] es).map fun v =>
        (strtol_wrapper v RCHK_MIN_CMD_CYCLE_TIMER RCHK_MAX_CMD_CYCLE_TIMER).1).getD 0) ≠ 0
    rw [hv]
    simp only [Option.map_some, Option.getD_some]
    rw [number_read hk (by omega)]
    omega

theorem valid_good {env : AccEnv} {src : Str} {es : List Entry} (h : GoodStanza env src es) (u s : Option Nat) :
    ∃ b, acc_data_is_valid u s (rawOf env src es).st = some b := by
  have ha := accepted_good h
  unfold acc_data_is_valid
  have hk : noKeys (rawOf env src es).st = false := by
    rw [← Bool.not_eq_true]
    intro hn
    simp only [noKeys, rawOf, decide_eq_true_eq, Bool.decide_or, Bool.decide_and, Bool.or_eq_true, Bool.and_eq_true,
      Bool.not_eq_true', Bool.decide_eq_true] at hn
    rcases h.key with ⟨k, h1, h2⟩ | ⟨p, h1, h2⟩
    · have hr := (keyOf_isSome ha).1 (by rw [h1]; simp)
      rw [h1] at hn
      rcases hn with hn | hn
      · exact h2 hn.1
      · have := hn.1
        rw [Option.isSome_eq_false_iff, Option.isNone_iff_eq_none] at this
        exact hr this
    · rw [h1] at hn
      simp only [Option.getD_some, Option.isSome_some] at hn
      rcases hn with hn | hn
      · rcases h2 with h2 | h2
        · exact h2 hn.2.1
        · rw [h2] at hn
          exact absurd hn.2.2 (by decide)
      · exact absurd hn.2.1 (by decide)
  rw [if_neg (by rw [hk]; decide)]
  simp only
  have hd : sameKeys (legacyKey (rawOf env src es).st) = false := by
    rw [← Bool.not_eq_true]
    intro hs
    rw [legacyKey_eq] at hs
    have hcut := key_cut (rawOf env src es).st (by
      have := keyOf_isSome ha
      show (lastEntry [b!"KEY", b!"KEY_BASE64"] es).isSome = true ↔ keyOf b!"KEY" b!"KEY_BASE64" es ≠ none
      rw [this]
      cases lastEntry [b!"KEY", b!"KEY_BASE64"] es <;> simp)
    have hcut' : ∀ k', (legacyKey (rawOf env src es).st).key = some k' →
        ∃ k, keyOf b!"KEY" b!"KEY_BASE64" es = some k ∧ (k' = k ∨ k' = k.take 16) := by
      intro k' hk'
      rw [hcut, Option.map_eq_some_iff] at hk'
      obtain ⟨k, hk1, hk2⟩ := hk'
      refine ⟨k, hk1, ?_⟩
      split at hk2
      · exact .inr hk2.symm
      · exact .inl hk2.symm
    clear hcut
    generalize (legacyKey (rawOf env src es).st).key = lk at hs hcut'
    unfold sameKeys at hs
    simp only at hs
    have hh : (rawOf env src es).st.hmac_key = keyOf b!"HMAC_KEY" b!"HMAC_KEY_BASE64" es := rfl
    have hpp : (rawOf env src es).st.gpg_decrypt_pw = gpgPw es := rfl
    rw [hh, hpp] at hs
    cases hm : keyOf b!"HMAC_KEY" b!"HMAC_KEY_BASE64" es with
    | none => rw [hm] at hs; simp at hs
    | some m =>
      rw [hm] at hs
      simp only at hs
      by_cases he : m = []
      · rw [if_pos he] at hs; simp at hs
      · rw [if_neg he] at hs
        obtain ⟨d1, d2⟩ := h.differ m hm he
        split at hs
        · rename_i hlen
          simp only [decide_eq_true_eq] at hs
          cases lk with
          | none => simp at hlen
          | some k' =>
            obtain ⟨k, hk1, hk2⟩ := hcut' k' rfl
            obtain ⟨e1, e2⟩ := d1 k hk1
            rcases hk2 with rfl | rfl
            · exact e1 hs
            · exact e2 hs
        · split at hs
          · rename_i hlen
            simp only [decide_eq_true_eq] at hs
            cases hp : gpgPw es with
            | none => rw [hp] at hlen; simp at hlen
            | some p =>
              rw [hp] at hs
              simp only [Option.getD_some] at hs
              exact d2 (by rw [hp, hs])
          · simp at hs
  rw [if_neg (by rw [hd]; decide)]
  have hf : ∃ c, forceNatDefault (legacyKey (rawOf env src es).st) = some c ∧ c.cmd_cycle_open = (rawOf env src es).st.cmd_cycle_open ∧
      c.cmd_cycle_close = (rawOf env src es).st.cmd_cycle_close ∧ c.cmd_cycle_timer = (rawOf env src es).st.cmd_cycle_timer := by
    rw [legacyKey_eq]
    unfold forceNatDefault
    simp only
    split
    · rename_i hc
      have hfw : (rawOf env src es).st.forward_all = true := by
        have := h.forward hc.1
        rcases this with this | this
        · exfalso
          have h2 := hc.2
          simp only [rawOf, Bool.not_eq_true', Option.isSome_eq_false_iff, Option.isNone_iff_eq_none] at h2
          exact this h2
        · exact this
      rw [if_pos hfw]
      exact ⟨_, rfl, rfl, rfl, rfl⟩
    · exact ⟨_, rfl, rfl, rfl, rfl⟩
  obtain ⟨c, hf, c1, c2, c3⟩ := hf
  rw [hf]
  simp only
  rw [setGids_eq]
  apply cycle_go
  simp only
  rw [c1, c2, c3]
  rcases h.cycle with h1 | ⟨o, cl, h1, h2, h3, h4, h5⟩
  · exact .inl h1
  · refine .inr ⟨o, cl, h1, h2, h3, h4, ?_⟩
    rcases h5 with h5 | h5
    · exact .inl ((prefix_take _ _).2 h5)
    · exact .inr (timer_good h h5)

/-! ## The lists -/

theorem expandStr_go (s : Str) : ∀ cur, cur.length + s.length ≤ 1022 → ∃ x r, expandStr s cur = some (x :: r) := by
  have item : ∀ cur : Str, cur.length ≤ 1022 → ∃ x, strItem cur = some x := by
    intro cur hc
    unfold strItem
    simp only
    have : (cur.dropWhile isSpace).length ≤ cur.length := (List.dropWhile_suffix _).length_le
    rw [if_neg (by simp only [MAX_LINE_LEN]; omega)]
    exact ⟨_, rfl⟩
  induction s with
  | nil =>
    intro cur h
    obtain ⟨x, hx⟩ := item cur (by simpa using h)
    exact ⟨x, [], by simp [expandStr, hx]⟩
  | cons c s ih =>
    intro cur h
    simp only [List.length_cons] at h
    rw [expandStr]
    split
    · obtain ⟨x, hx⟩ := item cur (by omega)
      obtain ⟨y, r, hr⟩ := ih [] (by simp; omega)
      exact ⟨x, y :: r, by rw [hx, hr]; rfl⟩
    · exact ih _ (by simp; omega)

theorem expandOpt_go {α : Type} {f : Str → Option (List α)} {t : Option Str}
    (h : ∀ v, t = some v → ∃ l, f v = some l) : ∃ l, expandOpt f t [] = some l := by
  unfold expandOpt
  cases t with
  | none => exact ⟨_, rfl⟩
  | some v =>
    simp only
    split
    · exact ⟨_, rfl⟩
    · obtain ⟨l, hl⟩ := h v rfl
      rw [hl]
      exact ⟨_, rfl⟩

/-- The values fit a line. -/
def Fits (es : List Entry) : Prop := ∀ e ∈ es, e.2 ≠ [] ∧ e.2.length ≤ 1022

theorem fits_last {ns : List Str} {es : List Entry} {v : Str} (h : Fits es) (hv : lastOf ns es = some v) :
    v ≠ [] ∧ v.length ≤ 1022 := by
  obtain ⟨n, -, hm⟩ := lastOf_mem hv
  exact h _ hm

theorem ids_go {ns : List Str} {es : List Entry} (hf : Fits es) :
    ∃ l, expandOpt (fun s => expandStr s []) (lastOf ns es) [] = some l ∧ (lastOf ns es ≠ none → l ≠ []) := by
  unfold expandOpt
  cases hv : lastOf ns es with
  | none => exact ⟨_, rfl, fun h => absurd rfl h⟩
  | some v =>
    obtain ⟨h1, h2⟩ := fits_last hf hv
    obtain ⟨x, r, hx⟩ := expandStr_go v [] (by simpa using h2)
    simp only
    rw [if_neg h1, hx]
    exact ⟨x :: r, rfl, by simp⟩

theorem finish_good {env : AccEnv} {p : Str × List Entry} {e1 : AccEnt} (hc : Checked env p e1) (h : GoodStanza env p.1 p.2)
    (hf : Fits p.2) (home : Str) : ∃ e, finishEnt home e1 = some e ∧ e.source = p.1 := by
  obtain ⟨fr, s, hv, -, -⟩ := hc
  unfold validEnt at hv
  obtain ⟨b, hb, rfl⟩ := Option.map_eq_some_iff.1 hv
  have vi := valid_image hb
  have hbe := vi.eq
  clear hv hb vi
  obtain ⟨A, hA⟩ := h.source
  obtain ⟨src, hsrc, -⟩ := networks_expand hA
  obtain ⟨dst, hdst⟩ : ∃ l, expandOpt expand_acc_int_list (lastOf [b!"DESTINATION"] p.2) [] = some l := expandOpt_go (fun v hv => by
    obtain ⟨A, hA⟩ := h.destination v hv
    obtain ⟨l, hl, -⟩ := networks_expand hA
    exact ⟨l, hl⟩)
  obtain ⟨op, hop⟩ : ∃ l, expandOpt expand_acc_port_list (lastOf [b!"OPEN_PORTS"] p.2) [] = some l := expandOpt_go (fun v hv => by
    obtain ⟨ps, hps⟩ := h.open_ports v hv
    exact ⟨_, protoPorts_expand hps⟩)
  obtain ⟨rp, hrp⟩ : ∃ l, expandOpt expand_acc_port_list (lastOf [b!"RESTRICT_PORTS"] p.2) [] = some l := expandOpt_go (fun v hv => by
    obtain ⟨ps, hps⟩ := h.restrict_ports v hv
    exact ⟨_, protoPorts_expand hps⟩)
  obtain ⟨ids, hids, hids'⟩ := ids_go (ns := [b!"GPG_REMOTE_ID"]) hf
  obtain ⟨fprs, hfprs, hfprs'⟩ := ids_go (ns := [b!"GPG_FINGERPRINT_ID"]) hf
  have b1 : b.source_list = [] := by rw [hbe]; rfl
  have b2 : b.destination = lastOf [b!"DESTINATION"] p.2 := by rw [hbe]; rfl
  have b3 : b.destination_list = [] := by rw [hbe]; rfl
  have b4 : b.oport_list = [] := by rw [hbe]; rfl
  have b5 : b.rport_list = [] := by rw [hbe]; rfl
  have b6 : b.gpg_remote_id_list = [] := by rw [hbe]; rfl
  have b7 : b.gpg_remote_fpr_list = [] := by rw [hbe]; rfl
  have b8 : b.gpg_decrypt_pw = gpgPw p.2 := by rw [hbe]; rfl
  have b9 : b.gpg_disable_sig = yes (lastOf [b!"GPG_DISABLE_SIG"] p.2) := by rw [hbe]; rfl
  have r1 : (rawOf env p.1 p.2).source = p.1 := rfl
  have r2 : (rawOf env p.1 p.2).open_ports = lastOf [b!"OPEN_PORTS"] p.2 := rfl
  have r3 : (rawOf env p.1 p.2).restrict_ports = lastOf [b!"RESTRICT_PORTS"] p.2 := rfl
  have r4 : (rawOf env p.1 p.2).gpg_remote_id = lastOf [b!"GPG_REMOTE_ID"] p.2 := rfl
  have r5 : (rawOf env p.1 p.2).gpg_remote_fpr = lastOf [b!"GPG_FINGERPRINT_ID"] p.2 := rfl
  unfold finishEnt expandEnt
  simp only [r1, r2, r3, r4, r5, b1, b2, b3, b4, b5, b6, b7, hsrc, hdst, hop, hrp, hids, hfprs, Option.bind_eq_bind, Option.map_some,
    Option.bind_some, Option.pure_def]
  unfold set_acc_defaults gpgDefaults timeoutDefaults
  simp only [b8, b9]
  by_cases hg : gpgPw p.2 = none
  · simp [hg]
  · rw [if_pos (by simpa using hg), if_neg ?_]
    · simp
    · rintro ⟨s1, s2, s3⟩
      rcases h.signer hg with h1 | h1 | h1
      · rw [h1] at s1; exact absurd s1 (by decide)
      · exact hids' h1 s2
      · exact hfprs' h1 s3

/-! ## Reading -/

theorem split_none (a b : List Entry) (h : (splitSources a).2 = []) :
    splitSources (a ++ b) = ((splitSources a).1 ++ (splitSources b).1, (splitSources b).2) := by
  induction a with
  | nil => simp [splitSources]
  | cons e a ih =>
    rw [splitSources] at h
    rw [List.cons_append, splitSources, splitSources]
    by_cases he : e.1 = b!"SOURCE"
    · rw [if_pos he] at h; cases h
    · rw [if_neg he] at h ⊢
      rw [if_neg he, ih h]
      rfl

theorem split_some (a b : List Entry) : ∀ {ps : List (Str × List Entry)} {p : Str × List Entry}, (splitSources a).2 = ps ++ [p] →
    splitSources (a ++ b) = ((splitSources a).1, ps ++ (p.1, p.2 ++ (splitSources b).1) :: (splitSources b).2) := by
  induction a with
  | nil => intro ps p h; simp [splitSources] at h
  | cons e a ih =>
    intro ps p h
    rw [splitSources] at h
    rw [List.cons_append, splitSources, splitSources]
    by_cases he : e.1 = b!"SOURCE"
    · rw [if_pos he] at h ⊢
      rw [if_pos he]
      simp only at h
      cases ps with
      | nil =>
        simp only [List.nil_append, List.cons.injEq] at h
        rw [split_none a b h.2, ← h.1]
        rfl
      | cons q qs =>
        simp only [List.cons_append, List.cons.injEq] at h
        rw [ih h.2, h.1]
        rfl
    · rw [if_neg he] at h ⊢
      rw [if_neg he, ih h]

theorem stanzas_append {done rest : List Entry} {ps : List (Str × List Entry)} {p : Str × List Entry}
    (h : stanzasOf done = ps ++ [p]) :
    stanzasOf (done ++ rest) = ps ++ (p.1, p.2 ++ (splitSources rest).1) :: stanzasOf rest := by
  unfold stanzasOf at h ⊢
  rw [split_some _ _ h]

theorem close_good {env : AccEnv} {done : List Entry} {x : AccFrame × AccState} (h : ReadInv env done x)
    (hg : ∀ p ∈ stanzasOf done, GoodStanza env p.1 p.2) : ∃ s', closeStanza x.1 x.2 = .ok s' := by
  unfold closeStanza
  rcases h.read with ⟨-, -, h3⟩ | ⟨ps, p, es, h1, h2, h3, -, -, -⟩
  · rw [h3]; exact ⟨_, rfl⟩
  · rw [h3]
    simp only
    rw [entAt_last h2, Res.bind_ok]
    have hp := hg p (by rw [h1]; simp)
    obtain ⟨b, hb⟩ := valid_good hp (if x.1.user then some x.2.gid else none) (if x.1.sudo then some x.2.gid else none)
    unfold validEnt
    rw [hb]
    exact ⟨_, rfl⟩

theorem entry_good {env : AccEnv} {incl folder : Str → AccState → Res AccState} {can : Bool} {done rest : List Entry}
    {x : AccFrame × AccState} {n v : Str} (hn : Plain n) (h : ReadInv env done x)
    (hg : ∀ p ∈ stanzasOf (done ++ (n, v) :: rest), GoodStanza env p.1 p.2) :
    ∃ x', accEntry env incl folder can n v x = .ok x' := by
  unfold accEntry
  simp only
  rw [if_neg hn.1, if_neg hn.2.1]
  by_cases hsrc : n = b!"SOURCE"
  · rw [if_pos hsrc]
    subst hsrc
    obtain ⟨s', hs'⟩ := close_good h (by
      intro p hp
      apply hg p
      rcases h.read with ⟨h1, -, -⟩ | ⟨ps, q, es, h1, -⟩
      · rw [h1] at hp; cases hp
      · rw [stanzas_append h1]
        rw [h1] at hp
        have he : (splitSources ((b!"SOURCE", v) :: rest)).1 = [] := by rw [splitSources]; rfl
        rw [he, List.append_nil]
        rcases List.mem_append.1 hp with hp | hp
        · exact List.mem_append.2 (.inl hp)
        · rw [List.mem_singleton.1 hp]
          simp)
    rw [hs']
    exact ⟨_, rfl⟩
  · rw [if_neg hsrc]
    rcases h.read with ⟨-, -, h3⟩ | ⟨ps, p, es, h1, h2, h3, -, -, -⟩
    · rw [h3]; exact ⟨_, rfl⟩
    · rw [h3]
      simp only
      rw [if_neg hn.2.2]
      cases ho : optOf n with
      | none => exact ⟨_, rfl⟩
      | some o =>
        have hst := stanzas_append (rest := (n, v) :: rest) h1
        have he : (splitSources ((n, v) :: rest)).1 = (n, v) :: (splitSources rest).1 := by
          rw [splitSources]
          simp only
          rw [if_neg hsrc]
        have hgo := hg (p.1, p.2 ++ (splitSources ((n, v) :: rest)).1) (by rw [hst]; simp)
        have hv := hgo.values (n, v) (by rw [he]; simp)
        simp only
        unfold optionLine
        rw [entAt_last h2, Res.bind_ok]
        obtain ⟨r, hr⟩ := good_set ho hv (⟨x.1.user, x.1.sudo, x.2.gid⟩, rawOf env p.1 p.2)
        rw [hr]
        exact ⟨_, rfl⟩

theorem loop_good {env : AccEnv} {incl folder : Str → AccState → Res AccState} {can : Bool} (ls : List Str) :
    ∀ {done : List Entry} {x : AccFrame × AccState}, (∀ l ∈ ls, ∃ en, accLine l = .ok en) →
      (∀ e ∈ ls.filterMap entryOf, Plain e.1) → ReadInv env done x →
      (∀ p ∈ stanzasOf (done ++ ls.filterMap entryOf), GoodStanza env p.1 p.2) →
      ∃ x', accLoop env incl folder can ls x = .ok x' := by
  induction ls with
  | nil => intro done x _ _ _ _; exact ⟨x, rfl⟩
  | cons l ls ih =>
    intro done x hl hn h hg
    obtain ⟨en, hen⟩ := hl l (by simp)
    rw [accLoop, hen, Res.bind_ok]
    cases en with
    | none =>
      have hl' : entryOf l = none := by unfold entryOf; rw [hen]
      rw [List.filterMap_cons_none hl'] at hn hg
      exact ih (fun m hm => hl m (by simp [hm])) hn h hg
    | some p =>
      obtain ⟨n, v⟩ := p
      have hl' : entryOf l = some (n, chop_whitespace v) := by unfold entryOf; rw [hen]
      rw [List.filterMap_cons_some hl'] at hn hg
      have hp := hn (n, chop_whitespace v) (by simp)
      obtain ⟨x1, hx1⟩ := entry_good (incl := incl) (folder := folder) (can := can) hp h hg
      simp only
      rw [hx1, Res.bind_ok]
      refine ih (fun m hm => hl m (by simp [hm])) (fun e he => hn e (by simp [he])) (entry_read hp h hx1) ?_
      simpa using hg

theorem mapOpt_good {env : AccEnv} {home : Str} {ps : List (Str × List Entry)} {es : List AccEnt} (h : All2 (Checked env) ps es)
    (hg : ∀ p ∈ ps, GoodStanza env p.1 p.2 ∧ Fits p.2) :
    ∃ l, mapOpt (finishEnt home) es = some l ∧ l.map (·.source) = ps.map (·.1) := by
  induction h with
  | nil => exact ⟨[], rfl, rfl⟩
  | cons hab _ ih =>
    obtain ⟨h1, h2⟩ := hg _ List.mem_cons_self
    obtain ⟨e, he, hs⟩ := finish_good hab h1 h2 home
    obtain ⟨l, hl, hm⟩ := ih (fun p hp => hg p (by simp [hp]))
    refine ⟨e :: l, ?_, ?_⟩
    · rw [mapOpt, he, hl]; rfl
    · rw [List.map_cons, List.map_cons, hs, hm]

theorem end_good {env : AccEnv} {done : List Entry} {x : AccFrame × AccState} (h : ReadInv env done x)
    (hg : ∀ p ∈ stanzasOf done, GoodStanza env p.1 p.2 ∧ Fits p.2) (hne : stanzasOf done ≠ []) :
    ∃ s, endFile env x.1 x.2 = .ok s ∧ s.stanzas.map (·.source) = (stanzasOf done).map (·.1) := by
  obtain ⟨s', hs'⟩ := close_good h (fun p hp => (hg p hp).1)
  have hcr := (closeStanza_read h hs').2.2
  have hcl : closeStanza x.1 { x.2 with depth := x.2.depth - 1 } = .ok { s' with depth := x.2.depth - 1 } := by
    unfold closeStanza at hs' ⊢
    cases hcur : x.1.curr with
    | none =>
      rw [hcur] at hs'
      simp only [Res.ok.injEq] at hs'
      subst hs'
      rfl
    | some i =>
      rw [hcur] at hs'
      simp only at hs' ⊢
      obtain ⟨e, h1, hs'⟩ := bind_ok_inv hs'
      obtain ⟨e', h2, hs'⟩ := bind_ok_inv hs'
      have h1' : entAt { x.2 with depth := x.2.depth - 1 } i = .ok e := h1
      have h2' : orFail (validEnt x.1 { x.2 with depth := x.2.depth - 1 } e) = .ok e' := h2
      rw [h1', Res.bind_ok, h2', Res.bind_ok]
      simp only [Res.pure_eq, Res.ok.injEq] at hs' ⊢
      subst hs'
      rfl
  obtain ⟨l, hl, hm⟩ := mapOpt_good (home := env.gpg_home) hcr hg
  unfold endFile
  simp only
  have hcur : ¬ (x.1.curr = none ∧ x.2.stanzas = []) := by
    rintro ⟨h1, h2⟩
    rcases h.read with ⟨h3, -, -⟩ | ⟨ps, p, es, -, h4, -⟩
    · exact hne h3
    · rw [h2] at h4; simp at h4
  rw [if_pos (by rw [h.depth])]
  rw [Res.guard, if_neg (by simpa using hcur), Res.bind_ok, hcl, Res.bind_ok]
  simp only
  rw [hl]
  exact ⟨_, rfl, hm⟩

theorem file_lines {content : Str} {es : List Entry} (h : FileHolds content es) :
    (∀ l ∈ accLines content, ∃ en, accLine l = .ok en) ∧ Fits es := by
  obtain ⟨lines, rfl, hl, rfl⟩ := h
  have e : (lines.map fun l => l.1 ++ [10]) = ((lines.map (·.1)).map fun l => l ++ [10]) := by
    rw [List.map_map]; rfl
  constructor
  · unfold accLines
    rw [e, fgetsLines_flatten _ _ ?_ (Nat.le_refl _)]
    · intro l hm
      simp only [List.mem_map] at hm
      obtain ⟨_, ⟨x, hx, rfl⟩, rfl⟩ := hm
      have h0 := hl x hx
      have hlen : (x.1 ++ [10]).length < MAX_LINE_LEN := by
        simp only [MAX_LINE_LEN, List.length_append, List.length_cons, List.length_nil]; omega
      have h1 := (entryOf_means hlen h0.2.2).1
      cases ha : accLine (x.1 ++ [10]) with
      | ub => exact absurd ha (accLine_safe _ hlen)
      | err => exact absurd ha h1
      | ok en => exact ⟨en, rfl⟩
    · intro l hm
      simp only [List.mem_map] at hm
      obtain ⟨x, hx, rfl⟩ := hm
      exact ⟨(hl x hx).1, (hl x hx).2.1⟩
  · intro en hm
    obtain ⟨x, hx, hen⟩ := List.mem_filterMap.1 hm
    obtain ⟨-, h1, h2⟩ := hl x hx
    rw [hen] at h2
    generalize hline : x.1 ++ [10] = line at h2
    cases h2 with
    | entry _ name value h =>
      obtain ⟨lead, colon, gap, trail, rest, hsplit, -, -, hn, -, -, hg, -, hv, -⟩ := h
      refine ⟨hv, ?_⟩
      have hlen := congrArg List.length (hline.trans hsplit)
      simp only [List.length_append, List.length_cons, List.length_nil] at hlen
      show value.length ≤ 1022
      have : 1 ≤ name.length := by cases name with
        | nil => exact absurd rfl hn
        | cons _ _ => simp
      omega

theorem stanza_mem {es : List Entry} {p : Str × List Entry} (h : p ∈ stanzasOf es) : ∀ e ∈ p.2, e ∈ es := by
  have key : ∀ es : List Entry, (∀ e ∈ (splitSources es).1, e ∈ es) ∧ ∀ p ∈ (splitSources es).2, ∀ e ∈ p.2, e ∈ es := by
    intro es
    induction es with
    | nil => exact ⟨by simp [splitSources], by simp [splitSources]⟩
    | cons a es ih =>
      rw [splitSources]
      split
      · refine ⟨by simp, ?_⟩
        intro p hp e he
        rcases List.mem_cons.1 hp with rfl | hp
        · exact List.mem_cons_of_mem _ (ih.1 e he)
        · exact List.mem_cons_of_mem _ (ih.2 p hp e he)
      · refine ⟨?_, ?_⟩
        · intro e he
          rcases List.mem_cons.1 he with rfl | he
          · simp
          · exact List.mem_cons_of_mem _ (ih.1 e he)
        · intro p hp e he
          exact List.mem_cons_of_mem _ (ih.2 p hp e he)
  exact (key es).2 p h

theorem network_ne {s : Str} {A : Nat → Prop} (h : Network s A) : s ≠ [] := by
  cases h with
  | any _ h => intro h0; rw [h0] at h; simp at h
  | host _ v h =>
    obtain ⟨c, t, e, -⟩ := addr_head h
    rw [e]; simp
  | cidr ip ds v h hd hne hl2 h1 h32 => simp
  | masked ip m v w h hw hne => simp

theorem networks_nonempty {s : Str} {A : Nat → Prop} (h : Networks s A) : s ≠ [] := by
  obtain ⟨items, hne, hi, rfl, -⟩ := h
  obtain ⟨i, r, rfl⟩ : ∃ i r, items = i :: r := by cases items with
    | nil => exact absurd rfl hne
    | cons i r => exact ⟨i, r, rfl⟩
  cases r with
  | nil =>
    intro hc
    simp only [List.map_cons, List.map_nil, Spec.commaJoin, List.append_eq_nil_iff] at hc
    exact network_ne (hi i (by simp)).2 hc.2
  | cons j r => simp [Spec.commaJoin]

/-- A file that is written as the manual says is accepted. -/
theorem load_good {env : AccEnv} {fds : Nat} {name content : Str} {es : List Entry} (hfd : 1 ≤ fds)
    (hf : env.file name = some content) (hes : FileHolds content es) (hn : ∀ e ∈ es, Plain e.1) (hne : stanzasOf es ≠ [])
    (hg : ∀ p ∈ stanzasOf es, GoodStanza env p.1 p.2) : ∃ l, load_access env fds (.file name) = .ok l := by
  obtain ⟨hlines, hfits⟩ := file_lines hes
  have he := entries_hold hes
  subst he
  have hg' : ∀ p ∈ stanzasOf (entriesOf content), GoodStanza env p.1 p.2 ∧ Fits p.2 :=
    fun p hp => ⟨hg p hp, fun e he => hfits e (stanza_mem hp e he)⟩
  have start : ReadInv env [] (({} : AccFrame), { ({} : AccState) with depth := 0 + 1 }) := ⟨rfl, .inl ⟨rfl, rfl, rfl⟩⟩
  have fin : ∀ incl folder can, ∃ s, (accLoop env incl folder can (accLines content) (({} : AccFrame), { ({} : AccState) with depth := 0 + 1 }) >>=
      fun x => endFile env x.1 x.2) = .ok s ∧ s.stanzas.map (·.source) = (stanzasOf (entriesOf content)).map (·.1) := by
    intro incl folder can
    obtain ⟨x, hx⟩ := loop_good (incl := incl) (folder := folder) (can := can) _ hlines hn start hg
    have hr : ReadInv env (entriesOf content) x := by simpa [entriesOf] using loop_read _ hn start hx
    rw [hx, Res.bind_ok]
    exact end_good hr hg' hne
  have hp : ∃ s, parse_access_file env fds name {} = .ok s ∧ s.stanzas.map (·.source) = (stanzasOf (entriesOf content)).map (·.1) := by
    cases fds with
    | zero => omega
    | succ f =>
      cases f with
      | zero => rw [parse_access_file, hf]; exact fin _ _ _
      | succ f => rw [parse_access_file, hf]; exact fin _ _ _
  obtain ⟨s, hs, hm⟩ := hp
  unfold load_access
  simp only [parseSource, hs, Res.bind_ok]
  have hv : valid_access_stanzas s.stanzas = true := by
    unfold valid_access_stanzas
    simp only [ne_eq, Bool.decide_and, Bool.and_eq_true, decide_eq_true_eq, List.all_eq_true, Bool.not_eq_true',
      decide_not, decide_eq_false_iff_not]
    refine ⟨?_, ?_⟩
    · intro h0
      rw [h0] at hm
      apply hne
      cases hst : stanzasOf (entriesOf content) with
      | nil => rfl
      | cons a b => rw [hst] at hm; simp at hm
    · intro e he h0
      have : e.source ∈ (stanzasOf (entriesOf content)).map (·.1) := by
        rw [← hm]
        exact List.mem_map.2 ⟨e, he, rfl⟩
      obtain ⟨p, hp, hp1⟩ := List.mem_map.1 this
      obtain ⟨A, hA⟩ := (hg p hp).source
      exact networks_nonempty hA (by rw [hp1, h0])
  rw [hv]
  exact ⟨_, rfl⟩

end Fwknop
