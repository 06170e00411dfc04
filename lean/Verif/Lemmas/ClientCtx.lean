import Verif.Lemmas.ClientText

/-! # From options to the context that is packed -/

namespace Fwknop
open Fwknop.Spec

/-- The last part of an access message. -/
theorem accessMsg_last {s x t : Str} (h : IsAccessMsg s) (hs : s = x ++ 44 :: t) (ht : 44 ∉ t) : IsProtoPort t := by
  obtain ⟨ip, spec, specs, _, h1, h2, h3, _⟩ := h
  have hall : ∀ p ∈ spec :: specs, IsProtoPort p := by
    intro p hp
    rcases List.mem_cons.1 hp with rfl | hp
    · exact h1
    · exact h2 p hp
  have hne : (spec :: specs : List Str) ≠ [] := by simp
  generalize spec :: specs = l at *
  have hl := List.dropLast_concat_getLast hne
  have hlast := hall _ (List.getLast_mem hne)
  generalize l.getLast hne = p at *
  have hp := protoPort_no_comma p hlast
  have e : s = (ip ++ (l.dropLast.map (44 :: ·)).flatten) ++ 44 :: p := by
    rw [h3, ← hl]; simp
  have hr : s.reverse.takeWhile (· ≠ 44) = t.reverse := by
    rw [hs, List.reverse_append, List.reverse_cons, List.append_assoc]
    exact takeWhile_ne_split _ _ _ (by simpa using ht)
  have hr2 : s.reverse.takeWhile (· ≠ 44) = p.reverse := by
    rw [e, List.reverse_append, List.reverse_cons, List.append_assoc]
    exact takeWhile_ne_split _ _ _ (by simpa using hp)
  have : t = p := by
    have := hr.symm.trans hr2
    simpa using this
  rw [this]; exact hlast

/-- Without -A the client's own message check fails. -/
theorem none_refused (ip : Str) : ¬ IsAccessMsg (ip ++ 44 :: b!"none/0") := by
  intro h
  obtain ⟨proto, ds, hp, he, _⟩ := accessMsg_last h rfl (by decide)
  rcases hp with rfl | rfl <;> simp at he

/-- The type in the context when everything is set. -/
def ctxType (o : CliOpts) : Int :=
  if o.nat_local ∨ o.nat_access_str ≠ [] then
    if (if o.fw_timeout ≥ 0 then o.fw_timeout.toNat else 0) > 0 then (if chosenType o ≠ 6 then 4 else 6)
    else if chosenType o ≠ 5 ∧ chosenType o ≠ 6 then 2 else chosenType o
  else chosenType o

theorem ctxType_norm {o : CliOpts} (hcmd : o.server_command ≠ [] → o.nat_local = false ∧ o.nat_access_str = [] ∧ o.fw_timeout ≤ 0) :
    timeoutType (ctxType o) (if o.fw_timeout ≥ 0 then o.fw_timeout.toNat else 0) = askedType o := by
  unfold ctxType chosenType askedType timeoutType
  simp only [consts]
  by_cases hc : o.server_command = []
  · by_cases hl : o.nat_local = true
    · by_cases hp : o.fw_timeout > 0
      · have h1 : o.fw_timeout ≥ 0 := by omega
        have h2 : o.fw_timeout.toNat > 0 := by omega
        simp [hc, hl, hp, h1]
      · by_cases h1 : o.fw_timeout ≥ 0
        · have h2 : o.fw_timeout.toNat = 0 := by omega
          simp [hc, hl, hp, h1, h2]
        · simp [hc, hl, hp, h1]
    · by_cases hn : o.nat_access_str = []
      · by_cases hp : o.fw_timeout > 0
        · have h1 : o.fw_timeout ≥ 0 := by omega
          have h2 : o.fw_timeout.toNat > 0 := by omega
          simp [hc, hl, hn, hp, h1]
        · by_cases h1 : o.fw_timeout ≥ 0
          · have h2 : o.fw_timeout.toNat = 0 := by omega
            simp [hc, hl, hn, hp, h1, h2]
          · simp [hc, hl, hn, hp, h1]
      · by_cases hp : o.fw_timeout > 0
        · have h1 : o.fw_timeout ≥ 0 := by omega
          have h2 : o.fw_timeout.toNat > 0 := by omega
          simp [hc, hl, hn, hp, h1]
        · by_cases h1 : o.fw_timeout ≥ 0
          · have h2 : o.fw_timeout.toNat = 0 := by omega
            simp [hc, hl, hn, hp, h1, h2]
          · simp [hc, hl, hn, hp, h1]
  · obtain ⟨h1, h2, h3⟩ := hcmd hc
    have h4 : (if o.fw_timeout ≥ 0 then o.fw_timeout.toNat else 0) = 0 := by split <;> omega
    simp [hc, h1, h2, h4]

/-- The message text and what it stands for. -/
theorem messageText_ok {E : CliEnv} {c d : Ctx} {o : CliOpts} {t : Str} (ho : OptsOk o)
    (hr : c.rand_val = some (randValue E.rands [])) (h16 : 16 ≤ E.rands.length)
    (hres : ∀ ip, E.resolved = some ip → IsText ip ∧ ip.length ≤ 15)
    (h : messageText c E o = .ok (t, d)) (ht : t.length < 256) (hv : o.server_command = [] → IsAccessMsg t) :
    (o.server_command ≠ [] → t = o.allow_ip_str ++ 44 :: o.server_command ∧ d = c) ∧
    (o.server_command = [] → ∃ ip port ports, AskedIp E o ip ∧ AskedNatPort E o port ∧
      AskedPorts o.access_str port ports ∧ t = ip ++ 44 :: ports ∧
      ∃ st, d = { c with rand_val := some (if o.nat_rand_port then randValue E.rands2 [] else randValue E.rands [])
                         state := st }) := by
  unfold messageText at h
  split at h
  · rename_i hc
    cases h
    refine ⟨fun _ => ⟨?_, rfl⟩, fun e => absurd e hc⟩
    simp only [MAX_LINE_LEN, List.length_take] at ht
    rw [List.take_of_length_le (by simp only [MAX_LINE_LEN]; omega)]
    simp
  · rename_i hc
    have hc : o.server_command = [] := Classical.not_not.1 hc
    refine ⟨fun e => absurd hc e, fun _ => ?_⟩
    obtain ⟨o', h1, h2⟩ := Res.bind_eq_ok h
    have key : ∃ ip, AskedIp E o ip ∧ IsText ip ∧ ip.length ≤ 15 ∧ o' = { o with allow_ip_str := ip } := by
      unfold resolveAllow at h1
      split at h1
      · rename_i hr
        obtain ⟨ip, e1, e2⟩ := Res.bind_eq_ok h1
        cases e2
        have e1 := ofOpt_ok e1
        refine ⟨ip, ?_, (hres ip e1).1, (hres ip e1).2, rfl⟩
        unfold AskedIp
        rw [if_pos hr]; exact e1
      · rename_i hr
        cases h1
        refine ⟨o.allow_ip_str, ?_, ho.allow.1, ho.allow.2, rfl⟩
        unfold AskedIp
        rw [if_neg hr]
    obtain ⟨ip, k1, k2, k3, rfl⟩ := key
    have ho' : OptsOk { o with allow_ip_str := ip } :=
      ⟨⟨k2, k3⟩, ho.access, ho.command, ho.server, ho.nat, ho.user, ho.key, ho.hmac_key, ho.nat_port, ho.timeout, ho.mode,
        ho.digest, ho.hmac_type, ho.use_hmac⟩
    by_cases hne : o.access_str = []
    · exfalso
      unfold set_access_buf at h2
      rw [if_neg (by simpa using hne)] at h2
      cases h2
      have e : (ip ++ b!"," ++ b!"none/0").take (MAX_LINE_LEN - 1) = ip ++ 44 :: b!"none/0" := by
        rw [List.take_of_length_le (by simp only [MAX_LINE_LEN, List.length_append, List.length_cons, List.length_nil]; omega)]
        simp
      simp only [e] at hv
      exact none_refused ip (hv hc)
    · obtain ⟨port, ports, g1, g2, g3, g4⟩ := set_access_buf_ok (o := { o with allow_ip_str := ip }) ho' hne hr h16 h2 ht
      exact ⟨ip, port, ports, k1, g1, g2, g3, g4⟩

/-- What the client hands to the encryption. -/
structure Built (E : CliEnv) (o : CliOpts) (c : Ctx) (r : Request) : Prop where
  asks : Asks E o r
  rand : c.rand_val = some r.rand
  user : c.username = some r.user ∧ validate_username r.user = true
  ts : c.timestamp = r.ts
  version : c.version = some r.version
  type : c.message_type = ctxType o
  msg : c.message = some r.msg ∧ r.msg.length < 256
  cmd : r.type = 0 → IsCommandMsg r.msg
  nat : c.nat_access = r.nat ∧ ∀ n, r.nat = some n → validate_nat_access_msg n = true ∧ n.length < 128
  auth : c.server_auth = none
  timeout : c.client_timeout = if o.fw_timeout ≥ 0 then o.fw_timeout.toNat else 0
  digest : c.digest_type = if o.digest_type ≠ 0 then o.digest_type else 3
  enc : c.encryption_type = if o.use_gpg then 2 else 1
  mode : c.encryption_mode = if o.use_gpg then 7 else if o.encryption_mode ≠ 0 then o.encryption_mode else 2
  hmac : c.hmac_type = 0
  encoded : c.encoded_msg = none

theorem clientCtx_built {E : CliEnv} {o : CliOpts} {c : Ctx} (ho : OptsOk o) (h16 : 16 ≤ E.rands.length)
    (h16b : 16 ≤ E.rands2.length) (hres : ∀ ip, E.resolved = some ip → IsText ip ∧ ip.length ≤ 15)
    (hcmd : o.server_command ≠ [] → o.nat_local = false ∧ o.nat_access_str = [] ∧ o.fw_timeout ≤ 0)
    (h : clientCtx E o = .ok c) : ∃ r, Built E o c r := by
  unfold clientCtx at h
  obtain ⟨c0, e0, h⟩ := Res.bind_eq_ok h
  obtain ⟨c1, e1, h⟩ := Res.bind_eq_ok h
  obtain ⟨c2, e2, h⟩ := Res.bind_eq_ok h
  obtain ⟨c3, e3, h⟩ := Res.bind_eq_ok h
  obtain ⟨c4, e4, h⟩ := Res.bind_eq_ok h
  obtain ⟨⟨m, c5⟩, e5, h⟩ := Res.bind_eq_ok h
  obtain ⟨c6, e6, h⟩ := Res.bind_eq_ok h
  obtain ⟨c7, e7, h⟩ := Res.bind_eq_ok h
  obtain ⟨c8, e8, h⟩ := Res.bind_eq_ok h
  obtain ⟨c9, e9, e10⟩ := Res.bind_eq_ok h
  obtain ⟨hv, h0, s0, r0⟩ := new_rec (ofOpt_ok e0)
  obtain ⟨mt, s1, r1⟩ := setTimeout_rec e1
  obtain ⟨s2, r2⟩ := setType_rec (ofOpt_ok e2)
  obtain ⟨t3, s3, r3⟩ := setPlus_rec (by rw [r2, r1, r0]; exact h0) e3
  obtain ⟨t4, s4, r4⟩ := setMinus_rec t3 e4
  obtain ⟨hm1, hm2, hm3, s6, r6⟩ := setMsg_rec (ofOpt_ok e6)
  have hty4 : c4.message_type = chosenType o := by rw [r4, r3, r2]
  have hrand4 : c4.rand_val = some (randValue E.rands []) := by rw [r4, r3, r2, r1, r0]
  -- the message text never changes the type
  have hmsg := messageText_ok (t := m) (d := c5) ho hrand4 h16 hres e5 hm1
  have hch : o.server_command = [] → chosenType o ≠ 0 := by
    intro hc
    unfold chosenType
    simp only [hc, ne_eq, not_true_eq_false, if_false]
    repeat' split
    all_goals decide
  have hch0 : o.server_command ≠ [] → chosenType o = 0 := by
    intro hc
    unfold chosenType
    rw [if_pos hc]
  have hty5 : c5.message_type = chosenType o := by
    have : c5.message_type = c4.message_type := by
      unfold messageText at e5
      split at e5
      · cases e5; rfl
      · obtain ⟨o', g1, g2⟩ := Res.bind_eq_ok e5
        unfold set_access_buf at g2
        split at g2
        · obtain ⟨⟨p, d'⟩, q1, g2⟩ := Res.bind_eq_ok g2
          obtain ⟨t', q2, g2⟩ := Res.bind_eq_ok g2
          cases g2
          unfold accessNatPort at q1
          split at q1
          · unfold get_rand_port at q1
            split at q1
            · cases q1
            · simp only at q1
              split at q1
              · cases q1; rfl
              · cases q1; rfl
          · cases q1; rfl
        · cases g2; rfl
    rw [this, hty4]
  have hacc : o.server_command = [] → IsAccessMsg m := fun hc => hm3 (by rw [hty5]; exact hch hc)
  obtain ⟨hmc, hma⟩ := hmsg hacc
  obtain ⟨hu8, s8, r8⟩ := setUser_rec ho.user.2 e8
  obtain ⟨s9, r9⟩ := setEnc_rec e9
  obtain ⟨s10, r10⟩ := setDigest_rec e10
  -- the random value
  obtain ⟨rv, s5, hrv, hrd, hr5⟩ : ∃ rv st, c5 = { c4 with rand_val := some rv, state := st } ∧
      (rv.length = 16 ∧ ∀ ch ∈ rv, IsDigitChar ch) ∧ (o.server_command = [] → rv = if o.nat_rand_port then randValue E.rands2 [] else randValue E.rands []) := by
    have hA : (randValue E.rands []).length = 16 ∧ ∀ ch ∈ randValue E.rands [], IsDigitChar ch :=
      ⟨randValue_length _ _ (by simp) (by simpa using h16), fun ch hc => (isDigit_iff ch).1 (randValue_digits _ _ (by simp) ch hc)⟩
    have hB : (randValue E.rands2 []).length = 16 ∧ ∀ ch ∈ randValue E.rands2 [], IsDigitChar ch :=
      ⟨randValue_length _ _ (by simp) (by simpa using h16b), fun ch hc => (isDigit_iff ch).1 (randValue_digits _ _ (by simp) ch hc)⟩
    by_cases hc : o.server_command = []
    · obtain ⟨ip, port, ports, _, _, _, _, st, g⟩ := hma hc
      refine ⟨_, st, g, ?_, fun _ => rfl⟩
      split
      · exact hB
      · exact hA
    · refine ⟨randValue E.rands [], c4.state, ?_, hA, fun e => absurd e hc⟩
      rw [(hmc hc).2, ← hrand4]
  -- the NAT text
  obtain ⟨nt, s7, r7, hnat, hnv⟩ : ∃ nt st, c7 = { c6 with nat_access := nt, message_type := ctxType o, state := st } ∧
      AskedNat o nt ∧ (∀ n, nt = some n → validate_nat_access_msg n = true ∧ n.length < 128) := by
    unfold setNat at e7
    split at e7
    · rename_i hn
      obtain ⟨t, g1, g2⟩ := Res.bind_eq_ok e7
      obtain ⟨k1, k2, st, k3⟩ := setNatAccess_rec (ofOpt_ok g2)
      refine ⟨some t, st, ?_, natAccessText_ok hn g1 (by omega), ?_⟩
      · rw [k3]
        have hct : c6.client_timeout = if o.fw_timeout ≥ 0 then o.fw_timeout.toNat else 0 := by
          rw [r6, hrv, r4, r3, r2, r1, r0]
        have hmt : c6.message_type = chosenType o := by rw [r6]; exact hty5
        rw [hct, hmt]
        unfold ctxType
        simp only [if_pos hn]
      · intro n e; cases e; exact ⟨k2, k1⟩
    · rename_i hn
      cases e7
      simp only [not_or, Bool.not_eq_true, Classical.not_not] at hn
      refine ⟨none, c6.state, ?_, .no hn.1 hn.2, by simp⟩
      have hmt : c6.message_type = ctxType o := by
        unfold ctxType
        rw [if_neg (by simp [hn.1, hn.2]), r6]
        exact hty5
      have hna : c6.nat_access = none := by rw [r6, hrv, r4, r3, r2, r1, r0]
      rw [← hmt, ← hna]
  have hts : 0 ≤ askedTime E o ∧ c4.timestamp = askedTime E o := by
    have : c4.timestamp = askedTime E o := by
      rw [r4, r3, r2, r1, r0]; unfold askedTime; rfl
    exact ⟨by rw [← this]; exact t4, this⟩
  refine ⟨{ rand := rv, user := if o.spoof_user = [] then E.user.take 63 else o.spoof_user
            ts := (askedTime E o).toNat, version := b!"3.0.0", type := askedType o, msg := m, nat := nt, auth := none
            timeout := if o.fw_timeout > 0 then o.fw_timeout.toNat else 0 }, ?_⟩
  subst r10 r9 r8 r7 r6
  refine ⟨⟨hrd, rfl, by simp only; omega, rfl, rfl, fun hc => (hmc hc).1, fun hc => ?_, hnat, rfl, rfl⟩, ?_, ⟨?_, ?_⟩, ?_, ?_, rfl,
    ⟨rfl, hm1⟩, ?_, ⟨rfl, hnv⟩, ?_, ?_, ?_, ?_, ?_, ?_, ?_⟩
  · obtain ⟨ip, port, ports, a, b, c, d, _⟩ := hma hc
    exact ⟨ip, port, ports, a, b, c, d, hacc hc, hr5 hc⟩
  · rw [hrv]
  · show (if o.spoof_user = [] then c5.username else some o.spoof_user) = _
    rw [hrv, r4, r3, r2, r1, r0]
    split <;> rfl
  · show validate_username (if o.spoof_user = [] then E.user.take 63 else o.spoof_user) = true
    split
    · exact hv
    · rename_i hs; exact hu8 hs
  · show c5.timestamp = ((askedTime E o).toNat : Int)
    rw [hrv]
    show c4.timestamp = _
    rw [hts.2]; omega
  · show c5.version = _
    rw [hrv, r4, r3, r2, r1, r0]
  · intro ht
    apply hm2
    rw [hty5]
    apply hch0
    intro hc
    simp only at ht
    unfold askedType at ht
    simp only [hc, ne_eq, not_true_eq_false, if_false] at ht
    repeat' split at ht
    all_goals omega
  · show c5.server_auth = none
    rw [hrv, r4, r3, r2, r1, r0]
  · show c5.client_timeout = _
    rw [hrv, r4, r3, r2, r1, r0]
  · show (if o.digest_type ≠ 0 then o.digest_type else c5.digest_type) = _
    rw [hrv, r4, r3, r2, r1, r0]
  · show (if o.use_gpg then 2 else c5.encryption_type) = _
    rw [hrv, r4, r3, r2, r1, r0]
  · show (if o.use_gpg then 7 else if o.encryption_mode ≠ 0 then o.encryption_mode else c5.encryption_mode) = _
    rw [hrv, r4, r3, r2, r1, r0]
  · show c5.hmac_type = 0
    rw [hrv, r4, r3, r2, r1, r0]
  · show c5.encoded_msg = none
    rw [hrv, r4, r3, r2, r1, r0]

end Fwknop
