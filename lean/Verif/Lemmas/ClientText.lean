import Verif.Lemmas.Client
import Verif.Lemmas.RoundTrip

/-! # The texts the client puts together -/

namespace Fwknop
open Fwknop.Spec

theorem Res.guard_inv {c : Bool} {u : Unit} (h : Res.guard c = .ok u) : c = false := by
  cases c with
  | false => rfl
  | true => cases h

theorem Res.mem_inv {c : Bool} {u : Unit} (h : Res.mem c = .ok u) : c = false := by
  cases c with
  | false => rfl
  | true => cases h

/-! ## Random values -/

theorem randValue_digits (rs : List Nat) (acc : Str) (h : ∀ c ∈ acc, isDigit c = true) :
    ∀ c ∈ randValue rs acc, isDigit c = true := by
  induction rs generalizing acc with
  | nil => exact h
  | cons r rs ih =>
    unfold randValue
    split
    · apply ih
      intro c hc
      rcases List.mem_append.1 hc with hc | hc
      · exact h c hc
      · exact decStr_digits r c (List.mem_of_mem_take hc)
    · exact h

theorem rand_port_ok {c d : Ctx} {rands rands2 : List Nat} {p : Int} (hr : c.rand_val = some (randValue rands []))
    (h16 : 16 ≤ rands.length) (h : get_rand_port c rands2 = .ok (p, d)) :
    ∃ five rest, randValue rands [] = five ++ rest ∧ five.length = 5 ∧
      p = (10000 + number 10 five % 55535 : Nat) ∧ d = newRand c rands2 := by
  unfold get_rand_port at h
  rw [hr] at h
  simp only at h
  have hlen := randValue_length rands [] (by simp) (by simpa using h16)
  have hdig := randValue_digits rands [] (by simp)
  generalize randValue rands [] = r at *
  have he : strlcpy r (MAX_PORT_STR_LEN + 1) = r.take 5 := rfl
  rw [he] at h
  have hd5 : ∀ c ∈ r.take 5, isDigit c = true := fun c hc => hdig c (List.mem_of_mem_take hc)
  have hl5 : (r.take 5).length = 5 := by simp only [List.length_take]; omega
  have hlt := digitsVal_lt _ hd5
  rw [hl5] at hlt
  rw [strtol_wrapper_digits _ hd5 (by intro e; rw [e] at hl5; simp at hl5) (by omega)] at h
  have hdec : decide ((0 : Int) ≤ (digitsVal 10 (r.take 5) : Nat) ∧ ((-1 : Int) < 0 ∨ ((digitsVal 10 (r.take 5) : Nat) : Int) ≤ -1)) = true := by
    simp
  rw [hdec] at h
  simp only [Bool.not_true, Bool.false_eq_true, if_false, Res.ok.injEq, Prod.mk.injEq] at h
  refine ⟨r.take 5, r.drop 5, (List.take_append_drop 5 r).symm, hl5, ?_, h.2.symm⟩
  rw [← h.1, number_eq]
  simp only [MIN_HIGH_PORT, MAX_PORT]
  rw [Int.tmod_eq_emod_of_nonneg (by omega)]
  omega

/-! ## The access text -/

theorem accessWithPort_ok {o : CliOpts} (hal : o.allow_ip_str.length ≤ 15) {p : Nat} (hp : p ≤ 65535) {t : Str}
    (h : accessWithPort o (p : Int) = .ok t) :
    ∃ ports, AskedPorts o.access_str (some p) ports ∧ t = o.allow_ip_str ++ 44 :: ports := by
  unfold accessWithPort at h
  split at h
  · cases h
  rename_i ndx hx
  obtain ⟨proto, port, he, hn, rfl⟩ := strchr_some _ _ _ hx
  obtain ⟨_, h1, h⟩ := Res.bind_eq_ok h
  obtain ⟨_, h2, h⟩ := Res.bind_eq_ok h
  obtain ⟨_, h3, h⟩ := Res.bind_eq_ok h
  have h2 := Res.guard_inv h2
  have hport : 47 ∉ port := by
    intro hm
    rcases split_first port 47 with hno | ⟨a, b, hs, ha⟩
    · exact hno hm
    · rw [he, show (proto ++ 47 :: port).drop (proto.length + 1) = port by
        rw [← List.drop_drop, List.drop_left]; rfl, hs, strchr_split a b 47 ha] at h2
      cases h2
  have hb0 : (o.allow_ip_str ++ b!",").take (MAX_LINE_LEN - 1) = o.allow_ip_str ++ [44] := by
    exact List.take_of_length_le (by simp only [MAX_LINE_LEN, List.length_append, List.length_cons, List.length_nil]; omega)
  have hdl : (decStr p).length ≤ 5 := decStr_length_le p 5 (by decide) (by omega)
  refine ⟨proto ++ 47 :: decimal p, .replaced proto port p he hn hport, ?_⟩
  have hb1 : strlcat (o.allow_ip_str ++ [44]) o.access_str ((o.allow_ip_str ++ [44]).length + proto.length + 2) =
      o.allow_ip_str ++ 44 :: (proto ++ [47]) := by
    unfold strlcat
    have e1 : (o.allow_ip_str ++ [44]).length + proto.length + 2 - 1 - (o.allow_ip_str ++ [44]).length = proto.length + 1 := by omega
    rw [if_neg (by omega), e1, he, List.take_append, List.take_of_length_le (by omega)]
    simp
  simp only [hb0, hb1] at h
  cases h
  rw [decStrInt_nat, List.take_of_length_le (show (decStr p).length ≤ MAX_PORT_STR_LEN from hdl)]
  unfold strlcat
  rw [if_neg (by omega), List.take_of_length_le (by simp only [MAX_PORT_STR_LEN]; omega), decStr_decimal]
  simp

theorem set_access_buf_ok {E : CliEnv} {c d : Ctx} {o : CliOpts} {t : Str}
    (ho : OptsOk o) (hne : o.access_str ≠ []) (hr : c.rand_val = some (randValue E.rands []))
    (h16 : 16 ≤ E.rands.length) (h : set_access_buf c o E.rands2 = .ok (t, d)) (ht : t.length < 256) :
    ∃ port ports, AskedNatPort E o port ∧ AskedPorts o.access_str port ports ∧ t = o.allow_ip_str ++ 44 :: ports ∧
      ∃ st, d = { c with rand_val := some (if o.nat_rand_port then randValue E.rands2 [] else randValue E.rands [])
                         state := st } := by
  unfold set_access_buf at h
  rw [if_pos hne] at h
  obtain ⟨⟨p, d'⟩, h1, h⟩ := Res.bind_eq_ok h
  obtain ⟨t', h2, h⟩ := Res.bind_eq_ok h
  cases h
  have hplain : ∀ t, Res.ok ((o.allow_ip_str ++ b!"," ++ o.access_str).take (MAX_LINE_LEN - 1)) = Res.ok t →
      t.length < 256 → t = o.allow_ip_str ++ 44 :: o.access_str := by
    intro t e hl
    cases e
    simp only [MAX_LINE_LEN, List.length_take] at hl
    rw [List.take_of_length_le (by simp only [MAX_LINE_LEN]; omega)]
    simp
  unfold accessNatPort at h1
  split at h1
  · rename_i hrp
    obtain ⟨five, rest, e1, e2, e3, e4⟩ := rand_port_ok hr h16 h1
    unfold accessText at h2
    simp only at h2
    rw [e3, if_pos (by simp only [MAX_PORT]; omega)] at h2
    obtain ⟨ports, g1, g2⟩ := accessWithPort_ok ho.allow.2 (by omega) h2
    refine ⟨_, ports, ?_, g1, g2, ?_⟩
    · simp only [AskedNatPort, if_pos hrp]
      exact ⟨five, rest, e1, e2, rfl⟩
    · rw [e4, if_pos hrp]
      exact ⟨_, rfl⟩
  · rename_i hrp
    cases h1
    unfold accessText at h2
    have hrand : ∃ st, c = { c with rand_val := some (if o.nat_rand_port then randValue E.rands2 [] else randValue E.rands [])
                                    state := st } := by
      refine ⟨c.state, ?_⟩
      rw [if_neg hrp, ← hr]
    split at h2
    · rename_i hp
      obtain ⟨n, hn⟩ : ∃ n : Nat, o.nat_port = n := ⟨o.nat_port.toNat, by omega⟩
      simp only [MAX_PORT, hn] at hp
      simp only [hn] at h2
      obtain ⟨ports, g1, g2⟩ := accessWithPort_ok ho.allow.2 (by omega) h2
      refine ⟨some n, ports, ?_, g1, g2, hrand⟩
      simp only [AskedNatPort, if_neg hrp]
      exact ⟨hn, by omega⟩
    · rename_i hp
      simp only [MAX_PORT] at hp
      have := ho.nat_port
      refine ⟨none, o.access_str, ⟨by simpa using hrp, by omega⟩, .given, hplain _ h2 ht, hrand⟩

/-! ## The NAT text -/

theorem accessPort_ok {o : CliOpts} {p : Int} (h : accessPort o = .ok p) :
    ∃ n : Nat, p = n ∧ AccessPort o.access_str n := by
  unfold accessPort at h
  split at h
  · cases h
  rename_i ndx hx
  obtain ⟨proto, port, he, hn, rfl⟩ := strchr_some _ _ _ hx
  obtain ⟨_, h1, h⟩ := Res.bind_eq_ok h
  have hd : o.access_str.drop (proto.length + 1) = port := by
    rw [he, ← List.drop_drop, List.drop_left]; rfl
  rw [hd] at h1 h
  have hdig : ∀ c ∈ (port.take MAX_PORT_STR_LEN).takeWhile isDigit, isDigit c = true := fun c hc =>
    List.all_eq_true.1 List.all_takeWhile c hc
  have hlen : ((port.take MAX_PORT_STR_LEN).takeWhile isDigit).length ≤ 5 :=
    Nat.le_trans (List.takeWhile_prefix _).length_le (by simp only [List.length_take, MAX_PORT_STR_LEN]; omega)
  have hsplit : port = (port.take MAX_PORT_STR_LEN).takeWhile isDigit ++
      ((port.take MAX_PORT_STR_LEN).dropWhile isDigit ++ port.drop MAX_PORT_STR_LEN) := by
    rw [← List.append_assoc, List.takeWhile_append_dropWhile, List.take_append_drop]
  have hstop : ((port.take MAX_PORT_STR_LEN).takeWhile isDigit).length = 5 ∨
      ∀ c, ((port.take MAX_PORT_STR_LEN).dropWhile isDigit ++ port.drop MAX_PORT_STR_LEN).head? = some c → ¬ IsDigitChar c := by
    cases hdw : (port.take MAX_PORT_STR_LEN).dropWhile isDigit with
    | nil =>
      have htw : (port.take MAX_PORT_STR_LEN).takeWhile isDigit = port.take MAX_PORT_STR_LEN := by
        have := List.takeWhile_append_dropWhile (p := isDigit) (l := port.take MAX_PORT_STR_LEN)
        rw [hdw, List.append_nil] at this
        exact this
      rw [htw]
      by_cases hl : 5 ≤ port.length
      · left; simp only [List.length_take, MAX_PORT_STR_LEN]; omega
      · right
        intro c hc
        rw [List.nil_append, List.drop_of_length_le (by simp only [MAX_PORT_STR_LEN]; omega)] at hc
        cases hc
    | cons x xs =>
      right
      intro c hc
      simp only [List.cons_append, List.head?_cons, Option.some.injEq] at hc
      subst hc
      rw [← isDigit_iff]
      intro hx
      have := List.head?_dropWhile_not isDigit (port.take MAX_PORT_STR_LEN)
      rw [hdw] at this
      simp [hx] at this
  generalize (port.take MAX_PORT_STR_LEN).takeWhile isDigit = ds at *
  have hlt := digitsVal_lt ds hdig
  have hpow : 10 ^ ds.length ≤ 10 ^ 5 := Nat.pow_le_pow_right (by decide) hlen
  have h1 := Res.guard_inv h1
  have h1 : (strtol_wrapper ds 1 MAX_PORT).2 = true := by simpa using h1
  by_cases hds : ds = []
  · subst hds
    exact absurd h1 (by decide)
  rw [strtol_wrapper_digits ds hdig hds (by omega)] at h1 h
  cases h
  simp only [decide_eq_true_eq, MAX_PORT] at h1
  refine ⟨digitsVal 10 ds, rfl, proto, ds, _, ?_, hn, fun c hc => (isDigit_iff c).1 (hdig c hc), hlen, hstop,
    (number_eq 10 ds).symm, by omega, by omega⟩
  rw [he, ← hsplit]

theorem natText_eq {host : Str} {p : Nat} (h : (natText host (p : Int)).length < 256) :
    natText host (p : Int) = host ++ 44 :: decimal p := by
  unfold natText at *
  simp only [MAX_LINE_LEN, List.length_take] at h
  rw [List.take_of_length_le (by simp only [MAX_LINE_LEN]; omega), decStrInt_nat, decStr_decimal]
  simp

theorem natHostPort_ok {s : Str} {q p : Int} {host : Str} (h : natHostPort s q = .ok (host, p)) :
    (44 ∉ s ∧ host = s ∧ p = q) ∨
    ∃ digits, s = host ++ 44 :: digits ∧ 44 ∉ host ∧ digits ≠ [] ∧ (∀ c ∈ digits, IsDigitChar c) ∧
      p = number 10 digits ∧ 1 ≤ number 10 digits ∧ number 10 digits ≤ 65535 := by
  unfold natHostPort at h
  split at h
  · rename_i hx
    cases h
    left
    refine ⟨?_, rfl, rfl⟩
    intro hm
    rcases split_first s 44 with hno | ⟨a, b, hs, ha⟩
    · exact hno hm
    · rw [hs, strchr_split a b 44 ha] at hx; cases hx
  · rename_i i hx
    obtain ⟨a, b, hs, ha, rfl⟩ := strchr_some _ _ _ hx
    have hd : s.drop (a.length + 1) = b := by
      rw [hs, ← List.drop_drop, List.drop_left]; rfl
    obtain ⟨_, h1, h⟩ := Res.bind_eq_ok h
    obtain ⟨_, h2, h⟩ := Res.bind_eq_ok h
    rw [hd] at h1 h2 h
    have h1 := Res.guard_inv h1
    have h2 := Res.guard_inv h2
    simp only [decide_eq_false_iff_not, not_or, MAX_PORT_STR_LEN] at h1
    have hdig : ∀ c ∈ b, isDigit c = true := by
      have := h1.1
      simpa using this
    have hlt := digitsVal_lt b hdig
    have hpow : 10 ^ b.length ≤ 10 ^ 6 := Nat.pow_le_pow_right (by decide) (by omega)
    have h2 : (strtol_wrapper b 1 MAX_PORT).2 = true := by simpa using h2
    by_cases hb : b = []
    · subst hb; exact absurd h2 (by decide)
    rw [strtol_wrapper_digits b hdig hb (by omega)] at h2 h
    cases h
    simp only [decide_eq_true_eq, MAX_PORT] at h2
    right
    refine ⟨b, ?_, ?_, hb, fun c hc => (isDigit_iff c).1 (hdig c hc), by rw [number_eq], by rw [number_eq]; omega,
      by rw [number_eq]; omega⟩
    · rw [hs, List.take_left]
    · rw [hs, List.take_left]; exact ha

theorem natAccessText_ok {o : CliOpts} {t : Str} (hnat : o.nat_local = true ∨ o.nat_access_str ≠ [])
    (h : natAccessText o = .ok t) (hl : t.length < 256) : AskedNat o (some t) := by
  unfold natAccessText at h
  obtain ⟨p, h1, h⟩ := Res.bind_eq_ok h
  obtain ⟨n, rfl, hap⟩ := accessPort_ok h1
  split at h
  · rename_i hc
    cases h
    rw [natText_eq hl]
    exact .server n hc.1 hc.2 hap
  rename_i hc
  have hne : o.nat_access_str ≠ [] := by
    rcases hnat with h | h
    · intro e; exact hc ⟨h, e⟩
    · exact h
  rw [if_pos hne] at h
  obtain ⟨⟨host, q⟩, h2, h⟩ := Res.bind_eq_ok h
  obtain ⟨_, h3, h⟩ := Res.bind_eq_ok h
  obtain ⟨_, h4, h⟩ := Res.bind_eq_ok h
  cases h
  unfold colonToComma at h2
  cases hx : strchr o.nat_access_str 58 with
  | none =>
    rw [hx] at h2
    change natHostPort o.nat_access_str n = _ at h2
    have h58 : 58 ∉ o.nat_access_str := by
      intro hm
      rcases split_first o.nat_access_str 58 with hno | ⟨a, b, hs, ha⟩
      · exact hno hm
      · rw [hs, strchr_split a b 58 ha] at hx; cases hx
    rcases natHostPort_ok h2 with ⟨a, b, c⟩ | ⟨ds, a, b, c, d, e, f, g⟩
    · rw [b, c] at hl ⊢
      rw [natText_eq hl]
      exact .host n hne a h58 hap
    · rw [e] at hl ⊢
      rw [natText_eq hl]
      exact .target host ds 44 (.inl rfl) a b (fun hm => h58 (by rw [a]; simp [hm])) c d f g
  | some i =>
    rw [hx] at h2
    obtain ⟨x, y, hs, hx2, rfl⟩ := strchr_some _ _ _ hx
    have e1 : o.nat_access_str.take x.length ++ 44 :: o.nat_access_str.drop (x.length + 1) = x ++ 44 :: y := by
      rw [hs, List.take_left, ← List.drop_drop, List.drop_left]; rfl
    simp only [e1] at h2
    rcases natHostPort_ok h2 with ⟨a, b, c⟩ | ⟨ds, a, b, c, d, e, f, g⟩
    · exact absurd (by simp) a
    · -- the first comma is the one put in place of the colon
      have hcase : host = x ∧ ds = y := by
        rcases List.append_eq_append_iff.1 a with ⟨m, hm1, hm2⟩ | ⟨m, hm1, hm2⟩
        · cases m with
          | nil => simp only [List.append_nil, List.nil_append, List.cons.injEq, true_and] at hm1 hm2; exact ⟨hm1, hm2.symm⟩
          | cons z zs =>
            simp only [List.cons_append, List.cons.injEq] at hm2
            exact absurd (by rw [hm1, ← hm2.1]; simp) b
        · cases m with
          | nil => simp only [List.append_nil, List.nil_append, List.cons.injEq, true_and] at hm1 hm2; exact ⟨hm1.symm, hm2⟩
          | cons z zs =>
            simp only [List.cons_append, List.cons.injEq] at hm2
            have := d 44 (by rw [hm2.2]; simp)
            unfold IsDigitChar at this
            omega
      obtain ⟨rfl, rfl⟩ := hcase
      rw [e] at hl ⊢
      rw [natText_eq hl]
      exact .target host ds 58 (.inr rfl) hs b hx2 c d f g

end Fwknop
