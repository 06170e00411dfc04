import Verif.Lemmas.ClientRc

/-! # Entries of the rc file and options of the command line -/

namespace Fwknop
open Fwknop.Spec

theorem lookup_mem {n : Str} {v : RcVar} (h : lookup_var_by_name n = some v) : (n, v) ∈ fko_var_array := by
  unfold lookup_var_by_name at h
  cases hf : fko_var_array.find? (fun e => decide (e.1 = n)) with
  | none => rw [hf] at h; cases h
  | some e =>
    rw [hf] at h
    cases h
    have h1 := List.mem_of_find?_eq_some hf
    have h2 := List.find?_some hf
    simp only [decide_eq_true_eq] at h2
    rw [← h2]
    exact h1

theorem yes_iff (v : Str) : strcaseeq b!"Y" v = true ↔ v = [89] ∨ v = [121] := by
  unfold strcaseeq
  rw [decide_eq_true_eq]
  constructor
  · intro h
    match v, h with
    | [c], h =>
      simp only [List.map_cons, List.map_nil, List.cons.injEq, and_true] at h
      have : toLower 89 = 121 := by decide
      rw [this] at h
      unfold toLower at h
      split at h <;> simp <;> omega
    | [], h => simp at h
    | _ :: _ :: _, h => simp at h
  · rintro (rfl | rfl) <;> decide

/-- The options, with an HMAC if `d`. -/
abbrev withHmac (d : Bool) (o : CliOpts) : CliOpts := { o with use_hmac := o.use_hmac || d }

/-- The choice of an HMAC type. -/
def isHmacDigest : CliArg → Bool
  | .hmac_digest _ => true
  | _ => false

/-- What an accepted entry does. -/
structure Step (o o' : CliOpts) (as : List CliArg) : Prop where
  args : ∀ d, applyArgs (withHmac d o) as = .ok (withHmac (d || as.any isHmacDigest) o')
  resolve : o'.resolve_ip_http_https = true → o.resolve_ip_http_https = true ∨ CliArg.resolve ∈ as
  hmac : o.use_hmac = true ∨ as.any asksKeyedHmac = true → o'.use_hmac = true

theorem one_arg {a : CliArg} {o o' : CliOpts} (h : applyArg o a = .ok o') : applyArgs o [a] = .ok o' := by
  show (do let o' ← applyArg o a; applyArgs o' []) = _
  rw [h]; rfl

/-- An option that does not look at the use of an HMAC. -/
theorem step_one {a : CliArg} {o o' : CliOpts} (h : ∀ d, applyArg (withHmac d o) a = .ok (withHmac (d || isHmacDigest a) o'))
    (hr : o'.resolve_ip_http_https = true → o.resolve_ip_http_https = true ∨ CliArg.resolve = a)
    (hh : o.use_hmac = true ∨ asksKeyedHmac a = true → o'.use_hmac = true) : Step o o' [a] where
  args d := by
    simp only [List.any_cons, List.any_nil, Bool.or_false]
    exact one_arg (h d)
  resolve := by simpa using hr
  hmac := by simpa using hh

theorem wrapper_mono {val : Str} {max max' : Int} (h0 : 0 ≤ max) (hm : max ≤ max') (h : (strtol_wrapper val 0 max).2 = true) :
    strtol_wrapper val 0 max' = ((strtol_wrapper val 0 max).1, true) := by
  unfold strtol_wrapper at h ⊢
  generalize strtol val = p at h ⊢
  obtain ⟨l, b⟩ := p
  simp only [Bool.not_eq_true', Bool.or_eq_false_iff, decide_eq_false_iff_not, Prod.mk.injEq, true_and] at h ⊢
  exact ⟨h.1, by have := h.2; omega⟩

theorem step_num {val : Str} {max max' : Int} {o o' : CliOpts} {f : Int → CliOpts} {a : CliArg} (hm : 0 ≤ max ∧ max ≤ max')
    (h : rcNum val max o f = (o', true))
    (ha : ∀ d, applyArg (withHmac d o) a = (do let n ← cliNum val max'; return withHmac d (f n)))
    (hn : isHmacDigest a = false ∧ asksKeyedHmac a = false)
    (hf : ∀ n, (f n).resolve_ip_http_https = o.resolve_ip_http_https ∧ (f n).use_hmac = o.use_hmac) : Step o o' [a] := by
  unfold rcNum at h
  simp only at h
  split at h
  · rename_i hok
    cases h
    have hok' := wrapper_mono hm.1 hm.2 hok
    refine step_one ?_ ?_ ?_
    · intro d
      rw [ha d, hn.1, Bool.or_false]
      unfold cliNum
      rw [hok']
      rfl
    · intro hr; exact .inl (by rw [← (hf _).1]; exact hr)
    · rw [hn.2, (hf _).2]; simp
  · cases h

theorem step_name {n : Int} {o o' : CliOpts} {f : Int → CliOpts} {a : CliArg}
    (h : rcName n o f = (o', true))
    (ha : ∀ d, applyArg (withHmac d o) a = (do let n ← cliName n; return withHmac (d || isHmacDigest a) (f n)))
    (hn : asksKeyedHmac a = false)
    (hf : ∀ n, (f n).resolve_ip_http_https = o.resolve_ip_http_https ∧ (f n).use_hmac = o.use_hmac) : Step o o' [a] := by
  unfold rcName at h
  split at h
  · cases h
  · rename_i hneg
    cases h
    refine step_one ?_ ?_ ?_
    · intro d
      rw [ha d]
      unfold cliName
      have : decide (n < 0) = false := by simpa using hneg
      rw [this]
      rfl
    · intro hr; exact .inl (by rw [← (hf _).1]; exact hr)
    · rw [hn, (hf _).2]; simp

theorem step_flag {val : Str} {o o' o1 : CliOpts} {a : CliArg} (h : rcYes val o o1 = (o', true))
    (ha : ∀ d, applyArg (withHmac d o) a = .ok (withHmac d o1)) (hd : isHmacDigest a = false)
    (hr : o1.resolve_ip_http_https = true → o.resolve_ip_http_https = true ∨ CliArg.resolve = a)
    (hh : o.use_hmac = true ∨ asksKeyedHmac a = true → o1.use_hmac = true) :
    Step o o' (if val = [89] ∨ val = [121] then [a] else []) := by
  unfold rcYes at h
  injection h with h
  by_cases hy : val = [89] ∨ val = [121]
  · rw [if_pos hy]
    rw [if_pos ((yes_iff val).mpr hy)] at h
    subst h
    exact step_one (fun d => by rw [hd, Bool.or_false]; exact ha d) hr hh
  · rw [if_neg hy]
    rw [if_neg (fun h => hy ((yes_iff val).mp h))] at h
    subst h
    exact ⟨fun d => by simp [applyArgs], fun h => .inl h, by simp⟩

theorem step_offset {val : Str} {o o' : CliOpts} {f : Int → CliOpts} {a : CliArg}
    (h : rcOffset val o f = .ok (o', true))
    (ha : ∀ d, applyArg (withHmac d o) a = (do let n ← parse_time_offset val; return withHmac d (f n)))
    (hn : isHmacDigest a = false ∧ asksKeyedHmac a = false)
    (hf : ∀ n, (f n).resolve_ip_http_https = o.resolve_ip_http_https ∧ (f n).use_hmac = o.use_hmac) : Step o o' [a] := by
  unfold rcOffset at h
  split at h
  · cases h
  · cases h
  · rename_i n hp
    cases h
    refine step_one ?_ ?_ ?_
    · intro d
      rw [ha d, hp, hn.1, Bool.or_false]
      rfl
    · intro hr; exact .inl (by rw [← (hf _).1]; exact hr)
    · rw [hn.2, (hf _).2]; simp

theorem step_entry {e : Entry} {as : List CliArg} {o o' : CliOpts} (ho : optionOf e = some as)
    (hal : (∃ a ∈ as, argAllow a ≠ none) → o.resolve_ip_http_https = false)
    (h : parse_rc_param o e.1 e.2 = .ok (o', true)) : Step o o' as := by
  obtain ⟨n, val⟩ := e
  unfold parse_rc_param at h
  split at h
  · cases h
  rename_i v hv
  have hm := lookup_mem hv
  simp only [fko_var_array, List.mem_cons, Prod.mk.injEq, List.not_mem_nil, or_false] at hm
  have ok_inj : ∀ {x y : CliOpts × Bool}, Res.ok x = Res.ok y → x = y := fun h => by injection h
  rcases hm with ⟨rfl, rfl⟩ | ⟨rfl, rfl⟩ | ⟨rfl, rfl⟩ | ⟨rfl, rfl⟩ | ⟨rfl, rfl⟩ | ⟨rfl, rfl⟩ | ⟨rfl, rfl⟩ | ⟨rfl, rfl⟩ | ⟨rfl, rfl⟩ |
    ⟨rfl, rfl⟩ | ⟨rfl, rfl⟩ | ⟨rfl, rfl⟩ | ⟨rfl, rfl⟩ | ⟨rfl, rfl⟩ | ⟨rfl, rfl⟩ | ⟨rfl, rfl⟩ | ⟨rfl, rfl⟩ | ⟨rfl, rfl⟩ | ⟨rfl, rfl⟩ |
    ⟨rfl, rfl⟩ | ⟨rfl, rfl⟩ | ⟨rfl, rfl⟩ | ⟨rfl, rfl⟩ | ⟨rfl, rfl⟩ | ⟨rfl, rfl⟩ | ⟨rfl, rfl⟩ | ⟨rfl, rfl⟩ | ⟨rfl, rfl⟩ | ⟨rfl, rfl⟩ |
    ⟨rfl, rfl⟩ | ⟨rfl, rfl⟩ | ⟨rfl, rfl⟩ | ⟨rfl, rfl⟩ | ⟨rfl, rfl⟩ | ⟨rfl, rfl⟩ | ⟨rfl, rfl⟩ | ⟨rfl, rfl⟩ | ⟨rfl, rfl⟩ | ⟨rfl, rfl⟩ |
    ⟨rfl, rfl⟩ | ⟨rfl, rfl⟩ | ⟨rfl, rfl⟩ | ⟨rfl, rfl⟩ | ⟨rfl, rfl⟩
  -- digest_type, proto, ports, timeout
  · cases (show some [CliArg.digest val] = some as from ho)
    exact step_name (ok_inj h) (fun _ => by simp only [isHmacDigest, Bool.or_false]; rfl) rfl fun _ => ⟨rfl, rfl⟩
  · cases (show some [CliArg.server_proto val] = some as from ho)
    exact step_name (ok_inj h) (fun _ => by simp only [isHmacDigest, Bool.or_false]; rfl) rfl fun _ => ⟨rfl, rfl⟩
  · cases (show some [CliArg.server_port val] = some as from ho)
    exact step_num (by decide) (ok_inj h) (fun _ => rfl) ⟨rfl, rfl⟩ fun _ => ⟨rfl, rfl⟩
  · cases (show some [CliArg.source_port val] = some as from ho)
    exact step_num (by decide) (ok_inj h) (fun _ => rfl) ⟨rfl, rfl⟩ fun _ => ⟨rfl, rfl⟩
  · cases (show some [CliArg.fw_timeout val] = some as from ho)
    exact step_num (by decide) (ok_inj h) (fun _ => rfl) ⟨rfl, rfl⟩ fun _ => ⟨rfl, rfl⟩
  -- allow_ip
  · cases (show some [allowOption val] = some as from ho)
    have h := ok_inj h
    unfold rcAllow at h
    unfold allowOption
    unfold allowOption at hal
    have hs : strcaseeq val b!"source" = decide (val.map lower = b!"source") := by
      unfold strcaseeq; rw [lowerStr]; rfl
    have hr : strcaseeq val b!"resolve" = decide (val.map lower = b!"resolve") := by
      unfold strcaseeq; rw [lowerStr]; rfl
    simp only at h
    rw [hs, hr] at h
    by_cases h1 : val.map lower = b!"source"
    · rw [if_pos h1] at hal ⊢
      rw [if_pos (by simpa using h1)] at h
      have hf := hal ⟨.source_ip, by simp, by simp [argAllow]⟩
      cases h
      refine step_one (fun d => ?_) (fun hq => by cases hq) (by simp [asksKeyedHmac])
      simp only [applyArg, hf, isHmacDigest, Bool.or_false]
    · rw [if_neg h1] at hal ⊢
      rw [if_neg (by simpa using h1)] at h
      by_cases h2 : val.map lower = b!"resolve"
      · rw [if_pos h2]
        rw [if_pos (by simpa using h2)] at h
        cases h
        exact step_one (fun d => by simp only [applyArg, isHmacDigest, Bool.or_false]) (fun _ => .inr rfl) (by simp [asksKeyedHmac])
      · rw [if_neg h2] at hal ⊢
        rw [if_neg (by simpa using h2)] at h
        have hf := hal ⟨.allow_ip val, by simp, by simp [argAllow]⟩
        injection h with h _
        subst h
        refine step_one (fun d => ?_) (fun hq => by cases hq) (by simp [asksKeyedHmac])
        simp only [applyArg, hf, isHmacDigest, Bool.or_false]
  -- time_offset
  · cases (show some [offsetOption val] = some as from ho)
    have h : rcTime o val = _ := h
    unfold rcTime at h
    unfold offsetOption
    split at h
    · exact step_offset h (fun _ => rfl) ⟨rfl, rfl⟩ fun _ => ⟨rfl, rfl⟩
    · rename_i hne
      split
      · exact absurd rfl (hne _)
      · exact step_offset h (fun _ => rfl) ⟨rfl, rfl⟩ fun _ => ⟨rfl, rfl⟩
  · cases (show some [CliArg.enc_mode val] = some as from ho)
    exact step_name (ok_inj h) (fun _ => by simp only [isHmacDigest, Bool.or_false]; rfl) rfl fun _ => ⟨rfl, rfl⟩
  -- gpg
  · cases (show some (if val = [89] ∨ val = [121] then [CliArg.gpg] else []) = some as from ho)
    exact step_flag (ok_inj h) (fun _ => rfl) rfl (fun h => .inl h) (by simp [asksKeyedHmac])
  · cases (show none = some as from ho)
  · cases (show none = some as from ho)
  · cases (show none = some as from ho)
  · cases (show none = some as from ho)
  · cases (show none = some as from ho)
  · cases (show none = some as from ho)
  · cases (show none = some as from ho)
  · cases (show none = some as from ho)
  -- spoof user, source, access, server
  · cases (show some [CliArg.spoof_user val] = some as from ho)
    cases h
    exact step_one (fun d => by simp only [applyArg, isHmacDigest, Bool.or_false]) (fun h => .inl h) (by simp [asksKeyedHmac])
  · cases (show some [CliArg.spoof_source val] = some as from ho)
    cases h
    exact step_one (fun d => by simp only [applyArg, isHmacDigest, Bool.or_false]) (fun h => .inl h) (by simp [asksKeyedHmac])
  · cases (show some [CliArg.access val] = some as from ho)
    cases h
    exact step_one (fun d => by simp only [applyArg, isHmacDigest, Bool.or_false]) (fun h => .inl h) (by simp [asksKeyedHmac])
  · cases (show some [CliArg.destination val] = some as from ho)
    cases h
    exact step_one (fun d => by simp only [applyArg, isHmacDigest, Bool.or_false]) (fun h => .inl h) (by simp [asksKeyedHmac])
  · cases (show some (if val = [89] ∨ val = [121] then [CliArg.rand_port] else []) = some as from ho)
    exact step_flag (ok_inj h) (fun _ => rfl) rfl (fun h => .inl h) (by simp [asksKeyedHmac])
  -- keys
  · cases (show some [CliArg.key val] = some as from ho)
    cases h
    exact step_one (fun d => by simp only [applyArg, isHmacDigest, Bool.or_false]) (fun h => .inl h) (by simp [asksKeyedHmac])
  · cases (show some [CliArg.key_base64 val] = some as from ho)
    have h := ok_inj h
    injection h with h hb
    subst h
    refine step_one (fun d => ?_) (fun h => .inl h) (by simp [asksKeyedHmac])
    simp only [applyArg, hb, isHmacDigest, Bool.or_false]
    rfl
  · cases (show some [CliArg.hmac_digest val] = some as from ho)
    exact step_name (ok_inj h) (fun d => by show (do let n ← cliName _; return _) = _; simp only [withHmac, isHmacDigest, Bool.or_true]) rfl fun _ => ⟨rfl, rfl⟩
  · cases (show some [CliArg.hmac_key_base64 val] = some as from ho)
    have h := ok_inj h
    injection h with h hb
    subst h
    refine step_one (fun d => ?_) (fun h => .inl h) (by simp)
    simp only [applyArg, hb, isHmacDigest, Bool.or_false, Bool.true_or]
    rfl
  · cases (show some [CliArg.hmac_key val] = some as from ho)
    cases h
    exact step_one (fun d => by simp only [applyArg, withHmac, isHmacDigest, Bool.or_false, Bool.true_or]) (fun h => .inl h) (by simp)
  · cases (show some (if val = [89] ∨ val = [121] then [CliArg.use_hmac] else []) = some as from ho)
    exact step_flag (ok_inj h) (fun d => by simp only [applyArg, withHmac, Bool.true_or]) rfl (fun h => .inl h) (by simp)
  · cases (show none = some as from ho)
  · cases (show some [CliArg.get_key val] = some as from ho)
    cases h
    exact step_one (fun d => by simp only [applyArg, isHmacDigest, Bool.or_false]) (fun h => .inl h) (by simp [asksKeyedHmac])
  · cases (show none = some as from ho)
  · cases (show some [CliArg.nat_access val] = some as from ho)
    cases h
    exact step_one (fun d => by simp only [applyArg, isHmacDigest, Bool.or_false]) (fun h => .inl h) (by simp [asksKeyedHmac])
  · cases (show none = some as from ho)
  · cases (show none = some as from ho)
  · cases (show none = some as from ho)
  · cases (show some (if val = [89] ∨ val = [121] then [CliArg.nat_local] else []) = some as from ho)
    exact step_flag (ok_inj h) (fun _ => rfl) rfl (fun h => .inl h) (by simp [asksKeyedHmac])
  · cases (show some (if val = [89] ∨ val = [121] then [CliArg.nat_rand_port] else []) = some as from ho)
    exact step_flag (ok_inj h) (fun _ => rfl) rfl (fun h => .inl h) (by simp [asksKeyedHmac])
  · cases (show some [CliArg.nat_port val] = some as from ho)
    exact step_num (by decide) (ok_inj h) (fun _ => rfl) ⟨rfl, rfl⟩ fun _ => ⟨rfl, rfl⟩
  · cases (show none = some as from ho)
  · cases (show some (if val = [89] ∨ val = [121] then [CliArg.resolve] else []) = some as from ho)
    exact step_flag (ok_inj h) (fun _ => rfl) rfl (fun _ => .inr rfl) (by simp [asksKeyedHmac])
  · cases (show some (if val = [89] ∨ val = [121] then [CliArg.resolve] else []) = some as from ho)
    exact step_flag (ok_inj h) (fun _ => rfl) rfl (fun _ => .inr rfl) (by simp [asksKeyedHmac])
  · cases (show none = some as from ho)
  · cases (show none = some as from ho)
  · cases (show none = some as from ho)

theorem applyArgs_append (a b : List CliArg) : ∀ o, applyArgs o (a ++ b) = applyArgs o a >>= fun o' => applyArgs o' b := by
  induction a with
  | nil => intro o; rfl
  | cons x a ih =>
    intro o
    simp only [List.cons_append, applyArgs]
    cases applyArg o x with
    | ub => rfl
    | err => rfl
    | ok o1 => exact ih o1

/-- The entries of a file do what the options they stand for do. -/
theorem fold_args : ∀ (es : List Entry) (as : List CliArg) (o o' : CliOpts), optionsOf es = some as →
    (o.resolve_ip_http_https = true ∨ CliArg.resolve ∈ as → ∀ a ∈ as, argAllow a = none) →
    rcFold es o true = .ok o' → Step o o' as := by
  intro es
  induction es with
  | nil =>
    intro as o o' ho _ h
    cases ho
    cases h
    exact ⟨fun d => by simp [applyArgs], fun h => .inl h, by simp⟩
  | cons e es ih =>
    intro as o o' ho hr h
    unfold optionsOf at ho
    cases h1 : optionOf e with
    | none => rw [h1] at ho; cases ho
    | some a =>
      cases h2 : optionsOf es with
      | none => rw [h1, h2] at ho; cases ho
      | some as' =>
        rw [h1, h2] at ho
        cases ho
        unfold rcFold at h
        cases hp : parse_rc_param o e.1 e.2 with
        | ub => rw [hp] at h; cases h
        | err => rw [hp] at h; cases h
        | ok r =>
          rw [hp] at h
          simp only [Bool.true_and] at h
          obtain ⟨o1, b⟩ := r
          cases b with
          | false => exact absurd h (rcFold_false es o1 o')
          | true =>
            simp only at h
            have s1 := step_entry h1 (by
              rintro ⟨x, hx, hn⟩
              cases hb : o.resolve_ip_http_https with
              | false => rfl
              | true => exact absurd (hr (.inl hb) x (by simp [hx])) hn) hp
            have s2 := ih as' o1 o' h2 (by
              rintro hq x hx
              refine hr ?_ x (by simp [hx])
              rcases hq with hq | hq
              · rcases s1.resolve hq with hq | hq
                · exact .inl hq
                · exact .inr (by simp [hq])
              · exact .inr (by simp [hq])) h
            refine ⟨fun d => ?_, fun hq => ?_, fun hq => ?_⟩
            · rw [applyArgs_append, s1.args d]
              show applyArgs _ as' = _
              rw [s2.args, List.any_append, Bool.or_assoc]
            · rcases s2.resolve hq with hq | hq
              · rcases s1.resolve hq with hq | hq
                · exact .inl hq
                · exact .inr (by simp [hq])
              · exact .inr (by simp [hq])
            · apply s2.hmac
              rw [List.any_append, Bool.or_eq_true] at hq
              rcases hq with hq | hq | hq
              · exact .inl (s1.hmac (.inl hq))
              · exact .inl (s1.hmac (.inr hq))
              · exact .inr hq

/-! ## The stanza fields do not matter -/

theorem applyArg_stz (s : Str) (g : Bool) (o : CliOpts) (a : CliArg) :
    applyArg (withStz s g o) a = mapOk (withStz s g) (applyArg o a) := by
  cases a with
  | fw_timeout v => simp only [applyArg]; cases cliNum v 131072 <;> rfl
  | server_port v => simp only [applyArg]; cases cliNum v MAX_PORT <;> rfl
  | source_port v => simp only [applyArg]; cases cliNum v MAX_PORT <;> rfl
  | nat_port v => simp only [applyArg]; cases cliNum v MAX_PORT <;> rfl
  | key_base64 v => simp only [applyArg]; cases Res.guard (!Base64.is_base64 v) <;> rfl
  | hmac_key_base64 v => simp only [applyArg]; cases Res.guard (!Base64.is_base64 v) <;> rfl
  | hmac_digest v => simp only [applyArg]; cases cliName (digest_strtoint v) <;> rfl
  | digest v => simp only [applyArg]; cases cliName (digest_strtoint v) <;> rfl
  | enc_mode v => simp only [applyArg]; cases cliName (enc_mode_strtoint v) <;> rfl
  | server_proto v => simp only [applyArg]; cases cliName (proto_strtoint v) <;> rfl
  | time_plus v => simp only [applyArg]; cases parse_time_offset v <;> rfl
  | time_minus v => simp only [applyArg]; cases parse_time_offset v <;> rfl
  | _ => rfl

theorem applyArgs_stz (s : Str) (g : Bool) : ∀ (as : List CliArg) (o : CliOpts),
    applyArgs (withStz s g o) as = mapOk (withStz s g) (applyArgs o as) := by
  intro as
  induction as with
  | nil => intro o; rfl
  | cons a as ih =>
    intro o
    simp only [applyArgs]
    rw [applyArg_stz]
    cases applyArg o a with
    | ub => rfl
    | err => rfl
    | ok o1 => exact ih o1

theorem guard_bind {α : Type} (c : Bool) (f : Unit → Res α) : (Res.guard c >>= f) = if c then .err else f () := by
  cases c <;> rfl

theorem validateDest_stz (s : Str) (g : Bool) (o : CliOpts) :
    validateDest (withStz s g o) = mapOk (withStz s g) (validateDest o) := by
  unfold validateDest
  by_cases ht : o.test = true
  · rw [if_pos ht, if_pos ht]; rfl
  · rw [if_neg ht, if_neg ht]
    simp only [guard_bind]
    by_cases h1 : o.spa_server_str = []
    · simp [h1, mapOk]
    · by_cases h2 : o.resolve_url.isSome = true
      · simp [h1, h2, mapOk]
      · by_cases h3 : o.resolve_ip_http_https = false ∧ o.allow_ip_str = []
        · simp [h1, h2, h3, mapOk]
        · simp only [h1, h2, decide_false, Bool.false_eq_true, if_false]
          simp only [Bool.not_eq_true', h3, decide_false, Bool.false_eq_true, if_false]
          rfl

theorem validateAllow_stz (s : Str) (g : Bool) (o : CliOpts) :
    validateAllow (withStz s g o) = mapOk (withStz s g) (validateAllow o) := by
  unfold validateAllow
  simp only [guard_bind]
  split
  · split <;> rfl
  · rfl

theorem validate_stz {s : Str} {g : Bool} {o v : CliOpts} (h : validate_options (withStz s g o) = .ok v) :
    ∃ v0, validate_options (withStz [] false o) = .ok v0 ∧ v = withStz s g v0 := by
  unfold validate_options at h ⊢
  rw [validateDest_stz] at h ⊢
  simp only [guard_bind] at h ⊢
  split at h
  · cases h
  · have hd0 : decide (([] : Str) ≠ [] ∧ (!false) = true) = false := by decide
    simp only [hd0, Bool.false_eq_true, if_false]
    cases hd : validateDest o with
    | ub => rw [hd] at h; cases h
    | err => rw [hd] at h; cases h
    | ok o1 =>
      rw [hd] at h
      simp only [mapOk, Res.bind_ok] at h ⊢
      rw [validateAllow_stz] at h ⊢
      cases ha : validateAllow o1 with
      | ub => rw [ha] at h; cases h
      | err => rw [ha] at h; cases h
      | ok o2 =>
        rw [ha] at h
        simp only [mapOk, Res.bind_ok] at h ⊢
        split at h
        · cases h
        · rename_i g1
          rw [if_neg g1]
          split at h
          · cases h
          · rename_i g2
            rw [if_neg g2]
            split at h
            · cases h
            · rename_i g3
              rw [if_neg g3]
              split at h
              · cases h
              · rename_i g4
                rw [if_neg g4]
                split at h
                · cases h
                · rename_i g5
                  rw [if_neg g5]
                  refine ⟨_, rfl, ?_⟩
                  injection h with h
                  rw [← h]
                  split <;> rfl

theorem pack_stz (K : Crypto) (E : CliEnv) (s : Str) (g : Bool) (o : CliOpts) :
    clientPack K E (withStz s g o) = clientPack K E o := by
  have hm : ∀ c, messageText c E (withStz s g o) = messageText c E o := by
    intro c
    unfold messageText resolveAllow
    split
    · rfl
    · split
      · cases Res.ofOpt E.resolved <;> rfl
      · rfl
  have hc : clientCtx E (withStz s g o) = clientCtx E o := by
    unfold clientCtx
    simp only [hm]
    rfl
  unfold clientPack
  rw [hc]
  rfl

theorem client_stz {K : Crypto} {E : CliEnv} {s : Str} {g : Bool} {o : CliOpts} {args : List CliArg} {r : Packed × Str}
    (hs : o.use_rc_stanza = [] ∧ o.got_named_stanza = false)
    (h : client K E (withStz s g o) args = .ok r) : client K E o args = .ok r := by
  unfold client at h ⊢
  rw [applyArgs_stz] at h
  cases ha : applyArgs o args with
  | ub => rw [ha] at h; cases h
  | err => rw [ha] at h; cases h
  | ok o1 =>
    rw [ha] at h
    simp only [mapOk, Res.bind_ok] at h ⊢
    have e1 : withStz [] false o1 = o1 := by
      have ho : withStz [] false o = o := by
        rw [withStz, ← hs.1, ← hs.2]
      have := applyArgs_stz [] false args o
      rw [ho, ha] at this
      injection this with this
      exact this.symm
    obtain ⟨v, h1, h⟩ := Res.bind_eq_ok h
    obtain ⟨v0, h2, rfl⟩ := validate_stz h1
    rw [e1] at h2
    rw [h2]
    rw [pack_stz] at h
    exact h

end Fwknop
