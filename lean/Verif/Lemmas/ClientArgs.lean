import Verif.Spec.Client
import Verif.Lemmas.ClientText
import Verif.Lemmas.AccessConf
import Verif.Lemmas.AccessRange
import Verif.Lemmas.Incoming

/-!
# The options record in terms of the command line
-/

namespace Fwknop
open Spec Res

theorem cliNum_ok {v : Str} {max n : Int} (h : cliNum v max = .ok n) :
    strtol_wrapper v 0 max = (n, true) := by
  unfold cliNum at h
  simp only at h
  obtain ⟨_, h1, h2⟩ := Res.bind_eq_ok h
  have h1 := guard_inv h1
  simp at h1
  cases h2
  exact Prod.ext rfl h1

theorem cliName_ok {m n : Int} (h : cliName m = .ok n) : m = n ∧ 0 ≤ n := by
  unfold cliName at h
  obtain ⟨_, h1, h2⟩ := Res.bind_eq_ok h
  have h1 := guard_inv h1
  cases h2
  simp at h1
  exact ⟨rfl, by omega⟩

/-- What an option changes. -/
theorem last_wins {α : Type} (π : CliOpts → α) (f : CliArg → Option α)
    (hstep : ∀ o a o', applyArg o a = .ok o' → π o' = (f a).getD (π o)) :
    ∀ (args : List CliArg) (o o' : CliOpts), applyArgs o args = .ok o' → π o' = (given f args).getD (π o) := by
  intro args
  induction args with
  | nil => intro o o' h; cases h; rfl
  | cons a as ih =>
    intro o o' h
    unfold applyArgs at h
    obtain ⟨o1, h1, h2⟩ := Res.bind_eq_ok h
    rw [ih o1 o' h2, hstep o a o1 h1]
    unfold given
    cases hf : f a with
    | none => simp [hf]
    | some x =>
      simp only [List.filterMap_cons, hf, Option.getD_some]
      cases hl : List.filterMap f as with
      | nil => simp
      | cons y ys => rw [List.getLast?_cons_cons]; cases h : (y :: ys).getLast? <;> simp at h ⊢

/-- The same for an option that only sets a flag. -/
theorem flag_set (π : CliOpts → Bool) (f : CliArg → Bool)
    (hstep : ∀ o a o', applyArg o a = .ok o' → π o' = (f a || π o)) :
    ∀ (args : List CliArg) (o o' : CliOpts), applyArgs o args = .ok o' → π o' = (args.any f || π o) := by
  intro args
  induction args with
  | nil => intro o o' h; cases h; rfl
  | cons a as ih =>
    intro o o' h
    unfold applyArgs at h
    obtain ⟨o1, h1, h2⟩ := Res.bind_eq_ok h
    rw [ih o1 o' h2, hstep o a o1 h1, List.any_cons]
    cases f a <;> cases as.any f <;> simp

/-- Something that every option keeps. -/
theorem args_keep (P : CliOpts → Prop) {args : List CliArg} (hstep : ∀ o, ∀ a ∈ args, ∀ o', applyArg o a = .ok o' → P o → P o') :
    ∀ (o o' : CliOpts), applyArgs o args = .ok o' → P o → P o' := by
  induction args with
  | nil => intro o o' h hp; cases h; exact hp
  | cons a as ih =>
    intro o o' h hp
    unfold applyArgs at h
    obtain ⟨o1, h1, h2⟩ := Res.bind_eq_ok h
    exact ih (fun o b hb => hstep o b (List.mem_cons_of_mem _ hb)) o1 o' h2 (hstep o a (by simp) o1 h1 hp)

/-- Splits a successful step into its cases. -/
macro "arg_cases " h:ident : tactic => `(tactic|
  (first
    | (cases $h:ident; rfl)
    | (obtain ⟨n, h1, h2⟩ := Res.bind_eq_ok $h
       cases h2
       rfl)))

theorem text_field {π : CliOpts → Str} {f : CliArg → Option Str}
    (hstep : ∀ o a o', applyArg o a = .ok o' → π o' = (f a).getD (π o)) {args : List CliArg} {o o' : CliOpts}
    (h : applyArgs o args = .ok o') (h0 : π o = []) : π o' = (given f args).getD [] := by
  rw [last_wins π f hstep args o o' h, h0]

/-- A field that the value of an option is read into by a partial function. -/
theorem read_field {π : CliOpts → Int} {f : CliArg → Option Str} {rd : Str → Res Int}
    (hstep : ∀ o a o', applyArg o a = .ok o' → (∀ v, f a = some v → rd v = .ok (π o')) ∧ (f a = none → π o' = π o))
    {args : List CliArg} {o o' : CliOpts} (h : applyArgs o args = .ok o') :
    (given f args = none → π o' = π o) ∧ ∀ v, given f args = some v → rd v = .ok (π o') := by
  induction args generalizing o with
  | nil => cases h; exact ⟨fun _ => rfl, fun v hv => by simp [given] at hv⟩
  | cons a as ih =>
    unfold applyArgs at h
    obtain ⟨o1, h1, h2⟩ := Res.bind_eq_ok h
    obtain ⟨i1, i2⟩ := ih h2
    obtain ⟨s1, s2⟩ := hstep o a o1 h1
    unfold given at *
    cases hf : f a with
    | none => simp only [List.filterMap_cons, hf]; exact ⟨fun hn => by rw [i1 hn, s2 hf], i2⟩
    | some x =>
      simp only [List.filterMap_cons, hf]
      cases hl : List.filterMap f as with
      | nil =>
        rw [hl] at i1
        refine ⟨fun hn => by simp at hn, fun v hv => ?_⟩
        simp at hv
        subst hv
        rw [i1 rfl]
        exact s1 _ hf
      | cons y ys =>
        rw [List.getLast?_cons_cons, ← hl]
        refine ⟨fun hn => ?_, i2⟩
        rw [hl] at hn
        simp at hn

theorem numeric_field {π : CliOpts → Int} {f : CliArg → Option Str} {max : Int} (hmax : 0 ≤ max)
    (hstep : ∀ o a o', applyArg o a = .ok o' → (∀ v, f a = some v → cliNum v max = .ok (π o')) ∧ (f a = none → π o' = π o))
    {args : List CliArg} {o o' : CliOpts} (h : applyArgs o args = .ok o') : Numeric (given f args) (π o) max (π o') := by
  have key := read_field hstep h
  refine ⟨key.1, fun t n ht hd hn => ?_⟩
  have h1 := cliNum_ok (key.2 t ht)
  have h2 := number_read hd hn 0 max
  rw [h1] at h2
  exact ⟨h2, (strtol_wrapper_range _ _ _ _ h1).2.1 hmax⟩

theorem lower_trans {a b c : Str} (h1 : strcaseeq a c = true) (h2 : strcaseeq b c = true) : a.map lower = b.map lower := by
  rw [strcaseeq_iff] at h1 h2
  rw [lower_eq, h1, h2]

theorem digest_named {v : Str} {n : Int} (h : cliName (digest_strtoint v) = .ok n) :
    ∃ m, (m, n) ∈ hmacNames ∧ v.map lower = m.map lower := by
  obtain ⟨h1, h2⟩ := cliName_ok h
  unfold digest_strtoint at h1
  simp only [consts] at h1
  repeat' split at h1
  all_goals first
    | omega
    | (rename_i hc
       subst h1
       refine ⟨_, by unfold hmacNames; simp; rfl, lower_trans hc (by decide)⟩)

theorem mode_named {v : Str} {n : Int} (h : cliName (enc_mode_strtoint v) = .ok n) :
    ∃ m, (m, n) ∈ modeNames ∧ v.map lower = m.map lower := by
  obtain ⟨h1, h2⟩ := cliName_ok h
  unfold enc_mode_strtoint at h1
  split at h1
  · rename_i e he
    have g1 := List.mem_of_find?_eq_some he
    have g2 := List.find?_some he
    simp only [Bool.and_eq_true] at g2
    simp only [fko_enc_mode_strs, List.mem_cons, List.not_mem_nil, or_false, consts] at g1
    rcases g1 with rfl | rfl | rfl | rfl | rfl | rfl | rfl | rfl <;> simp at g2 h1 <;> subst h1 <;>
      exact ⟨_, by unfold modeNames; simp; rfl, lower_trans g2 (by decide)⟩
  · omega

theorem proto_named {v : Str} {n : Int} (h : cliName (proto_strtoint v) = .ok n) :
    ∃ m, (m, n) ∈ protoNames ∧ v.map lower = m.map lower := by
  obtain ⟨h1, h2⟩ := cliName_ok h
  unfold proto_strtoint at h1
  split at h1
  · rename_i e he
    have g1 := List.mem_of_find?_eq_some he
    have g2 := List.find?_some he
    simp only [fko_protocol_array, List.mem_cons, List.not_mem_nil, or_false] at g1
    rcases g1 with rfl | rfl | rfl | rfl | rfl | rfl <;> simp at g2 h1 <;> subst h1 <;>
      exact ⟨_, by unfold protoNames; simp; rfl, lower_trans g2 (by decide)⟩
  · omega


theorem offsetLoop_digits : ∀ (ds acc : Str) (t : Str), (∀ c ∈ ds, isDigit c = true) → ∀ r,
    offsetLoop (ds ++ t) acc = some r → offsetLoop t (acc ++ ds) = some r := by
  intro ds
  induction ds with
  | nil => intro acc t _ r h; simpa using h
  | cons d ds ih =>
    intro acc t hd r h
    rw [List.cons_append] at h
    unfold offsetLoop at h
    rw [if_pos (hd d (by simp))] at h
    split at h
    · cases h
    · have := ih (acc ++ [d]) t (fun c hc => hd c (List.mem_cons_of_mem _ hc)) r h
      simpa using this

theorem offset_value {ds t : Str} {n : Nat} (hd : Decimal ds n) (hn : n < 2 ^ 31) {x mul : Int}
    (hmul : ∀ acc, offsetLoop t acc = some (acc, mul)) (h : parse_time_offset (ds ++ t) = .ok x) : x = n * mul := by
  unfold parse_time_offset at h
  cases hl : offsetLoop (ds ++ t) [] with
  | none => rw [hl] at h; cases h
  | some r =>
    have h1 := offsetLoop_digits ds [] t (fun c hc => (isDigitChar_iff c).1 (hd.2.1 c hc)) r hl
    rw [hmul] at h1
    cases h1
    rw [hl] at h
    simp only [List.nil_append] at h
    obtain ⟨_, h2, h⟩ := Res.bind_eq_ok h
    obtain ⟨_, h3, h⟩ := Res.bind_eq_ok h
    obtain ⟨_, h4, h⟩ := Res.bind_eq_ok h
    cases h
    rw [number_read hd hn]

theorem offset_field {π : CliOpts → Int} {f : CliArg → Option Str}
    (hstep : ∀ o a o', applyArg o a = .ok o' →
      (∀ v, f a = some v → parse_time_offset v = .ok (π o')) ∧ (f a = none → π o' = π o))
    {args : List CliArg} {o o' : CliOpts} (h : applyArgs o args = .ok o') (h0 : π o = 0) :
    Offset (given f args) (π o') ∧ OffsetUnit (given f args) (π o') := by
  have key := read_field hstep h
  rw [h0] at key
  refine ⟨⟨key.1, fun t n ht hd hn => ?_⟩, fun t n u ht hd hn => ?_⟩
  · have h1 := key.2 t ht
    rw [← List.append_nil t] at h1
    have := offset_value hd hn (mul := 1) (fun acc => rfl) h1
    omega
  · have h1 := key.2 _ ht
    refine ⟨fun hu => ?_, fun hu => ?_, fun hu => ?_⟩
    · refine offset_value hd hn (mul := 60) (fun acc => ?_) h1
      rcases hu with rfl | rfl <;> rfl
    · refine offset_value hd hn (mul := 3600) (fun acc => ?_) h1
      rcases hu with rfl | rfl <;> rfl
    · refine offset_value hd hn (mul := 86400) (fun acc => ?_) h1
      rcases hu with rfl | rfl <;> rfl

/-- One step of the loop, for a text or flag field. -/
macro "field_step" : tactic => `(tactic|
  (intro o a o' h
   cases a <;> first
    | (cases h; first | rfl | simp)
    | (obtain ⟨n, h1, h2⟩ := Res.bind_eq_ok h
       cases h2
       first | rfl | simp)))

/-- One step of the loop, for a field that is read. -/
macro "read_step" : tactic => `(tactic|
  (intro o a o' h
   cases a <;> first
    | (cases h; exact ⟨fun v hv => absurd (show (none : Option Str) = some v from hv) (by simp), fun _ => rfl⟩)
    | (obtain ⟨n, h1, h2⟩ := Res.bind_eq_ok h
       cases h2
       first
        | exact ⟨fun v hv => absurd (show (none : Option Str) = some v from hv) (by simp), fun _ => rfl⟩
        | exact ⟨fun v hv => Option.some.inj hv ▸ h1, fun hv => absurd hv (Option.some_ne_none _)⟩)))

theorem named_field {names : List (Str × Int)} {π : CliOpts → Int} {f : CliArg → Option Str} {rd : Str → Int}
    (hrd : ∀ v n, cliName (rd v) = .ok n → ∃ m, (m, n) ∈ names ∧ v.map lower = m.map lower)
    (hstep : ∀ o a o', applyArg o a = .ok o' →
      (∀ v, f a = some v → cliName (rd v) = .ok (π o')) ∧ (f a = none → π o' = π o))
    {args : List CliArg} {o o' : CliOpts} (h : applyArgs o args = .ok o') (h0 : π o = 0) :
    Named names (given f args) (π o') := by
  have key := read_field (rd := fun v => cliName (rd v)) hstep h
  rw [h0] at key
  exact ⟨key.1, fun t ht => hrd t _ (key.2 t ht)⟩

theorem isSome_field {π : CliOpts → Bool} {f : CliArg → Option Str} 
    (hstep : ∀ o a o', applyArg o a = .ok o' → π o' = ((f a).isSome || π o))
    {args : List CliArg} {o o' : CliOpts} (h : applyArgs o args = .ok o') (h0 : π o = false) :
    π o' = (given f args).isSome := by
  rw [flag_set π (fun a => (f a).isSome) hstep args o o' h, h0, Bool.or_false]
  unfold given
  induction args generalizing o with
  | nil => rfl
  | cons a as ih =>
    have ih' : as.any (fun a => (f a).isSome) = (List.filterMap f as).getLast?.isSome := by
      clear h h0 hstep ih
      induction as with
      | nil => rfl
      | cons b bs ih =>
        cases hb : f b with
        | none => simpa [List.filterMap_cons, hb] using ih
        | some x => simp [List.filterMap_cons, hb]
    rw [List.any_cons, ih']
    cases ha : f a with
    | none => simp [ha]
    | some x => simp [List.filterMap_cons, ha]

theorem contains_field {π : CliOpts → Bool} {x : CliArg}
    (hstep : ∀ o a o', applyArg o a = .ok o' → π o' = ((x == a) || π o))
    {args : List CliArg} {o o' : CliOpts} (h : applyArgs o args = .ok o') (h0 : π o = false) :
    π o' = args.contains x := by
  rw [flag_set π (fun a => x == a) hstep args o o' h, h0, Bool.or_false, List.contains_eq_any_beq]

theorem any_field {π : CliOpts → Bool} {f : CliArg → Bool}
    (hstep : ∀ o a o', applyArg o a = .ok o' → π o' = (f a || π o))
    {args : List CliArg} {o o' : CliOpts} (h : applyArgs o args = .ok o') (h0 : π o = false) :
    π o' = args.any f := by
  rw [flag_set π f hstep args o o' h, h0, Bool.or_false]

theorem args_meant {args : List CliArg} {o : CliOpts} (h : applyArgs {} args = .ok o) : Meant args o where
  allow := text_field (π := (·.allow_ip_str)) (by field_step) h rfl
  access := text_field (π := (·.access_str)) (by field_step) h rfl
  command := text_field (π := (·.server_command)) (by field_step) h rfl
  server := text_field (π := (·.spa_server_str)) (by field_step) h rfl
  nat := text_field (π := (·.nat_access_str)) (by field_step) h rfl
  user := text_field (π := (·.spoof_user)) (by field_step) h rfl
  source := text_field (π := (·.spoof_ip_src_str)) (by field_step) h rfl
  key_file := text_field (π := (·.get_key_file)) (by field_step) h rfl
  hmac_file := text_field (π := (·.get_hmac_key_file)) (by field_step) h rfl
  key := ⟨isSome_field (π := (·.have_key)) (by field_step) h rfl, text_field (π := (·.key)) (by field_step) h rfl⟩
  key64 := ⟨isSome_field (π := (·.have_base64_key)) (by field_step) h rfl,
    text_field (π := (·.key_base64)) (by field_step) h rfl⟩
  hmac := ⟨isSome_field (π := (·.have_hmac_key)) (by field_step) h rfl, text_field (π := (·.hmac_key)) (by field_step) h rfl⟩
  hmac64 := ⟨isSome_field (π := (·.have_hmac_base64_key)) (by field_step) h rfl,
    text_field (π := (·.hmac_key_base64)) (by field_step) h rfl⟩
  timeout := numeric_field (π := (·.fw_timeout)) (by decide) (by read_step) h
  nat_port := numeric_field (π := (·.nat_port)) (by decide) (by read_step) h
  port := numeric_field (π := (·.spa_dst_port)) (by decide) (by read_step) h
  src_port := numeric_field (π := (·.spa_src_port)) (by decide) (by read_step) h
  digest := named_field (π := (·.digest_type)) (rd := digest_strtoint) (fun _ _ => digest_named) (by read_step) h rfl
  hmac_type := named_field (π := (·.hmac_type)) (rd := digest_strtoint) (fun _ _ => digest_named) (by read_step) h rfl
  mode := named_field (π := (·.encryption_mode)) (rd := enc_mode_strtoint) (fun _ _ => mode_named) (by read_step) h rfl
  proto := named_field (π := (·.spa_proto)) (rd := proto_strtoint) (fun _ _ => proto_named) (by read_step) h rfl
  plus := offset_field (π := (·.time_offset_plus)) (by read_step) h rfl
  minus := offset_field (π := (·.time_offset_minus)) (by read_step) h rfl
  nat_local := contains_field (π := (·.nat_local)) (by field_step) h rfl
  nat_rand_port := contains_field (π := (·.nat_rand_port)) (by field_step) h rfl
  rand_port := contains_field (π := (·.rand_port)) (by field_step) h rfl
  resolve := contains_field (π := (·.resolve_ip_http_https)) (by field_step) h rfl
  test := contains_field (π := (·.test)) (by field_step) h rfl
  use_hmac := any_field (π := (·.use_hmac)) (by field_step) h rfl
  use_gpg := any_field (π := (·.use_gpg)) (by field_step) h rfl
  recipient := text_field (π := (·.gpg_recipient_key)) (by field_step) h rfl

theorem take_text {v : Str} {n : Nat} (h : IsText v) : IsText (v.take n) := fun c hc => h c (List.mem_of_mem_take hc)

theorem optsOk_default : OptsOk {} := by
  constructor <;> simp [IsText]

theorem optsOk_args {args : List CliArg} (ht : ∀ a ∈ args, IsText (argText a)) {o o' : CliOpts}
    (h : applyArgs o args = .ok o') (ho : OptsOk o) : OptsOk o' := by
  refine args_keep OptsOk ?_ o o' h ho
  intro o a ha o' h ho
  have ht := ht a ha
  have hl : ∀ (v : Str) (n k : Nat), n - 1 ≤ k → (strlcpy v n).length ≤ k := by
    intro v n k hk
    unfold strlcpy
    rw [List.length_take]
    omega
  cases a
  case allow_ip v => cases h; exact { ho with allow := ⟨take_text ht, hl _ _ _ (by decide)⟩ }
  case access v => cases h; exact { ho with access := ⟨take_text ht, hl _ _ _ (by decide)⟩ }
  case server_cmd v => cases h; exact { ho with command := ⟨take_text ht, hl _ _ _ (by decide)⟩ }
  case destination v => cases h; exact { ho with server := ⟨take_text ht, hl _ _ _ (by decide)⟩ }
  case nat_access v => cases h; exact { ho with nat := ⟨take_text ht, hl _ _ _ (by decide)⟩ }
  case spoof_user v => cases h; exact { ho with user := ⟨take_text ht, hl _ _ _ (by decide)⟩ }
  case key v => cases h; exact { ho with key := ⟨take_text ht, hl _ _ _ (by decide)⟩ }
  case hmac_key v => cases h; exact { ho with hmac_key := ⟨take_text ht, hl _ _ _ (by decide)⟩, use_hmac := fun _ => rfl }
  case source_ip => cases h; exact { ho with allow := (show IsText b!"0.0.0.0" ∧ (b!"0.0.0.0").length ≤ 15 by unfold IsText; decide) }
  case hmac_key_base64 v =>
    obtain ⟨_, h1, h2⟩ := Res.bind_eq_ok h
    cases h2; exact { ho with use_hmac := fun _ => rfl }
  case get_hmac_key v => cases h; exact { ho with use_hmac := fun _ => rfl }
  case use_hmac => cases h; exact { ho with use_hmac := fun _ => rfl }
  case fw_timeout v =>
    obtain ⟨n, h1, h2⟩ := Res.bind_eq_ok h
    cases h2
    have := strtol_wrapper_range _ _ _ _ (cliNum_ok h1)
    exact { ho with timeout := by show -1 ≤ n; omega }
  case nat_port v =>
    obtain ⟨n, h1, h2⟩ := Res.bind_eq_ok h
    cases h2
    have := strtol_wrapper_range _ _ _ _ (cliNum_ok h1)
    exact { ho with nat_port := by show 0 ≤ n ∧ n ≤ 65535; simp only [MAX_PORT] at this; omega }
  case digest v =>
    obtain ⟨n, h1, h2⟩ := Res.bind_eq_ok h
    cases h2
    have h3 := cliName_ok h1
    have := digest_strtoint_range v
    exact { ho with digest := by show 0 ≤ n ∧ n ≤ 7; omega }
  case hmac_digest v =>
    obtain ⟨n, h1, h2⟩ := Res.bind_eq_ok h
    cases h2
    have h3 := cliName_ok h1
    have := digest_strtoint_range v
    exact { ho with hmac_type := by { show 0 ≤ n ∧ n ≤ 7; omega }, use_hmac := fun _ => rfl }
  case enc_mode v =>
    obtain ⟨n, h1, h2⟩ := Res.bind_eq_ok h
    cases h2
    have h3 := cliName_ok h1
    have := enc_mode_range v (by omega)
    rw [h3.1] at this
    simp at this
    exact { ho with mode := by show 0 ≤ n ∧ n ≤ 8 ∧ n ≠ 4; omega }
  all_goals first
    | (cases h; exact { ho with })
    | (obtain ⟨n, h1, h2⟩ := Res.bind_eq_ok h
       cases h2
       exact { ho with })

/-- What a validated option record is. -/
structure Valid (o : CliOpts) : Prop where
  server : o.test = true ∨ o.spa_server_str ≠ []
  allow : o.test = true ∨ o.resolve_ip_http_https = true ∨ o.allow_ip_str ≠ []
  spoof : o.spoof_ip_src_str = [] ∨ (is_valid_ipv4_addr o.spoof_ip_src_str o.spoof_ip_src_str.length = true ∧
    (o.spa_proto = 3 ∨ o.spa_proto = 1 ∨ o.spa_proto = 4))
  proxy : o.http_proxy = [] ∨ o.spa_proto = 5
  gpg : o.use_gpg = true → o.gpg_recipient_key ≠ []
  asym : o.encryption_mode = 7 → o.use_gpg = true
  legacy : o.encryption_mode = 8 → o.use_hmac = false
  hmac : o.use_hmac = true → o.hmac_type ≠ 0
  stanza : o.use_rc_stanza = [] ∨ o.got_named_stanza = true
  explicit : o.allow_ip_str = [] ∨ hasPrefixI b!"resolve" o.allow_ip_str = true ∨
    (is_valid_ipv4_addr o.allow_ip_str o.allow_ip_str.length = true ∧ o.resolve_ip_http_https = false)

/-- Validation only decides about resolution and the default HMAC type. -/
theorem validate_full {o o' : CliOpts} (h : validate_options o = .ok o') :
    (Valid o' ∧ o' = { o with
      resolve_ip_http_https := o'.resolve_ip_http_https
      hmac_type := if o.use_hmac = true ∧ o.hmac_type = 0 then 3 else o.hmac_type }) ∧
    (o.allow_ip_str = [] → o.resolve_ip_http_https = true → o'.resolve_ip_http_https = true) := by
  unfold validate_options at h
  obtain ⟨_, g0, h⟩ := Res.bind_eq_ok h
  obtain ⟨o1, g1, h⟩ := Res.bind_eq_ok h
  obtain ⟨o2, g2, h⟩ := Res.bind_eq_ok h
  obtain ⟨_, g3, h⟩ := Res.bind_eq_ok h
  obtain ⟨_, g4, h⟩ := Res.bind_eq_ok h
  obtain ⟨_, g5, h⟩ := Res.bind_eq_ok h
  obtain ⟨_, g6, h⟩ := Res.bind_eq_ok h
  obtain ⟨_, g7, h⟩ := Res.bind_eq_ok h
  have g0 := guard_inv g0
  have g3 := guard_inv g3
  have g4 := guard_inv g4
  have g5 := guard_inv g5
  have g6 := guard_inv g6
  have g7 := guard_inv g7
  have e1 : ∃ b, o1 = { o with resolve_ip_http_https := b } ∧ (o.test = true ∨ o.spa_server_str ≠ []) ∧
      (o.test = true ∨ b = true ∨ o.allow_ip_str ≠ []) ∧ (o.resolve_ip_http_https = true → b = true) := by
    unfold validateDest at g1
    split at g1
    · rename_i ht
      cases g1
      exact ⟨_, rfl, .inl ht, .inl ht, fun h => h⟩
    · obtain ⟨_, q1, g1⟩ := Res.bind_eq_ok g1
      obtain ⟨_, q2, g1⟩ := Res.bind_eq_ok g1
      have q1 := guard_inv q1
      have q2 := guard_inv q2
      cases g1
      simp only [decide_eq_false_iff_not] at q1 q2
      by_cases hu : o.resolve_url.isSome = true
      · rw [if_pos hu]
        exact ⟨true, rfl, .inr q1, .inr (.inl rfl), fun _ => rfl⟩
      · rw [if_neg hu] at q2 ⊢
        refine ⟨o.resolve_ip_http_https, rfl, .inr q1, .inr ?_, fun h => h⟩
        by_cases ha : o.resolve_ip_http_https = true
        · exact .inl ha
        · refine .inr fun hn => q2 ⟨by simpa using ha, hn⟩
  obtain ⟨b, rfl, k1, k2, kr⟩ := e1
  have e2 : ∃ b', o2 = { o with resolve_ip_http_https := b' } ∧ (o.test = true ∨ b' = true ∨ o.allow_ip_str ≠ []) ∧
      (o.allow_ip_str = [] ∨ hasPrefixI b!"resolve" o.allow_ip_str = true ∨
        (is_valid_ipv4_addr o.allow_ip_str o.allow_ip_str.length = true ∧ b' = false)) ∧
      (o.allow_ip_str = [] → b' = b) := by
    unfold validateAllow at g2
    simp only at g2
    split at g2
    · rename_i hc
      obtain ⟨_, q1, g2⟩ := Res.bind_eq_ok g2
      have q1 := guard_inv q1
      cases g2
      exact ⟨false, rfl, .inr (.inr hc.1), .inr (.inr ⟨by simpa using q1, rfl⟩), fun he => absurd he hc.1⟩
    · rename_i hc
      cases g2
      refine ⟨b, rfl, k2, ?_, fun _ => rfl⟩
      by_cases h1 : o.allow_ip_str = []
      · exact .inl h1
      · refine .inr (.inl ?_)
        simpa [h1] using hc
  obtain ⟨b', rfl, k3, k4, k5⟩ := e2
  simp only [decide_eq_false_iff_not] at g0 g3 g4 g5 g6 g7
  simp only [consts] at g6 g7
  have e3 : o' = { o with
      resolve_ip_http_https := b'
      hmac_type := if o.use_hmac = true ∧ o.hmac_type = 0 then 3 else o.hmac_type } := by
    cases h
    simp only [consts]
    by_cases hc : o.use_hmac = true ∧ o.hmac_type = 0
    · rw [if_pos hc, if_pos hc]
    · rw [if_neg hc, if_neg hc]
  refine ⟨⟨?_, by rw [e3]⟩, fun h1 h2 => by rw [e3]; show b' = true; rw [k5 h1, kr h2]⟩
  · rw [e3]
    refine ⟨k1, k3, ?_, ?_, ?_, ?_, ?_, ?_, ?_, k4⟩
    · show o.spoof_ip_src_str = [] ∨ _
      by_cases h1 : o.spoof_ip_src_str = []
      · exact .inl h1
      · refine .inr ?_
        simp only [h1, ne_eq, not_false_eq_true, true_and, not_or] at g3
        refine ⟨by simpa using g3.1, ?_⟩
        have := g3.2
        show o.spa_proto = 3 ∨ o.spa_proto = 1 ∨ o.spa_proto = 4
        omega
    · show o.http_proxy = [] ∨ o.spa_proto = 5
      by_cases h1 : o.http_proxy = []
      · exact .inl h1
      · exact .inr (by apply Classical.byContradiction; intro hn; exact g4 ⟨h1, hn⟩)
    · exact fun hg hn => g5 ⟨hg, hn⟩
    · intro hm
      apply Classical.byContradiction
      intro hn
      exact g6 ⟨hm, by simpa using hn⟩
    · intro hm
      apply Classical.byContradiction
      intro hn
      exact g7 ⟨hm, by simpa using hn⟩
    · intro hu
      show (if o.use_hmac = true ∧ o.hmac_type = 0 then 3 else o.hmac_type) ≠ 0
      split
      · decide
      · rename_i hc
        exact fun h0 => hc ⟨hu, h0⟩
    · show o.use_rc_stanza = [] ∨ o.got_named_stanza = true
      by_cases h1 : o.use_rc_stanza = []
      · exact .inl h1
      · exact .inr (by apply Classical.byContradiction; intro hn; exact g0 ⟨h1, by simpa using hn⟩)

theorem validate_rec {o o' : CliOpts} (h : validate_options o = .ok o') :
    Valid o' ∧ o' = { o with
      resolve_ip_http_https := o'.resolve_ip_http_https
      hmac_type := if o.use_hmac = true ∧ o.hmac_type = 0 then 3 else o.hmac_type } := (validate_full h).1

theorem lowerStr (s : Str) : s.map lower = s.map toLower := by rw [lower_eq]

theorem resolve_iff (s : Str) : hasPrefixI b!"resolve" s = true ↔ IsResolve s := by
  unfold hasPrefixI IsResolve
  rw [List.isPrefixOf_iff_prefix, lowerStr]
  constructor
  · rintro ⟨t, h⟩; exact ⟨t, h.symm⟩
  · rintro ⟨t, h⟩; exact ⟨t, h.symm⟩

theorem ipv4_not_resolve {s : Str} (h : IsIPv4 s) : ¬ IsResolve s := by
  rintro ⟨t, ht⟩
  cases s with
  | nil => simp at ht
  | cons c s =>
    have hc := ipv4_chars _ h c (by simp)
    rw [List.map_cons, List.cons_append] at ht
    have h1 : lower c = 114 := (List.cons.inj ht).1
    have : isDigit c = true → 48 ≤ c ∧ c ≤ 57 := by unfold isDigit; simp
    have h46 : c = 46 ∨ (48 ≤ c ∧ c ≤ 57) := hc.imp id this
    unfold lower at h1
    split at h1 <;> omega

theorem validate_settled {o o' : CliOpts} (ho : OptsOk o) (h : validate_options o = .ok o') : Settled o o' := by
  obtain ⟨⟨hv, e⟩, hr⟩ := validate_full h
  refine ⟨by rw [e], by rw [e], fun hip => ?_, hr⟩
  have h1 : o'.allow_ip_str = o.allow_ip_str := by rw [e]
  rcases hv.explicit with h2 | h2 | h2
  · rw [h1] at h2
    rw [h2] at hip
    have := isIPv4_length hip
    simp at this
  · rw [resolve_iff, h1] at h2
    exact absurd h2 (ipv4_not_resolve hip)
  · exact h2.2

theorem valid_checked {o : CliOpts} (ho : OptsOk o) (hsp : o.spoof_ip_src_str.length ≤ 15) (hv : Valid o) : SendChecked o where
  server := hv.server
  address := hv.allow
  allow := by
    rcases hv.explicit with h | h | h
    · exact .inl h
    · exact .inr (.inl ((resolve_iff _).1 h))
    · exact .inr (.inr ((valid_ipv4_iff _ ho.allow.2).1 h.1))
  source := by
    rcases hv.spoof with h | h
    · exact .inl h
    · exact .inr ⟨(valid_ipv4_iff _ hsp).1 h.1, by omega⟩
  recipient := hv.gpg
  asymmetric := hv.asym
  legacy := hv.legacy

theorem optsOk_valid {o o' : CliOpts} (h : validate_options o = .ok o') (ho : OptsOk o) : OptsOk o' := by
  obtain ⟨-, e⟩ := validate_rec h
  rw [e]
  refine { ho with hmac_type := ?_ }
  have := ho.hmac_type
  show 0 ≤ (if o.use_hmac = true ∧ o.hmac_type = 0 then 3 else o.hmac_type) ∧
    (if o.use_hmac = true ∧ o.hmac_type = 0 then 3 else o.hmac_type) ≤ 7
  split
  · omega
  · exact this

end Fwknop
