import Verif.Lemmas.ClientRcSave
import Verif.Lemmas.ClientRcAsk
import Verif.Props.Client

/-!
# C91-C93: the rc file of the client
-/

namespace Fwknop.Props
open Fwknop Fwknop.Spec

/-! ## C91: the rc file and the command line -/

theorem mapOk_ok {α β : Type} {f : α → β} {r : Res α} {b : β} (h : mapOk f r = .ok b) : ∃ a, r = .ok a ∧ b = f a := by
  cases r with
  | ub => cases h
  | err => cases h
  | ok a => cases h; exact ⟨a, rfl, rfl⟩

/-- The options after the rc file are those of the entries that count. -/
theorem rcOptions_fold {content : Str} {items : List RcItem} (hc : RcHolds content items) {stanza : Str}
    (hs : stanza.length ≤ 1023) {o : CliOpts} (h : rcOptions (some content) stanza false = .ok o) :
    ∃ o1, rcFold (if stanza = [] ∨ hasSection stanza items = true then countingEntries stanza items
        else sectionOf b!"default" items) {} true = .ok o1 ∧
      o = withStz stanza (hasSection stanza items) o1 ∧ o1.use_rc_stanza = [] ∧ o1.got_named_stanza = false := by
  unfold rcOptions at h
  obtain ⟨oa, h1, h2⟩ := Res.bind_eq_ok h
  have hstz : strlcpy stanza MAX_LINE_LEN = stanza := by
    unfold strlcpy
    exact List.take_of_length_le (by omega)
  rw [hstz] at h1
  have h1 : process_rc_section (some content) b!"default" (withStz stanza false {}) = .ok oa := h1
  rw [process_fold hc] at h1
  obtain ⟨o1, hd, rfl⟩ := mapOk_ok h1
  have hfix : ∀ {es : List Entry} {x y : CliOpts}, rcFold es x true = .ok y → withStz [] false x = x → withStz [] false y = y := by
    intro es x y hxy hx
    have := rcFold_stz [] false es x true
    rw [hx, hxy] at this
    injection this with this
    exact this.symm
  have hf1 := hfix hd rfl
  unfold rcNamed at h2
  simp only [Bool.false_or] at h2
  cases hg : hasSection stanza items with
  | false =>
    rw [hg] at h2
    simp only [Bool.false_eq_true, false_and, if_false] at h2
    injection h2 with h2
    refine ⟨o1, ?_, h2.symm, by rw [← hf1], by rw [← hf1]⟩
    by_cases hn : stanza = []
    · rw [if_pos (.inl hn)]
      unfold countingEntries
      rw [if_pos hn, List.append_nil]
      exact hd
    · rw [if_neg (by simp [hn])]
      exact hd
  | true =>
    rw [hg] at h2
    rw [if_pos ⟨rfl, rfl⟩] at h2
    have h2 : process_rc_section (some content) stanza (withStz stanza true o1) = .ok o := h2
    rw [process_fold hc] at h2
    obtain ⟨o2, hd2, rfl⟩ := mapOk_ok h2
    have hf2 := hfix hd2 hf1
    refine ⟨o2, ?_, rfl, by rw [← hf2], by rw [← hf2]⟩
    rw [if_pos (.inr rfl)]
    unfold countingEntries
    have hn : stanza ≠ [] := by
      rintro rfl
      obtain ⟨ls, -, rfl, hls⟩ := hc
      unfold hasSection at hg
      obtain ⟨i, hi, hm⟩ := List.any_eq_true.mp hg
      obtain ⟨p, hp, rfl⟩ := List.mem_map.mp hi
      cases hq : p.2 with
      | skip => rw [hq] at hm; cases hm
      | entry n v => rw [hq] at hm; cases hm
      | head n =>
        rw [hq] at hm
        have hr := (hls p hp).1
        rw [hq] at hr
        generalize p.1 = l at hr
        cases hr with
        | head pre name post _ hne _ =>
          simp only [sameName, decide_eq_true_eq] at hm
          exact hne (by simpa using hm)
    rw [if_neg hn, rcFold_append]
    exact ⟨o1, hd, hd2⟩

/-- **C91** (partial: entries of the table `optionOf`; not both an address and a wish to have it
found; a type of HMAC only together with an HMAC).  Using an rc file is the same as putting the
options that its entries stand for, first those of the section `default`, then those of the stanza of
-n, before the options of the command line. -/
theorem C91_entries_are_options_partial {K : Crypto} {E : CliEnv} {content : Str} {items : List RcItem}
    (hc : RcHolds content items) {stanza : Str} (hs : stanza.length ≤ 1023) {as : List CliArg}
    (hes : optionsOf (countingEntries stanza items) = some as) (haddr : OneAddress as) (hhm : TypedHmac as)
    {args : List CliArg} {r : Packed × Str} (h : clientRc K E (some content) stanza args = .ok r) :
    client K E {} (as ++ args) = .ok r := by
  unfold clientRc at h
  obtain ⟨o, h1, h⟩ := Res.bind_eq_ok h
  obtain ⟨o1, hf, rfl, hz⟩ := rcOptions_fold hc hs h1
  have hfound : stanza = [] ∨ hasSection stanza items = true := by
    unfold client at h
    obtain ⟨x, ha, h⟩ := Res.bind_eq_ok h
    obtain ⟨y, hv, -⟩ := Res.bind_eq_ok h
    rw [applyArgs_stz] at ha
    obtain ⟨x0, -, rfl⟩ := mapOk_ok ha
    have := (validate_rec hv).1.stanza
    rw [(validate_rec hv).2] at this
    exact this
  rw [if_pos hfound] at hf
  have h := client_stz hz h
  have hstep := fold_args _ as {} o1 hes (by
    rintro (hq | hq)
    · cases hq
    · exact haddr hq) hf
  have ha := hstep.args false
  have e0 : withHmac false ({} : CliOpts) = {} := rfl
  rw [e0, Bool.false_or] at ha
  have e1 : withHmac (as.any isHmacDigest) o1 = o1 := by
    cases hd : as.any isHmacDigest with
    | false => unfold withHmac; rw [Bool.or_false]
    | true =>
      obtain ⟨a, hm, ht⟩ := List.any_eq_true.mp hd
      have : o1.use_hmac = true := hstep.hmac (.inr (hhm (by
        cases a with
        | hmac_digest v => exact ⟨v, hm⟩
        | _ => cases ht)))
      unfold withHmac
      rw [Bool.or_true, ← this]
  rw [e1] at ha
  unfold client at h ⊢
  rw [applyArgs_append, ha]
  exact h

/-- **C91** (the other direction for stanzas): no packet is made for a stanza that the file does not have. -/
theorem C91_missing_stanza_refused {K : Crypto} {E : CliEnv} {content : Str} {items : List RcItem}
    (hc : RcHolds content items) {stanza : Str} (hs : stanza.length ≤ 1023) (hne : stanza ≠ [])
    (hno : hasSection stanza items = false) {args : List CliArg} {r : Packed × Str} :
    clientRc K E (some content) stanza args ≠ .ok r := by
  intro h
  unfold clientRc at h
  obtain ⟨o, h1, h⟩ := Res.bind_eq_ok h
  obtain ⟨o1, hf, rfl, hz⟩ := rcOptions_fold hc hs h1
  unfold client at h
  obtain ⟨x, ha, h⟩ := Res.bind_eq_ok h
  obtain ⟨y, hv, -⟩ := Res.bind_eq_ok h
  rw [applyArgs_stz] at ha
  obtain ⟨x0, -, rfl⟩ := mapOk_ok ha
  have := (validate_rec hv).1.stanza
  rw [(validate_rec hv).2] at this
  rcases this with hq | hq
  · exact hne hq
  · rw [show (withStz stanza (hasSection stanza items) x0).got_named_stanza = hasSection stanza items from rfl, hno] at hq
    cases hq

theorem rcFold_unknown {e : Entry} (he : ∀ o r, parse_rc_param o e.1 e.2 = .ok r → r.2 = false) : ∀ (es : List Entry), e ∈ es →
    ∀ (o : CliOpts) (ok : Bool) (o' : CliOpts), rcFold es o ok ≠ .ok o' := by
  intro es
  induction es with
  | nil => intro h; cases h
  | cons e' es ih =>
    intro hm o ok o' h
    unfold rcFold at h
    rcases List.mem_cons.mp hm with rfl | hm
    · split at h
      · cases h
      · cases h
      · rename_i r hr
        rw [he _ _ hr, Bool.and_false] at h
        exact rcFold_false _ _ _ h
    · split at h
      · cases h
      · cases h
      · exact ih hm _ _ _ h

theorem entry_refused {K : Crypto} {E : CliEnv} {content : Str} {items : List RcItem}
    (hc : RcHolds content items) {stanza : Str} (hs : stanza.length ≤ 1023) {e : Entry}
    (he : e ∈ countingEntries stanza items) (hno : ∀ o r, parse_rc_param o e.1 e.2 = .ok r → r.2 = false)
    {args : List CliArg} {r : Packed × Str} : clientRc K E (some content) stanza args ≠ .ok r := by
  intro h
  have hst : stanza = [] ∨ hasSection stanza items = true := by
    apply Classical.byContradiction
    intro hn
    exact C91_missing_stanza_refused hc hs (fun hq => hn (.inl hq)) (by
      cases hq : hasSection stanza items with
      | false => rfl
      | true => exact absurd (.inr hq) hn) h
  unfold clientRc at h
  obtain ⟨o, h1, h⟩ := Res.bind_eq_ok h
  obtain ⟨o1, hf, -⟩ := rcOptions_fold hc hs h1
  rw [if_pos hst] at hf
  exact rcFold_unknown hno _ he _ _ _ hf

/-- **C91** (the other direction for entries): no packet is made when an entry that counts has a name
that is not known. -/
theorem C91_unknown_entry_refused {K : Crypto} {E : CliEnv} {content : Str} {items : List RcItem}
    (hc : RcHolds content items) {stanza : Str} (hs : stanza.length ≤ 1023) {e : Entry}
    (he : e ∈ countingEntries stanza items) (hno : e.1 ∉ rcNames) {args : List CliArg} {r : Packed × Str} :
    clientRc K E (some content) stanza args ≠ .ok r := by
  refine entry_refused hc hs he fun o r hr => ?_
  have hl : lookup_var_by_name e.1 = none := by
    unfold lookup_var_by_name
    rw [List.find?_eq_none.mpr]
    · rfl
    · intro x hx hq
      simp only [decide_eq_true_eq] at hq
      apply hno
      have hall : ∀ x ∈ fko_var_array, x.1 ∈ rcNames := by decide
      rw [← hq]
      exact hall x hx
  unfold parse_rc_param at hr
  rw [hl] at hr
  cases hr
  rfl

/-- Also when an address that counts is none, even if the command line names another. -/
theorem C91_bad_address_refused {K : Crypto} {E : CliEnv} {content : Str} {items : List RcItem}
    (hc : RcHolds content items) {stanza : Str} (hs : stanza.length ≤ 1023) {x : Str}
    (he : (b!"ALLOW_IP", x) ∈ countingEntries stanza items) (hx : allowOption x = .allow_ip x) (hno : ¬ IsIPv4 (x.take 15))
    {args : List CliArg} {r : Packed × Str} : clientRc K E (some content) stanza args ≠ .ok r := by
  refine entry_refused hc hs he fun o r hr => ?_
  have h1 : ¬ strcaseeq x b!"source" = true := by
    intro hq
    rw [sameName_eq] at hq
    unfold allowOption at hx
    rw [if_pos ((of_decide_eq_true hq).trans (show List.map lower b!"source" = b!"source" from by decide))] at hx
    cases hx
  have h2 : ¬ strcaseeq x b!"resolve" = true := by
    intro hq
    have hs' := hq
    rw [sameName_eq] at hq
    unfold allowOption at hx
    split at hx
    · cases hx
    · rw [if_pos ((of_decide_eq_true hq).trans (show List.map lower b!"resolve" = b!"resolve" from by decide))] at hx
      cases hx
  have hr : Res.ok (rcAllow o x) = Res.ok r := hr
  cases hr
  unfold rcAllow
  simp only [h1, h2]
  cases hq : is_valid_ipv4_addr (strlcpy x MAX_IPV4_STR_LEN) (strlcpy x MAX_IPV4_STR_LEN).length with
  | false => rfl
  | true =>
    refine absurd ((valid_ipv4_iff _ ?_).1 hq) hno
    unfold strlcpy
    rw [List.length_take]
    exact Nat.min_le_left _ _

/-- A file with a default, a comment and two stanzas. -/
def rcSample : List (Str × RcItem) :=
  [(b!"# sample", .skip), (b!"[default]", .head b!"default"), (b!"SPA_SERVER_PORT  62202", .entry b!"SPA_SERVER_PORT" b!"62202"),
   ([], .skip), (b!" [Home] ", .head b!"Home"), (b!"SPA_SERVER: spa.example.org", .entry b!"SPA_SERVER" b!"spa.example.org"),
   (b!"  ACCESS  tcp/22 ; ssh", .entry b!"ACCESS" b!"tcp/22"), (b!"ALLOW_IP 5.6.7.8", .entry b!"ALLOW_IP" b!"5.6.7.8"),
   (b!"KEY key#1", .entry b!"KEY" b!"key"), (b!"HMAC_DIGEST_TYPE sha512", .entry b!"HMAC_DIGEST_TYPE" b!"sha512"),
   (b!"HMAC_KEY hmackey", .entry b!"HMAC_KEY" b!"hmackey"), (b!"[work]", .head b!"work"), (b!"NAT_LOCAL Y", .entry b!"NAT_LOCAL" b!"Y")]

theorem rcSample_holds : RcHolds (fileOf (rcSample.map (·.1))) (rcSample.map (·.2)) := by
  refine ⟨rcSample, rfl, rfl, ?_⟩
  have key : ∀ {l : Str} {i : RcItem}, RcMeans l i → (∀ c ∈ l, (0 < c ∧ c < 256) ∧ c ≠ 10) → l.length ≤ 1022 →
      RcMeans l i ∧ IsText l ∧ 10 ∉ l ∧ l.length ≤ 1022 :=
    fun h1 h2 h3 => ⟨h1, fun c hc => (h2 c hc).1, fun hm => (h2 10 hm).2 rfl, h3⟩
  have sp : ∀ l : Str, l.all (fun c => c = 32 ∨ c = 9) = true → ∀ c ∈ l, SpTab c := by
    intro l h c hc
    have := List.all_eq_true.mp h c hc
    simpa [SpTab] using this
  intro p hp
  simp only [rcSample, List.mem_cons, List.not_mem_nil, or_false] at hp
  rcases hp with rfl | rfl | rfl | rfl | rfl | rfl | rfl | rfl | rfl | rfl | rfl | rfl | rfl
  · exact key (.comment 35 b!" sample" (.inl rfl)) (by decide) (by decide)
  · exact key (.head [] b!"default" [] (by simp) (by decide) (by decide)) (by decide) (by decide)
  · exact key (.entry [] b!"SPA_SERVER_PORT" [] b!"  " b!"62202" [] (by simp) (by decide) (by decide) (by decide) (by decide)
      (by decide) (.inl rfl) (by decide) (sp _ rfl) (by decide) (by decide) (.inl rfl)) (by decide) (by decide)
  · exact key .empty (by simp) (by decide)
  · exact key (.head b!" " b!"Home" b!" " (sp _ rfl) (by decide) (by decide)) (by decide) (by decide)
  · exact key (.entry [] b!"SPA_SERVER" b!":" b!" " b!"spa.example.org" [] (by simp) (by decide) (by decide) (by decide) (by decide)
      (by decide) (.inr rfl) (by decide) (sp _ rfl) (by decide) (by decide) (.inl rfl)) (by decide) (by decide)
  · exact key (.entry b!"  " b!"ACCESS" [] b!"  " b!"tcp/22" b!" ; ssh" (sp _ rfl) (by decide) (by decide) (by decide) (by decide)
      (by decide) (.inl rfl) (by decide) (sp _ rfl) (by decide) (by decide) (.inr ⟨32, _, rfl, .inl rfl⟩)) (by decide) (by decide)
  · exact key (.entry [] b!"ALLOW_IP" [] b!" " b!"5.6.7.8" [] (by simp) (by decide) (by decide) (by decide) (by decide)
      (by decide) (.inl rfl) (by decide) (sp _ rfl) (by decide) (by decide) (.inl rfl)) (by decide) (by decide)
  · exact key (.entry [] b!"KEY" [] b!" " b!"key" b!"#1" (by simp) (by decide) (by decide) (by decide) (by decide)
      (by decide) (.inl rfl) (by decide) (sp _ rfl) (by decide) (by decide) (.inr ⟨35, _, rfl, by decide⟩)) (by decide) (by decide)
  · exact key (.entry [] b!"HMAC_DIGEST_TYPE" [] b!" " b!"sha512" [] (by simp) (by decide) (by decide) (by decide) (by decide)
      (by decide) (.inl rfl) (by decide) (sp _ rfl) (by decide) (by decide) (.inl rfl)) (by decide) (by decide)
  · exact key (.entry [] b!"HMAC_KEY" [] b!" " b!"hmackey" [] (by simp) (by decide) (by decide) (by decide) (by decide)
      (by decide) (.inl rfl) (by decide) (sp _ rfl) (by decide) (by decide) (.inl rfl)) (by decide) (by decide)
  · exact key (.head [] b!"work" [] (by simp) (by decide) (by decide)) (by decide) (by decide)
  · exact key (.entry [] b!"NAT_LOCAL" [] b!" " b!"Y" [] (by simp) (by decide) (by decide) (by decide) (by decide)
      (by decide) (.inl rfl) (by decide) (sp _ rfl) (by decide) (by decide) (.inl rfl)) (by decide) (by decide)

example : hasSection b!"hom" (rcSample.map (·.2)) = false := by decide
example : (b!"CLIENT_TIMEOUT", b!"60") ∈ countingEntries [] [.head b!"default", .entry b!"CLIENT_TIMEOUT" b!"60"] ∧
    b!"CLIENT_TIMEOUT" ∉ rcNames := by decide

example : allowOption b!"1.2.3" = .allow_ip b!"1.2.3" ∧ (b!"ALLOW_IP", b!"1.2.3") ∈ countingEntries b!"h"
    [.head b!"h", .entry b!"ALLOW_IP" b!"1.2.3"] ∧ is_valid_ipv4_addr b!"1.2.3" 5 = false := by decide

/-- The options of the sample's stanza `home`. -/
def rcSampleArgs : List CliArg :=
  [.server_port b!"62202", .destination b!"spa.example.org", .access b!"tcp/22", .allow_ip b!"5.6.7.8", .key b!"key",
   .hmac_digest b!"sha512", .hmac_key b!"hmackey"]

example : optionsOf (countingEntries b!"home" (rcSample.map (·.2))) = some rcSampleArgs := by decide +kernel

example : OneAddress rcSampleArgs ∧ TypedHmac rcSampleArgs :=
  ⟨fun h => absurd h (by decide), fun _ => by decide⟩

/-- A packet is made with it. -/
example : isErr (clientRc toyCrypto cliEnv (some (fileOf (rcSample.map (·.1)))) b!"home" [.fw_timeout b!"60"]) = false ∧
    isUb (clientRc toyCrypto cliEnv (some (fileOf (rcSample.map (·.1)))) b!"home" [.fw_timeout b!"60"]) = false := by
  decide +kernel

/-- **C91**, with C86 (partial in the same way): a server with the same keys reads from the packet of
a run with an rc file exactly the request that the entries that count and the command line ask for, the
command line counting more than the stanza, and this more than the section `default`. -/
theorem C91_server_reads_what_the_rc_file_asks_partial {K : Crypto} (hH : K.H.Lawful) (hbc : K.bc.Lawful) {E : CliEnv}
    {content : Str} {items : List RcItem}
    (hc : RcHolds content items) {stanza : Str} (hs : stanza.length ≤ 1023) {as : List CliArg}
    (hes : optionsOf (countingEntries stanza items) = some as) (haddr : OneAddress as) (hhm : TypedHmac as)
    {args : List CliArg} (htext : ∀ a ∈ as ++ args, IsText (argText a))
    (hrand : 16 ≤ E.rands.length ∧ 16 ≤ E.rands2.length) (hsalt : E.salt.length = 8 ∧ IsBytes E.salt)
    (hres : ∀ ip, E.resolved = some ip → IsText ip ∧ ip.length ≤ 15)
    (hcmd : (given argCommand (as ++ args)).getD [] ≠ [] → CliArg.nat_local ∉ as ++ args ∧ given argNat (as ++ args) = none ∧
      given argTimeout (as ++ args) = none)
    (hgpg : (as ++ args).any asksGpg = false) {p : Packed} {t : Str}
    (h : clientRc K E (some content) stanza args = .ok (p, t)) :
    ∃ o o' r, Meant (as ++ args) o ∧ Settled o o' ∧ Asks E o' r ∧
      (FitsReceiver r → p.hmac ≠ some [] →
        plainLen r (if o'.digest_type = 0 then 3 else o'.digest_type) ≤ (if p.hmac = none then 287 else 271) →
        ∃ s, fko_new_with_data K t (some p.key) (if o'.encryption_mode = 0 then 2 else o'.encryption_mode) p.hmac
          (if p.hmac = none then 0 else o'.hmac_type) = .ok s ∧ Carries s r) :=
  C86_server_reads_what_was_asked_partial hH hbc htext hrand hsalt hres hcmd hgpg
    (C91_entries_are_options_partial hc hs hes haddr hhm h)

example : ∀ a ∈ rcSampleArgs ++ [CliArg.fw_timeout b!"60"], IsText (argText a) := by
  intro a ha
  have : (rcSampleArgs ++ [CliArg.fw_timeout b!"60"]).all (fun a => (argText a).all fun c => 0 < c ∧ c < 256) = true := by decide
  have := List.all_eq_true.mp this a ha
  intro c hc
  simpa using List.all_eq_true.mp this c hc

/-! ### Where entries and options differ -/

/-- What a run with an rc file settles on. -/
def rcSettled (lines : List Str) (stanza : Str) (args : List CliArg) : Res CliOpts := do
  let o ← rcOptions (some (fileOf lines)) stanza false
  let o ← applyArgs o args
  validate_options o

/-- **C91 is false with two addresses**: a stanza cannot ask for resolution when the section `default`
names an address; the option -R, given after -a, is lost in the same way. -/
theorem C91_resolve_cannot_override :
    (do let o ← rcSettled [b!"[default]", b!"ALLOW_IP 1.2.3.4", b!"[home]", b!"SPA_SERVER h", b!"ALLOW_IP resolve"] b!"home" []
        return (o.allow_ip_str, o.resolve_ip_http_https)) = .ok (b!"1.2.3.4", false) := by decide +kernel

/-- But where the address comes last the two ways differ in what is kept before the checks: ALLOW_IP
switches resolution off at once, -a only when it is checked. -/
theorem C91_address_switches_resolution_off :
    (do let o ← rcOptions (some (fileOf [b!"[default]", b!"RESOLVE_IP_HTTPS Y", b!"ALLOW_IP 1.2.3.4"])) [] false
        return o.resolve_ip_http_https) = .ok false ∧
    (do let o ← applyArgs {} [.resolve, .allow_ip b!"1.2.3.4"]
        return o.resolve_ip_http_https) = .ok true := by decide +kernel

/-- **The choice of an HMAC type switches the HMAC on only on the command line.** -/
theorem C91_hmac_type_alone :
    (do let o ← rcSettled [b!"[default]", b!"SPA_SERVER h", b!"ALLOW_IP 1.2.3.4", b!"HMAC_DIGEST_TYPE sha512"] [] []
        return o.use_hmac) = .ok false ∧
    (do let o ← rcSettled [b!"[default]", b!"SPA_SERVER h", b!"ALLOW_IP 1.2.3.4"] [] [.hmac_digest b!"sha512"]
        return o.use_hmac) = .ok true := by decide +kernel

/-- **HMAC_KEY_FILE names the file of the encryption key**, and asks for no HMAC: the packet is sent
without one. -/
theorem C91_hmac_key_file_is_taken_for_the_key_file :
    (do let o ← rcSettled [b!"[default]", b!"SPA_SERVER h", b!"ALLOW_IP 1.2.3.4", b!"KEY_FILE /k", b!"HMAC_KEY_FILE /h"] [] []
        return (o.get_key_file, o.get_hmac_key_file, o.use_hmac)) = .ok (b!"/h", [], false) := by decide +kernel

/-- **A stanza cannot switch off** what the section `default` switches on. -/
theorem C91_no_does_not_reset :
    (do let o ← rcSettled [b!"[default]", b!"NAT_LOCAL Y", b!"USE_HMAC Y", b!"[home]", b!"SPA_SERVER h", b!"ALLOW_IP 1.2.3.4",
          b!"NAT_LOCAL N", b!"USE_HMAC N"] b!"home" []
        return (o.nat_local, o.use_hmac)) = .ok (true, true) := by decide +kernel

/-- **A key of the rc file counts more than a base64 key of the command line**, as a plain key precedes
a base64 key wherever they come from. -/
theorem C91_plain_key_precedes :
    (do let o ← rcSettled [b!"[default]", b!"SPA_SERVER h", b!"ALLOW_IP 1.2.3.4", b!"KEY old"] [] [.key_base64 b!"bmV3a2V5"]
        getKey cliEnv o) = .ok b!"old" := by decide +kernel

/-- **The example of a timeout in the file the client itself writes** (client/config_init.c:902) names a
variable that does not exist: without its comment sign every run ends with an error.  The longest
timeout of the file is half that of the command line. -/
theorem C91_timeouts :
    rcSettled [b!"[default]", b!"SPA_SERVER h", b!"ALLOW_IP 1.2.3.4", b!"CLIENT_TIMEOUT 60"] [] [] = .err ∧
    rcSettled [b!"[default]", b!"SPA_SERVER h", b!"ALLOW_IP 1.2.3.4", b!"FW_TIMEOUT 65537"] [] [] = .err ∧
    (do let o ← rcSettled [b!"[default]", b!"SPA_SERVER h", b!"ALLOW_IP 1.2.3.4"] [] [.fw_timeout b!"65537"]
        return o.fw_timeout) = .ok 65537 := by decide +kernel

/-! ## C92: saving a stanza -/

theorem rcOptions_default {content : Str} {items : List RcItem} (hc : RcHolds content items) {stanza : Str} (hs : stanza.length ≤ 1023)
    (save : Bool) : rcOptions (some content) stanza save =
      mapOk (withStz stanza (hasSection stanza items)) (rcFold (sectionOf b!"default" items) {} true) >>= rcNamed (some content) save := by
  unfold rcOptions
  have hstz : strlcpy stanza MAX_LINE_LEN = stanza := by
    unfold strlcpy
    exact List.take_of_length_le (by omega)
  rw [hstz]
  have h1 : process_rc_section (some content) b!"default" (withStz stanza false {}) = _ := process_fold hc _ _ _ _
  rw [Bool.false_or] at h1
  rw [← h1]

theorem noEmptySection {content : Str} {items : List RcItem} (hc : RcHolds content items) : hasSection [] items = false := by
  cases hg : hasSection [] items with
  | false => rfl
  | true =>
    obtain ⟨ls, -, rfl, hls⟩ := hc
    unfold hasSection at hg
    obtain ⟨i, hi, hm⟩ := List.any_eq_true.mp hg
    obtain ⟨p, hp, rfl⟩ := List.mem_map.mp hi
    cases hq : p.2 with
    | skip => rw [hq] at hm; cases hm
    | entry n v => rw [hq] at hm; cases hm
    | head n =>
      rw [hq] at hm
      have hr := (hls p hp).1
      rw [hq] at hr
      generalize p.1 = l at hr
      cases hr with
      | head pre name post _ hne _ =>
        simp only [sameName, decide_eq_true_eq] at hm
        exact absurd (by simpa using hm) hne

theorem validate_stanza {o v : CliOpts} {s : Str} {g : Bool} (h : validate_options (withStz s g o) = .ok v) : v.use_rc_stanza = s := by
  rw [(validate_rec h).2]

theorem getLastD_two {α : Type} (l : List α) (a b d : α) : (l ++ [a, b]).getLastD d = b := by
  rw [List.getLastD_eq_getLast?]; simp

/-- **C92** (partial: only what `Savable` and `SavableNumbers` allow; the stanza, if it is there, occurs
once and is overwritten without questions).  After a run that saves a stanza, the file is well-formed,
every other section has the entries it had, and using the stanza without any other option leads to the
options of the run that saved it, and so makes exactly the packets that the saving command line makes with
the file as it was. -/
theorem C92_saved_stanza_is_the_command_line_partial {content : Str} {items : List RcItem} (hc : RcHolds content items)
    {stanza : Str} (hlen : stanza.length ≤ 1023) {force : Bool} {answers : List Bool} {args : List CliArg} {v : CliOpts} {d : RcFs}
    (hs : ∀ a ∈ args, Savable a) (h : saveStanza ⟨some content, none⟩ stanza force answers args = .ok (v, d))
    (hn : SavableNumbers args v) {name : Str} (hname : name = if stanza = [] then v.spa_server_str else stanza)
    (hst : StanzaName name) (hf : force = true ∨ hasSection name items = false) (h1 : sectionCount name items ≤ 1) :
    ∃ new items', d = ⟨some new, none⟩ ∧ RcHolds new items' ∧
      (∀ sect, ¬ sameName name sect = true → sectionOf sect items' = sectionOf sect items) ∧
      (rcOptions (some new) name false >>= validate_options) = .ok v ∧
      ∀ (K : Crypto) (E : CliEnv) (r : Packed × Str),
        clientRc K E (some new) name [] = .ok r ↔ clientRc K E (some content) [] args = .ok r := by
  unfold saveStanza at h
  obtain ⟨o1, h2, h⟩ := Res.bind_eq_ok h
  rw [rcOptions_default hc hlen] at h2
  obtain ⟨o0, h3, h2⟩ := Res.bind_eq_ok h2
  obtain ⟨oD, hD, rfl⟩ := mapOk_ok h3
  have : rcNamed (some content) true (withStz stanza (hasSection stanza items) oD) = .ok (withStz stanza (hasSection stanza items) oD) := by
    unfold rcNamed
    rw [if_neg (by simp)]
  rw [this] at h2
  cases h2
  obtain ⟨o2, h4, h⟩ := Res.bind_eq_ok h
  rw [applyArgs_stz] at h4
  obtain ⟨oA, hA, rfl⟩ := mapOk_ok h4
  obtain ⟨_, -, h⟩ := Res.bind_eq_ok h
  obtain ⟨v', hv, h⟩ := Res.bind_eq_ok h
  have e : v' = v ∧ updAfter v' force (argMask args) answers ⟨some content, none⟩ = d := by
    injection h with h
    injection h with e1 e2
    exact ⟨e1, e2⟩
  obtain ⟨rfl, rfl⟩ := e
  have hv : validate_options (withStz (if stanza = [] then oA.spa_server_str else stanza) true oA) = .ok v' := by
    rw [← hv]
    by_cases he : stanza = []
    · rw [if_pos he, if_pos (by exact he)]
    · rw [if_neg he, if_neg (by exact he)]
  have hsrv : v'.spa_server_str = oA.spa_server_str := by rw [(validate_rec hv).2]
  rw [← hsrv, ← hname] at hv
  have hF := frame_args args oD oA hs hA
  have hR := readable_saved hs hF hv hn
  have hu := validate_stanza hv
  obtain ⟨new, items', hupd, hnew, hsec, hoth, hsav⟩ := saved_file (answers := answers) hR (by rw [hu]; exact hst) hc
    (by rw [hu]; exact hf) (by rw [hu]; exact h1)
  rw [hu] at hsec hoth hsav
  have hdef : sectionOf b!"default" items' = sectionOf b!"default" items := hoth _ (by
    have := hst.2.2.1
    simpa using this)
  have hleft : rcOptions (some new) name false = .ok (withStz name true (putAll (argMask args) v' oD)) := by
    rw [rcOptions_default hnew (by have := hst.2.1; omega), hdef, hD, hsec]
    show rcNamed (some new) false (withStz name true oD) = _
    unfold rcNamed
    rw [if_pos ⟨rfl, rfl⟩]
    show process_rc_section (some new) name (withStz name true oD) = _
    rw [process_fold hnew, hsav, read_saved hR _ _ (fun _ he => he)]
    rfl
  refine ⟨new, items', ?_, hnew, fun sect hq => hoth sect (by simpa using hq), ?_, fun K E r => ?_⟩
  · unfold updAfter updStates
    simp only [hupd]
    exact getLastD_two _ _ _ _
  · rw [hleft, Res.bind_ok]
    exact saved_validates hF hv hn
  · have hright : rcOptions (some content) [] false = .ok (withStz [] false oD) := by
      rw [rcOptions_default hc (by decide), hD, noEmptySection hc]
      show rcNamed (some content) false (withStz [] false oD) = _
      unfold rcNamed
      rw [if_neg (by intro hq; cases hq.1)]
    obtain ⟨v0, hv0, hv1⟩ := validate_stz hv
    unfold clientRc client
    rw [hleft, hright]
    simp only [Res.bind_ok]
    rw [applyArgs_stz [] false, hA]
    show (do
      let o ← validate_options (withStz name true (putAll (argMask args) v' oD))
      let p ← clientPack K E o
      let t ← Res.ofOpt (fko_get_spa_data p.ctx)
      pure (p, t)) = Res.ok r ↔ (do
      let o ← validate_options (withStz [] false oA)
      let p ← clientPack K E o
      let t ← Res.ofOpt (fko_get_spa_data p.ctx)
      pure (p, t)) = Res.ok r
    rw [saved_validates hF hv hn, hv0]
    simp only [Res.bind_ok]
    rw [hv1, pack_stz]

theorem save_front {content : Str} {items : List RcItem} (hc : RcHolds content items)
    {stanza : Str} (hlen : stanza.length ≤ 1023) {force : Bool} {answers : List Bool} {args : List CliArg} {v : CliOpts} {d : RcFs}
    (hs : ∀ a ∈ args, Savable a) (h : saveStanza ⟨some content, none⟩ stanza force answers args = .ok (v, d))
    (hn : SavableNumbers args v) {name : Str} (hname : name = if stanza = [] then v.spa_server_str else stanza) :
    Readable (argMask args) v ∧ v.use_rc_stanza = name ∧
      ∀ force' answers', saveStanza ⟨some content, none⟩ stanza force' answers' args =
        .ok (v, updAfter v force' (argMask args) answers' ⟨some content, none⟩) := by
  unfold saveStanza at h
  obtain ⟨o1, h2, h⟩ := Res.bind_eq_ok h
  have e1 := h2
  rw [rcOptions_default hc hlen] at h2
  obtain ⟨o0, h3, h2⟩ := Res.bind_eq_ok h2
  obtain ⟨oD, hD, rfl⟩ := mapOk_ok h3
  have : rcNamed (some content) true (withStz stanza (hasSection stanza items) oD) = .ok (withStz stanza (hasSection stanza items) oD) := by
    unfold rcNamed
    rw [if_neg (by simp)]
  rw [this] at h2
  cases h2
  obtain ⟨o2, h4, h⟩ := Res.bind_eq_ok h
  have e2 := h4
  rw [applyArgs_stz] at h4
  obtain ⟨oA, hA, rfl⟩ := mapOk_ok h4
  obtain ⟨_, e3, h⟩ := Res.bind_eq_ok h
  obtain ⟨v', hv, h⟩ := Res.bind_eq_ok h
  have e4 := hv
  have e : v' = v ∧ updAfter v' force (argMask args) answers ⟨some content, none⟩ = d := by
    injection h with h
    injection h with e1 e2
    exact ⟨e1, e2⟩
  obtain ⟨rfl, rfl⟩ := e
  have hv : validate_options (withStz (if stanza = [] then oA.spa_server_str else stanza) true oA) = .ok v' := by
    rw [← hv]
    by_cases he : stanza = []
    · rw [if_pos he, if_pos (by exact he)]
    · rw [if_neg he, if_neg (by exact he)]
  have hsrv : v'.spa_server_str = oA.spa_server_str := by rw [(validate_rec hv).2]
  rw [← hsrv, ← hname] at hv
  have hF := frame_args args oD oA hs hA
  refine ⟨readable_saved hs hF hv hn, validate_stanza hv, fun force' answers' => ?_⟩
  unfold saveStanza
  rw [e1, Res.bind_ok, e2, Res.bind_ok, e3, Res.bind_ok]
  dsimp only at e4 ⊢
  rw [e4]
  rfl

theorem updAfter_done {v : CliOpts} {force : Bool} {m : RcVar → Bool} {answers : List Bool} {content new : Str}
    (h : updText v force m answers content = .done new) : updAfter v force m answers ⟨some content, none⟩ = ⟨some new, none⟩ := by
  unfold updAfter updStates
  simp only [h]
  exact getLastD_two _ _ _ _

/-- **C92, the questions** (partial: only what `Savable` and `SavableNumbers` allow; the stanza occurs at
most once).  Without --force-stanza the user is asked for each secret entry of the stanza that is there; the
entries that are to stay do, and of the entries that a save with --force-stanza would make, those of other
names follow.  Other sections have the entries they had. -/
theorem C92_kept_entries_partial {content : Str} {items : List RcItem} (hc : RcHolds content items)
    {stanza : Str} (hlen : stanza.length ≤ 1023) {answers : List Bool} {args : List CliArg} {v : CliOpts} {d : RcFs}
    (hs : ∀ a ∈ args, Savable a) (h : saveStanza ⟨some content, none⟩ stanza false answers args = .ok (v, d))
    (hn : SavableNumbers args v) {name : Str} (hname : name = if stanza = [] then v.spa_server_str else stanza)
    (hst : StanzaName name) (h1 : sectionCount name items ≤ 1)
    {kept : List Entry} (hk : keptEntries (sectionOf name items) answers = some kept) :
    ∃ new items' forced items0,
      saveStanza ⟨some content, none⟩ stanza true [] args = .ok (v, ⟨some forced, none⟩) ∧ RcHolds forced items0 ∧
      d = ⟨some new, none⟩ ∧ RcHolds new items' ∧
      (∀ sect, ¬ sameName name sect = true → sectionOf sect items' = sectionOf sect items) ∧
      sectionOf name items' = kept ++ otherNames kept (sectionOf name items0) := by
  obtain ⟨hR, hu, hall⟩ := save_front hc hlen hs h hn hname
  subst hu
  obtain ⟨forced, items0, hupd0, hf0, -, -, hs0⟩ := saved_file (force := true) (answers := []) hR hst hc (.inl rfl) h1
  obtain ⟨new, items', hupd, hnew, hoth, hsec⟩ := asked_file (answers := answers) hR hst hc h1 hk
  have hd := hall false answers
  rw [h, updAfter_done hupd] at hd
  injection hd with hd
  injection hd with _ hd
  exact ⟨new, items', forced, items0, by rw [hall true [], updAfter_done hupd0], hf0, hd, hnew,
    fun sect hq => hoth sect (by simpa using hq), by rw [hsec, hs0]⟩

/-- The arguments of a run that saves the stanza `home` of the sample anew. -/
def saveArgs : List CliArg :=
  [.destination b!"spa.example.org", .access b!"tcp/443", .allow_ip b!"9.8.7.6", .key b!"other", .fw_timeout b!"60",
   .hmac_key b!"hk", .time_minus b!"2m", .server_proto b!"TCP", .digest b!"sha1", .enc_mode b!"ctr", .nat_local]

def okAnd {α : Type} (p : α → Bool) : Res α → Bool
  | .ok a => p a
  | _ => false

example : (∀ a ∈ saveArgs, Savable a) ∧ StanzaName b!"home" ∧ sectionCount b!"home" (rcSample.map (·.2)) ≤ 1 := by
  refine ⟨?_, ?_, by decide⟩
  · intro a ha
    simp only [saveArgs, List.mem_cons, List.not_mem_nil, or_false] at ha
    rcases ha with rfl | rfl | rfl | rfl | rfl | rfl | rfl | rfl | rfl | rfl | rfl
    · show PlainValue _; decide
    · show PlainValue _; decide
    · refine ⟨by decide, ?_⟩
      rintro ⟨t, ht⟩
      exact absurd (congrArg List.head? ht) (show ¬ (some 57 = some 114) by decide)
    · show PlainValue _; decide
    · trivial
    · show PlainValue _; decide
    · trivial
    · trivial
    · trivial
    · trivial
    · trivial
  · exact ⟨by decide, by decide, by decide, by decide⟩

/-- The saving run succeeds, with numbers that can be saved, and the stanza can be used. -/
example : okAnd (fun r => r.1.fw_timeout == 60 && r.1.time_offset_plus == 0 && r.1.time_offset_minus == 120 &&
      !isErr (clientRc toyCrypto cliEnv r.2.rc b!"home" []) && !isUb (clientRc toyCrypto cliEnv r.2.rc b!"home" []))
    (saveStanza ⟨some (fileOf (rcSample.map (·.1))), none⟩ b!"home" true [] saveArgs) = true := by decide +kernel

/-! ### Stanzas that do not hold what was saved -/

/-- Save a stanza `h`, overwriting without questions, and read it. -/
def saveRead (lines : List Str) (answers : List Bool) (force : Bool) (args : List CliArg) : Res (CliOpts × Res CliOpts) := do
  let r ← saveStanza ⟨some (fileOf lines), none⟩ b!"h" force answers (.destination b!"s" :: args)
  return (r.1, do
    let o ← rcOptions r.2.rc b!"h" false
    validate_options o)

/-- **A stanza given twice in a row**: the second one is not replaced, and its settings come back. -/
theorem C92_false_for_a_stanza_given_twice :
    okAnd (fun r => r.1.fw_timeout == -1 && okAnd (fun o => o.fw_timeout == 5) r.2)
      (saveRead [b!"[h]", b!"SPA_SERVER a", b!"[H]", b!"FW_TIMEOUT 5"] [] true [.allow_ip b!"1.2.3.4"]) = true := by decide +kernel

/-- **Some saved numbers make the stanza unreadable**: a timeout above 65536, a time offset in days, an
offset of 0. -/
theorem C92_false_for_large_numbers :
    okAnd (fun r => isErr r.2) (saveRead [b!"[default]"] [] true [.allow_ip b!"1.2.3.4", .fw_timeout b!"70000"]) = true ∧
    okAnd (fun r => isErr r.2) (saveRead [b!"[default]"] [] true [.allow_ip b!"1.2.3.4", .time_plus b!"1d"]) = true ∧
    okAnd (fun r => isErr r.2) (saveRead [b!"[default]"] [] true [.allow_ip b!"1.2.3.4", .time_plus b!"0"]) = true := by decide +kernel

/-- **Of two time offsets one is lost.** -/
theorem C92_false_for_two_offsets :
    okAnd (fun r => r.1.time_offset_plus == 5 && okAnd (fun o => o.time_offset_plus == 0) r.2)
      (saveRead [b!"[default]"] [] true [.allow_ip b!"1.2.3.4", .time_plus b!"5", .time_minus b!"7"]) = true := by decide +kernel

/-- **-s is not saved**: the stanza cannot be used without an address.  A value with a blank loses what
follows it.  A file for the HMAC key becomes a file for the encryption key, and the HMAC is off. -/
theorem C92_false_for_other_options :
    okAnd (fun r => r.1.allow_ip_str == b!"0.0.0.0" && isErr r.2) (saveRead [b!"[default]"] [] true [.source_ip]) = true ∧
    okAnd (fun r => r.1.spoof_user == b!"a b" && okAnd (fun o => o.spoof_user == b!"a") r.2)
      (saveRead [b!"[default]"] [] true [.allow_ip b!"1.2.3.4", .spoof_user b!"a b"]) = true ∧
    okAnd (fun r => r.1.use_hmac && okAnd (fun o => !o.use_hmac && o.get_key_file == b!"/k") r.2)
      (saveRead [b!"[default]"] [] true [.allow_ip b!"1.2.3.4", .get_hmac_key b!"/k"]) = true := by decide +kernel

/-- The user keeps the old key and gives up the old HMAC key. -/
example :
    okAnd (fun r => r.2.rc == some (fileOf [b!"[default]", b!"[h]", b!"KEY old", varLine b!"ALLOW_IP" b!"1.2.3.4",
        varLine b!"SPA_SERVER" b!"s", varLine b!"HMAC_KEY" b!"n2", varLine b!"USE_HMAC" b!"Y"]))
      (saveStanza ⟨some (fileOf [b!"[default]", b!"[h]", b!"KEY old", b!"FW_TIMEOUT 5", b!"HMAC_KEY x"]), none⟩ b!"h" false [false, true]
        [.destination b!"s", .allow_ip b!"1.2.3.4", .key b!"n1", .hmac_key b!"n2"]) = true := by decide +kernel

/-- The recipient of an encryption with GnuPG is saved, and that GnuPG is used. -/
example : okAnd (fun r => okAnd (fun o => o.use_gpg && o.gpg_recipient_key == b!"ABCD") r.2)
    (saveRead [b!"[default]"] [] true [.allow_ip b!"1.2.3.4", .gpg_recipient b!"ABCD"]) = true := by decide +kernel

/-- **A key that the user keeps wins over a new key in base64**: both are in the stanza. -/
theorem C92_false_for_a_kept_key :
    okAnd (fun r => okAnd (fun o => o.have_key && o.key == b!"old" && o.key_base64 == b!"bmV3") r.2)
      (saveRead [b!"[h]", b!"KEY old"] [false] false [.allow_ip b!"1.2.3.4", .key_base64 b!"bmV3"]) = true := by decide +kernel

/-! ## C93: the rc file while a stanza is saved -/

/-- **C93**: at every moment of the update, so also when the client is killed, the old text is whole in
the rc file, or the complete new text is in the rc file or in the file beside it. -/
theorem C93_old_or_new_text_is_there (o : CliOpts) (force : Bool) (mask : RcVar → Bool) (answers : List Bool) (content : Str)
    (s : RcFs) (hs : s ∈ updStates o force mask answers ⟨some content, none⟩) :
    s.rc = some content ∨ ∃ new, updAfter o force mask answers ⟨some content, none⟩ = ⟨some new, none⟩ ∧
      (s = ⟨none, some new⟩ ∨ s = ⟨some new, none⟩) := by
  unfold updAfter
  unfold updStates at hs ⊢
  simp only at hs ⊢
  split at hs
  · simp only [List.mem_cons, List.not_mem_nil, or_false] at hs
    rcases hs with rfl | rfl <;> exact .inl rfl
  · rcases List.mem_cons.mp hs with rfl | hs
    · exact .inl rfl
    · obtain ⟨i, -, rfl⟩ := List.mem_map.mp hs
      exact .inl rfl
  · rename_i out _
    rcases List.mem_append.mp hs with hs | hs
    · rcases List.mem_cons.mp hs with rfl | hs
      · exact .inl rfl
      · obtain ⟨i, -, rfl⟩ := List.mem_map.mp hs
        exact .inl rfl
    · refine .inr ⟨out, getLastD_two _ _ _ _, ?_⟩
      simpa using hs

/-- The update of the sample passes through states of all these kinds. -/
example : (⟨none, some (b!"[h]" ++ [10])⟩ : RcFs) ∈ updStates { use_rc_stanza := b!"h" } true (fun _ => false) []
    ⟨some (b!"[h]" ++ [10]), none⟩ := by decide

/-- **There is a moment without an rc file** in every update that is completed (the old file is removed
before the new one gets its name): a client killed then leaves no settings to the next one. -/
theorem C93_moment_without_rc_file (o : CliOpts) (force : Bool) (mask : RcVar → Bool) (answers : List Bool) (content new : Str)
    (h : updAfter o force mask answers ⟨some content, none⟩ = ⟨some new, none⟩) :
    (⟨none, some new⟩ : RcFs) ∈ updStates o force mask answers ⟨some content, none⟩ := by
  unfold updAfter at h
  unfold updStates at h ⊢
  simp only at h ⊢
  split at h
  · cases h
  · rename_i out _
    rw [List.getLastD_eq_getLast?, List.getLast?_cons, List.getLast?_map, List.range_succ] at h
    simp at h
  · rename_i out _
    rw [getLastD_two] at h
    cases h
    simp

/-- **A file that an interrupted update left behind blocks every later one**: nothing is saved any more,
whatever is asked for, until someone removes it. -/
theorem C93_leftover_blocks_every_update (d : RcFs) (h : d.upd ≠ none) (o : CliOpts) (force : Bool) (mask : RcVar → Bool)
    (answers : List Bool) : updAfter o force mask answers d = d := by
  unfold updAfter updStates
  cases hq : d.upd with
  | none => exact absurd hq h
  | some x => rfl

/-- An interrupted update leaves such a file behind, unless it had not begun or was complete. -/
theorem C93_crash_leaves_leftover (o : CliOpts) (force : Bool) (mask : RcVar → Bool) (answers : List Bool) (content : Str)
    (s : RcFs) (hs : s ∈ updStates o force mask answers ⟨some content, none⟩) :
    s = ⟨some content, none⟩ ∨ s.upd ≠ none ∨ s = updAfter o force mask answers ⟨some content, none⟩ := by
  unfold updAfter
  unfold updStates at hs ⊢
  simp only at hs ⊢
  split at hs
  · simp only [List.mem_cons, List.not_mem_nil, or_false] at hs
    rcases hs with rfl | rfl
    · exact .inl rfl
    · exact .inr (.inl (by simp))
  · rcases List.mem_cons.mp hs with rfl | hs
    · exact .inl rfl
    · obtain ⟨i, -, rfl⟩ := List.mem_map.mp hs
      exact .inr (.inl (by simp))
  · rcases List.mem_append.mp hs with hs | hs
    · rcases List.mem_cons.mp hs with rfl | hs
      · exact .inl rfl
      · obtain ⟨i, -, rfl⟩ := List.mem_map.mp hs
        exact .inr (.inl (by simp))
    · simp only [List.mem_cons, List.not_mem_nil, or_false] at hs
      rcases hs with rfl | rfl
      · exact .inr (.inl (by simp))
      · exact .inr (.inr (getLastD_two _ _ _ _).symm)

/-- **So does an update that gives up**, at a line of the stanza that is no entry, or when the typed
answers end: there the client asks again for ever. -/
theorem C93_update_that_gives_up :
    okAnd (fun r => decide (r.2.upd ≠ none))
      (saveStanza ⟨some (fileOf [b!"[h]", b!"KEY"]), none⟩ b!"h" false [] [.destination b!"s", .allow_ip b!"1.2.3.4"]) = true ∧
    updText { use_rc_stanza := b!"h" } false (fun _ => false) [] (fileOf [b!"[h]", b!"KEY a"]) = .hangs := by decide +kernel

end Fwknop.Props
