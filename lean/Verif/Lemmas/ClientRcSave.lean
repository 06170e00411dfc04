import Verif.Lemmas.ClientRcPut

/-!
# Saving a stanza and using it
-/

namespace Fwknop
open Fwknop.Spec

/-! ## Validation and the wish to have the address found -/

theorem validateAllow_explicit {o : CliOpts} (r : Bool) (h : o.allow_ip_str ≠ [] ∧ hasPrefixI b!"resolve" o.allow_ip_str = false) :
    validateAllow { o with resolve_ip_http_https := r } = validateAllow o := by
  unfold validateAllow
  rw [if_pos (show _ ∧ _ from ⟨h.1, by rw [h.2]; rfl⟩), if_pos (show _ ∧ _ from ⟨h.1, by rw [h.2]; rfl⟩)]

theorem dest_address {o : CliOpts} (ht : o.test = false) (ha : o.allow_ip_str ≠ []) :
    validateDest o = if o.spa_server_str = [] then .err
      else .ok (if o.resolve_url.isSome then { o with resolve_ip_http_https := true } else o) := by
  unfold validateDest
  rw [if_neg (by rw [ht]; decide)]
  by_cases hs : o.spa_server_str = []
  · rw [if_pos hs, guard_bind, if_pos (by simpa using hs)]
  · rw [if_neg hs, guard_bind, if_neg (by simpa using hs)]
    by_cases hu : o.resolve_url.isSome = true
    · rw [if_pos hu]
      simp only [guard_bind]
      rw [if_neg (by simp [ha])]
      rfl
    · rw [if_neg hu]
      simp only [guard_bind]
      rw [if_neg (by simp [ha])]
      rfl

/-- With an address, a wish to have it found does not matter. -/
theorem validate_explicit {o : CliOpts} (r : Bool) (h : o.allow_ip_str ≠ [] ∧ hasPrefixI b!"resolve" o.allow_ip_str = false) :
    validate_options { o with resolve_ip_http_https := r } = validate_options o := by
  have key : ∀ (f : CliOpts → Res CliOpts),
      (validateDest { o with resolve_ip_http_https := r } >>= fun x => validateAllow x >>= f) =
        (validateDest o >>= fun x => validateAllow x >>= f) := by
    intro f
    unfold validateDest
    by_cases ht : o.test = true
    · rw [if_pos (by exact ht), if_pos ht]
      show validateAllow _ >>= f = validateAllow o >>= f
      rw [validateAllow_explicit r h]
    · have h1 := dest_address (o := { o with resolve_ip_http_https := r }) (by simpa using ht) h.1
      have h2 := dest_address (o := o) (by simpa using ht) h.1
      unfold validateDest at h1 h2
      rw [h1, h2]
      by_cases hs : o.spa_server_str = []
      · rw [if_pos (by exact hs), if_pos hs]
      · rw [if_neg (by exact hs), if_neg hs]
        show validateAllow _ >>= f = validateAllow _ >>= f
        by_cases hu : o.resolve_url.isSome = true
        · rw [if_pos (by exact hu), if_pos hu]
        · rw [if_neg (by exact hu), if_neg hu, validateAllow_explicit r h]
  unfold validate_options
  simp only [key]

/-- Without one it is kept. -/
theorem validate_keeps {o v : CliOpts} (h : validate_options o = .ok v)
    (hn : o.allow_ip_str = [] ∨ hasPrefixI b!"resolve" o.allow_ip_str = true) (hr : o.resolve_ip_http_https = true) :
    v.resolve_ip_http_https = true := by
  unfold validate_options at h
  obtain ⟨_, g0, h⟩ := Res.bind_eq_ok h
  obtain ⟨o1, g1, h⟩ := Res.bind_eq_ok h
  obtain ⟨o2, g2, h⟩ := Res.bind_eq_ok h
  obtain ⟨_, g3, h⟩ := Res.bind_eq_ok h
  obtain ⟨_, g4, h⟩ := Res.bind_eq_ok h
  obtain ⟨_, g5, h⟩ := Res.bind_eq_ok h
  obtain ⟨_, g6, h⟩ := Res.bind_eq_ok h
  obtain ⟨_, g7, h⟩ := Res.bind_eq_ok h
  have e1 : o1.resolve_ip_http_https = true ∧ o1.allow_ip_str = o.allow_ip_str := by
    unfold validateDest at g1
    split at g1
    · cases g1; exact ⟨hr, rfl⟩
    · obtain ⟨_, q1, g1⟩ := Res.bind_eq_ok g1
      obtain ⟨_, q2, g1⟩ := Res.bind_eq_ok g1
      cases g1
      split
      · exact ⟨rfl, rfl⟩
      · exact ⟨hr, rfl⟩
  have e2 : o2 = o1 := by
    unfold validateAllow at g2
    rw [if_neg (by
      rw [e1.2]
      rintro ⟨a, b⟩
      rcases hn with hn | hn
      · exact a hn
      · rw [hn] at b; cases b)] at g2
    cases g2; rfl
  rw [e2] at h
  have : v.resolve_ip_http_https = o1.resolve_ip_http_https := by
    injection h with h
    rw [← h]
    split <;> rfl
  rw [this, e1.1]

/-! ## The values -/

theorem argMask_savable {as : List CliArg} (hs : ∀ a ∈ as, Savable a) {w : RcVar} (h : argMask as w = true) :
    ∃ a, Savable a ∧ w ∈ argVars a := by
  unfold argMask at h
  obtain ⟨a, ha, hc⟩ := List.any_eq_true.mp h
  exact ⟨a, hs a ha, by simpa using hc⟩

theorem readable_saved {as : List CliArg} {o o' v : CliOpts} (hs : ∀ a ∈ as, Savable a) (hF : Frame as o o') {s : Str} {g : Bool}
    (hval : validate_options (withStz s g o') = .ok v) (hn : SavableNumbers as v) : Readable (argMask as) v := by
  obtain ⟨hV, hv⟩ := validate_rec hval
  generalize hr : v.resolve_ip_http_https = r at hv
  have hexp := hV.explicit
  have htime := mask_time as
  have hp := hn.plus
  have hm := hn.minus
  have hto := hn.timeout
  have hus : v.use_hmac = o'.use_hmac := by rw [hv]
  have hht : argMask as .hmac_digest_type = true → v.hmac_type = o'.hmac_type := by
    intro h0
    have := digest_read (hF.hmac_type.2 h0)
    rw [hv]
    show (if o'.use_hmac = true ∧ o'.hmac_type = 0 then (3 : Int) else o'.hmac_type) = _
    rw [if_neg (by omega)]
  constructor
  case allow_ip_str =>
    intro h
    have ha : v.allow_ip_str = o'.allow_ip_str := by rw [hv]
    have t := hF.allow_ip_str.2 h
    rw [← ha] at t
    refine ⟨t.1, ?_⟩
    rcases hexp with e | e | e
    · exact absurd e t.1.1.1
    · exact absurd ((resolve_iff _).mp e) t.2
    · exact e.1
  case hmac_type => intro h; rw [hht h]; exact hF.hmac_type.2 h
  case others =>
    intro w hw
    obtain ⟨a, ha, hin⟩ := argMask_savable hs hw
    cases a <;> simp only [argVars, List.mem_cons, List.not_mem_nil, or_false] at hin <;>
      first | exact ha.elim | (subst hin; decide) | (rcases hin with rfl | rfl <;> decide)
  case time =>
    intro h
    rw [htime, Bool.or_eq_true] at h
    rcases h with h | h
    · exact .inr ⟨(hp h).2.2, (hp h).1, (hp h).2.1⟩
    · exact .inl (hm h)
  case fw_timeout =>
    intro h
    refine ⟨?_, hto⟩
    rw [hv]
    exact hF.fw_timeout.2 h
  all_goals
    intro h
    rw [hv]
  · exact hF.access_str.2 h
  · exact hF.get_key_file.2 h
  · exact hF.use_hmac.2 h
  · exact hF.spa_server_str.2 h
  · exact hF.spoof_ip_src_str.2 h
  · exact hF.spoof_user.2 h
  · exact hF.rand_port.2 h
  · exact hF.use_gpg.2 h
  · exact hF.gpg_recipient_key.2 h
  · exact hF.key.2 h
  · exact hF.key_base64.2 h
  · exact hF.hmac_key.2 h
  · exact hF.hmac_key_base64.2 h
  · exact hF.nat_access_str.2 h
  · exact hF.nat_local.2 h
  · exact hF.nat_port.2 h
  · exact hF.nat_rand_port.2 h
  · exact hF.spa_proto.2 h
  · exact hF.spa_dst_port.2 h
  · exact hF.spa_src_port.2 h
  · exact hF.digest_type.2 h
  · exact hF.encryption_mode.2 h

/-- Reading the saved stanza leads to the same settled options. -/
theorem saved_validates {as : List CliArg} {o o' v : CliOpts} (hF : Frame as o o') {s : Str} {g : Bool}
    (hval : validate_options (withStz s g o') = .ok v) (hn : SavableNumbers as v) :
    validate_options (withStz s g (putAll (argMask as) v o)) = .ok v := by
  obtain ⟨hV, hv⟩ := validate_rec hval
  generalize hr : v.resolve_ip_http_https = r at hv
  rw [putAll_eq hF (r := r) (s := s) (g := g) hv hn]
  by_cases hx : o'.allow_ip_str ≠ [] ∧ hasPrefixI b!"resolve" o'.allow_ip_str = false
  · exact Eq.trans (validate_explicit (o := withStz s g o') _ hx) hval
  · have hx' : o'.allow_ip_str = [] ∨ hasPrefixI b!"resolve" o'.allow_ip_str = true := by
      by_cases h1 : o'.allow_ip_str = []
      · exact .inl h1
      · refine .inr ?_
        cases hq : hasPrefixI b!"resolve" o'.allow_ip_str with
        | true => rfl
        | false => exact absurd ⟨h1, hq⟩ hx
    have ha : argMask as .allow_ip = false := by
      cases hq : argMask as .allow_ip with
      | false => rfl
      | true =>
        have t := hF.allow_ip_str.2 hq
        rcases hx' with e | e
        · exact absurd e t.1.1.1
        · exact absurd ((resolve_iff _).mp e) t.2
    have e : cond (argMask as .resolve_ip_https) (r || cond (argMask as .allow_ip) false o.resolve_ip_http_https)
        (cond (argMask as .allow_ip) false o.resolve_ip_http_https) = o'.resolve_ip_http_https := by
      rw [ha]
      cases hq : argMask as .resolve_ip_https with
      | false => exact (hF.resolve_ip_http_https.1 hq).symm
      | true =>
        have h1 : o'.resolve_ip_http_https = true := hF.resolve_ip_http_https.2 hq
        have h2 := validate_keeps hval hx' h1
        rw [hr] at h2
        rw [h1, h2]
        rfl
    rw [e]
    exact hval

/-! ## The text -/

/-- A line of a saved stanza, without its newline. -/
def varLine (name val : Str) : Str := name ++ (List.replicate (24 - name.length) 32 ++ b!"    " ++ val)

/-- The lines of a saved stanza and what they mean. -/
def savedLines (m : RcVar → Bool) (v : CliOpts) (l : List (Str × RcVar)) : List (Str × RcItem) :=
  (savedEntries m v l).map fun e => (varLine e.1 e.2, .entry e.1 e.2)

theorem rcLines_file (m : RcVar → Bool) (v : CliOpts) : rcLines v m = fileOf ((savedLines m v fko_var_array).map (·.1)) := by
  unfold rcLines
  generalize fko_var_array = l
  unfold savedLines savedEntries fileOf
  induction l with
  | nil => rfl
  | cons e l ih =>
    rw [List.map_cons, List.flatten_cons, ih, List.filterMap_cons]
    cases hm : m e.2 with
    | false => simp
    | true =>
      simp only [if_true]
      cases rcValue v e.2 with
      | none => simp
      | some x => simp [rcLine, varLine]

theorem array_names : ∀ e ∈ fko_var_array, e.1 ≠ [] ∧ e.1.length ≤ 24 ∧
    ∀ c ∈ e.1, (0 < c ∧ c < 256) ∧ c ≠ 32 ∧ ¬ (9 ≤ c ∧ c ≤ 13) ∧ c ≠ 58 ∧ c ≠ 35 ∧ c ≠ 59 ∧ c ≠ 91 := by decide +kernel

/-- A line that `RcHolds` allows. -/
def GoodLine (p : Str × RcItem) : Prop := RcMeans p.1 p.2 ∧ IsText p.1 ∧ 10 ∉ p.1 ∧ p.1.length ≤ 1022

theorem savedLines_good {m : RcVar → Bool} {v : CliOpts} (h : Readable m v) :
    ∀ p ∈ savedLines m v fko_var_array, GoodLine p := by
  intro p hp
  unfold savedLines at hp
  obtain ⟨e, he, rfl⟩ := List.mem_map.mp hp
  unfold savedEntries at he
  obtain ⟨x, hx, hxe⟩ := List.mem_filterMap.mp he
  cases hm : m x.2 with
  | false => rw [hm] at hxe; simp at hxe
  | true =>
    rw [hm, if_pos rfl] at hxe
    obtain ⟨val, hv, hpl, -⟩ := read_var h {} hm
    rw [hv, Option.map_some] at hxe
    injection hxe with hxe
    subst hxe
    obtain ⟨n1, n2, n3⟩ := array_names x hx
    have hhead : ∀ c, x.1.headD 0 = c → c ∈ x.1 := by
      intro c hc
      cases hx1 : x.1 with
      | nil => exact absurd hx1 n1
      | cons d t => rw [hx1] at hc; rw [← hc]; simp
    have hgap : ∀ c ∈ List.replicate (24 - x.1.length) 32 ++ b!"    ", c = 32 := by
      intro c hc
      rcases List.mem_append.mp hc with hc | hc
      · exact (List.mem_replicate.mp hc).2
      · have h4 : ∀ c ∈ b!"    ", c = 32 := by decide
        exact h4 c hc
    have hchars : ∀ c ∈ varLine x.1 val, (0 < c ∧ c < 256) ∧ c ≠ 10 := by
      intro c hc
      unfold varLine at hc
      rcases List.mem_append.mp hc with hc | hc
      · have := n3 c hc; omega
      · rcases List.mem_append.mp hc with hc | hc
        · have := hgap c hc; omega
        · have := hpl.2.2 c hc; omega
    refine ⟨?_, fun c hc => (hchars c hc).1, fun hc => (hchars 10 hc).2 rfl, ?_⟩
    · have := RcMeans.entry [] x.1 [] (List.replicate (24 - x.1.length) 32 ++ b!"    ") val [] (by simp) n1
        (fun c hc => by have := n3 c hc; omega)
        (fun hc => by have := n3 _ (hhead _ hc); omega) (fun hc => by have := n3 _ (hhead _ hc); omega)
        (fun hc => by have := n3 _ (hhead _ hc); omega) (.inl rfl) (by simp)
        (fun c hc => .inl (hgap c hc)) hpl.1 (fun c hc => by have := hpl.2.2 c hc; omega) (.inl rfl)
      simpa [varLine] using this
    · have := hpl.2.1
      simp only [varLine, List.length_append, List.length_replicate, List.length_cons, List.length_nil]
      omega

/-- The lines that take the place of the old ones; `found`: the text begins inside the stanza,
`updated`: it has been written. -/
def updLines (st : Str) (saved : List (Str × RcItem)) : List (Str × RcItem) → (found updated : Bool) → List (Str × RcItem)
  | [], found, updated =>
    if updated then [] else if found then saved else ([], .skip) :: (b!"[" ++ st ++ b!"]", .head st) :: saved
  | (_, .skip) :: ls, found, updated => updLines st saved ls found updated
  | (l, .head n) :: ls, found, updated =>
    if found then saved ++ ([], .skip) :: (l, .head n) :: updLines st saved ls false true
    else (l, .head n) :: updLines st saved ls (sameName n st) updated
  | (l, .entry n x) :: ls, found, updated =>
    if found then updLines st saved ls found updated else (l, .entry n x) :: updLines st saved ls found updated

theorem fileOf_append (a b : List Str) : fileOf (a ++ b) = fileOf a ++ fileOf b := by
  unfold fileOf; rw [List.map_append, List.flatten_append]

theorem fileOf_cons (l : Str) (b : List Str) : fileOf (l :: b) = l ++ [10] ++ fileOf b := rfl

theorem updLoop_lines {v : CliOpts} {force : Bool} {m : RcVar → Bool} {answers : List Bool} :
    ∀ (ls : List (Str × RcItem)) (found updated : Bool) (out : Str), (∀ p ∈ ls, GoodLine p) →
    (force = true ∨ (found = false ∧ hasSection v.use_rc_stanza (ls.map (·.2)) = false)) →
    updLoop v force (ls.map fun p => p.1 ++ [10]) found updated m answers out =
      .done (out ++ fileOf ((updLines v.use_rc_stanza (savedLines m v fko_var_array) ls found updated).map (·.1))) := by
  intro ls
  induction ls with
  | nil =>
    intro found updated out _ _
    unfold updLines
    simp only [List.map_nil, updLoop, updEnd, rcLines_file]
    cases updated with
    | true => simp [fileOf]
    | false =>
      cases found with
      | true => simp
      | false => simp [fileOf]
  | cons p ls ih =>
    intro found updated out hg hf
    obtain ⟨l, i⟩ := p
    have hp := hg (l, i) (by simp)
    have hm := line_means hp.1 hp.2.1
    have hc := cstr_text_nl hp.2.1
    have hg' : ∀ p ∈ ls, GoodLine p := fun q hq => hg q (by simp [hq])
    simp only [List.map_cons]
    unfold updLoop
    cases i with
    | skip =>
      simp only at hm
      rw [hm, if_pos rfl]
      exact ih found updated out hg' hf
    | head n =>
      simp only at hm
      rw [hm.1, if_neg (by decide), hm.2]
      simp only [hc]
      unfold updLines
      cases found with
      | true =>
        rw [if_pos rfl, if_pos rfl, ih false true _ hg' (by
          rcases hf with hf | hf
          · exact .inl hf
          · cases hf.1), rcLines_file]
        simp only [List.map_append, List.map_cons, fileOf_append, fileOf_cons, List.append_assoc]
        rfl
      | false =>
        rw [if_neg (by decide), if_neg (by decide), sameName_eq, ih _ updated _ hg' (by
          rcases hf with hf | hf
          · exact .inl hf
          · have := hf.2
            simp only [List.map_cons, hasSection, List.any_cons, Bool.or_eq_false_iff] at this
            exact .inr this)]
        simp only [List.map_cons, fileOf_cons, List.append_assoc]
    | entry n x =>
      simp only at hm
      rw [hm.1, if_neg (by decide), hm.2.1]
      simp only [hc]
      unfold updLines
      cases found with
      | true =>
        have hforce : force = true := by
          rcases hf with hf | hf
          · exact hf
          · cases hf.1
        rw [if_pos rfl, if_pos rfl, if_pos hforce]
        exact ih true updated out hg' (.inl hforce)
      | false =>
        rw [if_neg (by decide), if_neg (by decide), ih false updated _ hg' (hf.imp id fun q => ⟨rfl, q.2⟩)]
        simp only [List.map_cons, fileOf_cons, List.append_assoc]

theorem updLines_good {st : Str} {saved : List (Str × RcItem)} (hst : StanzaName st) (hs : ∀ p ∈ saved, GoodLine p) :
    ∀ (ls : List (Str × RcItem)) (found updated : Bool), (∀ p ∈ ls, GoodLine p) → ∀ p ∈ updLines st saved ls found updated, GoodLine p := by
  have hempty : GoodLine ([], .skip) := ⟨.empty, (by intro c hc; cases hc), by simp, by simp⟩
  have hhead : GoodLine (b!"[" ++ st ++ b!"]", .head st) := by
    obtain ⟨h1, h2, -, h3⟩ := hst
    have hch : ∀ c ∈ b!"[" ++ st ++ b!"]", (0 < c ∧ c < 256) ∧ c ≠ 10 := by
      intro c hc
      rcases List.mem_append.mp hc with hc | hc
      · rcases List.mem_append.mp hc with hc | hc
        · have : ∀ c ∈ b!"[", (0 < c ∧ c < 256) ∧ c ≠ 10 := by decide
          exact this c hc
        · exact ⟨(h3 c hc).1, (h3 c hc).2.1⟩
      · have : ∀ c ∈ b!"]", (0 < c ∧ c < 256) ∧ c ≠ 10 := by decide
        exact this c hc
    refine ⟨?_, fun c hc => (hch c hc).1, fun hc => (hch 10 hc).2 rfl, by simp; omega⟩
    have := RcMeans.head [] st [] (by simp) h1 (fun hc => (h3 93 hc).2.2 rfl)
    simpa using this
  intro ls
  induction ls with
  | nil =>
    intro found updated _ p hp
    unfold updLines at hp
    split at hp
    · cases hp
    · split at hp
      · exact hs p hp
      · rcases List.mem_cons.mp hp with rfl | hp
        · exact hempty
        · rcases List.mem_cons.mp hp with rfl | hp
          · exact hhead
          · exact hs p hp
  | cons q ls ih =>
    intro found updated hg p hp
    obtain ⟨l, i⟩ := q
    have hq := hg (l, i) (by simp)
    have ih := fun f u => ih f u fun r hr => hg r (by simp [hr])
    cases i with
    | skip => exact ih _ _ p hp
    | head n =>
      unfold updLines at hp
      split at hp
      · rcases List.mem_append.mp hp with hp | hp
        · exact hs p hp
        · rcases List.mem_cons.mp hp with rfl | hp
          · exact hempty
          · rcases List.mem_cons.mp hp with rfl | hp
            · exact hq
            · exact ih _ _ p hp
      · rcases List.mem_cons.mp hp with rfl | hp
        · exact hq
        · exact ih _ _ p hp
    | entry n x =>
      unfold updLines at hp
      split at hp
      · exact ih _ _ p hp
      · rcases List.mem_cons.mp hp with rfl | hp
        · exact hq
        · exact ih _ _ p hp

theorem sectionFrom_saved (sect : Str) (es : List Entry) (is : List RcItem) (here : Bool) :
    sectionFrom sect here ((es.map fun e => RcItem.entry e.1 e.2) ++ is) =
      (if here then es else []) ++ sectionFrom sect here is := by
  induction es with
  | nil => cases here <;> rfl
  | cons e es ih =>
    rw [List.map_cons, List.cons_append]
    have : sectionFrom sect here (RcItem.entry e.1 e.2 :: ((es.map fun e => RcItem.entry e.1 e.2) ++ is)) =
        if here then (e.1, e.2) :: sectionFrom sect here ((es.map fun e => RcItem.entry e.1 e.2) ++ is)
        else sectionFrom sect here ((es.map fun e => RcItem.entry e.1 e.2) ++ is) := rfl
    rw [this, ih]
    cases here <;> rfl

theorem sameName_trans {a b c : Str} (h : sameName a b = true) : sameName a c = sameName b c := by
  unfold sameName at h ⊢
  simp only [decide_eq_true_eq] at h
  rw [h]

theorem sameName_comm (a b : Str) : sameName a b = sameName b a := by
  unfold sameName
  rw [Bool.eq_iff_iff]
  simp only [decide_eq_true_eq]
  exact eq_comm

/-- Other sections keep their entries. -/
theorem updLines_others {st sect : Str} (hne : sameName st sect = false) (es : List Entry) :
    ∀ (ls : List (Str × RcItem)) (found updated here : Bool), (found = true → here = false) →
    sectionFrom sect here ((updLines st (es.map fun e => (varLine e.1 e.2, RcItem.entry e.1 e.2)) ls found updated).map (·.2)) =
      sectionFrom sect here (ls.map (·.2)) := by
  have hmap : (es.map fun e => (varLine e.1 e.2, RcItem.entry e.1 e.2)).map (·.2) = es.map fun e => RcItem.entry e.1 e.2 := by
    rw [List.map_map]; rfl
  have hsv : ∀ is, sectionFrom sect false ((es.map fun e => RcItem.entry e.1 e.2) ++ is) = sectionFrom sect false is := by
    intro is; rw [sectionFrom_saved]; rfl
  have hsv0 : sectionFrom sect false (es.map fun e => RcItem.entry e.1 e.2) = [] := by
    have := hsv []
    rwa [List.append_nil] at this
  intro ls
  induction ls with
  | nil =>
    intro found updated here hh
    unfold updLines
    cases updated with
    | true => rfl
    | false =>
      cases found with
      | true =>
        rw [hh rfl, if_neg (by decide), if_pos rfl, hmap, hsv0]
        rfl
      | false =>
        rw [if_neg (by decide), if_neg (by decide), List.map_cons, List.map_cons, hmap]
        show sectionFrom sect (sameName st sect) _ = []
        rw [hne, hsv0]
  | cons q ls ih =>
    intro found updated here hh
    obtain ⟨l, i⟩ := q
    cases i with
    | skip => exact ih _ _ _ hh
    | head n =>
      unfold updLines
      cases found with
      | true =>
        rw [if_pos rfl, hh rfl, List.map_append, hmap, hsv]
        exact ih false true _ (by intro h; cases h)
      | false =>
        rw [if_neg (by decide)]
        refine ih _ _ _ ?_
        intro h
        rw [sameName_trans h, hne]
    | entry n x =>
      unfold updLines
      cases found with
      | true =>
        rw [if_pos rfl, ih _ _ _ hh, hh rfl]
        rfl
      | false =>
        rw [if_neg (by decide)]
        cases here with
        | false => exact ih _ _ _ hh
        | true =>
          show (n, x) :: _ = (n, x) :: _
          rw [ih _ _ _ hh]

/-- The stanza has the saved entries. -/
theorem updLines_stanza {st : Str} (es : List Entry) :
    ∀ (ls : List (Str × RcItem)) (found updated : Bool),
    sectionCount st (ls.map (·.2)) + (if found then 1 else 0) + (if updated then 1 else 0) ≤ 1 →
    sectionFrom st found ((updLines st (es.map fun e => (varLine e.1 e.2, RcItem.entry e.1 e.2)) ls found updated).map (·.2)) =
      if updated then [] else es := by
  have hmap : (es.map fun e => (varLine e.1 e.2, RcItem.entry e.1 e.2)).map (·.2) = es.map fun e => RcItem.entry e.1 e.2 := by
    rw [List.map_map]; rfl
  have hsv0 : sectionFrom st true (es.map fun e => RcItem.entry e.1 e.2) = es := by
    have := sectionFrom_saved st es [] true
    rw [List.append_nil] at this
    rw [this]
    simp [sectionFrom]
  have hself : sameName st st = true := by unfold sameName; simp
  intro ls
  induction ls with
  | nil =>
    intro found updated hc
    unfold updLines
    cases updated with
    | true => rfl
    | false =>
      cases found with
      | true => rw [if_neg (by decide), if_pos rfl, hmap, hsv0, if_neg (by decide)]
      | false =>
        rw [if_neg (by decide), if_neg (by decide), List.map_cons, List.map_cons, hmap]
        show sectionFrom st (sameName st st) _ = _
        rw [hself, hsv0, if_neg (by decide)]
  | cons q ls ih =>
    intro found updated hc
    obtain ⟨l, i⟩ := q
    cases i with
    | skip => exact ih _ _ hc
    | head n =>
      have hcount : sectionCount st ((RcItem.head n) :: ls.map (·.2)) =
          sectionCount st (ls.map (·.2)) + if sameName n st then 1 else 0 := by
        unfold sectionCount
        rw [List.filter_cons]
        simp only
        split <;> rfl
      rw [List.map_cons] at hc
      simp only [hcount] at hc
      unfold updLines
      cases found with
      | true =>
        have hu : updated = false := by
          cases updated with
          | false => rfl
          | true => simp at hc
        have hn : sameName n st = false := by
          cases hq : sameName n st with
          | false => rfl
          | true => rw [hq] at hc; simp at hc; omega
        rw [if_pos rfl, List.map_append, hmap, sectionFrom_saved, List.map_cons, List.map_cons, hu, if_pos rfl]
        show es ++ sectionFrom st (sameName n st) _ = es
        rw [hn, ih false true (by rw [hn] at hc; simp at hc ⊢; omega), if_pos rfl, List.append_nil]
      | false =>
        rw [if_neg (by decide)]
        refine ih _ _ ?_
        simp at hc ⊢
        omega
    | entry n x =>
      have hcount : sectionCount st ((RcItem.entry n x) :: ls.map (·.2)) = sectionCount st (ls.map (·.2)) := by
        unfold sectionCount
        rw [List.filter_cons]
        rfl
      rw [List.map_cons] at hc
      simp only [hcount] at hc
      unfold updLines
      cases found with
      | true => rw [if_pos rfl]; exact ih _ _ hc
      | false => rw [if_neg (by decide)]; exact ih _ _ hc

theorem updLines_section {st : Str} (saved : List (Str × RcItem)) : ∀ (ls : List (Str × RcItem)) (found updated : Bool),
    found = true ∨ updated = true ∨ hasSection st ((updLines st saved ls found updated).map (·.2)) = true := by
  have hself : sameName st st = true := by unfold sameName; simp
  intro ls
  induction ls with
  | nil =>
    intro found updated
    cases found with
    | true => exact .inl rfl
    | false =>
      cases updated with
      | true => exact .inr (.inl rfl)
      | false => exact .inr (.inr (by simp [updLines, hasSection, hself]))
  | cons q ls ih =>
    intro found updated
    obtain ⟨l, i⟩ := q
    cases found with
    | true => exact .inl rfl
    | false =>
      cases updated with
      | true => exact .inr (.inl rfl)
      | false =>
        refine .inr (.inr ?_)
        cases i with
        | skip =>
          unfold updLines
          rcases ih false false with h | h | h
          · cases h
          · cases h
          · exact h
        | head n =>
          unfold updLines
          rw [if_neg (by decide), List.map_cons]
          unfold hasSection
          rw [List.any_cons, Bool.or_eq_true]
          simp only
          rcases ih (sameName n st) false with h | h | h
          · exact .inl h
          · cases h
          · exact .inr h
        | entry n x =>
          unfold updLines
          rw [if_neg (by decide), List.map_cons]
          unfold hasSection
          rw [List.any_cons, Bool.or_eq_true]
          rcases ih false false with h | h | h
          · cases h
          · cases h
          · exact .inr h

/-- The file after a stanza has been saved. -/
theorem saved_file {v : CliOpts} {m : RcVar → Bool} (hr : Readable m v) (hst : StanzaName v.use_rc_stanza)
    {content : Str} {items : List RcItem} (hc : RcHolds content items) {force : Bool} {answers : List Bool}
    (hf : force = true ∨ hasSection v.use_rc_stanza items = false) (h1 : sectionCount v.use_rc_stanza items ≤ 1) :
    ∃ new items', updText v force m answers content = .done new ∧ RcHolds new items' ∧ hasSection v.use_rc_stanza items' = true ∧
      (∀ sect, sameName v.use_rc_stanza sect = false → sectionOf sect items' = sectionOf sect items) ∧
      sectionOf v.use_rc_stanza items' = savedEntries m v fko_var_array := by
  obtain ⟨ls, rfl, rfl, hls⟩ := hc
  have hg : ∀ p ∈ ls, GoodLine p := hls
  refine ⟨_, (updLines v.use_rc_stanza (savedLines m v fko_var_array) ls false false).map (·.2), ?_,
    ⟨updLines v.use_rc_stanza (savedLines m v fko_var_array) ls false false, rfl, rfl,
      updLines_good hst (savedLines_good hr) ls false false hg⟩, ?_, ?_, ?_⟩
  · unfold updText
    have e : fgetsLines (fileOf (ls.map (·.1))).length (fileOf (ls.map (·.1))) = ls.map fun p => p.1 ++ [10] := by
      unfold fileOf
      rw [fgetsLines_flatten _ _ (by
        intro l hl
        obtain ⟨p, hp, rfl⟩ := List.mem_map.mp hl
        exact ⟨(hls p hp).2.2.1, (hls p hp).2.2.2⟩) (Nat.le_refl _), List.map_map]
      rfl
    rw [e, updLoop_lines ls false false [] hg (hf.imp id fun h => ⟨rfl, h⟩), List.nil_append]
  · rcases updLines_section (st := v.use_rc_stanza) (savedLines m v fko_var_array) ls false false with h | h | h
    · cases h
    · cases h
    · exact h
  · intro sect hs
    exact updLines_others hs (savedEntries m v fko_var_array) ls false false false (by intro h; cases h)
  · have := updLines_stanza (st := v.use_rc_stanza) (savedEntries m v fko_var_array) ls false false (by simpa using h1)
    rw [if_neg (by decide)] at this
    exact this

end Fwknop
