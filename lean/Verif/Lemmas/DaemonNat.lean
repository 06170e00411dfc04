import Verif.Lemmas.IptAny

/-!
# Lemmas: where the rules of requests for NAT come from
-/

namespace Fwknop

open Spec Res Props

theorem dotted_word {w : Word} (h : Dotted w) : AddrWord w ∧ w ≠ b!"-j" := by
  obtain ⟨h0, hl, hc⟩ := h
  have hno : ∀ v : Word, 45 ∈ v → w ≠ v := by
    intro v hv he
    have := hc 45 (he ▸ hv)
    unfold IsDigitChar at this
    omega
  refine ⟨⟨⟨⟨h0, ?_⟩, hno _ (by decide), hno _ (by decide), hno _ (by decide), hno _ (by decide), hno _ (by decide),
    hno _ (by decide), hno _ (by decide), hno _ (by decide), hno _ (by decide)⟩, hl⟩, hno _ (by decide)⟩
  intro c hm hb
  have := hc c hm
  unfold IsDigitChar at this
  unfold IsBlank at hb
  omega

theorem isDigit_char {c : Nat} : isDigit c = true ↔ IsDigitChar c := by
  unfold isDigit IsDigitChar
  simp

theorem ipv4_dotted {w : Word} (h : IsIPv4 w) : Dotted w := by
  obtain ⟨a, b, c, d, ha, hb, hc, hd, he, hl⟩ := h
  refine ⟨by rw [he]; simp, hl, fun x hx => ?_⟩
  rw [he] at hx
  simp only [List.mem_append, List.mem_cons] at hx
  rcases hx with h | h | h | h | h | h | h
  · exact .inr (isDigit_char.1 (shape_digits _ ((isOctet_iff _).1 ha).1 _ h))
  · exact .inl h
  · exact .inr (isDigit_char.1 (shape_digits _ ((isOctet_iff _).1 hb).1 _ h))
  · exact .inl h
  · exact .inr (isDigit_char.1 (shape_digits _ ((isOctet_iff _).1 hc).1 _ h))
  · exact .inl h
  · exact .inr (isDigit_char.1 (shape_digits _ ((isOctet_iff _).1 hd).1 _ h))

theorem valid_chars {s : Str} (h : is_valid_ipv4_addr s s.length = true) : s.length ≤ 16 ∧ 7 ≤ s.length ∧ ∀ c ∈ s, c = 46 ∨ isDigit c = true := by
  unfold is_valid_ipv4_addr at h
  rw [ipv4Loop_spec] at h
  split at h
  · cases h
  · rename_i hl
    simp only [MAX_IPV4_STR_LEN, MIN_IPV4_STR_LEN, Bool.or_eq_true, decide_eq_true_eq, not_or] at hl
    refine ⟨by omega, by omega, ?_⟩
    split at h
    · cases h
    · rename_i hq
      split at hq
      · assumption
      · cases hq

/-- The target of a NAT request. -/
theorem natTarget_ok {cf : FwConf} {chs : List FwChain} {acc : Stanza} {sp : SpaData} {c : Ctx} (hr : NatReady cf chs acc)
    (hn : sp.nat_access = c.nat_access) {ip : Str} {port : Int}
    (h : natTarget cf acc sp = .ok (some (ip, port))) :
    Dotted ip ∧ ∃ n : Nat, port = n ∧ n ≤ 65535 ∧ SentOn cf acc c ip n := by
  unfold natTarget at h
  split at h
  · rename_i hf
    cases ha : acc.force_nat_ip with
    | none => rw [ha] at h; cases h
    | some a =>
      rw [ha] at h
      cases h
      refine ⟨hr.ip hf a ha, acc.force_nat_port, rfl, hr.port, fun _ => ⟨rfl, a, ha, fun hl => List.take_of_length_le hl⟩, fun hq => ?_⟩
      rw [hf] at hq; cases hq
  · rename_i hf
    rw [hn] at h
    cases hna : c.nat_access with
    | none => rw [hna] at h; cases h
    | some na =>
      rw [hna] at h
      dsimp only at h
      cases hs : strchr na 44 with
      | none => rw [hs] at h; cases h
      | some n =>
        rw [hs] at h
        dsimp only at h
        split at h
        · obtain ⟨u, _, h⟩ := bind_eq_ok h
          obtain ⟨host, p, rfl, hc, rfl⟩ := strchr_some _ _ _ hs
          rw [show (host ++ 44 :: p).take host.length = host by simp,
            show (host ++ 44 :: p).drop (host.length + 1) = p by
              rw [show host ++ 44 :: p = (host ++ [44]) ++ p by simp]; exact List.drop_left' (by simp)] at h
          cases hadr : natAddr cf host with
          | none => rw [hadr] at h; cases h
          | some a =>
            rw [hadr] at h
            dsimp only at h
            cases hp2 : (strtol_wrapper p 0 MAX_PORT).2 with
            | false => rw [hp2, if_neg (by decide)] at h; cases h
            | true =>
              rw [hp2, if_pos rfl] at h
              have h := Option.some.inj (Res.ok.inj h)
              obtain ⟨rfl, hport⟩ := Prod.mk.inj h
              have hrange : 0 ≤ (strtol_wrapper p 0 MAX_PORT).1 ∧ (strtol_wrapper p 0 MAX_PORT).1 ≤ 65535 := by
                obtain ⟨a, b, -⟩ := strtol_wrapper_range p 0 MAX_PORT _ (Prod.ext rfl hp2)
                exact ⟨a, b (by decide)⟩
              have hcase : Dotted a ∧ (IsIPv4 host → a = host) ∧ ((∃ x ∈ host, x ≠ 46 ∧ ¬ IsDigitChar x) → cf.nat_dns = true ∧ cf.resolve host = some a) := by
                unfold natAddr at hadr
                split at hadr
                · rename_i hv
                  cases hadr
                  obtain ⟨v1, v2, v3⟩ := valid_chars hv
                  refine ⟨⟨?_, by simp only [MAX_IPV4_STR_LEN, List.length_take]; omega, fun x hx => ?_⟩, fun hi => ?_, ?_⟩
                  · intro hq
                    have := congrArg List.length hq
                    simp only [MAX_IPV4_STR_LEN, List.length_take, List.length_nil] at this
                    omega
                  · exact (v3 x (List.mem_of_mem_take hx)).imp_right isDigit_char.1
                  · exact List.take_of_length_le (addrWord_ipv4 hi).2
                  · rintro ⟨x, hx, h1, h2⟩
                    rcases v3 x hx with hq | hq
                    · exact absurd hq h1
                    · exact absurd (isDigit_char.1 hq) h2
                · rename_i hv
                  split at hadr
                  · rename_i hdns
                    split at hadr
                    · cases hadr
                    · refine ⟨ipv4_dotted (hr.resolve _ _ hadr), fun hi => ?_, fun _ => ⟨hdns, hadr⟩⟩
                      exact absurd ((valid_ipv4_iff host (addrWord_ipv4 hi).2).2 hi) hv
                  · cases hadr
              refine ⟨hcase.1, (strtol_wrapper p 0 MAX_PORT).1.toNat, by omega, by omega, fun hq => absurd hq hf, fun _ => ⟨host, p, hna, hc, hcase.2.1, hcase.2.2, ?_⟩⟩
              intro n hd hlt
              have hv : digitsVal 10 p = n := by rw [← hd.2.2]; exact (number_eq _ _).symm
              rw [strtol_wrapper_digits p (fun x hx => isDigit_char.2 (hd.2.1 x hx)) hd.1 (by omega), hv]
              rfl
        · cases h

/-- An ordinary request. -/
theorem request_moves {σ : Type} {T : Tool σ} {print : Host} {tab : σ → Tables} (hT : AtMost T print tab) {cf : FwConf} {chs : List FwChain}
    (hc : ConfOk cf chs) {acc : Stanza} {sp : SpaData} {now : Int} {s s' : FwSt σ} (hb : s.chain.map FwChain.bare = chs.map FwChain.bare)
    (hnat : wantsNat acc sp = false) (hsrc : IsIPv4 sp.use_src_ip)
    (hdst : IsIPv4 sp.pkt_destination_ip) (htime : 0 ≤ now + sp.fw_access_timeout ∧ now + sp.fw_access_timeout < 2 ^ 32)
    (hr : process_spa_request cf T acc sp now s = .ok s') :
    s'.chain.map FwChain.bare = chs.map FwChain.bare ∧ Moves (hooks chs) (fun h x => ∃ l, expand_acc_port_list sp.spa_message_remain = some l ∧ ∃ p ∈ l,
        Lets chs h sp.use_src_ip (dstOf cf sp) p.proto p.port.toNat (now + sp.fw_access_timeout).toNat x) (tab s.world) (tab s'.world) := by
  obtain ⟨-, hda⟩ := dst_ne_j (cf := cf) (fun _ => hdst)
  unfold process_spa_request at hr
  cases hl : expand_acc_port_list sp.spa_message_remain with
  | none =>
    rw [hl] at hr
    cases hr
    exact ⟨hb, .refl _ _ _⟩
  | some l =>
    rw [hl] at hr
    cases l with
    | nil => cases hr
    | cons fst more =>
      dsimp only at hr
      rw [hnat, if_neg (by decide), show expTs now sp.fw_access_timeout = (now + sp.fw_access_timeout).toNat by unfold expTs; omega] at hr
      exact portLoop_moves hT hc (addrWord_ipv4 hsrc) hda (by omega) _ hb (fun p hp => by
          have := port_range hl p hp
          exact ⟨by omega, this.2.1, by omega⟩)
        (fun p hp h _ x hx => ⟨_, rfl, p, hp, hx⟩) hr

/-- A request for NAT. -/
theorem nat_request_moves {σ : Type} {T : Tool σ} {print : Host} {tab : σ → Tables} (hT : AtMost T print tab) {cf : FwConf} {chs : List FwChain}
    (hc : ConfOk cf chs) {acc : Stanza} {sp : SpaData} {c : Ctx} {now : Int} {s s' : FwSt σ} (hb : s.chain.map FwChain.bare = chs.map FwChain.bare)
    (hready : NatReady cf chs acc)
    (hna : sp.nat_access = c.nat_access) (hmt : sp.message_type = c.message_type) (hnat : wantsNat acc sp = true) (hsrc : IsIPv4 sp.use_src_ip)
    (hdst : IsIPv4 sp.pkt_destination_ip) (htime : 0 ≤ now + sp.fw_access_timeout ∧ now + sp.fw_access_timeout < 2 ^ 32)
    (hr : process_spa_request cf T acc sp now s = .ok s') :
    s'.chain.map FwChain.bare = chs.map FwChain.bare ∧ Moves (hooks chs) (fun h x =>
      ∃ fst more ip toPort, expand_acc_port_list sp.spa_message_remain = some (fst :: more) ∧ SentOn cf acc c ip toPort ∧
        LetsNat cf chs acc c h sp.use_src_ip (dstOf cf sp) fst.proto fst.port.toNat (now + sp.fw_access_timeout).toNat ip toPort x)
      (tab s.world) (tab s'.world) := by
  obtain ⟨-, hda⟩ := dst_ne_j (cf := cf) (fun _ => hdst)
  unfold process_spa_request at hr
  cases hl : expand_acc_port_list sp.spa_message_remain with
  | none =>
    rw [hl] at hr
    cases hr
    exact ⟨hb, .refl _ _ _⟩
  | some l =>
    rw [hl] at hr
    cases l with
    | nil => cases hr
    | cons fst more =>
      dsimp only at hr
      rw [hnat, if_pos rfl] at hr
      obtain ⟨t, ht, hr⟩ := bind_eq_ok hr
      cases t with
      | none => cases hr; exact ⟨hb, .refl _ _ _⟩
      | some t =>
        obtain ⟨ip, port⟩ := t
        obtain ⟨hdot, toPort, rfl, hto, hsent⟩ := natTarget_ok hready hna ht
        have hexp : expTs now sp.fw_access_timeout = (now + sp.fw_access_timeout).toNat := by unfold expTs; omega
        have hrange := port_range hl fst List.mem_cons_self
        have hfst : (⟨fst.proto, ((fst.port.toNat : Nat) : Int)⟩ : PortEnt) = fst := by rw [Int.toNat_of_nonneg hrange.2.1]
        dsimp only at hr
        rw [hexp, ← hfst] at hr
        obtain ⟨h1, h2⟩ := natRules_moves hT hc hb hready hmt (addrWord_ipv4 hsrc) hda (dotted_word hdot).1 (by omega) (by omega) hto (by omega) hr
        exact ⟨h1, h2.mono fun h _ x hx => ⟨fst, more, ip, toPort, rfl, hsent, hx⟩⟩

/-! ## A whole history -/

/-- What is needed of the stanzas: the times are of 32 bits, there are keys, and where addresses are translated,
what that needs. -/
structure StanzasFit (D : DConf) (chs : List FwChain) (S : List Stanza) : Prop where
  keys : ∀ acc ∈ S, KeysOk acc
  nat : ∀ acc ∈ S, D.conf.forwarding = true ∨ D.conf.local_nat = true ∨ acc.force_nat = true → NatReady D.fw chs acc
  time : ∀ acc ∈ S, acc.fw_access_timeout < 2 ^ 31 ∧ 0 ≤ acc.max_fw_timeout ∧ acc.max_fw_timeout < 2 ^ 31

theorem receive_rules {σ : Type} {T : Tool σ} {print : Host} {tab : σ → Tables} (hT : AtMost T print tab) {D : DConf} {E : Env} {S : List Stanza} {chs : List FwChain} (hc : ConfOk D.fw chs) (hS : StanzasFit D chs S)
    {now : Int} (hnow : 0 ≤ now ∧ now < 2 ^ 31) {p : Pkt} {o : Nat → Bool}
    {d d' : Daemon σ} {l : List Deed} (hL : d.fw.chain.map FwChain.bare = chs.map FwChain.bare) (hM : Marked S d.srv.stanzas)
    (hr : receive D E T now p o d = .ok (d', l)) :
    d'.fw.chain.map FwChain.bare = chs.map FwChain.bare ∧ Marked S d'.srv.stanzas ∧ Moves (hooks chs) (BackedNat D E S chs [.packet now p o]) (tab d.fw.world) (tab d'.fw.world) := by
  unfold receive at hr
  obtain ⟨⟨sv, effs⟩, hi, hr⟩ := bind_eq_ok hr
  obtain ⟨s, hg, hr⟩ := bind_eq_ok hr
  cases hr
  have hk : ∀ acc ∈ d.srv.stanzas, KeysOk acc := by
    intro acc ha
    obtain ⟨acc0, h0, hor⟩ := hM acc ha
    have := hS.keys acc0 h0
    rcases hor with rfl | ⟨rfl, _⟩ <;> exact this
  suffices H : ∀ (effs' : List Effect) (s0 s1 : FwSt σ), (∀ e ∈ effs', e ∈ effs) → s0.chain.map FwChain.bare = chs.map FwChain.bare →
      grantAll D.fw T now effs' s0 = .ok s1 → s1.chain.map FwChain.bare = chs.map FwChain.bare ∧ 
        Moves (hooks chs) (BackedNat D E S chs [.packet now p o]) (tab s0.world) (tab s1.world) by
    obtain ⟨h1, h2⟩ := H effs d.fw s (fun _ h => h) hL hg
    exact ⟨h1, Marked.step hi hM, h2⟩
  intro effs'
  induction effs' with
  | nil => intro s0 s1 _ hL0 hg; cases hg; exact ⟨hL0, .refl _ _ _⟩
  | cons e es ih =>
    intro s0 s1 hsub hL0 hg
    have hsub' : ∀ e' ∈ es, e' ∈ effs := fun e' h => hsub e' (List.mem_cons_of_mem _ h)
    cases e with
    | cycle n c => exact ih s0 s1 hsub' hL0 hg
    | command n c ids => exact ih s0 s1 hsub' hL0 hg
    | access n acc sp =>
      obtain ⟨s2, hp, hg⟩ := bind_eq_ok (show (process_spa_request D.fw T acc sp now s0 >>= fun s => grantAll D.fw T now es s) = .ok s1 from hg)
      obtain ⟨acc', text, proxy, c, ip, rest, hcause, hadr, hlive, _, hage, hts, hsrcreq, huser, hwf, hwl, hperm, hcase⟩ := effect_meets hk hi (hsub _ List.mem_cons_self)
      rcases hcase with ⟨_, cmd, h⟩ | ⟨_, _, cmd, h, _⟩ | ⟨h1, h2, h3⟩
      · cases h
      · cases h
      · injection h3 with _ e1 e2
        subst e1
        obtain ⟨acc0, hm0, hor⟩ := hM acc (List.mem_of_getElem? hcause.stanza)
        have hor : acc = acc0 := by
          rcases hor with h | ⟨rfl, h⟩
          · exact h
          · exact absurd ⟨h, .inl rfl⟩ hlive
        subst hor
        have ht := hS.time acc hm0
        have hset := set_timeout_eq acc c ht.2
        have hfa : (sp.fw_access_timeout : Int) = grantedTime acc c := by rw [e2]; exact hset
        have hgt : 0 ≤ grantedTime acc c ∧ grantedTime acc c < 2 ^ 31 := by
          unfold grantedTime
          split
          · omega
          · split <;> omega
        have hmt : sp.message_type = c.message_type := by rw [e2]; rfl
        have hsrc : sp.use_src_ip = grantee (inet_ntop p.src_ip) proxy ip := by rw [e2]; rfl
        have hdst : sp.pkt_destination_ip = inet_ntop p.dst_ip := by rw [e2]; rfl
        have hrest : sp.spa_message_remain = rest := by rw [e2]; rfl
        have hsrc4 : IsIPv4 sp.use_src_ip := by rw [hsrc]; exact grantee_ipv4 hcause.received hcause.message
        have hdst4 : IsIPv4 sp.pkt_destination_ip := by rw [hdst]; exact ntop_ipv4 _
        have hdo : dstOf D.fw sp = if D.fw.use_destination then inet_ntop p.dst_ip else b!"0.0.0.0/0" := by
          unfold dstOf
          rw [hdst]
        obtain ⟨hchk, htest⟩ := hperm.2.2 h1 h2
        obtain ⟨l', hl', hask, hrs, hop⟩ := allowed_ports hchk
        have hent : ∀ en ∈ l', Entitles D.conf E acc now p (grantee (inet_ntop p.src_ip) proxy ip) en.proto en.port.toNat (now + grantedTime acc c) text proxy c ip rest := by
          intro en hen
          have hpr := port_range hl' en hen
          have hen' : (⟨en.proto, ((en.port.toNat : Nat) : Int)⟩ : PortEnt) = en := by rw [Int.toNat_of_nonneg hpr.2.1]
          exact {
            received := hcause.received
            decoded := hcause.decoded
            message := hcause.message
            addresses := hadr
            live := hlive
            fresh := (pkt_age_iff _ _ _ (by omega)).1 hage
            user := huser
            source := hsrcreq
            access := ⟨h1, h2, htest⟩
            asked := by
              intro ps hps
              have := hask ps hps
              rw [this] at hen
              obtain ⟨y, hy, rfl⟩ := List.mem_map.1 hen
              exact hy
            opened := by intro h1 h2; rw [hen']; exact hop h1 h2 en hen
            restricted := by rw [hen']; exact hrs en hen
            grantee := rfl
            until_ := rfl }
        have hstep : s2.chain.map FwChain.bare = chs.map FwChain.bare ∧ 
            Moves (hooks chs) (BackedNat D E S chs [.packet now p o]) (tab s0.world) (tab s2.world) := by
          cases hwn : wantsNat acc sp with
          | false =>
            obtain ⟨hL2, hx2⟩ := request_moves hT hc hL0 hwn hsrc4 hdst4 (by omega) hp
            refine ⟨hL2, hx2.mono fun h hh x hx => ?_⟩
            obtain ⟨l, hl, en, hen, hx⟩ := hx
            rw [hrest, hl'] at hl
            cases hl
            rw [hsrc, hfa, hdo] at hx
            exact ⟨acc, hm0, now, p, o, _, en.proto, en.port.toNat, now + grantedTime acc c, text, proxy, c, ip, rest, List.mem_cons_self, hent en hen, by omega,
              hwf, hwl, .inl ⟨fun hq => absurd (hwn.symm.trans (wantsNat_iff.2 (by rw [hmt]; exact hq))) (by decide), hx⟩⟩
          | true =>
            have hfor : ForNat acc.force_nat c.message_type := by rw [← hmt]; exact wantsNat_iff.1 hwn
            have hready : NatReady D.fw chs acc := hS.nat acc hm0 (by
              rcases hfor with hq | hq | hq | hq | hq
              · exact .inr (.inr hq)
              · exact .inl (hwf (.inl hq))
              · exact .inl (hwf (.inr hq))
              · exact .inr (.inl (hwl (.inl hq)))
              · exact .inr (.inl (hwl (.inr hq))))
            obtain ⟨hL2, hx2⟩ := nat_request_moves (c := c) hT hc hL0 hready (by rw [e2]; rfl) hmt hwn hsrc4 hdst4 (by omega) hp
            refine ⟨hL2, hx2.mono fun h hh x hx => ?_⟩
            obtain ⟨fst, more, toIp, toPort, hl, hto, hx⟩ := hx
            rw [hrest, hl'] at hl
            cases hl
            rw [hsrc, hfa, hdo] at hx
            refine ⟨acc, hm0, now, p, o, _, fst.proto, fst.port.toNat, now + grantedTime acc c, text, proxy, c, ip, rest, List.mem_cons_self, hent fst List.mem_cons_self, by omega,
              hwf, hwl, .inr ⟨hfor, fun ps hps => ?_, toIp, toPort, hto, hx⟩⟩
            have := hask ps hps
            cases ps with
            | nil => cases this
            | cons q qs =>
              rw [List.map_cons] at this
              obtain ⟨hq, -⟩ := List.cons.inj this
              subst hq
              rfl
        obtain ⟨hL2, hx2⟩ := hstep
        obtain ⟨hL1, hx1⟩ := ih s2 s1 hsub' hL2 hg
        exact ⟨hL1, hx2.trans hx1⟩

theorem upkeep_rules {σ : Type} {T : Tool σ} {print : Host} {tab : σ → Tables} (hT : AtMost T print tab) {D : DConf} {chs : List FwChain} (hc : ConfOk D.fw chs) {now : Int}
    {d d' : Daemon σ} {l : List Deed} (hL : d.fw.chain.map FwChain.bare = chs.map FwChain.bare) (hr : upkeep D T now d = .ok (d', l)) :
    d'.fw.chain.map FwChain.bare = chs.map FwChain.bare ∧ d'.srv.stanzas = d.srv.stanzas ∧ ∀ A, Moves (hooks chs) A (tab d.fw.world) (tab d'.fw.world) := by
  unfold upkeep at hr
  split at hr
  · cases hr; exact ⟨hL, rfl, fun _ => .refl _ _ _⟩
  · obtain ⟨⟨s, n⟩, h1, hr⟩ := bind_eq_ok hr
    obtain ⟨⟨cy, cl⟩, _, hr⟩ := bind_eq_ok hr
    cases hr
    split at h1
    · obtain ⟨s', h2, h1⟩ := bind_eq_ok h1
      cases h1
      exact ⟨(check_moves hT (A := fun _ _ => True) hc hL h2).1, rfl, fun A => (check_moves hT hc hL h2).2⟩
    · cases h1
      exact ⟨hL, rfl, fun _ => .refl _ _ _⟩

theorem backed_mono {D : DConf} {E : Env} {S : List Stanza} {chs : List FwChain} {a b : List Act} {h : Hook} {x : Rule}
    (hx : BackedNat D E S chs a h x) (hs : ∀ y ∈ a, y ∈ b) : BackedNat D E S chs b h x := by
  obtain ⟨acc, ha, now, p, o, src, proto, port, u, text, proxy, c, ip, rest, hm, h⟩ := hx
  exact ⟨acc, ha, now, p, o, src, proto, port, u, text, proxy, c, ip, rest, hs _ hm, h⟩

theorem acts_rules {σ : Type} {T : Tool σ} {print : Host} {tab : σ → Tables} (hT : AtMost T print tab) {D : DConf} {E : Env} {S : List Stanza} {chs : List FwChain} (hc : ConfOk D.fw chs) (hS : StanzasFit D chs S) :
    ∀ (as : List Act) {d d' : Daemon σ} {l : List Deed}, (∀ a ∈ as, 0 ≤ a.now ∧ a.now < 2 ^ 31) →
    d.fw.chain.map FwChain.bare = chs.map FwChain.bare → Marked S d.srv.stanzas → acts D E T as d = .ok (d', l) →
    d'.fw.chain.map FwChain.bare = chs.map FwChain.bare ∧ Marked S d'.srv.stanzas ∧ Moves (hooks chs) (BackedNat D E S chs as) (tab d.fw.world) (tab d'.fw.world)
  | [], d, d', l, _, hL, hM, hr => by cases hr; exact ⟨hL, hM, .refl _ _ _⟩
  | .upkeep now :: as, d, d', l, hn, hL, hM, hr => by
    obtain ⟨⟨d1, l1⟩, h1, hr⟩ := bind_eq_ok (show (upkeep D T now d >>= fun r => (acts D E T as r.1 >>= fun q => pure (q.1, r.2 ++ q.2))) = .ok (d', l) from hr)
    obtain ⟨⟨d2, l2⟩, h2, hr⟩ := bind_eq_ok hr
    cases hr
    obtain ⟨hL1, he1, hx1⟩ := upkeep_rules hT hc hL h1
    obtain ⟨hL2, hM2, hx2⟩ := acts_rules hT hc hS as (fun a ha => hn a (List.mem_cons_of_mem _ ha)) hL1 (by rw [he1]; exact hM) h2
    exact ⟨hL2, hM2, (hx1 _).trans (hx2.mono fun h _ x hx => backed_mono hx fun y hy => List.mem_cons_of_mem _ hy)⟩
  | .packet now p o :: as, d, d', l, hn, hL, hM, hr => by
    obtain ⟨⟨d1, l1⟩, h1, hr⟩ := bind_eq_ok (show (receive D E T now p o d >>= fun r => (acts D E T as r.1 >>= fun q => pure (q.1, r.2 ++ q.2))) = .ok (d', l) from hr)
    obtain ⟨⟨d2, l2⟩, h2, hr⟩ := bind_eq_ok hr
    cases hr
    obtain ⟨hL1, hM1, hx1⟩ := receive_rules hT hc hS (hn (.packet now p o) List.mem_cons_self) hL hM h1
    obtain ⟨hL2, hM2, hx2⟩ := acts_rules hT hc hS as (fun a ha => hn a (List.mem_cons_of_mem _ ha)) hL1 hM1 h2
    exact ⟨hL2, hM2, (hx1.mono fun h _ x hx => backed_mono hx fun y hy => by rw [List.mem_singleton.1 hy]; exact List.mem_cons_self).trans
      (hx2.mono fun h _ x hx => backed_mono hx fun y hy => List.mem_cons_of_mem _ hy)⟩

end Fwknop
