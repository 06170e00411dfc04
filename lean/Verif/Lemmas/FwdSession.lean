import Verif.Lemmas.FwdInit

/-!
# Lemmas: checks with the firewalld back end take rules out of the daemon's chains only
-/

namespace Fwknop

open Spec Res Fwknop.Props

/-- A rule is deleted alike by both back ends. -/
theorem fd_rmRule_eq (F : FirewalldHost) {cf : FwConf} {ch : FwChain} (h : FdOk cf ch) {n : Int} {s : RmSt (Tables × List Fate)} {K : Tables}
    (hw : s.world = (K, [])) (h0 : (s.off : Int) ≤ n) (h1 : n ≤ 65536) :
    rmRule (fdConf cf) (fwdTool F).toTool ch n s = rmRule cf (iptTool F.ipt) ch n s := by
  have hroom := h.room
  unfold rmRule
  have hl := decStr_length_le (n - s.off).toNat 10 (by decide) (by omega)
  have e1 : ∀ cmd : Str, cmd ++ b!" -t " ++ ch.table ++ b!" -D " ++ ch.to_chain ++ b!" " ++ decStrInt (n - s.off) =
    cmd ++ (b!" -t " ++ ch.table ++ b!" -D " ++ ch.to_chain ++ b!" " ++ decStrInt (n - s.off)) := by intro cmd; simp
  have hfit : FitsCmd cf (b!" -t " ++ ch.table ++ b!" -D " ++ ch.to_chain ++ b!" " ++ decStrInt (n - s.off)) := by
    refine ⟨h.exe, ⟨_, rfl⟩, ?_, ?_⟩
    · rw [decStrInt, if_neg (by omega), show (n - s.off).natAbs = (n - s.off).toNat from by omega]
      simp only [List.length_append, List.length_cons, List.length_nil]; omega
    · simp only [blanks_append, blanks_plain h.table.2, blanks_plain h.chain.2, decStrInt_plain]; decide
  obtain ⟨b, b', K', r1, r2⟩ := cmd_both F hfit CMD_BUFSIZE K
  rw [hw, e1, e1, r1, r2]
  rfl

theorem fd_rmLoop_thinner (F : FirewalldHost) {cf : FwConf} {ch : FwChain} (h : NatOk cf ch) (hf : FdOk cf ch) {now : Int} {buf : Str} :
    ∀ (fuel : Nat) (ndx : Option Nat) (s s' : RmSt (Tables × List Fate)) (K : Tables), s.world = (K, []) →
      rmLoop (fdConf cf) (fwdTool F).toTool ch now buf fuel ndx s = .ok s' → ∃ K', s'.world = (K', []) ∧ Thinner ch.table ch.to_chain K K'
  | 0, ndx, s, s', K, hw, hr => by cases hr; exact ⟨K, hw, .inl rfl⟩
  | fuel + 1, none, s, s', K, hw, hr => by cases hr; exact ⟨K, hw, .inl rfl⟩
  | fuel + 1, some p, s, s', K, hw, hr => by
    unfold rmLoop at hr
    dsimp only at hr
    split at hr
    · exact fd_rmLoop_thinner F h hf fuel _ s s' K hw hr
    · split at hr
      · obtain ⟨n, hn, hr⟩ := bind_eq_ok hr
        split at hr
        · cases hr; exact ⟨K, hw, .inl rfl⟩
        · obtain ⟨s1, h1, hr⟩ := bind_eq_ok hr
          have hrange := ruleNum_range hn
          rw [fd_rmRule_eq F hf hw hrange.1 hrange.2] at h1
          obtain ⟨K1, hw1, ht1⟩ := rmRule_thinner h hw hrange.1 hrange.2 h1
          obtain ⟨K2, hw2, ht2⟩ := fd_rmLoop_thinner F h hf fuel _ s1 s' K1 hw1 hr
          exact ⟨K2, hw2, ht1.trans ht2⟩
      · refine fd_rmLoop_thinner F h hf fuel _ _ s' K ?_ hr
        exact hw

theorem fd_checkChain_thinner (F : FirewalldHost) {cf : FwConf} {ch ch' : FwChain} (h : NatOk cf ch) (hf : FdOk cf ch) {all : Bool} {now : Int} {i : Nat}
    {K : Tables} {w' : Tables × List Fate} (hr : checkChain (fdConf cf) (fwdTool F).toTool all now i ch (K, []) = .ok (ch', w')) :
    ch'.bare = ch.bare ∧ ∃ K', w' = (K', []) ∧ Thinner ch.table ch.to_chain K K' := by
  have hroom := hf.room
  unfold checkChain at hr
  split at hr
  · cases hr; exact ⟨rfl, K, rfl, .inl rfl⟩
  · split at hr
    · cases hr; exact ⟨rfl, K, rfl, .inl rfl⟩
    · have e1 : ∀ cmd : Str, cmd ++ b!" -t " ++ ch.table ++ b!" -L " ++ ch.to_chain ++ b!" --line-numbers -n" =
        cmd ++ (b!" -t " ++ ch.table ++ b!" -L " ++ ch.to_chain ++ b!" --line-numbers -n") := by intro cmd; simp
      have hfit : FitsCmd cf (b!" -t " ++ ch.table ++ b!" -L " ++ ch.to_chain ++ b!" --line-numbers -n") := by
        refine ⟨hf.exe, ⟨_, rfl⟩, ?_, ?_⟩
        · simp only [List.length_append, List.length_cons, List.length_nil]; omega
        · simp only [blanks_append, blanks_plain hf.table.2, blanks_plain hf.chain.2]; decide
      obtain ⟨b, b', K', r1, r2⟩ := cmd_both F hfit STANDARD_CMD_OUT_BUFSIZE K
      have hK : K' = K := by
        rw [← e1, run_argv (ws := [cf.fw_command, b!"-t", ch.table, b!"-L", ch.to_chain, b!"--line-numbers", b!"-n"]) (by simp [spaced]) (by
          intro w hw
          rcases List.mem_cons.1 hw with rfl | hw
          · exact h.exe
          · refine five_plain h.table h.chain.1 plain_L ?_ w hw
            intro w hw
            simp only [List.mem_cons, List.not_mem_nil, or_false] at hw
            rcases hw with rfl | rfl <;> (unfold PlainWord IsBlank; decide))
          (by simp only [List.length_append, List.length_cons, List.length_nil]; omega) (by simp)] at r1
        simp only [Res.ok.injEq, Prod.mk.injEq] at r1
        rw [← r1.2.1]
        unfold iptables
        simp only [List.tail_cons, List.foldl_cons, List.foldl_nil]
        cases hq : K ch.table ch.to_chain <;> simp [Call.perform, Call.feed, Call.plain, hq]
      rw [e1, r2, bind_ok, hK] at hr
      simp only [Bool.not_true, Bool.false_eq_true, if_false] at hr
      split at hr
      · cases hr; exact ⟨rfl, K, rfl, .inl rfl⟩
      · unfold rm_expired_rules at hr
        obtain ⟨s', h1, hr⟩ := bind_eq_ok hr
        obtain ⟨K', hw, ht⟩ := fd_rmLoop_thinner F h hf _ _ _ s' K rfl h1
        cases hr
        exact ⟨rfl, K', hw, ht⟩

theorem fd_checkChains_over (F : FirewalldHost) {cf : FwConf} {hs : List Hook} (ha : Apart hs) {K0 : Tables} {all : Bool} {now : Int} :
    ∀ (chs : List FwChain) (i : Nat) (K : Tables) (chs' : List FwChain) (w' : Tables × List Fate), FdInit cf chs →
      (∀ ch ∈ chs, ch.target = [] → ch.table = []) → (∀ h ∈ hooks chs, h ∈ hs) → Over hs K0 K →
      checkChains (fdConf cf) (fwdTool F).toTool all now i chs (K, []) = .ok (chs', w') →
      chs'.map FwChain.bare = chs.map FwChain.bare ∧ ∃ K', w' = (K', []) ∧ Over hs K0 K'
  | [], i, K, chs', w', _, _, _, hO, hr => by cases hr; exact ⟨rfl, K, rfl, hO⟩
  | ch :: chs, i, K, chs', w', hok, he, hm, hO, hr => by
    unfold checkChains at hr
    obtain ⟨r1, h1, hr⟩ := bind_eq_ok hr
    obtain ⟨r2, h2, hr⟩ := bind_eq_ok hr
    obtain ⟨c1, w1⟩ := r1
    have hstep : c1.bare = ch.bare ∧ ∃ K1, w1 = (K1, []) ∧ Over hs K0 K1 := by
      by_cases ht : ch.target = []
      · unfold checkChain at h1
        rw [if_pos (show ch.table = [] ∨ ch.to_chain.getD i 0 = 0 from .inl (he ch List.mem_cons_self ht))] at h1
        split at h1 <;> (cases h1; exact ⟨rfl, K, rfl, hO⟩)
      · obtain ⟨hb, K1, hw, hth⟩ := fd_checkChain_thinner F (hok ch List.mem_cons_self ht).1 (hok.fd List.mem_cons_self ht) h1
        exact ⟨hb, K1, hw, over_thinner ha hO (hm _ (mem_hooks List.mem_cons_self ht)) hth⟩
    obtain ⟨hb, K1, rfl, hO1⟩ := hstep
    obtain ⟨hb2, K2, hw2, hO2⟩ := fd_checkChains_over F ha chs (i + 1) K1 r2.1 r2.2 (fun c hc => hok c (List.mem_cons_of_mem _ hc))
      (fun c hc => he c (List.mem_cons_of_mem _ hc)) (fun h hh => hm h (by
        by_cases ht : ch.target = []
        · rw [hooks_cons_neg ht]; exact hh
        · rw [hooks_cons ht]; exact List.mem_cons_of_mem _ hh)) hO1 h2
    cases hr
    exact ⟨by simp [hb, hb2], K2, hw2, hO2⟩

theorem fdInit_bare {cf : FwConf} {chs chs' : List FwChain} (h : chs'.map FwChain.bare = chs.map FwChain.bare) (hok : FdInit cf chs) : FdInit cf chs' := by
  intro ch hch ht
  have : ch.bare ∈ chs.map FwChain.bare := by rw [← h]; exact List.mem_map.2 ⟨ch, hch, rfl⟩
  obtain ⟨c, hc, hcb⟩ := List.mem_map.1 this
  obtain ⟨e1, e2, e3, e4, e5⟩ := bare_fields hcb
  obtain ⟨g1, g2⟩ := hok c hc (by rw [e1]; exact ht)
  exact ⟨NatOk.bare hcb.symm g1, by rw [← e1, ← e2, ← e3, ← e5]; exact g2⟩

end Fwknop
