import Verif.Lemmas.Firewalld

/-!
# Lemmas: expiry with the firewalld back end
-/

namespace Fwknop

open Spec Res

/-- The words of a command, if they are known for iptables. -/
theorem fd_argv {cf : FwConf} {t : Str} {W : List Word} (h : FitsCmd cf t) (hw : strtoargv (cmdBuf (cf.fw_command ++ t)) = .ok (some (cf.fw_command :: W))) :
    strtoargv (cmdBuf ((fdConf cf).fw_command ++ t)) = .ok (some (cf.fw_command :: (fdWords ++ W))) := by
  obtain ⟨W', -, h1, h2⟩ := fits_argv h
  rw [h1] at hw
  simp only [Res.ok.injEq, Option.some.injEq, List.cons.injEq, true_and] at hw
  rw [← hw]; exact h2

theorem iptables_callOf (p : Host) (exe : Word) (W : List Word) (K : Tables) : (callOf W).perform p K = iptables p (exe :: W) K := rfl

theorem fd_deletes (F : FirewalldHost) {cf : FwConf} {ch : FwChain} (hw : NamesOk cf ch)
    (hroom : cf.fw_command.length + ch.table.length + ch.to_chain.length ≤ 190) : Deletes (fdConf cf) (fwdTool F).toTool ch := by
  intro n hn s kept rs r hoff hK hf
  obtain ⟨off, active, min_exp, K, fs⟩ := s
  simp only at hoff hK hf ⊢
  unfold rmRule
  simp only
  rw [show ((n : Int) - (off : Nat)) = ((n - off : Nat) : Int) from by omega]
  have hl := decStr_length_le (n - off) 5 (by decide) (by omega)
  have hd : decStrInt ((n - off : Nat) : Int) = decStr (n - off) := by rw [decStrInt, if_neg (by omega), Int.natAbs_natCast]
  have e1 : ∀ cmd : Str, cmd ++ b!" -t " ++ ch.table ++ b!" -D " ++ ch.to_chain ++ b!" " ++ decStrInt ((n - off : Nat) : Int) =
    cmd ++ (b!" -t " ++ ch.table ++ b!" -D " ++ ch.to_chain ++ b!" " ++ decStrInt ((n - off : Nat) : Int)) := by intro cmd; simp
  have hfit : FitsCmd cf (b!" -t " ++ ch.table ++ b!" -D " ++ ch.to_chain ++ b!" " ++ decStrInt ((n - off : Nat) : Int)) := by
    refine ⟨hw.exe, ⟨_, rfl⟩, ?_, ?_⟩
    · rw [hd]; simp only [List.length_append, List.length_cons, List.length_nil]; omega
    · simp only [blanks_append, blanks_plain hw.table.2, blanks_plain hw.chain.2, decStrInt_plain]; decide
  have h1 := strtoargv_delete hw (by omega) (n := n - off) (by omega)
  rw [e1] at h1
  have h2 := fd_argv hfit h1
  rw [e1, run_words _ h2, bind_ok]
  have hdel := iptables_delete (print := F.ipt) (exe := cf.fw_command) (n := n - off) hK (by omega)
    (by simp only [List.length_append, List.length_cons]; omega)
  have herase : (kept ++ r :: rs).eraseIdx (n - off - 1) = kept ++ rs := by
    rw [show n - off - 1 = kept.length from by omega, List.eraseIdx_append_of_length_le (by omega)]
    simp
  rw [herase] at hdel
  have hcmd : (firewallCmd F (cf.fw_command :: (fdWords ++ [b!"-t", ch.table, b!"-D", ch.to_chain, decimal (n - off)])) K).2 =
      K.put ch.table ch.to_chain (kept ++ rs) := by
    rw [firewallCmd_words, iptables_callOf F.ipt cf.fw_command, hdel]
  cases fs with
  | nil =>
    refine ⟨⟨off + 1, active - 1, min_exp, K.put ch.table ch.to_chain (kept ++ rs), []⟩, ?_, rfl, rfl, .inl ⟨rfl, rfl, rfl⟩⟩
    simp only [fwdTool, firewallCmdUnder, hcmd]
    rfl
  | cons f fs =>
    cases f with
    | works =>
      refine ⟨⟨off + 1, active - 1, min_exp, K.put ch.table ch.to_chain (kept ++ rs), fs⟩, ?_, rfl, rfl,
        .inl ⟨rfl, rfl, rfl⟩⟩
      simp only [fwdTool, firewallCmdUnder, hcmd]
      rfl
    | refused => exact absurd List.mem_cons_self hf
    | killed =>
      refine ⟨⟨off, active, min_exp, K, fs⟩, ?_, rfl, rfl, .inr ⟨List.cons_ne_nil _ _, rfl, rfl, rfl⟩⟩
      simp only [fwdTool, firewallCmdUnder]
      rfl

/-- What firewall-cmd prints after a listing, as it is read: a line end, or a line end and the word, or
nothing of it. -/
theorem read_tail (A : Str) (hA : A ≠ []) (N : Nat) (hN : (A ++ [10]).length < N) : ∃ Z, TailOk Z ∧
    chop_newline (truncate_partial_line ((A ++ [10] ++ 10 :: successLine).take N)) = A ++ Z := by
  obtain ⟨j, hj⟩ : ∃ j, N = (A ++ [10]).length + (j + 1) := ⟨N - (A ++ [10]).length - 1, by omega⟩
  by_cases h8 : 8 ≤ j
  · refine ⟨b!"" ++ 10 :: 10 :: b!"success", .inr ⟨_, rfl, noMark_of_no_underscore (by decide)⟩, ?_⟩
    rw [List.take_of_length_le (by rw [hj]; simp only [List.length_append, List.length_cons, List.length_nil]; omega)]
    rw [show A ++ [10] ++ 10 :: successLine = (A ++ [10] ++ 10 :: b!"success") ++ 10 :: [] from by simp, truncate_cut _ _ (by simp),
      chop_newline_end _ (by simp)]
    simp
  · refine ⟨[10], .inr ⟨[], rfl, noMark_of_no_underscore (by simp)⟩, ?_⟩
    rw [hj, List.take_length_add_append, List.take_succ_cons]
    have h10 : 10 ∉ successLine.take j := by
      have : ∀ j, j < 8 → 10 ∉ successLine.take j := by decide
      exact this j (by omega)
    rw [truncate_cut _ _ h10, chop_newline_end _ (by simp)]

theorem fd_reads (F : FirewalldHost) {cf : FwConf} {K : Tables} {ex : Rule → Option Nat} {i : Nat} {ch : FwChain} {rs : List Rule}
    (h : ChainOk F.ipt cf K ex i ch rs) (hroom : cf.fw_command.length + ch.table.length + ch.to_chain.length ≤ 190) :
    ReadsChain F.ipt (fdConf cf) (fwdTool F).toTool ch K rs := by
  obtain ⟨m, hm, hm1, hm2, hm3⟩ := truncate_listing (print := F.ipt) rs
    (fun r hr => hasExpiry_line (h.expiry r hr).1) 4095 1 (header ch.to_chain) (by
      simp only [header, List.length_append, List.length_cons, List.length_nil]; omega)
  have hlen : m ≤ 4095 := by
    have := lines_length F.ipt (rs.take m) 1
    simp only [List.length_append, List.length_take] at hm3 this
    omega
  -- what is read
  have hbuf : ∃ m Z, m ≤ rs.length ∧ m ≤ 4095 ∧ TailOk Z ∧
      chop_newline (truncate_partial_line ((listing F.ipt ch.to_chain rs ++ 10 :: successLine).take 4095)) =
        header ch.to_chain ++ (lines F.ipt 1 (rs.take m) ++ Z) ∧ ((listing F.ipt ch.to_chain rs).length ≤ 4095 → m = rs.length) := by
    by_cases hlt : (listing F.ipt ch.to_chain rs).length < 4095
    · obtain ⟨Z, hZ, hb⟩ := read_tail (header ch.to_chain ++ lines F.ipt 1 rs) (by simp [header]) 4095 (by simpa [listing] using hlt)
      have hall := hm2 (by simpa [listing] using Nat.le_of_lt hlt)
      rw [hall] at hlen
      refine ⟨rs.length, Z, Nat.le_refl _, hlen, hZ, ?_, fun _ => rfl⟩
      rw [listing, hb, List.take_length, List.append_assoc]
    · refine ⟨m, [], hm, hlen, .inl rfl, ?_, fun hl => hm2 (by simpa [listing] using hl)⟩
      rw [List.take_append_of_le_length (by omega), listing, hm1, chop_newline_end _ (by simp [header]), List.append_nil]
  obtain ⟨m, Z, b1, b2, b3, b4, b5⟩ := hbuf
  have e1 : ∀ cmd : Str, cmd ++ b!" -t " ++ ch.table ++ b!" -L " ++ ch.to_chain ++ b!" --line-numbers -n" =
    cmd ++ (b!" -t " ++ ch.table ++ b!" -L " ++ ch.to_chain ++ b!" --line-numbers -n") := by intro cmd; simp
  have hfit : FitsCmd cf (b!" -t " ++ ch.table ++ b!" -L " ++ ch.to_chain ++ b!" --line-numbers -n") := by
    refine ⟨h.names.exe, ⟨_, rfl⟩, ?_, ?_⟩
    · simp only [List.length_append, List.length_cons, List.length_nil]; omega
    · simp only [blanks_append, blanks_plain h.names.table.2, blanks_plain h.names.chain.2]; decide
  have h1 := strtoargv_list h.names (by omega)
  rw [e1] at h1
  have h2 := fd_argv hfit h1
  have hlist := iptables_list (print := F.ipt) (exe := cf.fw_command) h.there
  have hne : listing F.ipt ch.to_chain rs ≠ [] := by obtain ⟨x, hx⟩ := listing_head F.ipt ch.to_chain rs; rw [hx]; simp
  have hrep : F.report [b!"-t", ch.table, b!"-L", ch.to_chain, b!"--line-numbers", b!"-n"] K = listing F.ipt ch.to_chain rs ++ 10 :: successLine := by
    unfold FirewalldHost.report Call.worked
    dsimp only
    rw [iptables_callOf F.ipt cf.fw_command, hlist]
    have hk : (callOf [b!"-t", ch.table, b!"-L", ch.to_chain, b!"--line-numbers", b!"-n"]).op = .list ∧
        (callOf [b!"-t", ch.table, b!"-L", ch.to_chain, b!"--line-numbers", b!"-n"]).table = ch.table ∧
        (callOf [b!"-t", ch.table, b!"-L", ch.to_chain, b!"--line-numbers", b!"-n"]).chain = ch.to_chain := by
      simp [callOf, Call.feed, Call.plain]
    rw [hk.1, hk.2.1, hk.2.2, h.there, if_pos (by simp), if_neg hne]
  have hcmd : firewallCmd F (cf.fw_command :: (fdWords ++ [b!"-t", ch.table, b!"-L", ch.to_chain, b!"--line-numbers", b!"-n"])) K =
      (listing F.ipt ch.to_chain rs ++ 10 :: successLine, K) := by
    rw [firewallCmd_words, hrep, iptables_callOf F.ipt cf.fw_command, hlist]
  refine ⟨fun fs gs hfs => ⟨truncate_partial_line ((listing F.ipt ch.to_chain rs ++ 10 :: successLine).take 4095), m, Z, ?_, b1, b2, b3, b4, b5⟩,
    fun gs => ⟨[], ?_⟩⟩
  · rw [e1, run_words _ h2]
    rcases hfs with ⟨rfl, rfl⟩ | rfl
    · simp only [fwdTool, firewallCmdUnder, hcmd]; rfl
    · simp only [fwdTool, firewallCmdUnder, hcmd]; rfl
  · rw [e1, run_words _ h2]
    rfl

end Fwknop
