import Verif.Props.Knock
import Verif.Props.Nat

/-!
# C100 for NAT: from the command line to the rules of address translation
-/

namespace Fwknop.Props
open Fwknop Fwknop.Spec Fwknop.Res Fwknop.Base64

/-- **C100** (partial, with what is missing in `C100_knock_is_answered_partial` and in C68: working calls
of iptables, a stanza without FORCE_NAT and FORWARD_ALL, no source NAT, and an address as target).  A knock
that asks for NAT opens the way: after the packet has been handled, the tables have changed by exactly
the rule that lets packets from the address the client asked for to the target port through (or in, for
--nat-local), and the rule that sends the packets from that address to the first port asked for on to
the target of -N; both expire when the time that was asked for has passed. -/
theorem C100_nat_knock_opens_the_way_partial {E : Env} (hH : E.K.H.Lawful) (hbc : E.K.bc.Lawful)
    (hsig : ∀ acc text fpr, E.gpgSig acc text = some fpr → 8 ≤ fpr.length) {CE : CliEnv}
    {args : List CliArg} (htext : ∀ a ∈ args, IsText (argText a))
    (hrand : 16 ≤ CE.rands.length ∧ 16 ≤ CE.rands2.length) (hsalt : CE.salt.length = 8 ∧ IsBytes CE.salt)
    (hres : ∀ ip, CE.resolved = some ip → IsIPv4 ip)
    (hcmd : (given argCommand args).getD [] = []) (hgpg : args.any asksGpg = false)
    {p : Packed} {t : Str} (h : client E.K CE {} args = .ok (p, t)) :
    ∃ o o' r ip port ports ps, Meant args o ∧ Settled o o' ∧ Asks CE o' r ∧ AskedIp CE o' ip ∧
      AskedNatPort CE o' port ∧ AskedPorts o'.access_str port ports ∧ AskedNat o' r.nat ∧
      r.msg = ip ++ 44 :: ports ∧ IsIPv4 ip ∧ RequestPorts ports ps ∧
      (FitsReceiver r → 10 ^ 9 ≤ r.ts → p.hmac ≠ some [] →
        sentLength (plainLen r (if o'.digest_type = 0 then 3 else o'.digest_type))
          (if p.hmac = none then 0 else b64DigestLen o'.hmac_type) < 400 →
        ∀ (conf : Conf) (now : Int) (pkt : Pkt) (open_ok : Nat → Bool) (sv : Server) (n : Nat) (acc : Stanza),
          Holds pkt t → conf.test = false → (0 ≤ now ∧ now < 2 ^ 31) → (∀ n, open_ok n = true) →
          (∀ a ∈ sv.stanzas, StanzaSafe a ∧ ClosingBuilds a) →
          (conf.persistence = true → ∀ e ∈ sv.cache, e.length = 43 ∧ e ≠ b64NoPad (E.K.H 3 t)) →
          1 ≤ n → stanzaAt sv.stanzas n = some acc → SharesKeys acc p o' →
          Expects conf now pkt.src_ip pkt.dst_ip acc r ip → OpenTo acc ps →
          (0 ≤ acc.max_fw_timeout ∧ acc.max_fw_timeout < 2 ^ 31) →
          (∀ m a, 1 ≤ m → m < n → stanzaAt sv.stanzas m = some a →
            ¬ AddressesOk a pkt.src_ip pkt.dst_ip ∨ Expired a now ∨ ∀ c, authenticate E a t ≠ .ok c) →
          ∀ (print : Host) (cf : FwConf) (s : FwSt (Tables × List Fate)) (K : Tables) (e : Nat)
            (proto fst : Nat) (rest : List (Nat × Nat)) (host : Word) (toPort : Nat) (src dst : Word),
            s.world = (K, []) → ps = (proto, fst) :: rest → r.nat = some (host ++ 44 :: decimal toPort) → IsIPv4 host →
            toPort ≤ 65535 → acc.force_nat = false → acc.forward_all = false → acc.disable_dnat = false →
            acc.force_snat = false → cf.snat = false →
            (e : Int) = now + timeFor acc r.timeout → e < 2 ^ 32 →
            src = grantee (inet_ntop pkt.src_ip) [] ip → AddrWord src →
            dst = (if cf.use_destination then inet_ntop pkt.dst_ip else b!"0.0.0.0/0") → AddrWord dst →
            NatOk cf (s.at 0) → NatOk cf (s.at 2) → NatOk cf (s.at 3) →
            ∃ sv' sp s', incoming_spa conf E now pkt open_ok sv = .ok (sv', [.access n acc sp]) ∧
              process_spa_request cf (iptTool print) acc sp now s = .ok s' ∧
              s'.world.1 = grantIn cf.prepend (s.at 3)
                (if r.type = 5 ∨ r.type = 6 then
                  grantIn cf.prepend (s.at 0) K (inputRule proto src dst toPort e (s.at 0).target)
                else grantIn cf.prepend (s.at 2) K (forwardRule proto src toPort e (s.at 2).target))
                (dnatRule proto src dst fst e (s.at 3).target host toPort)) := by
  obtain ⟨o, o', r, ip, port, ports, ps, h1, h2, h3, h4, h5, h6, h7, h8, h9, hall⟩ :=
    C100_knock_is_answered_partial hH hbc hsig htext hrand hsalt hres hcmd hgpg h
  refine ⟨o, o', r, ip, port, ports, ps, h1, h2, h3, h4, h5, h6, h3.nat, h7, h8, h9, ?_⟩
  intro f1 f2 f3 f4 conf now pkt open_ok sv n acc g1 g2 g3 g4 g5 g6 g7 g8 g9 g10 g11 g12 g13
  intro print cf s K e proto fst rest host toPort src dst w1 w2 w3 w4 w5 w6 w7 w8 w9 w10 w11 w12 w13 w14 w15 w16 w17 w18 w19
  obtain ⟨sv', sp, i1, i2, i3, i4, i5, i6, i7⟩ := hall f1 f2 f3 f4 conf now pkt open_ok sv n acc g1 g2 g3 g4 g5 g6 g7 g8 g9
    g10 g11 g12 g13
  have hdst : dstOf cf sp = dst := by rw [w15]; unfold dstOf; rw [i6]
  have hsrc : sp.use_src_ip = src := by rw [w13, i2]
  have hty : r.type = 2 ∨ r.type = 4 ∨ r.type = 5 ∨ r.type = 6 := by
    have hn := h3.nat
    rw [w3] at hn
    rw [h3.type]
    have hsc : o'.server_command = [] := by
      have := congrArg CliOpts.server_command h2.same
      rw [← this]
      show o.server_command = []
      rw [h1.command, hcmd]
    unfold askedType
    rw [if_neg (by simp [hsc])]
    by_cases hl : o'.nat_local = true
    · rw [if_pos hl]; split <;> omega
    · rw [if_neg hl]
      have : o'.nat_access_str ≠ [] := by
        generalize hx : some (host ++ 44 :: decimal toPort) = x at hn
        cases hn with
        | no => cases hx
        | server _ a => exact absurd a hl
        | host _ a => exact a
        | target hh dd sep _ a => rw [a]; simp
      rw [if_pos this]; split <;> omega
  have hloc : wantsLocal sp = decide (r.type = 5 ∨ r.type = 6) := by
    unfold wantsLocal
    rw [i4, ← Bool.decide_or]
    simp only [FKO_LOCAL_NAT_ACCESS_MSG, FKO_CLIENT_TIMEOUT_LOCAL_NAT_ACCESS_MSG]
    congr 1
    apply propext
    omega
  obtain ⟨s', j1, j2⟩ := C68_tables_partial print cf acc sp now s K w1 proto fst rest
    (by rw [i3, ← w2]; exact protoPorts_of_request h9)
    (by rw [i4]; unfold ForNat; omega) w7 host toPort w4 w5 (fun h => by rw [w6] at h; cases h) (fun _ => by rw [i5, w3]) e
    (by rw [i7]; exact w11) w12 (by rw [hsrc]; exact w14) (by rw [hdst]; exact w16) (fun _ => w17) (fun _ => w18) (fun _ => w19)
    0 [] [] (fun h => by rw [w9, w10] at h; rcases h with h | h <;> cases h)
  refine ⟨sv', sp, s', i1, j1, ?_⟩
  rw [j2]
  have n2 : (s.at 2).to_chain ≠ [] := w18.chain.1.1
  have n3 : ¬ ((s.at 3).to_chain = [] ∨ acc.disable_dnat = true) := by
    rw [w8]
    rintro (h | h)
    · exact w19.chain.1.1 h
    · cases h
  show natTables cf acc sp s.at proto fst host toPort e 0 [] [] K = _
  unfold natTables
  simp only
  rw [if_neg (by rw [w9, w10]; simp), if_neg n3, hloc, hsrc, hdst, if_neg n2]
  congr 1
  by_cases hq : r.type = 5 ∨ r.type = 6
  · rw [if_pos hq, if_pos (decide_eq_true hq)]
  · rw [if_neg hq, if_neg (by simp only [hq, decide_false]; simp)]

/-- The rules of the two chains of a fresh sample firewall after the packet of a command line. -/
def natAfter (args : List CliArg) : Res (Option (List Rule) × Option (List Rule)) := do
  let x ← client toyCrypto cliEnv {} args
  let y ← incoming_spa { forwarding := true } sampleEnv 1700000010 (samplePkt x.2) (fun _ => true) (knockServer sampleStanzaH)
  match y.2 with
  | [.access _ acc sp] => do
    let s ← process_spa_request fwSample ipt acc sp 1700000010 ⟨defaultChains, (builtin, [])⟩
    return (s.world.1 b!"filter" b!"FWKNOP_FORWARD", s.world.1 b!"nat" b!"FWKNOP_PREROUTING")
  | _ => .err

/-- From `-N 10.0.0.5:80 --nat-port 4000 -f 60` to the rules. -/
example : natAfter (cliArgs ++ [.nat_access b!"10.0.0.5:80", .nat_port b!"4000", .fw_timeout b!"60"]) =
    .ok (some [forwardRule 6 b!"5.6.7.8" 80 1700000070 b!"ACCEPT"],
      some [dnatRule 6 b!"5.6.7.8" b!"0.0.0.0/0" 4000 1700000070 b!"DNAT" b!"10.0.0.5" 80]) := by
  decide +kernel

end Fwknop.Props
