import Verif.Spec.Daemon
import Verif.Lemmas.Server
import Verif.Lemmas.IptSession

/-!
# Lemmas: the daemon's main loops
-/

namespace Fwknop

open Spec Res

variable {σ : Type}

/-- The same state, whatever the number of packets. -/
def Daemon.but (d : Daemon σ) (n : Nat) : Daemon σ := { d with packets := n }

theorem receive_but {D : DConf} {E : Env} {T : Tool σ} {now : Int} {p : Pkt} {o : Nat → Bool} {d d' : Daemon σ} {l : List Deed}
    (h : receive D E T now p o d = .ok (d', l)) (n : Nat) : receive D E T now p o (d.but n) = .ok (d'.but n, l) := by
  unfold receive at h ⊢
  obtain ⟨r, h1, h⟩ := bind_eq_ok h
  obtain ⟨s, h2, h⟩ := bind_eq_ok h
  cases h
  show (incoming_spa D.conf E now p o d.srv >>= _) = _
  rw [h1, bind_ok]
  show (grantAll D.fw T now r.2 d.fw >>= _) = _
  rw [h2, bind_ok]
  rfl

theorem upkeep_but {D : DConf} {T : Tool σ} {now : Int} {d d' : Daemon σ} {l : List Deed}
    (h : upkeep D T now d = .ok (d', l)) (n : Nat) : upkeep D T now (d.but n) = .ok (d'.but n, l) := by
  unfold upkeep at h ⊢
  split at h
  · rename_i ht
    rw [if_pos ht]
    cases h; rfl
  · rename_i ht
    rw [if_neg ht]
    obtain ⟨f, h1, h⟩ := bind_eq_ok h
    obtain ⟨c, h2, h⟩ := bind_eq_ok h
    cases h
    have h1' : (if (d.but n).srv.enable_fw = true then do
          let s ← check_firewall_rules D.fw T (checkCtr D.thr (d.but n).ctr).fst now (d.but n).fw
          pure (s, (checkCtr D.thr (d.but n).ctr).snd)
        else pure ((d.but n).fw, (d.but n).ctr)) = Res.ok f := h1
    rw [h1', bind_ok]
    show (cmd_cycle_close now d.srv.cycles >>= _) = _
    rw [h2, bind_ok]
    rfl

theorem acts_append {D : DConf} {E : Env} {T : Tool σ} : ∀ {as bs : List Act} {d d1 d2 : Daemon σ} {l1 l2 : List Deed},
    acts D E T as d = .ok (d1, l1) → acts D E T bs d1 = .ok (d2, l2) → acts D E T (as ++ bs) d = .ok (d2, l1 ++ l2)
  | [], bs, d, d1, d2, l1, l2, h1, h2 => by cases h1; simpa using h2
  | .upkeep now :: as, bs, d, d1, d2, l1, l2, h1, h2 => by
    simp only [acts] at h1
    obtain ⟨r, g1, h1⟩ := bind_eq_ok h1
    obtain ⟨q, g2, h1⟩ := bind_eq_ok h1
    cases h1
    simp only [List.cons_append, acts]
    rw [g1, bind_ok, acts_append (d1 := q.1) (l1 := q.2) g2 h2, bind_ok]
    simp
  | .packet now p o :: as, bs, d, d1, d2, l1, l2, h1, h2 => by
    simp only [acts] at h1
    obtain ⟨r, g1, h1⟩ := bind_eq_ok h1
    obtain ⟨q, g2, h1⟩ := bind_eq_ok h1
    cases h1
    simp only [List.cons_append, acts]
    rw [g1, bind_ok, acts_append (d1 := q.1) (l1 := q.2) g2 h2, bind_ok]
    simp

theorem acts_split {D : DConf} {E : Env} {T : Tool σ} : ∀ {as bs : List Act} {d d2 : Daemon σ} {l : List Deed},
    acts D E T (as ++ bs) d = .ok (d2, l) →
    ∃ d1 l1 l2, acts D E T as d = .ok (d1, l1) ∧ acts D E T bs d1 = .ok (d2, l2) ∧ l = l1 ++ l2
  | [], bs, d, d2, l, h => ⟨d, [], l, rfl, h, rfl⟩
  | .upkeep now :: as, bs, d, d2, l, h => by
    simp only [List.cons_append, acts] at h
    obtain ⟨r, g1, h⟩ := bind_eq_ok h
    obtain ⟨q, g2, h⟩ := bind_eq_ok h
    cases h
    obtain ⟨d1, l1, l2, e1, e2, e3⟩ := acts_split (d2 := q.1) (l := q.2) g2
    refine ⟨d1, r.2 ++ l1, l2, ?_, e2, by rw [e3]; simp⟩
    simp only [acts]
    rw [g1, bind_ok, e1, bind_ok]
    rfl
  | .packet now p o :: as, bs, d, d2, l, h => by
    simp only [List.cons_append, acts] at h
    obtain ⟨r, g1, h⟩ := bind_eq_ok h
    obtain ⟨q, g2, h⟩ := bind_eq_ok h
    cases h
    obtain ⟨d1, l1, l2, e1, e2, e3⟩ := acts_split (d2 := q.1) (l := q.2) g2
    refine ⟨d1, r.2 ++ l1, l2, ?_, e2, by rw [e3]; simp⟩
    simp only [acts]
    rw [g1, bind_ok, e1, bind_ok]
    rfl

theorem acts_but {D : DConf} {E : Env} {T : Tool σ} : ∀ {as : List Act} {d d' : Daemon σ} {l : List Deed},
    acts D E T as d = .ok (d', l) → ∀ n, acts D E T as (d.but n) = .ok (d'.but n, l)
  | [], d, d', l, h, n => by cases h; rfl
  | .upkeep now :: as, d, d', l, h, n => by
    simp only [acts] at h ⊢
    obtain ⟨r, g1, h⟩ := bind_eq_ok h
    obtain ⟨q, g2, h⟩ := bind_eq_ok h
    cases h
    rw [upkeep_but (d' := r.1) (l := r.2) g1 n, bind_ok, acts_but (d' := q.1) (l := q.2) g2 n, bind_ok]
    rfl
  | .packet now p o :: as, d, d', l, h, n => by
    simp only [acts] at h ⊢
    obtain ⟨r, g1, h⟩ := bind_eq_ok h
    obtain ⟨q, g2, h⟩ := bind_eq_ok h
    cases h
    rw [receive_but (d' := r.1) (l := r.2) g1 n, bind_ok, acts_but (d' := q.1) (l := q.2) g2 n, bind_ok]
    rfl

theorem but_but (d : Daemon σ) (n m : Nat) : (d.but n).but m = d.but m := rfl

theorem but_self (d : Daemon σ) : d.but d.packets = d := rfl

theorem prefix_append_left {α : Type} {a b c : List α} (h : b <+: c) : a ++ b <+: a ++ c := (List.prefix_append_right_inj a).2 h

/-- The UDP server does its history, up to where it stops. -/
theorem udp_acts {D : DConf} {E : Env} {T : Tool σ} : ∀ (ts : List UdpTurn) {d d' : Daemon σ} {l : List Deed} {v : Option Int},
    udpLoop D E T ts d = .ok (d', l, v) →
    ∃ as, as <+: ts.flatMap (UdpTurn.acts D.port) ∧ (v = none → as = ts.flatMap (UdpTurn.acts D.port)) ∧
      ∃ n, acts D E T as d = .ok (d'.but n, l)
  | [], d, d', l, v, h => by
    cases h
    exact ⟨[], List.nil_prefix, fun _ => rfl, _, rfl⟩
  | t :: ts, d, d', l, v, h => by
    unfold udpLoop at h
    split at h
    · cases h
      exact ⟨[], List.nil_prefix, (by intro h; cases h), _, rfl⟩
    · obtain ⟨u, h1, h⟩ := bind_eq_ok h
      obtain ⟨r, h2, h⟩ := bind_eq_ok h
      have hturn : ∃ n, acts D E T (UdpTurn.acts D.port t) d = .ok (r.1.but n, u.2 ++ r.2.1) := by
        unfold UdpTurn.acts
        cases hr : t.ready with
        | nothing =>
          rw [hr] at h2
          cases h2
          exact ⟨_, by simp only [acts]; rw [h1, bind_ok, bind_ok]; simp; rfl⟩
        | error =>
          rw [hr] at h2
          cases h2
          exact ⟨_, by simp only [acts]; rw [h1, bind_ok, bind_ok]; simp; rfl⟩
        | gram g now o old =>
          rw [hr] at h2
          cases g with
          | none => cases h2
          | some g =>
            simp only [udpReady] at h2
            obtain ⟨q, g1, h2⟩ := bind_eq_ok h2
            cases h2
            refine ⟨q.1.packets, ?_⟩
            simp only [acts]
            rw [h1, bind_ok, g1, bind_ok, bind_ok]
            show Res.ok (_, _) = _
            simp
            rfl
      obtain ⟨n, hturn⟩ := hturn
      split at h
      · rename_i v' hv
        cases h
        refine ⟨UdpTurn.acts D.port t, ?_, (by intro h; cases h), n, hturn⟩
        rw [List.flatMap_cons]
        exact List.prefix_append _ _
      · obtain ⟨q, h3, h⟩ := bind_eq_ok h
        cases h
        obtain ⟨as, e1, e2, m, e3⟩ := udp_acts ts (d' := q.1) (l := q.2.1) (v := q.2.2) h3
        refine ⟨UdpTurn.acts D.port t ++ as, ?_, fun hv => ?_, _, acts_append hturn (acts_but e3 n)⟩
        · rw [List.flatMap_cons]; exact prefix_append_left e1
        · rw [List.flatMap_cons, e2 hv]

theorem dispatch_acts {D : DConf} {E : Env} {T : Tool σ} : ∀ (fs : List CapFrame) {d d' : Daemon σ} {l : List Deed},
    dispatch D E T fs d = .ok (d', l) → acts D E T (fs.filterMap CapFrame.act) d = .ok (d', l)
  | [], d, d', l, h => h
  | f :: fs, d, d', l, h => by
    unfold dispatch at h
    cases hp : (process_packet f.cap f.old).2 with
    | none =>
      rw [hp] at h
      rw [List.filterMap_cons_none (by unfold CapFrame.act; rw [hp]; rfl)]
      exact dispatch_acts fs h
    | some p =>
      rw [hp] at h
      rw [List.filterMap_cons_some (b := .packet f.now p f.open_ok) (by unfold CapFrame.act; rw [hp]; rfl)]
      obtain ⟨r, h1, h⟩ := bind_eq_ok h
      obtain ⟨q, h2, h⟩ := bind_eq_ok h
      cases h
      simp only [acts]
      rw [h1, bind_ok, dispatch_acts fs (d' := q.1) (l := q.2) h2, bind_ok]
      rfl

/-- The capture loop does its history, up to where it stops. -/
theorem pcap_acts {D : DConf} {E : Env} {T : Tool σ} : ∀ (ps : List Pass) (pending : Bool) (errs : Nat) {d d' : Daemon σ} {l : List Deed}
    {v : Option Exit}, pcapLoop D E T ps pending errs d = .ok (d', l, v) →
    ∃ as, as <+: ps.flatMap Pass.acts ∧ (v = none → as = ps.flatMap Pass.acts) ∧ ∃ n, acts D E T as d = .ok (d'.but n, l)
  | [], _, _, d, d', l, v, h => by
    cases h
    exact ⟨[], List.nil_prefix, fun _ => rfl, _, rfl⟩
  | p :: ps, pending, errs, d, d', l, v, h => by
    unfold pcapLoop at h
    obtain ⟨r, h1, h⟩ := bind_eq_ok h
    have ha := dispatch_acts p.frames (d' := r.1) (l := r.2) h1
    dsimp only at h
    split at h
    · cases h
      refine ⟨p.frames.filterMap CapFrame.act, ?_, (by intro h; cases h), r.1.packets, ha⟩
      rw [List.flatMap_cons]
      unfold Pass.acts
      rw [List.append_assoc]
      exact List.prefix_append _ _
    · obtain ⟨u, h2, h⟩ := bind_eq_ok h
      obtain ⟨q, h3, h⟩ := bind_eq_ok h
      cases h
      obtain ⟨as, e1, e2, m, e3⟩ := pcap_acts ps _ _ (d' := q.1) (l := q.2.1) (v := q.2.2) h3
      have hu := upkeep_but (d' := u.1) (l := u.2) h2 r.1.packets
      have hpass : acts D E T (Pass.acts p) d = .ok (u.1.but r.1.packets, r.2 ++ u.2) := by
        unfold Pass.acts
        refine acts_append ha ?_
        simp only [acts]
        have hu' : upkeep D T p.now r.1 = .ok (u.1.but r.1.packets, u.2) := hu
        rw [hu', bind_ok, bind_ok]
        simp
      refine ⟨Pass.acts p ++ as, ?_, fun hv => ?_, _, acts_append hpass (acts_but e3 r.1.packets)⟩
      · rw [List.flatMap_cons]; exact prefix_append_left e1
      · rw [List.flatMap_cons, e2 hv]

/-- Either loop does the part of its history that comes before its end. -/
theorem ran_acts {D : DConf} {E : Env} {T : Tool σ} {h : List Act} {d d' : Daemon σ} {l : List Deed} (hr : Ran D E T h d d' l) :
    ∃ as, as <+: h ∧ ∃ n, acts D E T as d = .ok (d'.but n, l) := by
  cases hr with
  | udp ts v hh hr =>
    obtain ⟨as, e1, -, e3⟩ := udp_acts ts hr
    exact ⟨as, hh ▸ e1, e3⟩
  | pcap ps pending errs v hh hr =>
    obtain ⟨as, e1, -, e3⟩ := pcap_acts ps pending errs hr
    exact ⟨as, hh ▸ e1, e3⟩

end Fwknop
