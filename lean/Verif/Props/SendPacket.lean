import Verif.Spec.SendPacket

/-!
# C134: the packet is sent once, to the first address that can be reached
-/

namespace Fwknop.Props
open Fwknop Spec

theorem sends_append (l m : List NetAct) : sends (l ++ m) = sends l ++ sends m := by
  induction l with
  | nil => rfl
  | cons x l ih => cases x <;> simp [sends, ih]

theorem not_reachable {only4 : Bool} {a : NetAddr} : ¬ Reachable only4 a ↔ (only4 && !a.ipv4) = true ∨ (!a.socket) = true ∨ a.connect = false := by
  obtain ⟨x, y, z⟩ := a
  cases only4 <;> cases x <;> cases y <;> cases z <;> simp [Reachable]

theorem loop_sends (only4 : Bool) (as : List NetAddr) (i : Nat) : sends (connectLoop only4 i as).1 = [] := by
  induction as generalizing i with
  | nil => rfl
  | cons a as ih =>
    unfold connectLoop
    split
    · exact ih _
    split
    · exact ih _
    split
    · rfl
    · simp [sends, ih]

/-- The address that is connected is the first that can be reached. -/
theorem loop_first (only4 : Bool) (as : List NetAddr) (i : Nat) :
    (∀ n, (connectLoop only4 i as).2 = some n → ∃ k, n = i + k ∧ FirstReachable only4 as k) ∧
      ((connectLoop only4 i as).2 = none → ∀ a ∈ as, ¬ Reachable only4 a) := by
  induction as generalizing i with
  | nil => simp [connectLoop]
  | cons a as ih =>
    have skip : ¬ Reachable only4 a → (connectLoop only4 i (a :: as)).2 = (connectLoop only4 (i + 1) as).2 →
        (∀ n, (connectLoop only4 i (a :: as)).2 = some n → ∃ k, n = i + k ∧ FirstReachable only4 (a :: as) k) ∧
          ((connectLoop only4 i (a :: as)).2 = none → ∀ b ∈ a :: as, ¬ Reachable only4 b) := by
      intro hn e
      rw [e]
      refine ⟨?_, ?_⟩
      · intro n h
        obtain ⟨k, rfl, ⟨b, hb, hr⟩, hf⟩ := (ih (i + 1)).1 n h
        refine ⟨k + 1, by omega, ⟨b, by simpa using hb, hr⟩, ?_⟩
        intro j hj c hc
        cases j with
        | zero => simp at hc; exact hc ▸ hn
        | succ j => exact hf j (by omega) c (by simpa using hc)
      · intro h b hb
        rcases List.mem_cons.1 hb with rfl | hb
        · exact hn
        · exact (ih (i + 1)).2 h b hb
    by_cases h1 : (only4 && !a.ipv4) = true
    · exact skip (not_reachable.2 (.inl h1)) (by rw [connectLoop, if_pos h1])
    by_cases h2 : (!a.socket) = true
    · exact skip (not_reachable.2 (.inr (.inl h2))) (by rw [connectLoop, if_neg h1, if_pos h2])
    cases h3 : a.connect with
    | false => exact skip (not_reachable.2 (.inr (.inr h3))) (by rw [connectLoop, if_neg h1, if_neg h2, h3]; rfl)
    | true =>
      have e : (connectLoop only4 i (a :: as)).2 = some i := by rw [connectLoop, if_neg h1, if_neg h2, if_pos h3]
      rw [e]
      refine ⟨?_, fun h => by cases h⟩
      intro n h
      cases h
      refine ⟨0, rfl, ⟨a, rfl, ?_⟩, fun j hj => by omega⟩
      refine Classical.byContradiction fun hc => ?_
      rcases not_reachable.1 hc with h | h | h
      · exact h1 h
      · exact h2 h
      · rw [h3] at h; cases h

/-- **C134**: if an address of the server can be reached, what the system takes of the packet goes to the first of them, in one piece and once; else
nothing is sent and an error is reported. -/
theorem C134_sent_once (only4 : Bool) (as : List NetAddr) (res : Int) (data : Str) :
    let r := send_spa_packet_tcp_or_udp false only4 (some as) res data
    (∀ i, FirstReachable only4 as i → sends r.1 = [(i, data.take res.toNat)] ∧ r.2 = res) ∧
      ((∀ a ∈ as, ¬ Reachable only4 a) → sends r.1 = [] ∧ sendStatus r.2 = false) := by
  have hs := loop_sends only4 as 0
  obtain ⟨h1, h2⟩ := loop_first only4 as 0
  simp only [send_spa_packet_tcp_or_udp, Bool.false_eq_true, if_false]
  cases hl : connectLoop only4 0 as with
  | mk l o =>
    rw [hl] at hs h1 h2
    cases o with
    | none =>
      refine ⟨?_, fun _ => ⟨hs, rfl⟩⟩
      rintro i ⟨⟨a, ha, hr⟩, -⟩
      exact absurd hr (h2 rfl a (List.mem_of_getElem? ha))
    | some n =>
      obtain ⟨k, rfl, ⟨a, ha, hr⟩, hf⟩ := h1 n rfl
      refine ⟨?_, fun h => absurd hr (h a (List.mem_of_getElem? ha))⟩
      rintro i ⟨⟨b, hb, hr'⟩, hf'⟩
      have : i = k := by
        rcases Nat.lt_trichotomy i k with h | h | h
        · exact absurd hr' (hf i h b hb)
        · exact h
        · exact absurd hr (hf' k h a ha)
      subst this
      simp only at hs
      simp [sends_append, hs, sends]

/-- **C134**: with `--test`, or if the name of the server is not known, nothing is sent and no socket is opened; the latter is an error. -/
theorem C134_not_sent (only4 : Bool) (addrs : Option (List NetAddr)) (res : Int) (data : Str) :
    send_spa_packet_tcp_or_udp true only4 addrs res data = ([], 0) ∧ send_spa_packet_tcp_or_udp false only4 none res data = ([], -1) := ⟨rfl, rfl⟩

theorem loop_acts (only4 : Bool) (as : List NetAddr) (i : Nat) :
    (∀ n, (connectLoop only4 i as).2 = some n → i ≤ n) ∧
    (∀ k, (.opened k ∈ (connectLoop only4 i as).1 ∨ .closed k ∈ (connectLoop only4 i as).1) → i ≤ k) ∧
    ∀ k, (connectLoop only4 i as).1.count (.opened k) ≤ 1 ∧
      (connectLoop only4 i as).1.count (.opened k) = (connectLoop only4 i as).1.count (.closed k) + if (connectLoop only4 i as).2 = some k then 1 else 0 := by
  induction as generalizing i with
  | nil => simp [connectLoop]
  | cons a as ih =>
    obtain ⟨a1, a2, a3⟩ := ih (i + 1)
    unfold connectLoop
    split
    · exact ⟨fun n h => by have := a1 n h; omega, fun k h => by have := a2 k h; omega, a3⟩
    split
    · exact ⟨fun n h => by have := a1 n h; omega, fun k h => by have := a2 k h; omega, a3⟩
    split
    · refine ⟨fun n h => by cases h; omega, fun k h => by simp at h; omega, fun k => ?_⟩
      by_cases h : i = k <;> simp [h]
    · refine ⟨fun n h => by have := a1 n h; omega, ?_, fun k => ?_⟩
      · intro k h
        simp at h
        rcases h with (h | h) | (h | h)
        · omega
        · have := a2 k (.inl h); omega
        · omega
        · have := a2 k (.inr h); omega
      · obtain ⟨b1, b2⟩ := a3 k
        by_cases h : i = k
        · subst h
          have z1 : (connectLoop only4 (i + 1) as).1.count (.opened i) = 0 := List.count_eq_zero.2 fun h => by have := a2 i (.inl h); omega
          simp only [List.count_cons]
          simp at *
          omega
        · simp only [List.count_cons]
          simp [h] at *
          omega

/-- **C134**: every socket that is opened is closed, once. -/
theorem C134_sockets_closed (test only4 : Bool) (addrs : Option (List NetAddr)) (res : Int) (data : Str) (k : Nat) :
    let l := (send_spa_packet_tcp_or_udp test only4 addrs res data).1
    l.count (.opened k) = l.count (.closed k) ∧ l.count (.closed k) ≤ 1 := by
  unfold send_spa_packet_tcp_or_udp
  cases test
  case true => simp
  cases addrs with
  | none => simp
  | some as =>
    obtain ⟨-, -, h⟩ := loop_acts only4 as 0
    have h := h k
    simp only [Bool.false_eq_true, if_false]
    cases hl : connectLoop only4 0 as with
    | mk l o =>
      rw [hl] at h
      cases o with
      | none => simp at h ⊢; omega
      | some n =>
        by_cases e : n = k
        · subst e; simp at h ⊢; omega
        · simp [e] at h ⊢; omega

theorem no_sent {l : List NetAct} (h : sends l = []) (i : Nat) (t : Str) : NetAct.sent i t ∉ l := by
  induction l with
  | nil => simp
  | cons x l ih => cases x <;> simp_all [sends]

/-- **C134**: what is sent is sent over a socket that is open then, and that is closed afterwards. -/
theorem C134_sent_while_open (test only4 : Bool) (addrs : Option (List NetAddr)) (res : Int) (data : Str) (before after : List NetAct) (i : Nat)
    (t : Str) (h : (send_spa_packet_tcp_or_udp test only4 addrs res data).1 = before ++ .sent i t :: after) :
    .opened i ∈ before ∧ .closed i ∉ before ∧ .closed i ∈ after := by
  unfold send_spa_packet_tcp_or_udp at h
  cases test
  case true => simp at h
  cases addrs with
  | none => simp at h
  | some as =>
    obtain ⟨-, -, hc⟩ := loop_acts only4 as 0
    have hs := loop_sends only4 as 0
    simp only [Bool.false_eq_true, if_false] at h
    cases hl : connectLoop only4 0 as with
    | mk l o =>
      rw [hl] at h hc hs
      simp only at hs
      cases o with
      | none =>
        simp only at h
        exact absurd (h ▸ (by simp : NetAct.sent i t ∈ before ++ .sent i t :: after)) (no_sent hs i t)
      | some n =>
        simp only at h
        have key : before = l ∧ n = i ∧ after = [.closed i] := by
          rcases List.append_eq_append_iff.1 h with ⟨m, rfl, h2⟩ | ⟨m, rfl, h2⟩
          · rcases m with _ | ⟨x, _ | ⟨y, m⟩⟩
            · simp at h2; obtain ⟨⟨rfl, -⟩, h3⟩ := h2; exact ⟨by simp, rfl, h3.symm⟩
            · simp at h2
            · simp at h2
          · rcases m with _ | ⟨x, m⟩
            · simp at h2; obtain ⟨⟨rfl, -⟩, h3⟩ := h2; exact ⟨by simp, rfl, h3⟩
            · simp at h2
              exact absurd (by simp [h2.1]) (no_sent hs i t)
        obtain ⟨rfl, rfl, rfl⟩ := key
        obtain ⟨c1, c2⟩ := hc n
        simp only [if_true] at c1 c2
        exact ⟨List.count_pos_iff.1 (by omega), List.count_eq_zero.1 (by omega), by simp⟩

/-- **C134** (partial: `send` takes all of the packet or fails): success is reported exactly if the whole packet was sent. -/
theorem C134_status_partial (only4 : Bool) (as : List NetAddr) (res : Int) (data : Str) (hd : data ≠ []) (hr : res = data.length ∨ res = -1) :
    sendStatus (send_spa_packet_tcp_or_udp false only4 (some as) res data).2 = true ↔
      ∃ i, sends (send_spa_packet_tcp_or_udp false only4 (some as) res data).1 = [(i, data)] := by
  have hs := loop_sends only4 as 0
  simp only [send_spa_packet_tcp_or_udp, Bool.false_eq_true, if_false]
  cases hl : connectLoop only4 0 as with
  | mk l o =>
    rw [hl] at hs
    simp only at hs
    cases o with
    | none => simp [sendStatus, hs]
    | some n =>
      rcases hr with rfl | rfl
      · simp [sendStatus, sends_append, hs, sends]
      · simp [sendStatus, sends_append, hs, sends, Ne.symm hd]

/-- Two addresses, of which the first cannot be reached. -/
example : send_spa_packet_tcp_or_udp false false (some [⟨true, true, false⟩, ⟨true, true, true⟩]) 3 b!"abc" =
    ([.opened 0, .closed 0, .opened 1, .sent 1 b!"abc", .closed 1], 3) ∧ FirstReachable false [⟨true, true, false⟩, ⟨true, true, true⟩] 1 := by
  refine ⟨by decide, ⟨_, rfl, by simp [Reachable]⟩, ?_⟩
  intro j hj a ha
  cases j with
  | zero => cases ha; simp [Reachable]
  | succ j => omega

/-- **C134 is false** of the report if the system takes a part of the packet (over TCP): it is a warning, and success. -/
theorem C134_false_short (only4 : Bool) (data : Str) (n : Nat) (hn : n < data.length) :
    ∃ as, sendStatus (send_spa_packet_tcp_or_udp false only4 (some as) n data).2 = true ∧
      sends (send_spa_packet_tcp_or_udp false only4 (some as) n data).1 = [(0, data.take n)] ∧ data.take n ≠ data := by
  refine ⟨[⟨true, true, true⟩], ?_, ?_, ?_⟩
  · cases only4 <;> simp [send_spa_packet_tcp_or_udp, connectLoop, sendStatus]
  · cases only4 <;> simp [send_spa_packet_tcp_or_udp, connectLoop, sends]
  · intro h
    have := congrArg List.length h
    simp at this
    omega

end Fwknop.Props
