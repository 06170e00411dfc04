import Verif.Model.TcpServer
import Verif.Props.Daemon
import Verif.Props.IptInit
import Verif.Props.Packet

/-!
# C117, C118: the TCP server
-/

namespace Fwknop.Props

open Fwknop Spec Res

/-! ## C117: the server accepts and drops connections, and does nothing else -/

/-- The connections of some turns. -/
def clients : List TcpTurn → List Nat
  | [] => []
  | .client (some c) :: ts => c :: clients ts
  | _ :: ts => clients ts

/-- Nothing happens that ends the server. -/
def Calm (t : TcpTurn) : Prop := t = .timeout false ∨ ∃ c, t = .client (some c)

/-- All calls before the loop succeed. -/
def SetupWorks (s : TcpSetup) : Prop :=
  s.socket = true ∧ s.setsockopt = true ∧ s.getfl = true ∧ s.setfl = true ∧ s.bind = true ∧ s.listen = true

theorem tcpLoop_calm : ∀ {ts : List TcpTurn}, (∀ t ∈ ts, Calm t) →
    tcpLoop ts = ((clients ts).flatMap fun c => [.accept c, .sleep 1000000, .shutdown c, .close c], none)
  | [], _ => rfl
  | t :: ts, h => by
    have ih := tcpLoop_calm (ts := ts) fun x hx => h x (List.mem_cons_of_mem _ hx)
    rcases h t List.mem_cons_self with rfl | ⟨c, rfl⟩
    · show tcpLoop ts = _
      rw [ih]
      rfl
    · show (_, _) = _
      rw [ih]
      rfl

theorem run_works {port : Nat} {s : TcpSetup} (h : SetupWorks s) (ts : List TcpTurn) :
    run_tcp_server port s ts = (.unlock :: .socket :: .listen (port % 65536) :: (tcpLoop ts).1, (tcpLoop ts).2) := by
  obtain ⟨h1, h2, h3, h4, h5, h6⟩ := h
  unfold run_tcp_server
  rw [h1, h2, h3, h4, h5, h6]
  rfl

/-- **C117** (part): as long as nothing goes wrong, the server runs; it gives up the lock of the pid file
before all else, listens on its port, and then takes the connections one after the other: each is closed
after one second, before the next is taken, and nothing is read from it or written to it.  The firewall stays
as it is.  What is missing: what happens when something goes wrong (`C117_false_the_firewall_is_cleared`,
`C117_false_two_daemons`). -/
theorem C117_serves_partial {σ : Type} (test fwOn : Bool) (cf : FwConf) (o : FwInit) (T : Tool σ) (chk : Bool) (chs : List FwChain)
    (port : Nat) (hport : port < 65536) (s : TcpSetup) (hs : SetupWorks s) (ts : List TcpTurn) (ht : ∀ t ∈ ts, Calm t) (w : σ) :
    childOfMain test fwOn cf o T chk chs port s ts w = .ok
      ([.unlock, .socket, .listen port] ++ (clients ts).flatMap fun c => [.accept c, .sleep 1000000, .shutdown c, .close c], w, none) := by
  unfold childOfMain
  rw [run_works hs, tcpLoop_calm ht, Nat.mod_eq_of_lt hport]
  rfl

/-- The sockets that are open after some deeds: the one to listen on, and connections. -/
def opened : List TcpDeed → Bool × List Nat
  | l => l.foldl (fun (m, cs) d => match d with
    | .socket => (true, cs)
    | .closeMain => (false, cs)
    | .accept c => (m, c :: cs)
    | .close c => (m, cs.filter (· ≠ c))
    | _ => (m, cs)) (false, [])

theorem tcpLoop_closed : ∀ (ts : List TcpTurn) (v : Int), (tcpLoop ts).2 = some v → v = -1 ∧
    (tcpLoop ts).1.foldl (fun (m, cs) d => match d with
      | .socket => (true, cs)
      | .closeMain => (false, cs)
      | .accept c => (m, c :: cs)
      | .close c => (m, cs.filter (· ≠ c))
      | _ => (m, cs)) (true, []) = (false, ([] : List Nat))
  | [], v, h => by cases h
  | .error :: ts, v, h => by cases h; exact ⟨rfl, rfl⟩
  | .timeout true :: ts, v, h => by cases h; exact ⟨rfl, rfl⟩
  | .timeout false :: ts, v, h => tcpLoop_closed ts v h
  | .client none :: ts, v, h => by cases h; exact ⟨rfl, rfl⟩
  | .client (some c) :: ts, v, h => by
    obtain ⟨h1, h2⟩ := tcpLoop_closed ts v h
    refine ⟨h1, ?_⟩
    show List.foldl _ (true, [c].filter (· ≠ c)) (tcpLoop ts).1 = _
    rw [show [c].filter (fun x => decide (x ≠ c)) = [] by simp]
    exact h2

/-- **C117** (part): however the server ends, it has closed all its sockets, and reports a failure. -/
theorem C117_closes_everything (port : Nat) (s : TcpSetup) (ts : List TcpTurn) (v : Int)
    (h : (run_tcp_server port s ts).2 = some v) : v = -1 ∧ opened (run_tcp_server port s ts).1 = (false, []) := by
  unfold run_tcp_server at h ⊢
  cases h1 : s.socket with
  | false => rw [h1] at h; cases h; exact ⟨rfl, rfl⟩
  | true =>
    rw [h1] at h
    simp only [Bool.not_true, Bool.false_eq_true, if_false] at h ⊢
    split
    · next h2 => rw [if_pos h2] at h; cases h; exact ⟨rfl, rfl⟩
    · next h2 =>
      rw [if_neg h2] at h
      split
      · next h3 => rw [if_pos h3] at h; cases h; exact ⟨rfl, rfl⟩
      · next h3 =>
        rw [if_neg h3] at h
        obtain ⟨h4, h5⟩ := tcpLoop_closed ts v h
        exact ⟨h4, h5⟩

/-- **C117** (part): in test mode, and with FLUSH_IPT_AT_EXIT N, the firewall stays as it is whatever happens
to the server. -/
theorem C117_kept_partial {σ : Type} (test fwOn : Bool) (cf : FwConf) (o : FwInit)
    (h : test = true ∨ fwOn = false ∨ (o.keep_at_exit = true ∧ o.fw_flush = false)) (T : Tool σ) (chk : Bool)
    (chs : List FwChain) (port : Nat) (s : TcpSetup) (ts : List TcpTurn) (w : σ) :
    ∃ l e, childOfMain test fwOn cf o T chk chs port s ts w = .ok (l, w, e) := by
  have hc : clean_exit test fwOn cf o T chk chs w = .ok w := by
    unfold clean_exit
    rcases h with h | h | ⟨h1, h2⟩
    · rw [h]; rfl
    · rw [h, Bool.and_false]; rfl
    · rw [C94_kept_at_exit cf o h1 h2 T chk chs w]
      split <;> rfl
  unfold childOfMain
  generalize run_tcp_server port s ts = r
  obtain ⟨l, v⟩ := r
  cases v with
  | none => exact ⟨_, _, rfl⟩
  | some v =>
    simp only
    split
    · rw [hc]; exact ⟨_, _, rfl⟩
    · exact ⟨_, _, rfl⟩

/-- **C117 is false** whenever the server ends: with the default configuration, whatever ends it (its port is
taken, a signal, an error of `select` or `accept`), the child clears the firewall of the daemon's chains, with
all rules in them, while the daemon goes on. -/
theorem C117_false_the_firewall_is_cleared (print : Host) (cf : FwConf) (o : FwInit) (ho : o.keep_at_exit = false ∨ o.fw_flush = true)
    (chs : List FwChain) (hok : InitOk cf chs) (hb : ∀ h ∈ hooks chs, isBuiltin h.to = false) (K : Tables) (hK : Tidy (hooks chs) K)
    (port : Nat) (s : TcpSetup) (ts : List TcpTurn) (hend : ¬ SetupWorks s ∨ ∃ t ∈ ts, ¬ Calm t) :
    ∃ l, childOfMain false true cf o (iptTool print) true chs port s ts (K, []) = .ok (l, (without (hooks chs) K, []), some 1) := by
  have hloop : ∀ ts : List TcpTurn, (∃ t ∈ ts, ¬ Calm t) → ∃ l, tcpLoop ts = (l, some (-1)) := by
    intro ts
    induction ts with
    | nil => rintro ⟨t, h, _⟩; cases h
    | cons t ts ih =>
      rintro ⟨x, hx, hn⟩
      cases t with
      | error => exact ⟨_, rfl⟩
      | timeout gone =>
        cases gone with
        | true => exact ⟨_, rfl⟩
        | false =>
          rcases List.mem_cons.1 hx with rfl | hx
          · exact absurd (.inl rfl) hn
          · exact ih ⟨x, hx, hn⟩
      | client c =>
        cases c with
        | none => exact ⟨_, rfl⟩
        | some c =>
          rcases List.mem_cons.1 hx with rfl | hx
          · exact absurd (.inr ⟨c, rfl⟩) hn
          · obtain ⟨l, hl⟩ := ih ⟨x, hx, hn⟩
            exact ⟨_, by rw [tcpLoop, hl]⟩
  have hr : ∃ l, run_tcp_server port s ts = (l, some (-1)) := by
    by_cases hw : SetupWorks s
    · rcases hend with h | h
      · exact absurd hw h
      · obtain ⟨l, hl⟩ := hloop ts h
        exact ⟨_, by rw [run_works hw, hl]⟩
    · obtain ⟨a, b, c, d, e, f⟩ := s
      unfold run_tcp_server
      cases a <;> cases b <;> cases c <;> cases d <;> cases e <;> cases f <;>
        first | exact ⟨_, rfl⟩ | exact absurd ⟨rfl, rfl, rfl, rfl, rfl, rfl⟩ hw
  obtain ⟨l, hl⟩ := hr
  refine ⟨l, ?_⟩
  unfold childOfMain
  rw [hl]
  simp only
  rw [if_pos (by decide)]
  unfold clean_exit
  rw [if_pos (by decide), C94_cleanup_partial print cf o ho chs hok hb K hK, bind_ok]
  rfl

/-- Tables with the rule of a client who has been let in. -/
def grantedTables : Tables :=
  (adminTables.put b!"filter" b!"INPUT" [[b!"-j", b!"FWKNOP_INPUT"]]).put b!"filter" b!"FWKNOP_INPUT" [sshRule 1700000030]

/-- The content of the input chain after the child has done its work. -/
def inputOfChild (r : Res (List TcpDeed × (Tables × List Fate) × Option Nat)) : Option (Option (List Rule)) :=
  match r with
  | .ok (_, w, _) => some (w.1 b!"filter" b!"FWKNOP_INPUT")
  | _ => none

/-- A client has been let in; the server has served a connection and then gets a signal: the rule of the
client is gone. -/
theorem C117_false_access_is_lost : grantedTables b!"filter" b!"FWKNOP_INPUT" = some [sshRule 1700000030] ∧
    inputOfChild (childOfMain false true fwSample {} ipt true defaultChains 62201 {} [.client (some 7), .timeout false, .error] (grantedTables, []))
      = some none := ⟨by decide, by decide +kernel⟩

/-- The hypotheses of `C117_serves_partial` are met. -/
example : childOfMain false true fwSample {} ipt true defaultChains 62201 {} [.client (some 7), .timeout false, .client (some 7)] (grantedTables, []) =
    .ok ([.unlock, .socket, .listen 62201, .accept 7, .sleep 1000000, .shutdown 7, .close 7, .accept 7, .sleep 1000000, .shutdown 7, .close 7],
      (grantedTables, []), none) :=
  C117_serves_partial false true fwSample {} ipt true defaultChains 62201 (by decide) {} ⟨rfl, rfl, rfl, rfl, rfl, rfl⟩ _ (by
    intro t ht
    simp only [List.mem_cons, List.not_mem_nil, or_false] at ht
    rcases ht with rfl | rfl | rfl
    · exact .inr ⟨7, rfl⟩
    · exact .inl rfl
    · exact .inr ⟨7, rfl⟩) _

/-- So are those of `C117_closes_everything`. -/
example : (run_tcp_server 62201 {} [.client (some 7), .client none]).2 = some (-1) := rfl

/-! ### Two daemons -/

/-- The sample packet in a frame. -/
def knockFrame : List Nat :=
  ethernet (List.replicate 12 2) none 0x0800 (ipv4 ⟨0, 1, 0, 64, 17, 0, 0x0A000001, 0xC0A80002⟩ [] (udpOf 40000 62201 sampleText)) []

def knockPass : Pass :=
  ⟨false, [⟨⟨14, knockFrame.length, knockFrame.length, fun i => knockFrame.getD i 9⟩, 1700000010, fun _ => true, blank⟩], .counted, 1700000011⟩

def deedCount (r : Res (Daemon (Tables × List Fate) × List Deed × Option Exit)) : Option Nat :=
  match r with
  | .ok (_, l, _) => some l.length
  | _ => none

/-- What the child does as a daemon. -/
def asDaemon (r : Res (List TcpDeed × Option (Daemon (Tables × List Fate) × List Deed × Option Exit))) :
    Res (Daemon (Tables × List Fate) × List Deed × Option Exit) :=
  match r with
  | .ok (_, some q) => .ok q
  | _ => .err

/-- **C117 is false** of a server that is started again: if its port is taken then, the child goes on as a
second daemon with its own memory of the packets it has seen.  One daemon honours a packet once, and refuses
its replay; but when the child has honoured it, the parent honours the replay. -/
theorem C117_false_two_daemons :
    deedCount (pcapLoop sampleConf sampleEnv ipt [knockPass, knockPass] false 0 sampleDaemon) = some 1 ∧
    deedCount (asDaemon (childOfCapture sampleConf sampleEnv ipt 62201 { bind := false } [] [knockPass] false 0 sampleDaemon)) = some 1 ∧
    deedCount (pcapLoop sampleConf sampleEnv ipt [knockPass] false 0 sampleDaemon) = some 1 :=
  ⟨by decide +kernel, by decide +kernel, by decide +kernel⟩

/-! ## C118: the server is started again when it has ended -/

/-- **C118 is false**: if children end one at a time, the server is never started again.  The handler of the
signal has waited for it before the loop looks, so that the loop never learns that it has ended. -/
theorem C118_never_started_again (pid : Nat) (es : List KinEvent) (h : ∀ l, .ends l ∈ es → ∃ p, l = [p]) :
    (kinRun ⟨pid, false, []⟩ es).tcp = pid ∧ (kinRun ⟨pid, false, []⟩ es).dead = [] := by
  have : ∀ (es : List KinEvent) (k : Kin), (∀ l, .ends l ∈ es → ∃ p, l = [p]) → k.dead = [] →
      (kinRun k es).tcp = k.tcp ∧ (kinRun k es).dead = [] := by
    intro es
    induction es with
    | nil => intro k _ hk; exact ⟨rfl, hk⟩
    | cons e es ih =>
      intro k he hk
      have hs : (kinStep k e).tcp = k.tcp ∧ (kinStep k e).dead = [] := by
        cases e with
        | ends l =>
          obtain ⟨p, rfl⟩ := he l List.mem_cons_self
          refine ⟨rfl, ?_⟩
          show (k.dead ++ [p]).tail = []
          rw [hk]; rfl
        | pass f =>
          show (reap f k).tcp = _ ∧ (reap f k).dead = _
          unfold reap
          rw [hk]
          split
          · split <;> exact ⟨rfl, by first | rfl | exact hk⟩
          · exact ⟨rfl, hk⟩
      have := ih (kinStep k e) (fun l hl => he l (List.mem_cons_of_mem _ hl)) hs.2
      exact ⟨this.1.trans hs.1, this.2⟩
  exact this es ⟨pid, false, []⟩ h rfl

/-- **C118 is false**: at its end the daemon sends SIGTERM and SIGKILL to the process with the number that the
server had, although the server has ended long ago and has been waited for, so that the number may be that of
any other process. -/
theorem C118_kills_a_stale_number (pid : Nat) (hp : 0 < pid) (before after : List KinEvent)
    (hb : ∀ l, .ends l ∈ before → ∃ p, l = [p]) (ha : ∀ l, .ends l ∈ after → ∃ p, l = [p]) :
    killedAtEnd (kinRun ⟨pid, false, []⟩ (before ++ .ends [pid] :: after)) = some pid ∧
    (kinRun ⟨pid, false, []⟩ (before ++ .ends [pid] :: after)).dead = [] := by
  obtain ⟨h1, h2⟩ := C118_never_started_again pid (before ++ .ends [pid] :: after) (by
    intro l hl
    rcases List.mem_append.1 hl with hl | hl
    · exact hb l hl
    · rcases List.mem_cons.1 hl with hl | hl
      · cases hl; exact ⟨pid, rfl⟩
      · exact ha l hl)
  refine ⟨?_, h2⟩
  unfold killedAtEnd
  rw [h1, if_pos hp]

/-- **C118** (part): if another child ends together with the server, and the handler waits for that one, then
the next iteration of the loop starts the server again.  What is missing: a server that ends alone
(`C118_never_started_again`). -/
theorem C118_started_again_partial (pid other fork : Nat) (hp : 0 < pid) (es : List KinEvent) (h : ∀ l, .ends l ∈ es → ∃ p, l = [p]) :
    (kinRun ⟨pid, false, []⟩ (es ++ [.ends [other, pid], .pass fork])).tcp = fork := by
  obtain ⟨h1, h2⟩ := C118_never_started_again pid es h
  unfold kinRun at h1 h2 ⊢
  rw [List.foldl_append]
  generalize List.foldl kinStep ⟨pid, false, []⟩ es = k at h1 h2 ⊢
  show (reap fork ⟨k.tcp, true, (k.dead ++ [other, pid]).tail⟩).tcp = fork
  rw [h1, h2]
  unfold reap
  simp [hp]

example : (kinRun ⟨100, false, []⟩ [.ends [7], .pass 0, .ends [100], .pass 200, .pass 200]).tcp = 100 ∧
    (kinRun ⟨100, false, []⟩ [.ends [7], .pass 0, .ends [8, 100], .pass 200]).tcp = 200 := by decide

end Fwknop.Props
