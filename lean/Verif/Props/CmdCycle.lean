import Verif.Lemmas.CmdCycle
import Verif.Lemmas.Access

/-!
# Properties C44–C46: command cycles
-/

namespace Fwknop.Props
open Fwknop Spec

/-! ## C44, C45: the command that is run -/

/-- What the variables stand for: the authorised address, the packet's source and destination
addresses, the first requested port and protocol number, the time of closing and the time the
cycle stays open. -/
def cycleMeaning (sp : SpaData) (proto port : Nat) (ts secs : Nat) : Var → Str
  | .ip => sp.use_src_ip
  | .src => sp.use_src_ip
  | .pktSrc => sp.pkt_source_ip
  | .dst => sp.pkt_destination_ip
  | .port => decStr port
  | .proto => decStr proto
  | .timeout => decStr (ts + secs)
  | .clientTimeout => decStr secs

/-- A request as it reaches the cycle code: three addresses, a list of ports, a timestamp and a
time (the client's when it gave one, otherwise CMD_CYCLE_TIMER). -/
structure CycleRequest (sp : SpaData) (timer : Int) (proto port ts secs : Nat) : Prop where
  ip : 0 ∉ sp.use_src_ip
  src : 0 ∉ sp.pkt_source_ip
  dst : 0 ∉ sp.pkt_destination_ip
  ports : ∃ rest, ProtoPorts sp.spa_message_remain ((proto, port) :: rest)
  stamp : sp.timestamp = ts
  time : sp.client_timeout ≠ 0 ∧ sp.client_timeout = secs ∨ sp.client_timeout = 0 ∧ timer = secs
  secs_lt : secs < 10 ^ 9
  ts_lt : ts < 10 ^ 18

theorem cycle_first_port {sp : SpaData} {timer : Int} {proto port ts secs : Nat}
    (h : CycleRequest sp timer proto port ts secs) :
    ∃ ps, expand_acc_port_list sp.spa_message_remain = some (⟨proto, port⟩ :: ps) ∧
      (proto = 6 ∨ proto = 17) ∧ port ≤ 65535 := by
  obtain ⟨rest, hp⟩ := h.ports
  refine ⟨_, by rw [protoPorts_expand hp]; rfl, ?_⟩
  obtain ⟨items, hne, hi, -, hps⟩ := hp
  cases items with
  | nil => exact absurd rfl hne
  | cons i is =>
    obtain ⟨-, name, digits, -, hname, -, -, -, h2, -⟩ := hi i (by simp)
    simp only [List.map_cons, List.cons.injEq] at hps
    have : i.2.2 = (proto, port) := hps.1.symm
    rw [this] at hname h2
    refine ⟨?_, h2⟩
    rcases hname with h | h
    · exact .inl h.2
    · exact .inr h.2

theorem cycle_vals {sp : SpaData} {timer : Int} {proto port ts secs : Nat}
    (h : CycleRequest sp timer proto port ts secs) (x : Var) :
    (cycleVals sp ⟨proto, port⟩ timer).val x = cycleMeaning sp proto port ts secs x := by
  obtain ⟨ps, -, hp, hport⟩ := cycle_first_port h
  have hs := h.secs_lt
  have ht := h.ts_lt
  have hi : ∀ n : Nat, decStrInt (n : Int) = decStr n := by
    intro n; unfold decStrInt; rw [if_neg (by omega)]; rfl
  have hsecs : cycleTime sp timer = secs := by
    unfold cycleTime
    rcases h.time with ⟨h1, h2⟩ | ⟨h1, h2⟩
    · rw [if_neg h1, h2]
    · rw [if_pos h1, h2, Int.emod_eq_of_lt (by omega) (by omega)]
  cases x <;> simp only [CycleVals.val, cycleVals, cycleMeaning]
  · rw [hi, List.take_of_length_le (decStr_length_le port 5 (by omega) (by omega))]
  · exact List.take_of_length_le (decStr_length_le proto 4 (by omega) (by omega))
  · rw [hsecs, h.stamp, ← Int.natCast_add, hi,
      List.take_of_length_le (decStr_length_le _ 19 (by omega) (by omega))]
  · rw [hsecs, hi, List.take_of_length_le (decStr_length_le _ 9 (by omega) (by omega))]

theorem digits_no_nul (n : Nat) : 0 ∉ decStr n := by
  intro h
  have := decStr_digits n 0 h
  simp [isDigit] at this

theorem cycle_build {sp : SpaData} {timer : Int} {proto port ts secs : Nat}
    (h : CycleRequest sp timer proto port ts secs) {t out : Str} (ht : t.length ≤ 255) (h0 : 0 ∉ t)
    (hx : ExpandsDropping (cycleMeaning sp proto port ts secs) t out) (hout : out.length ≤ 255) :
    build_cmd sp t timer = .ok (some out) := by
  obtain ⟨ps, hps, -, -⟩ := cycle_first_port h
  unfold build_cmd
  rw [hps]
  have hval : (cycleVals sp ⟨proto, port⟩ timer).val = cycleMeaning sp proto port ts secs :=
    funext (cycle_vals h)
  have := buildLoop_eq (cycleVals sp ⟨proto, port⟩ timer)
    (by
      intro x; rw [hval]
      cases x
      · exact h.ip
      · exact h.ip
      · exact h.src
      · exact h.dst
      all_goals exact digits_no_nul _) t (by omega) h0 (o := out) (t := t) (by rw [hval]; exact hx)
    0 [] (t.length + 1) rfl (by omega) (by omega) (by simp) (by simpa using hout)
  simpa [inBuf] using this

/-- **C44** (partial: the template contains no other dollar signs and the command fits the
buffer).  The command run is the configured text with each `$VAR` replaced by its value and nothing
else changed. -/
theorem C44_substitution_partial {sp : SpaData} {timer : Int} {proto port ts secs : Nat}
    (h : CycleRequest sp timer proto port ts secs) {t out : Str} (ht : t.length ≤ 255) (h0 : 0 ∉ t)
    (hx : Expands (cycleMeaning sp proto port ts secs) t out) (hout : out.length ≤ 255) :
    build_cmd sp t timer = .ok (some out) :=
  cycle_build h ht h0 (expands_dropping hx) hout

/-- A request from 1.2.3.4 for tcp/22, with the packet from 5.6.7.8 to 9.9.9.9. -/
def cycleSample : SpaData :=
  { timestamp := 1000, spa_message_remain := b!"tcp/22", use_src_ip := b!"1.2.3.4",
    pkt_source_ip := b!"5.6.7.8", pkt_destination_ip := b!"9.9.9.9", client_timeout := 5 }

theorem cycleSample_ok : CycleRequest cycleSample 30 6 22 1000 5 where
  ip := by decide
  src := by decide
  dst := by decide
  ports := ⟨[], [([], b!"tcp/22", (6, 22))], by simp, by
      intro i hi
      have hi := List.mem_singleton.1 hi
      subst hi
      exact ⟨by simp, b!"tcp", b!"22", rfl, .inl ⟨by decide, rfl⟩, by simp, by simp [IsDigitChar],
        by decide, by decide, by decide⟩, by decide, rfl⟩
  stamp := rfl
  time := .inl ⟨by decide, rfl⟩
  secs_lt := by decide
  ts_lt := by decide

/-- The hypotheses can be met. -/
example : build_cmd cycleSample b!"open $IP $PORT until $TIMEOUT" 30 =
    .ok (some b!"open 1.2.3.4 22 until 1005") := by
  have e : b!"open $IP $PORT until $TIMEOUT" =
      b!"open " ++ 36 :: (Var.ip.name ++ (32 :: 36 :: (Var.port.name ++ (b!" until " ++
        36 :: (Var.timeout.name ++ []))))) := rfl
  refine C44_substitution_partial cycleSample_ok (by decide) (by decide) ?_ (by decide)
  rw [e]
  have hp : ∀ (s t o : Str), 36 ∉ s → Expands (cycleMeaning cycleSample 6 22 1000 5) t o →
      Expands (cycleMeaning cycleSample 6 22 1000 5) (s ++ t) (s ++ o) := by
    intro s t o hs h
    induction s with
    | nil => exact h
    | cons c s ih =>
      exact .char c _ _ (by intro e; subst e; exact hs (by simp)) (ih (fun h => hs (by simp [h])))
  exact hp b!"open " _ b!"1.2.3.4 22 until 1005" (by decide)
    (.var .ip _ b!" 22 until 1005" (.char 32 _ b!"22 until 1005" (by decide)
      (.var .port _ b!" until 1005" (hp b!" until " _ b!"1005" (by decide)
        (.var .timeout [] [] .nil)))))

/-- C44 is false of the code: a dollar sign that starts no variable is removed from the command
(`awk '{print $1}'` becomes `awk '{print 1}'`). -/
theorem C44_stray_dollar_dropped :
    build_cmd cycleSample b!"awk '{print $1}' f" 30 = .ok (some b!"awk '{print 1}' f") := by
  decide +kernel

/-- C44 is false of the code: a command that does not fit is cut short and run all the same. -/
theorem C44_command_truncated :
    build_cmd cycleSample (List.replicate 250 97 ++ b!" $IP") 30 =
      .ok (some (List.replicate 250 97 ++ b!" 1.2.")) := by
  decide +kernel

/-- **C44.** What happens to other dollar signs, exactly: they are dropped. -/
theorem C44_dropping {sp : SpaData} {timer : Int} {proto port ts secs : Nat}
    (h : CycleRequest sp timer proto port ts secs) {t out : Str} (ht : t.length ≤ 255) (h0 : 0 ∉ t)
    (hx : ExpandsDropping (cycleMeaning sp proto port ts secs) t out) (hout : out.length ≤ 255) :
    build_cmd sp t timer = .ok (some out) := cycle_build h ht h0 hx hout

/-- C45 is false of the code: after a variable has been cut short the index of the next character
is beyond the buffer, and the character is written there. -/
theorem C45_write_outside_buffer :
    build_cmd cycleSample (List.replicate 250 97 ++ b!"$IP;") 30 = .ub := by decide +kernel

/-- **C45** (partial: the command with its variables replaced has at most 255 characters).
Building the command stays inside the buffer. -/
theorem C45_in_bounds_partial {sp : SpaData} {timer : Int} {proto port ts secs : Nat}
    (h : CycleRequest sp timer proto port ts secs) (t : Str) (ht : t.length ≤ 255) (h0 : 0 ∉ t)
    (hfit : ∀ out, ExpandsDropping (cycleMeaning sp proto port ts secs) t out → out.length ≤ 255) :
    build_cmd sp t timer ≠ .ub := by
  obtain ⟨out, ho⟩ := dropping_total (cycleMeaning sp proto port ts secs) _ t (Nat.le_refl _)
  rw [cycle_build h ht h0 ho (hfit out ho)]
  simp

/-- The hypotheses can be met. -/
example : build_cmd cycleSample b!"a" 30 ≠ .ub :=
  C45_in_bounds_partial cycleSample_ok b!"a" (by decide) (by decide) (by
    intro out h
    cases h with
    | char _ _ _ _ h => cases h; decide)

/-- **C45.** Without variables the buffer is never overrun, whatever the text: a text that is too
long is refused. -/
theorem C45_plain_text (sp : SpaData) (timer : Int) (t : Str) (hd : 36 ∉ t) :
    build_cmd sp t timer ≠ .ub := by
  unfold build_cmd
  cases hp : expand_acc_port_list sp.spa_message_remain with
  | none => simp
  | some l =>
    cases l with
    | nil => exact absurd rfl (expandLoop_ne_nil _ _ _ _ hp)
    | cons p ps =>
      have : ∀ (fuel i idx : Nat) (buf : Str), idx < 256 →
          buildLoop (cycleVals sp p timer) t fuel i idx buf ≠ .ub := by
        intro fuel
        induction fuel with
        | zero => intro i idx buf h; simp [buildLoop]
        | succ f ih =>
          intro i idx buf h
          rw [buildLoop]
          split
          · rename_i hi
            have hne : t.getD i 0 ≠ 36 := by
              intro e
              have hlt : i < t.length := by omega
              rw [List.getD_eq_getElem?_getD, List.getElem?_eq_getElem hlt] at e
              exact hd (e ▸ List.getElem_mem hlt)
            rw [if_neg hne, Res.mem_of_not (by simp only [CMD_CYCLE_BUFSIZE]; omega), Res.bind_ok]
            split
            · simp
            · rename_i h2
              exact ih _ _ _ (by simp only [CMD_CYCLE_BUFSIZE] at h2; omega)
          · simp
      exact this _ _ _ _ (by omega)

/-! ## C46: closing -/

/-- The cycle part of the daemon: an opened cycle is appended to the list, an iteration of the main
loop calls `cmd_cycle_close`.  Result: for each event the entries whose command was run. -/
def cycleRun : List CycleEnt → List (CycleEvent CycleEnt) → Res (List (List CycleEnt))
  | _, [] => .ok []
  | l, .opened e :: es => do
    let r ← cycleRun (l ++ [e]) es
    return [] :: r
  | l, .tick now :: es => do
    let c ← cmd_cycle_close now l
    let r ← cycleRun c.1 es
    return c.2 :: r

theorem cycleRun_eq : ∀ (h : List (CycleEvent CycleEnt)) (l : List CycleEnt),
    ∃ outs, cycleRun l h = .ok outs ∧ outs.length = h.length ∧
      ∀ j, outs.getD j [] = l.filter (fun e => firstTick e.expire h = some j) ++
        closings CycleEnt.expire h j := by
  intro h
  induction h with
  | nil => intro l; exact ⟨[], rfl, rfl, by intro j; simp [firstTick, closings]⟩
  | cons ev es ih =>
    intro l
    cases ev with
    | opened e =>
      obtain ⟨outs, h1, h2, h3⟩ := ih (l ++ [e])
      refine ⟨[] :: outs, by rw [cycleRun, h1]; rfl, by simp [h2], ?_⟩
      intro j
      cases j with
      | zero =>
        have : l.filter (fun x => decide (firstTick x.expire (.opened e :: es) = some 0)) = [] := by
          rw [List.filter_eq_nil_iff]
          intro x _
          simp [firstTick]
        rw [this]; rfl
      | succ j =>
        have hj := h3 j
        rw [List.getD_cons_succ, hj, List.filter_append, closings, List.append_assoc]
        congr 1
        · congr 1
          funext x
          simp [firstTick]
        · congr 1
          by_cases hx : firstTick e.expire es = some j
          · rw [if_pos hx, List.filter_cons, if_pos (by simpa using hx), List.filter_nil]
          · rw [if_neg hx, List.filter_cons, if_neg (by simpa using hx), List.filter_nil]
    | tick now =>
      rw [cycleRun, cmd_cycle_close_eq, Res.bind_ok]
      obtain ⟨outs, h1, h2, h3⟩ := ih (l.filter (fun e => !decide (e.expire ≤ now)))
      refine ⟨l.filter (fun e => decide (e.expire ≤ now)) :: outs, by simp only [h1]; rfl, by simp [h2], ?_⟩
      intro j
      cases j with
      | zero =>
        rw [List.getD_cons_zero, closings, List.append_nil]
        congr 1
        funext x
        by_cases hx : x.expire ≤ now <;> simp [firstTick, hx]
      | succ j =>
        rw [List.getD_cons_succ, h3 j, closings, List.filter_filter]
        congr 2
        funext x
        by_cases hx : x.expire ≤ now <;> simp [firstTick, hx]

/-- **C46.** For every history of opened cycles and loop iterations with any clock values: at each
position the commands run are exactly those of the cycles opened before for which this is the first
iteration at or past their time — so each is run exactly once, never earlier and never again — in
the order in which they were opened.  The list is never corrupted. -/
theorem C46_closed_exactly_once (h : List (CycleEvent CycleEnt)) :
    ∃ outs, cycleRun [] h = .ok outs ∧ outs.length = h.length ∧
      ∀ j, outs.getD j [] = closings CycleEnt.expire h j := by
  obtain ⟨outs, h1, h2, h3⟩ := cycleRun_eq h []
  exact ⟨outs, h1, h2, by simpa using h3⟩

/-- **C46.** A successful open runs the open command once and, when the stanza has a close command,
appends exactly one entry, due after the client's time (or the stanza's timer when the client gave
none), whose command is the close text with its variables replaced. -/
theorem C46_open_schedules_close {sp : SpaData} {acc : Stanza} {proto port ts secs : Nat}
    (h : CycleRequest sp acc.cmd_cycle_timer proto port ts secs) {o c out1 out2 : Str}
    (ho : acc.cmd_cycle_open = some o) (hc : acc.cmd_cycle_close = some c)
    (hlo : o.length ≤ 255) (hlc : c.length ≤ 255) (h0o : 0 ∉ o) (h0c : 0 ∉ c)
    (hx1 : ExpandsDropping (cycleMeaning sp proto port ts secs) o out1) (hl1 : out1.length ≤ 255)
    (hx2 : ExpandsDropping (cycleMeaning sp proto port ts secs) c out2) (hl2 : out2.length ≤ 255)
    (hip : sp.use_src_ip.length ≤ 15) (now : Int) (n : Nat) (l : List CycleEnt) :
    cmd_cycle_open now acc sp n l = .ok {
      ran := some out1
      list := if acc.cmd_cycle_do_close then l ++ [⟨sp.use_src_ip, out2, now + secs, n⟩] else l
      ret := true } := by
  have hsecs : cycleTime sp acc.cmd_cycle_timer = secs := by
    have := h.secs_lt
    unfold cycleTime
    rcases h.time with ⟨h1, h2⟩ | ⟨h1, h2⟩
    · rw [if_neg h1, h2]
    · rw [if_pos h1, h2, Int.emod_eq_of_lt (by omega) (by omega)]
  unfold cmd_cycle_open add_cmd_close
  rw [ho, hc, Option.getD_some, Option.getD_some, cycle_build h hlo h0o hx1 hl1,
    cycle_build h hlc h0c hx2 hl2, hsecs]
  simp only [Res.bind_ok, Res.pure_eq]
  rw [show strlcpy sp.use_src_ip MAX_IPV4_STR_LEN = sp.use_src_ip from
      List.take_of_length_le (by simp only [MAX_IPV4_STR_LEN]; omega),
    show out2.take (CMD_CYCLE_BUFSIZE - 1) = out2 from
      List.take_of_length_le (by simp only [CMD_CYCLE_BUFSIZE]; omega)]
  cases acc.cmd_cycle_do_close <;> rfl

/-- A history: two cycles due at 10 and 20, clock values 5, 12, 11 (the clock went back) and 30. -/
example : cycleRun [] [.opened ⟨[], b!"a", 10, 1⟩, .tick 5, .opened ⟨[], b!"b", 20, 1⟩, .tick 12,
      .tick 11, .tick 30] =
    .ok [[], [], [], [⟨[], b!"a", 10, 1⟩], [], [⟨[], b!"b", 20, 1⟩]] := by decide

end Fwknop.Props
