import Verif.Lemmas.Server

/-!
# Handling a packet never fails as a whole
-/

namespace Fwknop
open Fwknop.Spec Fwknop.Res

theorem noErr_bind {α β : Type} {x : Res α} {f : α → Res β} (hx : x ≠ .err) (hf : ∀ a, f a ≠ .err) :
    (x >>= f) ≠ .err := by
  cases x with
  | ub => nofun
  | err => exact absurd rfl hx
  | ok a => exact hf a

theorem noErr_ok {α : Type} (a : α) : Res.ok a ≠ .err := nofun
theorem noErr_pure {α : Type} (a : α) : (pure a : Res α) ≠ .err := nofun
theorem noErr_ub {α : Type} : (Res.ub : Res α) ≠ .err := nofun

theorem noErr_mem (b : Bool) : Res.mem b ≠ .err := by cases b <;> nofun

theorem buildLoop_noErr (v : CycleVals) (t : Str) : ∀ (fuel i j : Nat) (buf : Str), buildLoop v t fuel i j buf ≠ .err := by
  intro fuel
  induction fuel with
  | zero => intro i j buf; simp [buildLoop]
  | succ fuel ih =>
    intro i j buf
    unfold buildLoop
    repeat' first | split | refine noErr_bind ?_ fun _ => ?_ | exact ih _ _ _ | exact noErr_ok _ | exact noErr_pure _ | exact noErr_ub | exact noErr_mem _

theorem build_cmd_noErr (sp : SpaData) (t : Str) (timer : Int) : build_cmd sp t timer ≠ .err := by
  unfold build_cmd
  repeat' first | split | exact buildLoop_noErr _ _ _ _ _ _ | exact noErr_ok _ | exact noErr_pure _ | exact noErr_ub

theorem act_noErr (conf : Conf) (now : Int) (acc : Stanza) (n : Nat) (sp : SpaData) (cyc : List CycleEnt) :
    act conf now acc n sp cyc ≠ .err := by
  unfold act actCycle cmd_cycle_open add_cmd_close actCommand process_cmd_msg sudoCmd
  repeat' first | split | refine noErr_bind ?_ fun _ => ?_ | exact build_cmd_noErr _ _ _ | exact noErr_ok _ | exact noErr_pure _ | exact noErr_ub | exact noErr_mem _

theorem judge_noErr (conf : Conf) (now : Int) (acc : Stanza) (a : Addrs) (c : Ctx) : judge conf now acc a c ≠ .err := by
  unfold judge judgeRest check_username
  repeat' first | split | refine noErr_bind ?_ fun _ => ?_ | exact noErr_ok _ | exact noErr_pure _ | exact noErr_ub | exact noErr_mem _

theorem tryStanza_noErr (conf : Conf) (E : Env) (now : Int) (p : Pkt) (a : Addrs) (text : Str) (digest : Option Str)
    (open_ok : Bool) (n : Nat) (acc : Stanza) (s : Loop) :
    tryStanza conf E now p a text digest open_ok n acc s ≠ .err := by
  unfold tryStanza afterAuth carryOut
  dsimp only
  repeat' first | split | refine noErr_bind ?_ fun _ => ?_ | exact judge_noErr _ _ _ _ _ | exact act_noErr _ _ _ _ _ _ | exact noErr_ok _ | exact noErr_pure _ | exact noErr_ub

theorem stanzaLoop_noErr (conf : Conf) (E : Env) (now : Int) (p : Pkt) (a : Addrs) (text : Str) (digest : Option Str)
    (open_ok : Nat → Bool) : ∀ (l : List Stanza) (n : Nat) (s : Loop),
    stanzaLoop conf E now p a text digest open_ok n l s ≠ .err := by
  intro l
  induction l with
  | nil => intro n s; nofun
  | cons acc l ih =>
    intro n s
    unfold stanzaLoop
    refine noErr_bind (tryStanza_noErr _ _ _ _ _ _ _ _ _ _ _) fun r => ?_
    split
    · nofun
    · exact noErr_bind (ih _ _) fun _ => by nofun

theorem process_noErr (conf : Conf) (E : Env) (now : Int) (p : Pkt) (open_ok : Nat → Bool) (sv : Server) (text xff : Str)
    (digest : Option Str) : process conf E now p open_ok sv text xff digest ≠ .err :=
  noErr_bind (stanzaLoop_noErr _ _ _ _ _ _ _ _ _ _ _) fun _ => by nofun

end Fwknop
