import Verif.Lemmas.CLib
import Verif.Lemmas.RoundTrip
import Verif.Spec.PidFile

namespace Fwknop
open Spec

/-- What a process has written is what is read. -/
theorem pid_written {p : Nat} (h : PidOk p) (old : Str) : pidNumber (overwrite (pidText p) old) = p := by
  have hp : p ≤ 4194304 := by have := h.2; omega
  have hl : (decStr p).length ≤ 7 := decStr_length_le p 7 (by decide) (by omega)
  have hz : ∀ c ∈ decStr p, c ≠ 0 := fun c hc e => decStr_no_zero p (e ▸ hc)
  have hf : ∃ rest, (∀ c, rest.head? = some c → isDigit c = false) ∧
      ((overwrite (pidText p) old).take (PID_BUFLEN - 1)).takeWhile (· ≠ 0) = decStr p ++ rest := by
    have tw : ∀ l m : Str, (∀ c ∈ l, c ≠ 0) →
        (l ++ m).takeWhile (fun c : Nat => decide (c ≠ 0)) = l ++ m.takeWhile (fun c : Nat => decide (c ≠ 0)) := by
      intro l m hl'
      induction l with
      | nil => rfl
      | cons a l ih => simp [hl' a (by simp)]; simpa using ih (fun c hc => hl' c (by simp [hc]))
    by_cases h7 : (decStr p).length = 7
    · have e : pidText p = decStr p := by
        unfold pidText PID_BUFLEN
        rw [List.take_append_of_le_length (by omega), List.take_of_length_le (by omega)]
      refine ⟨[], by simp, ?_⟩
      unfold overwrite
      rw [e, List.take_append_of_le_length (by show 7 ≤ _; omega), List.take_of_length_le (by show _ ≤ 7; omega)]
      have := tw (decStr p) [] hz
      simpa using this
    · have e : pidText p = decStr p ++ [10] := by
        unfold pidText PID_BUFLEN
        rw [List.take_of_length_le (by simp; omega)]
      have e2 : (overwrite (pidText p) old).take (PID_BUFLEN - 1) =
          decStr p ++ (10 :: old.drop ((decStr p).length + 1)).take (7 - (decStr p).length) := by
        unfold overwrite
        rw [e, List.append_assoc, List.take_append, List.take_of_length_le (by show _ ≤ 7; omega)]
        simp
      rw [e2, tw _ _ hz]
      refine ⟨_, ?_, rfl⟩
      intro c hc
      have : 7 - (decStr p).length = (6 - (decStr p).length) + 1 := by omega
      rw [this, List.take_succ_cons] at hc
      simp at hc
      subst hc
      decide
  obtain ⟨rest, hr, he⟩ := hf
  have hs := strtol_numeral [] [] (decStr p) rest (by simp) (.inl rfl) (decStr_digits p) hr (decStr_ne_nil p)
  rw [List.append_nil, List.nil_append, decStr_val] at hs
  have hs' : strtol (decStr p ++ rest) = ((p : Int), false) := by
    rw [hs]
    have := digitsVal_nonneg_clamp p (by omega)
    rw [if_neg (by decide)]
    simp only [clampLong, this.1, this.2, if_false]
  unfold pidNumber
  rw [he]
  unfold strtol_wrapper
  rw [hs']
  simp only [toInt32_id (p : Int) (by omega) (by omega)]
  have a : ¬ ((p : Int) < 0) := by omega
  have b : ¬ ((p : Int) > 2 * 2 ^ 22) := by omega
  simp [a]
  intro hb
  omega

theorem target_open (w : PidWorld) (p : Nat) (x : Option PidProc) :
    ({ w.at_ p x with file := some (w.file.getD []) } : PidWorld).target = w.target := by
  unfold PidWorld.target PidWorld.at_
  cases w.file with
  | none => simp only [Option.getD_none]; decide
  | some f => rfl

/-- What is true of a process in an orderly world. -/
def PidGood (w : PidWorld) (p : Nat) (x : PidProc) : Prop :=
  PidOk p ∧ p ∈ w.used ∧
    match x.pc with
    | .look => w.target ≠ p
    | .looked r => r ≠ p
    | .write => w.holder = some p
    | .running => w.holder = some p ∧ w.target = p
    | .refusedRead r => r ≠ 0
    | _ => True

def PidCrit (x : PidProc) : Prop := x.pc = .write ∨ x.pc = .running

def PidInv (w : PidWorld) : Prop :=
  (∀ p x, w.procs p = some x → PidGood w p x) ∧
    ∀ p, w.holder = some p → ∃ x, w.procs p = some x ∧ PidCrit x

theorem PidInv.move {w w' : PidWorld} {p : Nat} (h : PidInv w) (hp : ∀ q, q ≠ p → w'.procs q = w.procs q)
    (hu : ∀ q ∈ w.used, q ∈ w'.used) (hh : ∀ q, q ≠ p → (w'.holder = some q ↔ w.holder = some q))
    (ht : w'.target = w.target ∨ (w.holder = some p ∧ w'.target = p))
    (ho : ∀ x, w'.procs p = some x → PidGood w' p x)
    (hc : w'.holder = some p → ∃ x, w'.procs p = some x ∧ PidCrit x) : PidInv w' := by
  refine ⟨fun q x hx => ?_, fun q hq => ?_⟩
  · by_cases e : q = p
    · exact e ▸ ho x (e ▸ hx)
    · have g := h.1 q x (hp q e ▸ hx)
      obtain ⟨g1, g2, g3⟩ := g
      refine ⟨g1, hu q g2, ?_⟩
      split at g3
      · rcases ht with ht | ⟨_, ht⟩
        · rw [ht]; exact g3
        · rw [ht]; exact fun e' => e e'.symm
      · exact g3
      · exact (hh q e).2 g3
      · refine ⟨(hh q e).2 g3.1, ?_⟩
        rcases ht with ht | ⟨ht, _⟩
        · rw [ht]; exact g3.2
        · rw [g3.1] at ht; exact absurd (Option.some.inj ht) e
      · exact g3
      · trivial
  · by_cases e : q = p
    · exact e ▸ hc (e ▸ hq)
    · obtain ⟨x, hx, hx'⟩ := h.2 q ((hh q e).1 hq)
      exact ⟨x, (hp q e).trans hx, hx'⟩

theorem PidInv.set {w : PidWorld} {p : Nat} {x : PidProc} (h : PidInv w) (hg : PidGood w p x)
    (hc : w.holder = some p → PidCrit x) : PidInv (w.at_ p (some x)) := by
  refine h.move (p := p) (fun q e => by simp [PidWorld.at_, e]) (fun q hq => hq) (fun q _ => Iff.rfl) (.inl rfl) ?_ ?_
  · intro y hy
    simp [PidWorld.at_] at hy
    subst hy
    exact hg
  · intro hh
    exact ⟨x, by simp [PidWorld.at_], hc hh⟩

theorem unlock_holder {w : PidWorld} {p q : Nat} (e : q ≠ p) : (w.unlock p).holder = some q ↔ w.holder = some q := by
  unfold PidWorld.unlock
  dsimp only
  by_cases h : w.holder = some p
  · rw [if_pos h, h]
    exact ⟨fun h => by simp at h, fun h => absurd (Option.some.inj h).symm e⟩
  · rw [if_neg h]

theorem unlock_self (w : PidWorld) (p : Nat) : (w.unlock p).holder ≠ some p := by
  unfold PidWorld.unlock
  dsimp only
  by_cases h : w.holder = some p
  · rw [if_pos h]; simp
  · rw [if_neg h]; exact h

theorem unlock_other {w : PidWorld} {p : Nat} (h : w.holder ≠ some p) : w.unlock p = w := by
  unfold PidWorld.unlock
  rw [if_neg h]

theorem PidInv.gone {w : PidWorld} (h : PidInv w) (p : Nat) : PidInv (w.gone p) := by
  refine h.move (p := p) (fun q e => by simp [PidWorld.gone, PidWorld.unlock, PidWorld.at_, e]) (fun q hq => hq)
    (fun q e => unlock_holder e) (.inl rfl) ?_ ?_
  · intro y hy
    simp [PidWorld.gone, PidWorld.unlock, PidWorld.at_] at hy
  · intro hh
    exact absurd hh (unlock_self w p)

theorem PidInv.answered {w : PidWorld} (h : PidInv w) (p r : Nat) : PidInv (w.answered p r) := h.gone p

theorem PidInv.born {w : PidWorld} {c : Nat} {x : PidProc} (h : PidInv w) (hn : NewPid w c) (hx : x.pc = .look ∨ x.pc = .open)
    : PidInv { w.at_ c (some x) with used := c :: w.used } := by
  have hc : w.holder ≠ some c := fun hh => by
    obtain ⟨y, hy, _⟩ := h.2 c hh
    exact hn.2.1 (h.1 c y hy).2.1
  refine h.move (p := c) (fun q e => by simp [PidWorld.at_, e]) (fun q hq => List.mem_cons_of_mem _ hq)
    (fun q _ => Iff.rfl) (.inl rfl) ?_ (fun hh => absurd hh hc)
  intro y hy
  simp [PidWorld.at_] at hy
  subst hy
  refine ⟨hn.1, List.mem_cons_self, ?_⟩
  rcases hx with hx | hx <;> rw [hx] <;> dsimp only
  exact fun e => hn.2.2 e.symm

theorem PidInv.event {w : PidWorld} {e : PidEvent} (h : PidInv w) (ho : OrderlyEvent w e) : PidInv (w.event e) := by
  cases e with
  | fails p => exact ho.elim
  | hup p => exact ho.elim
  | ends p => exact h.gone p
  | start p m =>
    unfold PidWorld.event
    dsimp only
    split
    · exact h
    · refine h.born ho ?_
      by_cases hm : m = .status
      · right; simp [hm]
      · left; simp [hm]
  | step p c =>
    unfold PidWorld.event PidWorld.step
    dsimp only
    split
    · exact h
    · rename_i x hx
      have g := h.1 p x hx
      have nc : ∀ {y : PidProc}, ¬ PidCrit x → (w.holder = some p → PidCrit y) := fun hn hh => by
        obtain ⟨z, hz, hz'⟩ := h.2 p hh
        rw [hx] at hz
        cases hz
        exact absurd hz' hn
      have nh : ¬ PidCrit x → w.holder ≠ some p := fun hn hh => by
        obtain ⟨z, hz, hz'⟩ := h.2 p hh
        rw [hx] at hz
        cases hz
        exact absurd hz' hn
      have after : ∀ r, r ≠ p → ¬ PidCrit x → PidInv (w.afterLook p x r) := by
        intro r hr hn
        unfold PidWorld.afterLook
        rw [if_neg hr]
        refine h.set ⟨g.1, g.2.1, ?_⟩ (nc hn)
        by_cases hm : x.mode = .background <;> simp [hm]
      split <;> rename_i hpc
      · have hn : ¬ PidCrit x := by simp [PidCrit, hpc]
        split
        · rename_i hf
          exact after 0 (by have := g.1.1; omega) hn
        · rename_i f hf
          refine h.set ⟨g.1, g.2.1, ?_⟩ (nc hn)
          have g3 := g.2.2
          rw [hpc] at g3
          dsimp only at g3 ⊢
          simpa [PidWorld.target, hf] using g3
      · have hn : ¬ PidCrit x := by simp [PidCrit, hpc]
        rw [unlock_other (nh hn)]
        have g3 := g.2.2
        rw [hpc] at g3
        exact after _ g3 hn
      · have hn := ho.1 x hx hpc
        refine (h.gone p).born (c := c) (x := { x with pc := .open }) ?_ (.inr rfl)
        exact ⟨hn.1, hn.2.1, hn.2.2⟩
      · have hn : ¬ PidCrit x := by simp [PidCrit, hpc]
        refine h.move (p := p) (fun q e => by simp [PidWorld.at_, e]) (fun q hq => hq) (fun q _ => Iff.rfl)
          (.inl (target_open w p _)) ?_ (fun hh => absurd hh (nh hn))
        intro y hy
        simp [PidWorld.at_] at hy
        subst hy
        exact ⟨g.1, g.2.1, trivial⟩
      · have hn : ¬ PidCrit x := by simp [PidCrit, hpc]
        split
        · rename_i hh
          have hh : w.holder = none := hh.resolve_right (nh hn)
          refine h.move (p := p) (fun q e => by simp [PidWorld.at_, e]) (fun q hq => hq)
            (fun q e => by simp [hh, Ne.symm e]) (.inl rfl) ?_ (fun _ => ⟨{ x with pc := .write }, by simp [PidWorld.at_], .inl rfl⟩)
          intro y hy
          simp [PidWorld.at_] at hy
          subst hy
          exact ⟨g.1, g.2.1, rfl⟩
        · exact h.set ⟨g.1, g.2.1, trivial⟩ (nc hn)
      · have g3 := g.2.2
        rw [hpc] at g3
        dsimp only at g3
        have tt : ∀ y a, ({ w with file := some (overwrite (pidText p) (w.file.getD [])), procs := y, answers := a } : PidWorld).target = p := by
          intro y a
          exact pid_written g.1 _
        unfold PidWorld.goesOn
        split
        · refine PidInv.answered (w := { w with file := some (overwrite (pidText p) (w.file.getD [])) }) ?_ p 0
          refine h.move (p := p) (fun q _ => rfl) (fun q hq => hq) (fun q _ => Iff.rfl) (.inr ⟨g3, tt _ _⟩) ?_ ?_
          · intro y hy
            have : y = x := Option.some.inj (hy.symm.trans hx)
            subst this
            refine ⟨g.1, g.2.1, ?_⟩
            rw [hpc]
            exact g3
          · intro _
            exact ⟨x, hx, .inl hpc⟩
        · refine h.move (p := p) (fun q e => by simp [PidWorld.at_, e]) (fun q hq => hq) (fun q _ => Iff.rfl)
            (.inr ⟨g3, tt _ _⟩) ?_ (fun _ => ⟨{ x with pc := .running }, by simp [PidWorld.at_], .inr rfl⟩)
          intro y hy
          simp [PidWorld.at_] at hy
          subst hy
          exact ⟨g.1, g.2.1, g3, tt _ _⟩
      · have hn : ¬ PidCrit x := by simp [PidCrit, hpc]
        have ht := ho.2 x hx hpc
        split
        · rename_i hf
          simp [PidWorld.target, hf] at ht
        · rename_i f hf
          refine h.set ⟨g.1, g.2.1, ?_⟩ (nc hn)
          simpa [PidWorld.target, hf] using ht
      · have g3 := g.2.2
        rw [hpc] at g3
        dsimp only at g3
        rw [if_neg g3]
        split
        · exact h.answered p _
        · exact h.gone p
      · exact h

theorem PidInv.run {es : List PidEvent} : ∀ {w : PidWorld}, PidInv w → Orderly w es → PidInv (w.run es) := by
  induction es with
  | nil => intro w h _; exact h
  | cons e es ih => intro w h ho; exact ih (h.event ho.1) ho.2

theorem PidInv.empty {w : PidWorld} (h : Empty w) : PidInv w :=
  ⟨fun p x hx => by rw [h.1 p] at hx; simp at hx, fun p hp => by rw [h.2.1] at hp; simp at hp⟩

end Fwknop
