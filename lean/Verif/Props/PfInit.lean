import Verif.Model.PfInit
import Verif.Spec.PfInit
import Verif.Lemmas.Pf
import Verif.Lemmas.Proc
import Verif.Props.Pf

/-!
# C128: the daemon starts with pf only if its anchor is in use
-/

namespace Fwknop.Props

open Fwknop Spec Res

/-- This pfctl as a program. -/
def pfMain (read : List Nat → Option (List Nat)) (linked : List Word) : PipeTool Anchors where
  exec argv stdin K := (⟨(pfctlMain read linked argv stdin K).1, true⟩, (pfctlMain read linked argv stdin K).2)

theorem pf_anchor_argv {cf : PfConf} (h : PfNames cf) :
    strtoargv (pfAnchorCmd cf) = .ok (some [cf.fw_command, b!"-s", b!"Anchor"]) := by
  have hr := h.room
  unfold pfAnchorCmd
  rw [cmdBuf, cmdBuf_short (by simp only [List.length_append, List.length_cons, List.length_nil]; omega)]
  rw [show cf.fw_command ++ b!" -s Anchor" = spaced [cf.fw_command, b!"-s", b!"Anchor"] from by simp [spaced]]
  apply strtoargv_spaced _ (by simp only [List.length_cons, List.length_nil]; decide)
  intro w hw'
  simp only [List.mem_cons, List.not_mem_nil, or_false] at hw'
  rcases hw' with rfl | rfl | rfl
  · exact ⟨h.exe, show _ < 1024 by omega⟩
  · exact ⟨by unfold PlainWord IsBlank; decide, by decide⟩
  · exact ⟨by unfold PlainWord IsBlank; decide, by decide⟩

theorem unlines_text (ls : List (List Nat)) : unlines ls = linesText ls := by
  unfold unlines linesText
  rw [List.flatMap_def]

theorem suffix_of_blanks {a n : List Nat} (ha : 32 ∉ a) (h : a <:+ 32 :: 32 :: n) : a <:+ n := by
  rcases List.suffix_cons_iff.1 h with rfl | h
  · simp at ha
  · rcases List.suffix_cons_iff.1 h with rfl | h
    · simp at ha
    · exact h

theorem line_infix {a l : List Nat} (hl : 10 ∉ l) : a ++ [10] <:+: l ++ [10] ↔ a <:+ l := by
  constructor
  · rintro ⟨s, t, h⟩
    rcases List.eq_nil_or_concat t with rfl | ⟨t, c, rfl⟩
    · rw [List.append_nil, ← List.append_assoc] at h
      exact ⟨s, List.append_inj_left' h rfl⟩
    · rw [List.concat_eq_append, ← List.append_assoc] at h
      have := List.append_inj_left' h rfl
      exact absurd (this ▸ by simp) hl
  · rintro ⟨s, rfl⟩
    exact ⟨s, [], by simp⟩

theorem plain_no {w : Word} (h : PlainWord w) {c : Nat} (hc : IsBlank c) : c ∉ w := fun hm => h.2 c hm hc

/-- **C128**, as it is in the code: the daemon goes on exactly if the name of an anchor in the main policy ends with the name it
is configured with.  Then that anchor is emptied and no other touched; otherwise nothing is touched. -/
theorem C128_start_partial (read : List Nat → Option (List Nat)) (cf : PfConf) (hn : PfNames cf) (hl : cf.anchor.length ≤ 63)
    (linked : List Word) (hk : AnchorNames linked) (K : Anchors) :
    ∃ b K', pf_initialize cf (pfMain read linked) K = .ok (b, K') ∧ (b = true ↔ ∃ n ∈ linked, cf.anchor <:+ n) ∧
      (b = true → K' cf.anchor = [] ∧ ∀ a, a ≠ cf.anchor → K' a = K a) ∧ (b = false → K' = K) := by
  have hs : pfAnchorSearch cf = cf.anchor ++ [10] := List.take_of_length_le (by simp [MAX_PF_ANCHOR_SEARCH_LEN]; omega)
  have hx : ((pfMain read linked).plain.exec [cf.fw_command, b!"-s", b!"Anchor"] K) = (⟨linesText (linked.map anchorLine), true⟩, K) := by
    simp [PipeTool.plain, pfMain, pfctlMain, unlines_text]
  have hsh : ShortLines (linked.map anchorLine) := by
    intro l h
    obtain ⟨n, hm, rfl⟩ := List.mem_map.1 h
    obtain ⟨h1, h2, h3⟩ := hk n hm
    have h10 := plain_no h1 (c := 10) (by unfold IsBlank; decide)
    refine ⟨?_, ?_, ?_⟩
    · simp [anchorLine, h10]
    · simp [anchorLine, h2]
    · simp [anchorLine]; omega
  have hact : ∃ b, anchor_active cf (pfMain read linked) K = .ok (b, K) ∧ (b = true ↔ ∃ n ∈ linked, cf.anchor <:+ n) := by
    unfold anchor_active search_extcmd
    rw [pf_anchor_argv hn, bind_ok]
    simp only [hx]
    rw [outLines_text _ _ hsh (by omega), hs]
    refine ⟨_, rfl, ?_⟩
    rw [List.any_map, List.any_map, List.any_eq_true]
    simp only [Function.comp_apply, Bool.and_eq_true, strIn_iff]
    refine exists_congr fun n => and_congr_right fun hm => ?_
    obtain ⟨h1, _, _⟩ := hk n hm
    have h10 := plain_no h1 (c := 10) (by unfold IsBlank; decide)
    rw [line_infix (by simp [anchorLine, h10])]
    constructor
    · intro h
      exact suffix_of_blanks (plain_no hn.anchor (by unfold IsBlank; decide)) h.2
    · intro h
      exact ⟨by simp [anchorLine, isEmptyLine], (h.trans (List.suffix_cons _ _)).trans (List.suffix_cons _ _)⟩
  have hfl : delete_all_anchor_rules cf (pfMain read linked) K = .ok (K.put cf.anchor []) := by
    rw [← pf_flush_run (read := read) hn K]
    unfold delete_all_anchor_rules run_extcmd
    rw [pf_flush_argv hn]
    rfl
  obtain ⟨b, ha, hb⟩ := hact
  unfold pf_initialize
  rw [ha, bind_ok]
  cases b with
  | false => exact ⟨false, K, rfl, hb, fun h => (by cases h), fun _ => rfl⟩
  | true =>
    simp only [Bool.not_true, Bool.false_eq_true, if_false]
    rw [hfl]
    exact ⟨true, _, rfl, hb, fun _ => ⟨anchors_put_get _ _ _, fun a h => by simp [Anchors.put, h]⟩, fun h => (by cases h)⟩

/-- **C128**: if the main policy refers to the anchor, the daemon goes on. -/
theorem C128_linked (read : List Nat → Option (List Nat)) (cf : PfConf) (hn : PfNames cf) (hl : cf.anchor.length ≤ 63)
    (linked : List Word) (hk : AnchorNames linked) (K : Anchors) (h : cf.anchor ∈ linked) :
    ∃ K', pf_initialize cf (pfMain read linked) K = .ok (true, K') ∧ K' cf.anchor = [] ∧ ∀ a, a ≠ cf.anchor → K' a = K a := by
  obtain ⟨b, K', h1, h2, h3, _⟩ := C128_start_partial read cf hn hl linked hk K
  obtain rfl := h2.2 ⟨_, h, List.suffix_refl _⟩
  exact ⟨K', h1, h3 rfl⟩

/-- **C128 is false**: if the main policy only refers to an anchor with a longer name that ends the same way, the daemon goes on
as well, and its rules have no effect. -/
theorem C128_false_other_anchor (read : List Nat → Option (List Nat)) (cf : PfConf) (hn : PfNames cf) (hl : cf.anchor.length ≤ 63)
    (x : Word) (hx : x ≠ []) (hk : AnchorNames [x ++ cf.anchor]) (K : Anchors) :
    cf.anchor ∉ [x ++ cf.anchor] ∧ ∃ K', pf_initialize cf (pfMain read [x ++ cf.anchor]) K = .ok (true, K') := by
  obtain ⟨b, K', h1, h2, _⟩ := C128_start_partial read cf hn hl _ hk K
  obtain rfl := h2.2 ⟨_, List.mem_singleton.2 rfl, List.suffix_append _ _⟩
  refine ⟨fun h => ?_, K', h1⟩
  have := congrArg List.length (List.mem_singleton.1 h)
  rw [List.length_append] at this
  have := List.length_pos_iff.2 hx
  omega

/-- The hypotheses are met. -/
example : PfNames pfConf ∧ pfConf.anchor.length ≤ 63 ∧ AnchorNames [b!"ftp-proxy", b!"fwknop"] ∧ AnchorNames [b!"my-" ++ pfConf.anchor] := by
  refine ⟨pfConf_names, by decide, ?_, ?_⟩ <;> (unfold AnchorNames PlainWord IsBlank; decide)

end Fwknop.Props
