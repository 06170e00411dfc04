import Verif.Lemmas.AccessAccept
import Verif.Props.AccessFile

/-!
# C107: an access.conf written as the manual says is loaded

The stanzas in effect are then those of the file (C79 says so of every file that is loaded).
-/

namespace Fwknop.Props

open Fwknop Fwknop.Spec

/-- **C107** (partial: files without include directives, lines of at most 1022 characters).  If every
value of the file is one that its option can have and every stanza has what a stanza needs, the file
is loaded, and each of its stanzas is in effect as it is written. -/
theorem C107_loaded_partial {env : AccEnv} {fds : Nat} {name content : Str} {es : List Entry} (hfd : 1 ≤ fds)
    (hf : env.file name = some content) (hes : FileHolds content es) (hn : ∀ e ∈ es, Plain e.1) (hne : stanzasOf es ≠ [])
    (hg : ∀ p ∈ stanzasOf es, GoodStanza env p.1 p.2) :
    ∃ l, load_access env fds (.file name) = .ok l ∧ l.length = (stanzasOf es).length ∧
      (∀ e ∈ l, InRange e.st) ∧
      ∀ (i : Nat) src opts, (stanzasOf es)[i]? = some (src, opts) →
        ∃ e, l[i]? = some e ∧ Spec.Configured env src opts e.st := by
  obtain ⟨l, hl⟩ := load_good hfd hf hes hn hne hg
  obtain ⟨hlen, hc⟩ := C79_configured_partial hf hes hn hl
  refine ⟨l, hl, hlen, (C81_in_range hl).2, fun i src opts hi => ?_⟩
  obtain ⟨hlt, -⟩ := List.getElem?_eq_some_iff.1 hi
  obtain ⟨e, he⟩ : ∃ e, l[i]? = some e := ⟨l[i]'(by omega), List.getElem?_eq_getElem (by omega)⟩
  exact ⟨e, he, hc i src opts e hi he⟩

/-! ## A case -/

/-- Two stanzas; the second has a key in base64, a type, a mode and a port. -/
def goodFile : Str := b!"SOURCE 10.0.0.0/8
KEY first
SOURCE ANY
KEY_BASE64 a2V5Mg==
HMAC_KEY other
HMAC_DIGEST_TYPE Sha512
FW_ACCESS_TIMEOUT 60
OPEN_PORTS tcp/22
"

def goodEntries : List Entry := [(b!"SOURCE", b!"10.0.0.0/8"), (b!"KEY", b!"first"), (b!"SOURCE", b!"ANY"),
  (b!"KEY_BASE64", b!"a2V5Mg=="), (b!"HMAC_KEY", b!"other"), (b!"HMAC_DIGEST_TYPE", b!"Sha512"), (b!"FW_ACCESS_TIMEOUT", b!"60"),
  (b!"OPEN_PORTS", b!"tcp/22")]

/-- A line that is a name, a blank and a value. -/
theorem line_holds {name value : Str} (h1 : name ≠ []) (h2 : name.headD 0 ≠ 35 ∧ name.headD 0 ≠ 59)
    (h3 : ∀ c ∈ name, c ≠ 32 ∧ ¬ (9 ≤ c ∧ c ≤ 13) ∧ c ≠ 58 ∧ c ≠ 0) (h4 : value ≠ []) (h5 : isSpace (value.headD 0) = false)
    (h6 : isSpace (value.getLastD 0) = false) (h7 : ∀ c ∈ value, c ≠ 59 ∧ c ≠ 10 ∧ c ≠ 13 ∧ c ≠ 0) :
    LineHolds (name ++ 32 :: value ++ [10]) name value :=
  ⟨[], [], [32], [], [10], by simp, by simp, fun _ => h2, h1, h3, .inl rfl, by simp, by simp [SpTab], h4, by simp only [h5, Bool.false_eq_true, not_false_iff],
    by simp only [h6, Bool.false_eq_true, not_false_iff], h7, by simp, fun _ => rfl, .inr ⟨10, [], rfl, by decide⟩⟩

theorem goodFile_holds : FileHolds goodFile goodEntries := by
  refine ⟨goodEntries.map fun e => (e.1 ++ 32 :: e.2, some e), by decide +kernel, ?_, by decide⟩
  intro l hl
  simp only [goodEntries, List.map_cons, List.map_nil, List.mem_cons, List.not_mem_nil, or_false] at hl
  rcases hl with rfl | rfl | rfl | rfl | rfl | rfl | rfl | rfl <;>
    exact ⟨by decide, by decide, .entry _ _ _ (line_holds (by decide) (by decide) (by decide) (by decide) (by decide) (by decide) (by decide))⟩

theorem goodFile_plain : ∀ e ∈ goodEntries, Plain e.1 := by
  intro e he
  simp only [goodEntries, List.mem_cons, List.not_mem_nil, or_false] at he
  rcases he with rfl | rfl | rfl | rfl | rfl | rfl | rfl | rfl <;> refine ⟨?_, ?_, ?_⟩ <;> decide


theorem goodFile_good : ∀ p ∈ stanzasOf goodEntries, GoodStanza (oneFile goodFile) p.1 p.2 := by
  have hs : stanzasOf goodEntries = [(b!"10.0.0.0/8", [(b!"KEY", b!"first")]),
    (b!"ANY", [(b!"KEY_BASE64", b!"a2V5Mg=="), (b!"HMAC_KEY", b!"other"), (b!"HMAC_DIGEST_TYPE", b!"Sha512"),
      (b!"FW_ACCESS_TIMEOUT", b!"60"), (b!"OPEN_PORTS", b!"tcp/22")])] := by decide
  rw [hs]
  intro p hp
  simp only [List.mem_cons, List.not_mem_nil, or_false] at hp
  rcases hp with rfl | rfl
  · refine ⟨?_, ⟨_, networks_one (.cidr b!"10.0.0.0" b!"8" 0x0A000000 ⟨b!"10", b!"0", b!"0", b!"0",
        by simp [IsOctet, IsDigitChar, number], by simp [IsOctet, IsDigitChar, number],
        by simp [IsOctet, IsDigitChar, number], by simp [IsOctet, IsDigitChar, number], rfl, by decide, by decide⟩
        (by simp [IsDigitChar]) (by simp) (by decide) (by decide) (by decide))⟩, fun v hv => absurd hv (by simp [lastOf]),
      fun v hv => absurd hv (by simp [lastOf]), fun v hv => absurd hv (by simp [lastOf]),
      .inl ⟨b!"first", by decide, by decide⟩, fun h hh => absurd hh (by simp [keyOf, lastEntry]), fun h => absurd (by decide) h,
      fun h => absurd h (by decide), .inl ⟨by decide, by decide⟩⟩
    intro e he
    simp only [List.mem_cons, List.not_mem_nil, or_false] at he
    subst he
    refine ⟨fun _ => ?_, ?_, ?_, ?_, ?_, ?_, ?_, ?_, ?_, ?_, ?_, ?_⟩
    · unfold Placeholder; decide
    all_goals exact fun h => absurd h (by decide)
  · refine ⟨?_, ⟨_, networks_one (.any b!"ANY" (by decide))⟩, fun v hv => absurd hv (by simp [lastOf]),
      fun v hv => ?_, fun v hv => absurd hv (by simp [lastOf]),
      .inl ⟨b!"key2", by decide +kernel, by decide⟩, fun h hh _ => ⟨fun k hk => ?_, by simp [gpgPw]⟩, fun h => absurd (by decide) h,
      fun h => absurd h (by decide), .inl ⟨by decide, by decide⟩⟩
    · intro e he
      simp only [List.mem_cons, List.not_mem_nil, or_false] at he
      rcases he with rfl | rfl | rfl | rfl | rfl
      · refine ⟨?_, fun _ => ⟨b!"key2", by unfold IsBytes; decide, by decide⟩, ?_, ?_, ?_, ?_, ?_, ?_, ?_, ?_, ?_, ?_⟩
        all_goals exact fun h => absurd h (by decide)
      · refine ⟨fun _ => ?_, ?_, ?_, ?_, ?_, ?_, ?_, ?_, ?_, ?_, ?_, ?_⟩
        · unfold Placeholder; decide
        all_goals exact fun h => absurd h (by decide)
      · refine ⟨?_, ?_, fun _ => ⟨b!"sha512", 5, by simp [hmacNames], by decide⟩, ?_, ?_, ?_, ?_, ?_, ?_, ?_, ?_, ?_⟩
        all_goals exact fun h => absurd h (by decide)
      · refine ⟨?_, ?_, ?_, ?_, fun _ => ⟨60, ⟨by decide, by simp [IsDigitChar], by decide⟩, by decide, by decide⟩, ?_, ?_, ?_, ?_, ?_, ?_, ?_⟩
        all_goals exact fun h => absurd h (by decide)
      · refine ⟨?_, ?_, ?_, ?_, ?_, ?_, ?_, ?_, ?_, ?_, ?_, ?_⟩
        all_goals exact fun h => absurd h (by decide)
    · have : v = b!"tcp/22" := by simpa [lastOf] using hv.symm
      subst this
      refine ⟨[(6, 22)], [([], b!"tcp/22", (6, 22))], by simp, ?_, by decide, rfl⟩
      intro i hi
      cases List.mem_singleton.1 hi
      exact ⟨by simp, b!"tcp", b!"22", rfl, .inl ⟨by decide, rfl⟩, by simp, by simp [IsDigitChar], by decide, by decide, by decide⟩
    · have h1 : h = b!"other" := by
        have : keyOf b!"HMAC_KEY" b!"HMAC_KEY_BASE64" [(b!"KEY_BASE64", b!"a2V5Mg=="), (b!"HMAC_KEY", b!"other"), (b!"HMAC_DIGEST_TYPE", b!"Sha512"),
          (b!"FW_ACCESS_TIMEOUT", b!"60"), (b!"OPEN_PORTS", b!"tcp/22")] = some b!"other" := by decide +kernel
        exact Option.some.inj (hh.symm.trans this)
      have h2 : k = b!"key2" := by
        have : keyOf b!"KEY" b!"KEY_BASE64" [(b!"KEY_BASE64", b!"a2V5Mg=="), (b!"HMAC_KEY", b!"other"), (b!"HMAC_DIGEST_TYPE", b!"Sha512"),
          (b!"FW_ACCESS_TIMEOUT", b!"60"), (b!"OPEN_PORTS", b!"tcp/22")] = some b!"key2" := by decide +kernel
        exact Option.some.inj (hk.symm.trans this)
      subst h1 h2
      decide

example : ∃ l, load_access (oneFile goodFile) 20 (.file b!"access.conf") = .ok l ∧ l.length = 2 := by
  obtain ⟨l, h1, h2, -⟩ := C107_loaded_partial (fds := 20) (env := oneFile goodFile) (name := b!"access.conf") (by decide) rfl goodFile_holds goodFile_plain (by decide)
    goodFile_good
  exact ⟨l, h1, h2⟩

/-! ## What the requirements are for

Each of the files is like a good one but for one value. -/

/-- A placeholder that was never replaced, or a base64 key that is none, is refused; so is an HMAC
key that is the encryption key. -/
theorem C107_keys_refused :
    load_access (oneFile b!"SOURCE any\nKEY __CHANGEME__\n") 20 (.file b!"access.conf") = .err ∧
    load_access (oneFile b!"SOURCE any\nKEY_BASE64 a2V5Mg!=\n") 20 (.file b!"access.conf") = .err ∧
    load_access (oneFile b!"SOURCE any\nKEY key\nHMAC_KEY key\n") 20 (.file b!"access.conf") = .err ∧
    load_access (oneFile b!"SOURCE any\nENCRYPTION_MODE legacy\nKEY 0123456789abcdefgh\nHMAC_KEY 0123456789abcdef\n") 20
      (.file b!"access.conf") = .err ∧
    load_access (oneFile b!"SOURCE any\nHMAC_KEY key\n") 20 (.file b!"access.conf") = .err := by
  refine ⟨?_, ?_, ?_, ?_, ?_⟩ <;> decide +kernel

/-- A number of seconds above 2^23, a directory that does not exist, a user that does not exist, and
NAT without it being switched on are refused. -/
theorem C107_values_refused :
    load_access (oneFile b!"SOURCE any\nKEY key\nFW_ACCESS_TIMEOUT 8388609\n") 20 (.file b!"access.conf") = .err ∧
    load_access (oneFile b!"SOURCE any\nKEY key\nGPG_HOME_DIR /none\n") 20 (.file b!"access.conf") = .err ∧
    load_access (oneFile b!"SOURCE any\nKEY key\nCMD_EXEC_USER none\n") 20 (.file b!"access.conf") = .err ∧
    load_access (oneFile b!"SOURCE any\nKEY key\nFORCE_NAT 10.0.0.1 22\n") 20 (.file b!"access.conf") = .err ∧
    load_access (oneFile b!"SOURCE any\nKEY key\nOPEN_PORTS tcp22\n") 20 (.file b!"access.conf") = .err ∧
    load_access (oneFile b!"SOURCE any\nKEY key\nCMD_CYCLE_OPEN open\n") 20 (.file b!"access.conf") = .err := by
  refine ⟨?_, ?_, ?_, ?_, ?_, ?_⟩ <;> decide +kernel

/-- The requirements are not all needed: the name of a service in the place of a port is not refused
but read as port 0, so that `RESTRICT_PORTS tcp/ssh` restricts nothing that is asked for as `tcp/22`. -/
theorem C107_service_name_is_port_0 :
    loaded (oneFile b!"SOURCE any\nKEY key\nRESTRICT_PORTS tcp/ssh\n") (.file b!"access.conf") (fun a => (a.rport_list,
      acc_check_port_access a b!"tcp/22")) = some [([⟨6, 0⟩], true)] := by
  decide +kernel

end Fwknop.Props
