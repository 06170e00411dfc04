import Verif.Lemmas.AccessConf
import Verif.Lemmas.AccessIncl
import Verif.Props.Incoming

/-!
# access.conf: C78 to C85
-/

namespace Fwknop.Props
open Spec

/-- A file system with one file. -/
def oneFile (content : Str) : AccEnv := { file := fun n => if n = b!"access.conf" then some content else none }

/-- Something about each stanza in effect. -/
def loaded {α : Type} (env : AccEnv) (src : AccSource) (f : Stanza → α) : Option (List α) :=
  match load_access env 20 src with
  | .ok l => some (l.map fun e => f e.st)
  | _ => none

/-- A file with two stanzas, comments and an empty line. -/
def sampleFile : Str := b!"# comment
SOURCE: 10.0.0.0/8
KEY \t key;  not this
  OPEN_PORTS  tcp/22, udp/53  \t

; another
SOURCE ANY
KEY_BASE64: a2V5Mg==
HMAC_KEY hmac key
FW_ACCESS_TIMEOUT 60
REQUIRE_USERNAME mbr
"

def sampleEntries : List Entry := [(b!"SOURCE", b!"10.0.0.0/8"), (b!"KEY", b!"key"), (b!"OPEN_PORTS", b!"tcp/22, udp/53"),
  (b!"SOURCE", b!"ANY"), (b!"KEY_BASE64", b!"a2V5Mg=="), (b!"HMAC_KEY", b!"hmac key"), (b!"FW_ACCESS_TIMEOUT", b!"60"),
  (b!"REQUIRE_USERNAME", b!"mbr")]

example : entriesOf sampleFile = sampleEntries := by decide +kernel

example : loaded (oneFile sampleFile) (.file b!"access.conf") (fun a => (a.source_list, a.oport_list, a.key, a.hmac_key))
    = some [([⟨0x0A000000, 0xFF000000⟩], [⟨6, 22⟩, ⟨17, 53⟩], some b!"key", none),
      ([⟨0, 0⟩], [], some b!"key2", some b!"hmac key")] := by decide +kernel

example : loaded (oneFile sampleFile) (.file b!"access.conf") (fun a => (a.fw_access_timeout, a.max_fw_timeout,
      a.require_username, a.hmac_type, a.encryption_mode))
    = some [(30, 300, none, 0, 2), (60, 300, some b!"mbr", 3, 2)] := by decide +kernel

/-! ## C78 -/

/-- **C78** (part): the entries of a file are those its lines hold.  What is missing: lines of more than 1022 characters, and
blanks behind a value of one character (`C78_one_character_not_trimmed`). -/
theorem C78_entries_partial {content : Str} {es : List Entry} (h : FileHolds content es) : entriesOf content = es := entries_hold h

/-- **C78** (part): a line that holds an entry is read as that entry.  The gaps are those of `C78_entries_partial`. -/
theorem C78_line_partial {line name value : Str} (h : LineHolds line name value) (hl : line.length < 1024) :
    entryOf line = some (name, value) := (entryOf_means hl (.entry line name value h)).2

example : LineHolds b!"  OPEN_PORTS:  tcp/22, udp/53  ; not this\n" b!"OPEN_PORTS" b!"tcp/22, udp/53" :=
  ⟨b!"  ", b!":", b!"  ", b!"  ", b!"; not this\n", by decide, by simp [SpTab], by decide, by decide, by decide, by decide, by decide,
    by simp [SpTab], by decide, by decide, by decide, by decide, by simp [SpTab], by decide, .inr ⟨59, _, rfl, by decide⟩⟩

example : FileHolds b!"# x\nKEY abc\n\n" [(b!"KEY", b!"abc")] :=
  ⟨[(b!"# x", none), (b!"KEY abc", some (b!"KEY", b!"abc")), ([], none)], by decide, by
    intro l hl
    simp only [List.mem_cons, List.not_mem_nil, or_false] at hl
    rcases hl with rfl | rfl | rfl
    · exact ⟨by decide, by decide, .skip 35 _ (by decide)⟩
    · exact ⟨by decide, by decide, .entry _ _ _ ⟨[], [], b!" ", [], b!"\n", by decide, by simp, by decide, by decide, by decide,
        by decide, by decide, by simp [SpTab], by decide, by decide, by decide, by decide, by simp, by decide, .inr ⟨10, _, rfl, by decide⟩⟩⟩
    · exact ⟨by decide, by decide, .skip 10 _ (by decide)⟩, rfl⟩

/-- **C78.** Whatever the files contain, reading them writes only inside the arrays of the parser and
touches no stanza that was freed. -/
theorem C78_safe (env : AccEnv) (fds : Nat) (src : AccSource) : load_access env fds src ≠ .ub :=
  (load_sat (trivialRules env) (.inl fun _ h => h) fds src).ne_ub

/-- **C78 is false** of a value of one character with blanks behind it: they become part of it. -/
theorem C78_one_character_not_trimmed :
    loaded (oneFile b!"SOURCE any\nKEY k  \n") (.file b!"access.conf") (·.key) = some [some b!"k  "] := by decide +kernel

/-! ## C79 -/

/-- **C79** (part): when a file without directives is loaded, the stanzas in effect are those of the file,
in order, and each is configured as its last entries say.  What is missing: numbers of 2^31 and more, expiry times that are no
numbers, months above 12, ports of six digits, and FORCE_SNAT before FORCE_MASQUERADE N; for these C79 is false, see below and
`C79_false_masquerade_off_ends_snat`. -/
theorem C79_configured_partial {env : AccEnv} {fds : Nat} {name content : Str} {es : List Entry} {l : List AccEnt}
    (hf : env.file name = some content) (hes : FileHolds content es) (hn : ∀ e ∈ es, Plain e.1)
    (h : load_access env fds (.file name) = .ok l) :
    l.length = (stanzasOf es).length ∧
      ∀ (i : Nat) src opts e, (stanzasOf es)[i]? = some (src, opts) → l[i]? = some e → Configured env src opts e.st := by
  have he := entries_hold hes
  subst he
  have hr := load_read hf hn h
  refine ⟨hr.length_eq.symm, fun i src opts e h1 h2 => ?_⟩
  obtain ⟨e1, hc, hfin⟩ := hr.get i _ _ h1 h2
  exact configured hc hfin

example : stanzasOf sampleEntries = [(b!"10.0.0.0/8", [(b!"KEY", b!"key"), (b!"OPEN_PORTS", b!"tcp/22, udp/53")]),
    (b!"ANY", [(b!"KEY_BASE64", b!"a2V5Mg=="), (b!"HMAC_KEY", b!"hmac key"), (b!"FW_ACCESS_TIMEOUT", b!"60"),
      (b!"REQUIRE_USERNAME", b!"mbr")])] := by decide

example : ∀ e ∈ sampleEntries, Plain e.1 := by
  intro e he
  simp only [sampleEntries, List.mem_cons, List.not_mem_nil, or_false] at he
  rcases he with rfl | rfl | rfl | rfl | rfl | rfl | rfl | rfl <;> refine ⟨?_, ?_, ?_⟩ <;> decide

/-- The limits of C79: a number of seconds from 2^31 on is read modulo 2^32. -/
theorem C79_timeout_wraps :
    loaded (oneFile b!"SOURCE any\nKEY kk\nFW_ACCESS_TIMEOUT 4294967297\n") (.file b!"access.conf") (·.fw_access_timeout)
      = some [1] := by decide +kernel

/-- An expiry time that is not a number, or 0, never expires. -/
theorem C79_expiry_text_ignored :
    loaded (oneFile b!"SOURCE any\nKEY kk\nACCESS_EXPIRE_EPOCH tomorrow\n") (.file b!"access.conf") (·.access_expire_time)
      = some [0] := by decide +kernel

/-- A date with the day before the month is not refused: the month is counted on. -/
theorem C79_month_not_checked :
    loaded { oneFile b!"SOURCE any\nKEY kk\nACCESS_EXPIRE 31/12/2026\n" with mktime := fun m d y => y * 372 + m * 31 + d }
      (.file b!"access.conf") (·.access_expire_time) = some [(2026 - 1900) * 372 + 30 * 31 + 12] := by decide +kernel

/-- Only five digits of the FORCE_NAT port are read. -/
theorem C79_nat_port_cut :
    loaded { oneFile b!"SOURCE any\nKEY kk\nFORCE_NAT 10.0.0.1 654321\n" with nat_enabled := true }
      (.file b!"access.conf") (fun a => (a.force_nat_ip, a.force_nat_port)) = some [(some b!"10.0.0.1", 65432)] := by decide +kernel

theorem keyLines_stop (env : AccEnv) {l : Str} {n v : Str} {o : Opt} (hl : accLine l = .ok (some (n, v)))
    (ho : optOf n = some o) (hk : keyFileOpt o = true) (hr : keyRefused o v = true) (pre post : List Str) :
    ∀ e, keyLines env (pre ++ l :: post) e = keyLines env pre e := by
  induction pre with
  | nil =>
    intro e
    show keyLines env (l :: post) e = .ok e
    rw [keyLines, hl]
    simp only [ho, hk, hr, if_true]
  | cons a pre ih =>
    intro e
    rw [List.cons_append, keyLines, keyLines]
    cases ha : accLine a with
    | ub => rfl
    | err => rfl
    | ok en =>
      cases en with
      | none => exact ih e
      | some p =>
        obtain ⟨n', v'⟩ := p
        simp only
        cases ho' : optOf n' with
        | none => exact ih e
        | some o' =>
          simp only
          split
          · split
            · rfl
            · cases setOption env o' v' ({}, e) with
              | ub => rfl
              | err => rfl
              | ok r => exact ih r.2
          · exact ih e

/-- **C79 in keys files.** A key that is still the placeholder ends the reading of a file that
`%include_keys` names: what stands behind it (the HMAC key, say) has no effect, and nothing is
refused. -/
theorem C79_placeholder_ends_keys_file (env : AccEnv) {file file' key : Str} (pre post : List Str)
    (hlines : ∀ l ∈ pre ++ post, 10 ∉ l ∧ l.length ≤ 1022)
    (hk : key ∈ [b!"KEY", b!"KEY_BASE64", b!"HMAC_KEY", b!"HMAC_KEY_BASE64", b!"GPG_DECRYPT_PW"])
    (h1 : env.file file = some ((pre.map (· ++ [10])).flatten))
    (h2 : env.file file' = some (((pre ++ (key ++ b!" __CHANGEME__") :: post).map (· ++ [10])).flatten)) (can : Bool) (e : AccEnt) :
    include_keys_file env can file' e = include_keys_file env can file e := by
  have hkey : 10 ∉ key ++ b!" __CHANGEME__" ∧ (key ++ b!" __CHANGEME__").length ≤ 1022 := by
    simp only [List.mem_cons, List.not_mem_nil, or_false] at hk
    rcases hk with rfl | rfl | rfl | rfl | rfl <;> decide
  unfold include_keys_file
  rw [h1, h2]
  simp only
  cases can with
  | false => rfl
  | true =>
    simp only [if_true]
    unfold accLines
    rw [fgetsLines_flatten _ _ ?_ (Nat.le_refl _), fgetsLines_flatten _ _ ?_ (Nat.le_refl _), List.map_append, List.map_cons]
    · simp only [List.mem_cons, List.not_mem_nil, or_false] at hk
      rcases hk with rfl | rfl | rfl | rfl | rfl <;>
        exact keyLines_stop env (n := _) (v := b!"__CHANGEME__") rfl rfl rfl (by decide) _ _ e
    · intro l hl
      exact hlines l (by simp [hl])
    · intro l hl
      rcases List.mem_append.1 hl with hl | hl
      · exact hlines l (by simp [hl])
      · rcases List.mem_cons.1 hl with rfl | hl
        · exact hkey
        · exact hlines l (by simp [hl])

/-- A server whose keys file has a key of its own, a placeholder, and an HMAC key. -/
example : loaded { oneFile b!"SOURCE any\n%include_keys keys\n" with
      file := fun n => if n = b!"keys" then some b!"KEY kk\nKEY_BASE64 __CHANGEME__\nHMAC_KEY hh\n"
        else some b!"SOURCE any\n%include_keys keys\n" } (.file b!"access.conf") (fun a => (a.key, a.hmac_key))
    = some [(some b!"kk", none)] := by decide +kernel

/-! ## C80, C81 -/

/-- A file whose first stanza has no key, with a second file and a keys file that is not there. -/
def brokenMain : Str := b!"SOURCE 1.2.3.4
%include more.conf
%include_keys keys
SOURCE 5.6.7.8
KEY abc
"

def brokenEnv : AccEnv :=
  { file := fun n => if n = b!"access.conf" then some brokenMain else if n = b!"more.conf" then some b!"SOURCE 9.9.9.9\nKEY def\n" else none }

/-- **C80 is false** of a stanza in which `%include_keys` follows `%include`: instead of the stanza
that cannot be used, the last stanza of the included file is dropped. -/
theorem C80_unusable_stanza_kept :
    loaded brokenEnv (.file b!"access.conf") (fun a => (a.source_list, a.key)) =
      some [([⟨0x01020304, 0xFFFFFFFF⟩], none), ([⟨0x05060708, 0xFFFFFFFF⟩], some b!"abc")] := by decide +kernel

/-- **C80** (partial: in no file does `%include_keys` follow `%include` or `%include_folder` within
a stanza).  Every stanza in effect can authenticate somebody, and its HMAC key is not its
encryption key. -/
theorem C80_usable_partial {env : AccEnv} {fds : Nat} {src : AccSource} {l : List AccEnt}
    (hk : ∀ name content, env.file name = some content → KeysFirst (entriesOf content))
    (h : load_access env fds src = .ok l) : l ≠ [] ∧ ∀ e ∈ l, Usable e.st := by
  have := (load_sat (usableRules env) (.inr hk) fds src).of_ok h
  exact ⟨this.1, fun e he => (this.2 e he).1.2⟩

example : KeysFirst sampleEntries := by
  intro pre v post h
  exfalso
  have : (b!"%include_keys", v) ∈ sampleEntries := by rw [h]; simp
  simp [sampleEntries] at this

example : KeysFirst [(b!"SOURCE", b!"any"), (b!"%include_keys", b!"keys"), (b!"%include", b!"more")] := by
  intro pre v post h e he
  match pre, h with
  | [], h => simp at h
  | [a], h =>
    simp only [List.cons_append, List.nil_append, List.cons.injEq] at h
    rw [← h.1] at he
    simp [sinceSource] at he
  | [a, b], h => simp at h
  | a :: b :: c :: r, h => simp at h

/-- **C81.** Every stanza in effect, whatever the files contain: it has a key exactly if it uses
Rijndael; timeouts are between 1 and 2^23 seconds; mode and HMAC type are supported ones, and there
is a type if there is a key; the port of FORCE_NAT is at most 65535; with a GPG passphrase and
signatures not disabled, signatures are required and signers are listed. -/
theorem C81_in_range {env : AccEnv} {fds : Nat} {src : AccSource} {l : List AccEnt}
    (h : load_access env fds src = .ok l) : l ≠ [] ∧ ∀ e ∈ l, InRange e.st := by
  have := (load_sat (rangeRules env) (.inl fun _ h => h) fds src).of_ok h
  exact ⟨this.1, fun e he => (this.2 e he).1⟩

/-! ## C82 -/

/-- **C82.** Files that include each other, or themselves, are not loaded, however many files can be
open: `S` is a set of files each of which includes one of the set. -/
theorem C82_cycles_refused {env : AccEnv} {S : Str → Prop} (hS : ∀ n, S n → ∃ n', Includes env n n' ∧ S n') {name : Str}
    (hn : S name) (fds : Nat) : load_access env fds (.file name) = .err := by
  cases h : load_access env fds (.file name) with
  | ub => exact absurd h (C78_safe env fds _)
  | err => rfl
  | ok l =>
    unfold load_access at h
    obtain ⟨s, hs, _⟩ := bind_ok_inv h
    exact absurd hs (cycle_blocked hS fds name {} s hn)

/-- A file that includes a folder it lies in. -/
def selfEnv : AccEnv :=
  { file := fun n => if n = b!"/etc/a/x.conf" then some b!"SOURCE any\nKEY abc\n%include_folder /etc/a/\n" else none
    dir := fun n => if n = b!"/etc/a" then some [b!".", b!"x.conf"] else none }

example (fds : Nat) : load_access selfEnv fds (.file b!"/etc/a/x.conf") = .err := by
  refine C82_cycles_refused (S := fun n => n = b!"/etc/a/x.conf") ?_ rfl fds
  rintro n rfl
  exact ⟨_, ⟨_, b!"/etc/a/", rfl, .inr ⟨by decide +kernel, b!"/etc/a", _, b!"x.conf", .inl ⟨rfl, by decide⟩, rfl, by decide,
    ⟨b!"x", [], rfl, by decide⟩, rfl⟩⟩, rfl⟩

/-- **C82.** Reading an included file only adds stanzas behind those there are: it changes, removes
and reorders none of them, and all it adds are in range. -/
theorem C82_include_only_adds {env : AccEnv} {fds : Nat} {name : Str} {s s' : AccState} (hd : 1 ≤ s.depth)
    (h : parse_access_file env fds name s = .ok s') :
    s'.depth = s.depth ∧ ∃ new, s'.stanzas = s.stanzas ++ new ∧ ∀ e ∈ new, RawRange e :=
  (parse_nested (rangeRules env).toRules (.inl fun _ h => h) fds name s hd).of_ok h

example : (match parse_access_file (oneFile sampleFile) 5 b!"access.conf" { stanzas := [{ source := b!"x" }], depth := 1 } with
    | .ok s => some (s.stanzas.map (·.source), s.depth)
    | _ => none) = some ([b!"x", b!"10.0.0.0/8", b!"ANY"], 1) := by decide +kernel

/-! ## C83 -/

/-- Two users. -/
def twoUsers (content : Str) : AccEnv :=
  { oneFile content with passwd := fun n =>
      if n = b!"alice" then some (1001, 101) else if n = b!"bob" then some (1002, 102) else if n = b!"web" then some (33, 33) else none }

/-- **C83 is false as stated**: `getpwnam` overwrites its static result, so commands of the user
alice run with the group of the user looked up last. -/
theorem C83_group_of_the_wrong_user :
    loaded (twoUsers b!"SOURCE any\nKEY kk\nENABLE_CMD_EXEC Y\nCMD_EXEC_USER alice\nCMD_SUDO_EXEC_USER bob\n") (.file b!"access.conf")
      (fun a => (a.cmd_exec_uid, a.cmd_exec_gid)) = some [(1001, 102)] := by decide +kernel

/-- **C83** (partial: CMD_EXEC_USER must be the last of the four user and group entries of the
stanza).  Commands run with the user's number and primary group. -/
theorem C83_user_and_group_partial {env : AccEnv} {fds : Nat} {name content : Str} {es : List Entry} {l : List AccEnt}
    (hf : env.file name = some content) (hes : FileHolds content es) (hn : ∀ e ∈ es, Plain e.1)
    (h : load_access env fds (.file name) = .ok l) {i : Nat} {src : Str} {opts : List Entry} {e : AccEnt}
    (h1 : (stanzasOf es)[i]? = some (src, opts)) (h2 : l[i]? = some e) {v : Str}
    (hl : lastEntry [b!"CMD_SUDO_EXEC_USER", b!"CMD_SUDO_EXEC_GROUP", b!"CMD_EXEC_USER", b!"CMD_EXEC_GROUP"] opts
      = some (b!"CMD_EXEC_USER", v)) (hg : lastOf [b!"CMD_EXEC_GROUP"] opts = none) :
    ∃ u g, env.passwd v = some (u, g) ∧ e.st.cmd_exec_uid = u ∧ (u ≠ 0 → e.st.cmd_exec_gid = g) := by
  have he := entries_hold hes
  subst he
  obtain ⟨e1, hc, hfin⟩ := (load_read hf hn h).get i _ _ h1 h2
  have hcf := configured hc hfin
  obtain ⟨s1, dst, op, rp, ids, fprs, user, sudo, gid, hi, hp, ha⟩ := final_image hc hfin
  have hlast : lastOf pwNames opts = some v := by
    unfold lastOf
    have : lastEntry pwNames opts = some (b!"CMD_EXEC_USER", v) := hl
    unfold lastEntry at this
    rw [this]; rfl
  have hu : lastOf [b!"CMD_EXEC_USER"] opts = some v := by
    unfold lastEntry at hl
    unfold lastOf
    obtain ⟨ys, hys⟩ := List.getLast?_eq_some_iff.1 hl
    have e2 : opts.filter (fun e => e.1 ∈ [b!"CMD_EXEC_USER"]) =
        (opts.filter fun e => e.1 ∈ [b!"CMD_SUDO_EXEC_USER", b!"CMD_SUDO_EXEC_GROUP", b!"CMD_EXEC_USER", b!"CMD_EXEC_GROUP"]).filter
          (fun e => e.1 ∈ [b!"CMD_EXEC_USER"]) := by
      rw [List.filter_filter]
      congr 1
      funext e
      by_cases h : e.1 = b!"CMD_EXEC_USER" <;> simp [h]
    rw [e2, hys, List.filter_append]
    simp
  obtain ⟨u, hpw⟩ := hp.gid v hlast
  have huser : user = true := hp.user (by rw [hu]; simp)
  refine ⟨u, gid, hpw, ?_, ?_⟩
  · obtain ⟨g', hg'⟩ := hcf.cmd_exec_uid v (by rw [hcf.cmd_exec_user]; exact hu)
    rw [hpw] at hg'
    injection hg' with hg'
    injection hg' with hg' _
    exact hg'.symm
  · intro hu0
    rw [hi.eq]
    show gidFrom (if user = true then some gid else none) (rawOf env src opts).st.cmd_exec_uid (rawOf env src opts).st.cmd_exec_gid = gid
    have e1 : (rawOf env src opts).st.cmd_exec_uid = u := by
      show (((lastOf [b!"CMD_EXEC_USER"] opts).bind env.passwd).map (·.1)).getD 0 = u
      rw [hu]; simp [hpw]
    have e2 : (rawOf env src opts).st.cmd_exec_gid = 0 := by
      show (((lastOf [b!"CMD_EXEC_GROUP"] opts).bind env.passwd).map (·.2)).getD 0 = 0
      rw [hg]; rfl
    rw [huser, e1, e2]
    simp [gidFrom, hu0]

example : loaded (twoUsers b!"SOURCE any\nKEY kk\nENABLE_CMD_EXEC Y\nCMD_SUDO_EXEC_USER bob\nCMD_EXEC_USER alice\n") (.file b!"access.conf")
    (fun a => (a.cmd_exec_uid, a.cmd_exec_gid)) = some [(1001, 101)] := by decide +kernel

/-- **C83 is false as stated** for groups too: CMD_EXEC_GROUP is looked up among the users, so the
group of the user of that name is taken. -/
theorem C83_group_name_is_a_user :
    loaded (twoUsers b!"SOURCE any\nKEY kk\nENABLE_CMD_EXEC Y\nCMD_EXEC_USER alice\nCMD_EXEC_GROUP web\n") (.file b!"access.conf")
      (fun a => (a.cmd_exec_uid, a.cmd_exec_gid)) = some [(1001, 33)] ∧
    load_access (twoUsers b!"SOURCE any\nKEY kk\nENABLE_CMD_EXEC Y\nCMD_EXEC_USER alice\nCMD_EXEC_GROUP adm\n") 20 (.file b!"access.conf") = .err := by
  constructor <;> decide +kernel

/-! ## C84 -/

/-- A folder with two files. -/
def folderEnv : AccEnv :=
  { file := fun n =>
      if n = b!"/etc/acc/a.conf" then some b!"SOURCE 10.0.0.0/8\nKEY abc\nOPEN_PORTS tcp/22\n"
      else if n = b!"/etc/acc/b.conf" then some b!"SOURCE 11.0.0.0/8\nKEY def\n" else none
    dir := fun n => if n = b!"/etc/acc" then some [b!"a.conf", b!"b.conf"] else none }

/-- **C84 is false as stated**: with a second file in the folder the lists of the stanzas of the
first file are expanded again, so OPEN_PORTS lists each port twice and a request for an open port
is refused. -/
theorem C84_lists_expanded_again :
    loaded folderEnv (.folder b!"/etc/acc") (fun a => (a.oport_list, acc_check_port_access a b!"tcp/22")) =
      some [([⟨6, 22⟩, ⟨6, 22⟩], false), ([], true)] ∧
    loaded folderEnv (.file b!"/etc/acc/a.conf") (fun a => (a.oport_list, acc_check_port_access a b!"tcp/22")) =
      some [([⟨6, 22⟩], true)] := by
  constructor <;> decide +kernel

theorem folderLoop_others {incl : Str → AccState → Res AccState} (dir : Str) (ns : List Str) (s : AccState)
    (h : ∀ n ∈ ns, isConfName n = false) : folderLoop incl dir ns s = .ok s := by
  induction ns with
  | nil => rfl
  | cons n ns ih =>
    rw [folderLoop, if_neg (by simp [h n (by simp)]), ih fun m hm => h m (by simp [hm])]

/-- **C84** (partial: one `.conf` file).  A folder that contains one file whose name ends in `.conf`
is read as that file. -/
theorem C84_one_file_partial {env : AccEnv} {folder dir : Str} {pre post : List Str} {base : Str} (fds : Nat)
    (hd : folder = dir ++ b!"/" ∧ dir ≠ [] ∨ folder = dir ∧ (dir.getLast? ≠ some 47 ∨ dir.length = 1))
    (hdir : env.dir dir = some (pre ++ (base ++ b!".conf") :: post))
    (hpre : ∀ n ∈ pre ++ post, ¬ ∃ b ext, n = b ++ b!".conf" ++ ext ∧ 46 ∉ ext)
    (hlen : dir.length + base.length ≤ 1017) :
    load_access env (fds + 1) (.folder folder) = load_access env fds (.file (dir ++ b!"/" ++ base ++ b!".conf")) := by
  have hno : ∀ n, (¬ ∃ b ext, n = b ++ b!".conf" ++ ext ∧ 46 ∉ ext) → isConfName n = false := by
    intro n hn
    rw [Bool.eq_false_iff]
    intro hc
    apply hn
    unfold isConfName at hc
    simp only [decide_eq_true_eq] at hc
    obtain ⟨hlt, hpf⟩ := hc
    have hr : n.reverse = n.reverse.takeWhile (· ≠ 46) ++ n.reverse.dropWhile (· ≠ 46) := (List.takeWhile_append_dropWhile).symm
    generalize ht : n.reverse.takeWhile (· ≠ 46) = t at *
    have h46 : ∀ c ∈ t, c ≠ 46 := by
      intro c hc
      rw [← ht] at hc
      have := List.all_eq_true.1 List.all_takeWhile c hc
      simpa using this
    cases hdw : n.reverse.dropWhile (· ≠ 46) with
    | nil =>
      rw [hdw, List.append_nil] at hr
      have := congrArg List.length hr
      simp only [List.length_reverse] at this
      omega
    | cons c r =>
      have hc46 : c = 46 := by
        have := List.head_dropWhile_not (p := fun x : Nat => decide (x ≠ 46)) (l := n.reverse) (by rw [hdw]; simp)
        simp only [hdw, List.head_cons] at this
        simpa using this
      rw [hdw, hc46] at hr
      have hn2 : n = r.reverse ++ 46 :: t.reverse := by
        have := congrArg List.reverse hr
        simpa using this
      unfold hasPrefix at hpf
      have hpf' : b!"conf" <+: t.reverse := by simpa using hpf
      obtain ⟨ext, hext⟩ := hpf'
      refine ⟨r.reverse, ext, ?_, ?_⟩
      · rw [hn2, ← hext]; simp
      · intro hm
        have : (46 : Nat) ∈ t.reverse := by rw [← hext]; simp [hm]
        exact h46 46 (by simpa using this) rfl
  unfold load_access
  congr 1
  simp only [parseSource, parse_access_folder, accFolder]
  rw [chop_char_dir hd, hdir]
  simp only
  have hpre' : ∀ n ∈ pre, isConfName n = false := fun n hn => hno n (hpre n (by simp [hn]))
  have hpost : ∀ n ∈ post, isConfName n = false := fun n hn => hno n (hpre n (by simp [hn]))
  have step : ∀ pre : List Str, (∀ n ∈ pre, isConfName n = false) →
      folderLoop (parse_access_file env fds) dir (pre ++ (base ++ b!".conf") :: post) {} =
        parse_access_file env fds (dir ++ b!"/" ++ base ++ b!".conf") {} := by
    intro pre
    induction pre with
    | nil =>
      intro _
      have hc := isConfName_of (base := base) (ext := []) (by simp)
      rw [List.append_nil] at hc
      rw [List.nil_append, folderLoop, if_pos hc, if_neg (by simp [ACC_PATH_LEN]; omega)]
      have e : dir ++ 47 :: (base ++ b!".conf") = dir ++ b!"/" ++ base ++ b!".conf" := by simp
      rw [e]
      cases parse_access_file env fds (dir ++ b!"/" ++ base ++ b!".conf") {} with
      | ub => rfl
      | err => rfl
      | ok s => simp [folderLoop_others dir post s hpost]
    | cons n pre ih =>
      intro hp
      rw [List.cons_append, folderLoop, if_neg (by simp [hp n (by simp)])]
      exact ih fun m hm => hp m (by simp [hm])
  exact step pre hpre'

/-! ## C85 -/

/-- **C85.** The stanzas of any configuration that loads have the keys that the theorems about
incoming packets (C15, C23, C27, C31 to C38 and others) ask for. -/
theorem C85_keys {env : AccEnv} {fds : Nat} {src : AccSource} {l : List AccEnt} (h : load_access env fds src = .ok l) :
    ∀ acc ∈ l.map (·.st), KeysOk acc := by
  intro acc ha
  obtain ⟨e, he, rfl⟩ := List.mem_map.1 ha
  exact fun hu => ((C81_in_range h).2 e he).keys.rijndael.1 hu

/-- The server at the time a packet of the history arrives. -/
theorem serve_when {conf : Conf} {E : Env} {as : List Arrival} : ∀ {sv sv' : Server} {outs : List (List Effect)},
    serve conf E sv as = .ok (sv', outs) → ∀ (i : Nat) o, outs[i]? = some o →
    ∃ a sv1 sv2, as[i]? = some a ∧ incoming_spa conf E a.now a.pkt a.open_ok sv1 = .ok (sv2, o) ∧
      sv1.stanzas.length = sv.stanzas.length ∧
      (∀ (k : Nat) (acc : Stanza), sv1.stanzas[k]? = some acc → ∃ acc0 : Stanza, sv.stanzas[k]? = some acc0 ∧ (acc = acc0 ∨ acc = { acc0 with expired := true })) := by
  induction as with
  | nil => intro sv sv' outs h i o ho; cases h; simp at ho
  | cons x xs ih =>
    intro sv sv' outs h i o ho
    obtain ⟨sv1, o1, os, h1, h2, rfl⟩ := serve_cons h
    cases i with
    | zero =>
      simp only [List.getElem?_cons_zero, Option.some.injEq] at ho
      subst ho
      exact ⟨x, sv, sv1, by simp, h1, rfl, fun k acc hk => ⟨acc, hk, .inl rfl⟩⟩
    | succ i =>
      simp only [List.getElem?_cons_succ] at ho
      obtain ⟨a, sv2, sv3, ha, hi, hlen, hst⟩ := ih h2 i o ho
      obtain ⟨hl, hs⟩ := incoming_stanzas h1
      refine ⟨a, sv2, sv3, by simpa using ha, hi, by omega, fun k acc hk => ?_⟩
      obtain ⟨acc1, hk1, hor⟩ := hst k acc hk
      have hlt : k < sv.stanzas.length := by
        have := (List.getElem?_eq_some_iff.1 hk1).1
        omega
      obtain ⟨acc2, hk2, hor2⟩ := hs k _ (List.getElem?_eq_getElem hlt)
      rw [hk1] at hk2
      cases hk2
      refine ⟨_, List.getElem?_eq_getElem hlt, ?_⟩
      rcases hor with rfl | rfl <;> rcases hor2 with h2 | ⟨h2, _⟩ <;> rw [h2] <;> simp

/-- **C85.** From the text of access.conf to the effects: when the server has loaded a file without
directives and then handles any packets, then each effect belongs to a stanza of the file, the
packet came from the networks in its SOURCE (and went to those in its DESTINATION), it ends in an
HMAC of the configured type under HMAC_KEY if there is one, it carries the name in
REQUIRE_USERNAME, not the wildcard address with REQUIRE_SOURCE_ADDRESS, it arrived before the
stanza expired; commands are run only with ENABLE_CMD_EXEC, and ports are opened only if they
are in OPEN_PORTS (which lists no port twice, see C29) and not in RESTRICT_PORTS. -/
theorem C85_effects_follow_the_file {env : AccEnv} {fds : Nat} {name content : Str} {es : List Entry} {l : List AccEnt}
    (hf : env.file name = some content) (hes : FileHolds content es) (hn : ∀ e ∈ es, Plain e.1)
    (hload : load_access env fds (.file name) = .ok l)
    {conf : Conf} {E : Env} (hH : E.K.H.Lawful) {sv sv' : Server} (hsv : sv.stanzas = l.map (·.st)) {as : List Arrival}
    (hip : ∀ a ∈ as, a.pkt.src_ip < 2 ^ 32 ∧ a.pkt.dst_ip < 2 ^ 32)
    {outs : List (List Effect)} (h : serve conf E sv as = .ok (sv', outs)) {i : Nat} {o : List Effect}
    (ho : outs[i]? = some o) {eff : Effect} (he : eff ∈ o) :
    ∃ a src opts text proxy c ip rest, as[i]? = some a ∧ (stanzasOf es)[stanzaNo eff - 1]? = some (src, opts) ∧
      Received conf a.pkt text proxy ∧ Message c ip rest ∧
      (∀ A, Networks src A → A a.pkt.src_ip) ∧
      (∀ v A, lastOf [b!"DESTINATION"] opts = some v → Networks v A → A a.pkt.dst_ip) ∧
      (∀ k, keyOf b!"HMAC_KEY" b!"HMAC_KEY_BASE64" opts = some k → k ≠ [] → ∃ (t : Nat) (gpg : Bool),
        Authentic (E.K.H t) (hashBlock t) k gpg text ∧
        (lastOf [b!"HMAC_DIGEST_TYPE"] opts = none → t = 3) ∧
        (∀ n d, (n, d) ∈ hmacNames → ∀ v, lastOf [b!"HMAC_DIGEST_TYPE"] opts = some v → v.map lower = n.map lower → (t : Int) = d)) ∧
      (∀ u, lastOf [b!"REQUIRE_USERNAME"] opts = some u → c.username = some u) ∧
      (yes (lastOf [b!"REQUIRE_SOURCE_ADDRESS", b!"REQUIRE_SOURCE"] opts) = true → ip ≠ anyAddr) ∧
      (∀ v n, lastEntry [b!"ACCESS_EXPIRE", b!"ACCESS_EXPIRE_EPOCH"] opts = some (b!"ACCESS_EXPIRE_EPOCH", v) →
        Decimal v n → 0 < n → n < 2 ^ 63 → a.now ≤ n) ∧
      (∀ n cmd ids, eff = .command n cmd ids → yes (lastOf [b!"ENABLE_CMD_EXEC"] opts) = true) ∧
      (∀ n acc sp, eff = .access n acc sp → ∀ ps, RequestPorts rest ps →
        (∀ v O, lastOf [b!"OPEN_PORTS"] opts = some v → ProtoPorts v O → O.Nodup → ∀ p ∈ ps, p ∈ O) ∧
        (∀ v R, lastOf [b!"RESTRICT_PORTS"] opts = some v → ProtoPorts v R → ∀ p ∈ ps, p ∉ R)) := by
  obtain ⟨hlen, hconf⟩ := C79_configured_partial hf hes hn hload
  obtain ⟨a, sv1, sv2, ha, hi, hl1, hst⟩ := serve_when h i o ho
  have hk1 : ∀ acc ∈ sv1.stanzas, KeysOk acc := by
    intro acc hacc
    obtain ⟨k, hk⟩ := List.mem_iff_getElem?.1 hacc
    obtain ⟨acc0, h0, hor⟩ := hst k acc hk
    have := C85_keys hload acc0 (by rw [← hsv]; exact List.mem_of_getElem? h0)
    rcases hor with rfl | rfl <;> exact this
  obtain ⟨acc, text, proxy, c, ip, rest, hc, hadr, hlive, _, _, _, hsrcreq, huser, _, _, hperm, hcase⟩ := effect_meets hk1 hi he
  obtain ⟨acc0, h0, hor⟩ := hst _ _ hc.stanza
  rw [hsv, List.getElem?_map] at h0
  obtain ⟨e0, he0, hst0⟩ := Option.map_eq_some_iff.1 h0
  have hlt : stanzaNo eff - 1 < (stanzasOf es).length := by
    have := (List.getElem?_eq_some_iff.1 he0).1
    omega
  have hp0 := List.getElem?_eq_getElem hlt
  generalize (stanzasOf es)[stanzaNo eff - 1] = p0 at hp0
  obtain ⟨src, opts⟩ := p0
  have hC := hconf _ _ _ _ hp0 he0
  rw [hst0] at hC
  have hips := hip a (List.mem_of_getElem? ha)
  refine ⟨a, src, opts, text, proxy, c, ip, rest, ha, hp0, hc.received, hc.message, ?_, ?_, ?_, ?_, ?_, ?_, ?_, ?_⟩
  · intro A hA
    have e1 : acc.source_list = acc0.source_list := by rcases hor with rfl | rfl <;> rfl
    have := hadr.1
    rw [e1] at this
    exact (hC.source A hA _ hips.1).1 ((addr_list_iff _ _).2 this)
  · intro v A hv hA
    have e1 : acc.destination_list = acc0.destination_list := by rcases hor with rfl | rfl <;> rfl
    have hiff := hC.destinations v A hv hA
    rcases hadr.2 with hnil | hin
    · exfalso
      obtain ⟨items, hne, hitems, _, rfl⟩ := hA
      obtain ⟨it, hit⟩ := List.exists_mem_of_ne_nil _ hne
      obtain ⟨x, hx, hxi⟩ := network_inhabited (hitems it hit).2
      have := (hiff x hx).2 ⟨it, hit, hxi⟩
      rw [← e1, hnil] at this
      exact absurd this (by simp [compare_addr_list])
    · rw [e1] at hin
      exact (hiff _ hips.2).1 ((addr_list_iff _ _).2 hin)
  · intro k hk hne
    have e1 : acc.hmac_key = acc0.hmac_key := by rcases hor with rfl | rfl <;> rfl
    have e2 : acc.hmac_type = acc0.hmac_type := by rcases hor with rfl | rfl <;> rfl
    have hkey0 : acc0.hmac_key = some k := by rw [hC.hmac_key]; exact hk
    obtain ⟨t, gpg, body, g1, g2, g3, g4, _⟩ := auth_signed hH (e1.trans hkey0) hne hc.decoded
    refine ⟨t, gpg, ⟨body, _, g4, rfl⟩, fun hd => ?_, fun n d hm v hv hv2 => ?_⟩
    · have := hC.hmac_default hd k hkey0 hne
      rw [← e2, g1] at this
      exact_mod_cast this
    · have := hC.hmac_type n d hm v hv hv2
      rw [← e2, g1] at this
      exact this
  · intro u hu
    refine huser u ?_
    have e1 : acc.require_username = acc0.require_username := by rcases hor with rfl | rfl <;> rfl
    rw [e1, hC.username]; exact hu
  · intro hy
    refine hsrcreq ?_
    have e1 : acc.require_source_address = acc0.require_source_address := by rcases hor with rfl | rfl <;> rfl
    rw [e1, hC.require_source]; exact hy
  · intro v n hv hd hpos hlt
    have e1 : acc.access_expire_time = acc0.access_expire_time := by rcases hor with rfl | rfl <;> rfl
    have := hC.expire_epoch v n hv hd hlt
    apply Classical.byContradiction
    intro hno
    exact hlive ⟨by rw [e1, this]; omega, .inr (by rw [e1, this]; omega)⟩
  · intro n cmd ids hcmd
    have e1 : acc.enable_cmd_exec = acc0.enable_cmd_exec := by rcases hor with rfl | rfl <;> rfl
    rw [← hC.cmd_exec, ← e1]
    rcases hcase with ⟨_, cmd, h⟩ | ⟨h1, h2, cmd, h, _⟩ | ⟨_, _, h⟩
    · rw [hcmd] at h; cases h
    · exact (hperm.2.1 h1 h2).1
    · rw [hcmd] at h; cases h
  · intro n acc' sp hsp ps hps
    have hchk : acc_check_port_access acc rest = true := by
      rcases hcase with ⟨_, cmd, h⟩ | ⟨_, _, cmd, h, _⟩ | ⟨h1, h2, _⟩
      · rw [hsp] at h; cases h
      · rw [hsp] at h; cases h
      · exact (hperm.2.2 h1 h2).1
    have eo : acc.oport_list = acc0.oport_list := by rcases hor with rfl | rfl <;> rfl
    have er : acc.rport_list = acc0.rport_list := by rcases hor with rfl | rfl <;> rfl
    constructor
    · intro v O hv hO hnd p hp
      have hex : expand_acc_port_list v = some acc.oport_list := by
        rw [eo, hC.open_ports v O hv hO]; exact protoPorts_expand hO
      have hOne : O ≠ [] := by
        obtain ⟨items, hne, _, _, rfl⟩ := hO
        simpa using hne
      -- RESTRICT_PORTS only narrows
      have hchk' : acc_check_port_access { acc with rport_list := [] } rest = true := by
        unfold acc_check_port_access at hchk ⊢
        cases hr : requestPorts rest [] 0 with
        | none => rw [hr] at hchk; cases hchk
        | some pl =>
          rw [hr] at hchk
          simp only at hchk ⊢
          split at hchk
          · cases hchk
          · simpa using hchk
      have := (C29_port_authorisation_partial { acc with rport_list := [] } rest ps O [] hps (.inr ⟨v, hO, hex⟩) (.inl ⟨rfl, rfl⟩) hnd).1 hchk'
      rcases this.2 with h | h
      · exact absurd h hOne
      · exact h p hp
    · intro v R hv hR p hp hpR
      have hex : expand_acc_port_list v = some acc.rport_list := by
        rw [er, hC.restrict_ports v R hv hR]; exact protoPorts_expand hR
      rw [C30_restrict_wins acc rest ps R hps v hR hex p hp hpR] at hchk
      cases hchk

/-- The stanza of C15's and C27's examples, from a file: the same packets have the same effects. -/
example : (match load_access (oneFile b!"SOURCE 10.0.0.0/8\nKEY key\nHMAC_KEY hmac key\n") 20 (.file b!"access.conf") with
    | .ok l => counts {} (l.map AccEnt.st) [sampleArrival 1700000010 sampleText, sampleArrival 1700000010 sampleSigned]
    | _ => .err) = .ok [0, 1] := by decide +kernel

/-- **C85 is false** of an HMAC key given in base64 that decodes to nothing: the packets need no
HMAC then. -/
theorem C85_empty_hmac_key :
    loaded (oneFile b!"SOURCE any\nKEY key\nHMAC_KEY_BASE64 =\n") (.file b!"access.conf") (·.hmac_key) = some [some []] ∧
    (match load_access (oneFile b!"SOURCE any\nKEY key\nHMAC_KEY_BASE64 =\n") 20 (.file b!"access.conf") with
      | .ok l => counts {} (l.map AccEnt.st) [sampleArrival 1700000010 sampleText]
      | _ => .err) = .ok [1] := by
  constructor <;> decide +kernel

end Fwknop.Props
