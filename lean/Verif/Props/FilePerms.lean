import Verif.Spec.FilePerms

/-!
# C129: files that others may read or write; C130: paths on the command line; C131: saving a packet
-/

namespace Fwknop.Props

open Fwknop Spec

theorem ifmt_eq (m : Nat) : m &&& S_IFMT = m / 4096 % 16 * 4096 := by
  apply Nat.eq_of_testBit_eq
  intro i
  have h1 : S_IFMT = (2 ^ 4 - 1) * 2 ^ 12 := rfl
  have h2 : m / 4096 % 16 * 4096 = m / 2 ^ 12 % 2 ^ 4 * 2 ^ 12 := rfl
  rw [Nat.testBit_and, h1, h2, Nat.testBit_mul_two_pow, Nat.testBit_mul_two_pow, Nat.testBit_two_pow_sub_one, Nat.testBit_mod_two_pow, Nat.testBit_div_two_pow]
  by_cases h : 12 ≤ i
  · rw [show i - 12 + 12 = i from by omega]
    simp [h, Bool.and_comm]
  · simp [h]

theorem perms_eq (m : Nat) : m &&& 511 = m % 512 := Nat.and_two_pow_sub_one_eq_mod m 9

theorem exec_eq (m : Nat) : (m &&& 64 = 0) ↔ m / 64 % 2 = 0 := by
  have h : m &&& 64 = (m / 64 % 2) * 64 := by
    apply Nat.eq_of_testBit_eq
    intro i
    have h1 : (64 : Nat) = (2 ^ 1 - 1) * 2 ^ 6 := rfl
    have h2 : m / 64 % 2 * 64 = m / 2 ^ 6 % 2 ^ 1 * 2 ^ 6 := rfl
    rw [Nat.testBit_and, h2, h1, Nat.testBit_mul_two_pow, Nat.testBit_mul_two_pow, Nat.testBit_two_pow_sub_one, Nat.testBit_mod_two_pow,
      Nat.testBit_div_two_pow]
    by_cases h : 6 ≤ i
    · rw [show i - 6 + 6 = i from by omega]
      simp [h, Bool.and_comm]
    · simp [h]
  rw [h]
  omega

theorem reg_iff (m : Nat) : m &&& S_IFMT = S_IFREG ↔ IsRegular m := by rw [ifmt_eq, show S_IFREG = 8 * 4096 from rfl]; unfold IsRegular; omega
theorem dir_iff (m : Nat) : m &&& S_IFMT = S_IFDIR ↔ IsDirectory m := by rw [ifmt_eq, show S_IFDIR = 4 * 4096 from rfl]; unfold IsDirectory; omega
theorem lnk_iff (m : Nat) : m &&& S_IFMT = S_IFLNK ↔ IsSymlink m := by rw [ifmt_eq, show S_IFLNK = 10 * 4096 from rfl]; unfold IsSymlink; omega
theorem only_iff (m : Nat) : m &&& 511 = 384 ↔ OnlyOwner m := by rw [perms_eq]; rfl

/-- **C129** (part): whatever happens to the names in the meantime, the file whose contents the daemon uses is the one it has looked
at; it is used exactly if it is a regular file, and a warning about its permissions or its owner is given exactly if
others have a say in it.  What is missing: a file that others may read or write is used all the same
(`C129_false_used_by_daemon`), and that `fstat` works is supposed. -/
theorem C129_daemon_partial (me : Nat) (may : Nat → Bool) (file : Str) (d0 d1 d2 : Disk) (n : Nat) (hn : d0.stat file = .found n) (hm : may n = true)
    (hl : ¬ IsSymlink (d1.node n).mode) :
    let r := readChecked (srvVerify me) may true file d0 d1 d2
    (∀ t, r.1 = some t ↔ IsRegular (d1.node n).mode ∧ t = (d2.node n).text) ∧
    (IsRegular (d1.node n).mode → (.perms ∈ r.2 ↔ ¬ OnlyOwner (d1.node n).mode) ∧ (.owner ∈ r.2 ↔ (d1.node n).uid ≠ me)) ∧
    (r.2 = [] ↔ Private me (d1.node n)) := by
  simp only [readChecked, openRead, hn, hm, if_true, srvVerify, statOf, ne_eq, reg_iff, lnk_iff, only_iff, hl, not_false_eq_true, and_true]
  unfold Private
  by_cases hr : IsRegular (d1.node n).mode <;> by_cases hp : OnlyOwner (d1.node n).mode <;> by_cases ho : (d1.node n).uid = me <;>
    simp [hr, hp, ho] <;> exact fun t => eq_comm

/-- **C129** (part): the client uses its saved command line if it can open the file, whatever it is, and gives a warning exactly if
others have a say in it.  What is missing: that such a file is not used, and that `fstat` works is supposed. -/
theorem C129_client_partial (me : Nat) (may : Nat → Bool) (file : Str) (d0 d1 d2 : Disk) (n : Nat) (hn : d0.stat file = .found n) (hm : may n = true)
    (hl : ¬ IsSymlink (d1.node n).mode) :
    let r := readChecked (cliVerify me) may true file d0 d1 d2
    r.1 = some (d2.node n).text ∧ (.kind ∈ r.2 ↔ ¬ IsRegular (d1.node n).mode) ∧ (.perms ∈ r.2 ↔ ¬ OnlyOwner (d1.node n).mode) ∧
      (.owner ∈ r.2 ↔ (d1.node n).uid ≠ me) ∧ (r.2 = [] ↔ Private me (d1.node n)) := by
  simp only [readChecked, openRead, hn, hm, if_true, cliVerify, statOf, ne_eq, reg_iff, lnk_iff, only_iff, hl, not_false_eq_true, and_true]
  unfold Private
  by_cases hr : IsRegular (d1.node n).mode <;> by_cases hp : OnlyOwner (d1.node n).mode <;> by_cases ho : (d1.node n).uid = me <;>
    simp [hr, hp, ho]

/-- **C129** (part): as long as nothing changes in between, the rc file of the client is used if it can be opened, and a warning is
given exactly if others have a say in it.  What is missing: that such a file is not used, and what happens if the name
stands for another file in the meantime (`C129_false_rc_file_exchanged`). -/
theorem C129_rc_file_partial (me : Nat) (may : Nat → Bool) (file : Str) (d : Disk) (n : Nat) (hn : d.stat file = .found n) (hm : may n = true)
    (hl : ¬ IsSymlink (d.node n).mode) :
    (readRc me may file d d d).1 = some (d.node n).text ∧ ((readRc me may file d d d).2 = [] ↔ Private me (d.node n)) := by
  simp only [readRc, openRead, hn, hm, if_true, cliVerify, statOf, ne_eq, reg_iff, lnk_iff, only_iff, hl, not_false_eq_true, and_true]
  unfold Private
  by_cases hr : IsRegular (d.node n).mode <;> by_cases hp : OnlyOwner (d.node n).mode <;> by_cases ho : (d.node n).uid = me <;>
    simp [hr, hp, ho]

/-- A file system in which every path is the file 7, a regular file (with the mode given) of the user given. -/
abbrev diskOf (mode uid : Nat) : Disk :=
  { node := fun _ => { mode, uid, text := b!"KEY" }, stat := fun _ => .found 7, lstat := fun _ => .found 7 }

/-- The hypotheses of `C129_daemon_partial` are met: an access file of root with 0600; after it has been opened, the name stands for
nothing any more. -/
example : (readChecked (srvVerify 0) (fun _ => true) true b!"access.conf" (diskOf 0o100600 0)
    { diskOf 0o100600 0 with stat := fun _ => .absent } (diskOf 0o100600 0)) = (some b!"KEY", []) := by
  have h := C129_daemon_partial 0 (fun _ => true) b!"access.conf" (diskOf 0o100600 0) { diskOf 0o100600 0 with stat := fun _ => .absent }
    (diskOf 0o100600 0) 7 rfl rfl (by unfold IsSymlink; decide)
  exact Prod.ext ((h.1 _).2 ⟨by unfold IsRegular; decide, rfl⟩) (h.2.2.2 ⟨by unfold IsRegular; decide, by unfold OnlyOwner; decide, rfl⟩)

/-- Those of `C129_client_partial` and `C129_rc_file_partial` are met: a file that all may write. -/
example : (readChecked (cliVerify 1000) (fun _ => true) true b!".fwknop.run" (diskOf 0o100666 0) (diskOf 0o100666 0) (diskOf 0o100666 0)).1 = some b!"KEY" ∧
    (readRc 1000 (fun _ => true) b!".fwknoprc" (diskOf 0o100666 0) (diskOf 0o100666 0) (diskOf 0o100666 0)).2 ≠ [] := by
  refine ⟨(C129_client_partial 1000 (fun _ => true) b!".fwknop.run" _ _ _ 7 rfl rfl (by unfold IsSymlink; decide)).1, fun h => ?_⟩
  have h := ((C129_rc_file_partial 1000 (fun _ => true) b!".fwknoprc" (diskOf 0o100666 0) 7 rfl rfl (by unfold IsSymlink; decide)).2.1 h).2.1
  unfold OnlyOwner at h
  exact absurd h (by decide)

/-- **C129 is false** of the daemon: every regular file that it can open is used, whoever owns it and whatever the permissions. -/
theorem C129_false_used_by_daemon (me : Nat) (may : Nat → Bool) (file : Str) (d : Disk) (n : Nat) (hn : d.stat file = .found n) (hm : may n = true)
    (hr : IsRegular (d.node n).mode) : (readChecked (srvVerify me) may true file d d d).1 = some (d.node n).text := by
  have hl : ¬ IsSymlink (d.node n).mode := by unfold IsRegular at hr; unfold IsSymlink; omega
  exact ((C129_daemon_partial me may file d d d n hn hm hl).1 _).2 ⟨hr, rfl⟩

/-- For instance an access file of the user 1000 that all may write. -/
example : (readChecked (srvVerify 0) (fun _ => true) true b!"access.conf" (diskOf 0o100666 1000) (diskOf 0o100666 1000) (diskOf 0o100666 1000)) =
    (some b!"KEY", [.perms, .owner]) := by decide

/-- **C129 is false** of the rc file of the client: the name is looked at before the file is opened.  If it is made to stand for
another file in between, one that all may write is used and no warning is given. -/
theorem C129_false_rc_file_exchanged : ∃ d0 d1 : Disk, ¬ Private 1000 (d1.node 8) ∧ d1.stat b!".fwknoprc" = .found 8 ∧ d0.node = d1.node ∧
    readRc 1000 (fun _ => true) b!".fwknoprc" d0 d1 d1 = (some (d1.node 8).text, []) := by
  let node : Nat → FileNode := fun n => if n = 8 then { mode := 0o100666, uid := 1001, text := b!"SPA_SERVER evil" } else { mode := 0o100600, uid := 1000 }
  refine ⟨{ node, stat := fun _ => .found 7, lstat := fun _ => .found 7 }, { node, stat := fun _ => .found 8, lstat := fun _ => .found 8 },
    fun h => ?_, rfl, rfl, by decide⟩
  exact absurd h.2.2 (by decide)

/-- If `fstat` fails, the daemon looks at the name, as the client does: another file may be what it looks at. -/
theorem C129_false_fstat_fails : ∃ d0 d1 : Disk, ¬ Private 0 (d1.node 8) ∧ d0.stat b!"access.conf" = .found 8 ∧
    readChecked (srvVerify 0) (fun _ => true) false b!"access.conf" d0 d1 d1 = (some (d1.node 8).text, []) := by
  let node : Nat → FileNode := fun n => if n = 8 then { mode := 0o100666, uid := 1001, text := b!"SOURCE ANY" } else { mode := 0o100600, uid := 0 }
  refine ⟨{ node, stat := fun _ => .found 8, lstat := fun _ => .found 8 }, { node, stat := fun _ => .found 7, lstat := fun _ => .found 7 },
    fun h => ?_, rfl, by decide⟩
  exact absurd h.2.2 (by decide)

/-- **C130**: a path is taken exactly if it has less than 1024 characters and names something of the right kind itself, not by a
symbolic link: a directory, a regular file, or a regular file that its owner may execute. -/
theorem C130_paths (d : Disk) (path : Str) (k : PathKind) :
    is_valid_path d path k = true ↔ path.length < 1024 ∧ ∃ n, d.lstat path = .found n ∧
      match k with
      | .dir => IsDirectory (d.node n).mode
      | .exe => IsRegular (d.node n).mode ∧ OwnerExecutes (d.node n).mode
      | .file => IsRegular (d.node n).mode := by
  unfold is_valid_path
  by_cases hlen : path.length < 1024
  · rw [if_neg (by unfold MAX_PATH_LEN; omega)]
    cases hq : d.lstat path with
    | absent => simp
    | error => simp
    | found n =>
      simp only [hlen, true_and, Look.found.injEq, exists_eq_left']
      cases k with
      | dir => simp only [beq_iff_eq, dir_iff]
      | file => simp only [beq_iff_eq, reg_iff]
      | exe =>
        simp only [Bool.not_eq_true', Bool.or_eq_false_iff, bne_eq_false_iff_eq, reg_iff, beq_eq_false_iff_ne, ne_eq, exec_eq]
        unfold OwnerExecutes
        constructor <;> rintro ⟨h1, h2⟩ <;> exact ⟨h1, by omega⟩
  · rw [if_pos (by unfold MAX_PATH_LEN; omega)]
    simp [hlen]

/-- A link is not taken for what it leads to. -/
theorem C130_no_links (d : Disk) (path : Str) (k : PathKind) (n : Nat) (hn : d.lstat path = .found n) (hl : IsSymlink (d.node n).mode) :
    is_valid_path d path k = false := by
  cases h : is_valid_path d path k with
  | false => rfl
  | true =>
    obtain ⟨-, m, hm, hk⟩ := (C130_paths d path k).1 h
    rw [hn] at hm
    cases hm
    unfold IsSymlink at hl
    cases k <;> simp only [IsDirectory, IsRegular] at hk <;> omega

/-- `gpg` with 0755 is taken for an executable, with 0644 it is not, and a link to it is not. -/
example : is_valid_path (diskOf 0o100755 0) b!"/usr/bin/gpg" .exe = true ∧ is_valid_path (diskOf 0o100644 0) b!"/usr/bin/gpg" .exe = false ∧
    is_valid_path (diskOf 0o120777 0) b!"/usr/bin/gpg" .exe = false := by
  refine ⟨(C130_paths _ _ _).2 ⟨by decide, 7, rfl, by unfold IsRegular; decide, by unfold OwnerExecutes; decide⟩, by decide,
    C130_no_links _ _ _ 7 rfl (by unfold IsSymlink; decide)⟩

/-- **C131** (part): if the packet is saved without `--save-packet-append`, its name stands for a new file with the packet and an end of line, and
nothing else is changed: neither the file the name stood for before, nor one it was a link to, nor another name.  What is
missing: an old file that cannot be removed (`C131_false_written_through`), and errors, which are not reported by the exit
status (the result is ignored). -/
theorem C131_saved_partial (name p : Str) (d : SaveDisk) (hnext : ∀ x n, d.entry x = some (.file n) ∨ d.entry x = some (.link n) → n < d.next) :
    let r := write_spa_packet_data false true true name (some p) d
    r.1 = 0 ∧ (∃ n, r.2.entry name = some (.file n) ∧ r.2.text n = p ++ b!"\n") ∧
      (∀ x, x ≠ name → r.2.entry x = d.entry x) ∧
      (∀ x n, d.entry x = some (.file n) ∨ d.entry x = some (.link n) → r.2.text n = d.text n) := by
  simp only [write_spa_packet_data, SaveDisk.unlink, SaveDisk.write, Bool.not_true, Bool.false_eq_true, if_false, if_true]
  refine ⟨trivial, ⟨d.next, by simp, by simp⟩, fun x hx => by simp [hx], fun x n hn => ?_⟩
  have := hnext x n hn
  exact if_neg (by omega)

/-- **C131**: with `--save-packet-append` the packet and an end of line are added at the end of the file, or of the file the link leads to, and no other
file and no name is changed. -/
theorem C131_appended (name p : Str) (d : SaveDisk) (n : Nat) (hn : d.entry name = some (.file n) ∨ d.entry name = some (.link n)) (unlinks : Bool) :
    let r := write_spa_packet_data true unlinks true name (some p) d
    r.1 = 0 ∧ r.2.text n = d.text n ++ (p ++ b!"\n") ∧ (∀ m, m ≠ n → r.2.text m = d.text m) ∧ r.2.entry = d.entry := by
  rcases hn with hn | hn <;>
    simp only [write_spa_packet_data, SaveDisk.write, hn, Bool.not_true, Bool.false_eq_true, if_false, if_true] <;>
    exact ⟨trivial, trivial, fun m hm => if_neg hm, trivial⟩

/-- **C131**: appending one packet after the other to a file, the file is what it was, with a line for each packet, in the order of
the calls. -/
theorem C131_history (name : Str) (n : Nat) : ∀ (ps : List Str) (d : SaveDisk), d.entry name = some (.file n) →
    (ps.foldl (fun d p => (write_spa_packet_data true true true name (some p) d).2) d).text n =
      d.text n ++ (ps.map fun p => p ++ b!"\n").flatten
  | [], d, _ => by simp
  | p :: ps, d, hn => by
    obtain ⟨-, h2, -, h4⟩ := C131_appended name p d n (.inl hn) true
    rw [List.foldl_cons, C131_history name n ps _ (by rw [h4]; exact hn), h2]
    simp

/-- **C131**: the function reports success exactly if there was a packet and the file could be opened; if there was no packet, nothing is
changed, and if the file could not be opened, no file is changed and no name but the one given is removed. -/
theorem C131_errors (append unlinks opens : Bool) (name : Str) (data : Option Str) (d : SaveDisk) :
    let r := write_spa_packet_data append unlinks opens name data d
    (r.1 = 0 ↔ data ≠ none ∧ opens = true) ∧ (r.1 ≠ 0 → r.1 = -1) ∧ (data = none → r.2 = d) ∧
      (opens = false → r.2.text = d.text ∧ ∀ x, x ≠ name → r.2.entry x = d.entry x) := by
  cases data with
  | none => simp [write_spa_packet_data]
  | some p =>
    cases append <;> cases unlinks <;> cases opens <;> simp [write_spa_packet_data, SaveDisk.unlink] <;> intro x hx h <;> exact absurd h hx

/-- A directory that cannot be written. -/
example : (write_spa_packet_data false false false b!"/spa" (some b!"packet") { entry := fun _ => none, text := fun _ => [], next := 0 }).1 = -1 := by decide

/-- **C131 is false** if the old entry cannot be removed: then the file that a link leads to is overwritten. -/
theorem C131_false_written_through : ∃ d : SaveDisk, d.entry b!"spa" = some (.link 3) ∧ d.text 3 = b!"precious" ∧
    (write_spa_packet_data false false true b!"spa" (some b!"packet") d).2.text 3 = b!"packet\n" :=
  ⟨{ entry := fun _ => some (.link 3), text := fun _ => b!"precious", next := 4 }, rfl, rfl, by decide⟩

/-- The hypotheses of `C131_saved_partial` are met: the name is a link to a file. -/
example : let d : SaveDisk := { entry := fun x => if x = b!"spa" then some (.link 3) else none, text := fun _ => b!"precious", next := 4 }
    (write_spa_packet_data false true true b!"spa" (some b!"packet") d).2.text 3 = b!"precious" := by
  intro d
  refine (C131_saved_partial b!"spa" b!"packet" d ?_).2.2.2 b!"spa" 3 (.inr rfl)
  intro x n h
  have h : (if x = b!"spa" then some (SaveEntry.link 3) else none) = some (.file n) ∨ (if x = b!"spa" then some (SaveEntry.link 3) else none) = some (.link n) := h
  show n < 4
  split at h
  · rcases h with h | h <;> cases h
    decide
  · rcases h with h | h <;> cases h

/-- Those of `C131_history`: two packets. -/
example : ([b!"one", b!"two"].foldl (fun d p => (write_spa_packet_data true true true b!"spa" (some p) d).2)
    { entry := fun _ => some (.file 3), text := fun _ => b!"old\n", next := 4 }).text 3 = b!"old\none\ntwo\n" :=
  C131_history b!"spa" 3 _ _ rfl

end Fwknop.Props
