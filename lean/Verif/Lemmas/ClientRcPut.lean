import Verif.Lemmas.ClientRcArgs

/-!
# Values of a saved stanza

What a command line does to the options, and what reading the saved values of the options does.
-/

namespace Fwknop
open Fwknop.Spec

attribute [ext] CliOpts

/-- A field after a command line: unchanged if the variable is not marked, else as `P` says. -/
def Fld {α : Type} (m : Bool) (P : α → Prop) (x x' : α) : Prop := (m = false → x' = x) ∧ (m = true → P x')

theorem Fld.trans {α : Type} {m m' : Bool} {P : α → Prop} {x x' x'' : α} (h : Fld m P x x') (h' : Fld m' P x' x'') :
    Fld (m || m') P x x'' := by
  constructor
  · intro e
    rw [Bool.or_eq_false_iff] at e
    rw [h'.1 e.2, h.1 e.1]
  · intro e
    cases hm : m' with
    | true => exact h'.2 hm
    | false =>
      rw [hm, Bool.or_false] at e
      rw [h'.1 hm]
      exact h.2 e

theorem fld_same {α : Type} {P : α → Prop} {x x' : α} (h : x' = x) : Fld false P x x' := ⟨fun _ => h, fun h => by cases h⟩
theorem fld_set {α : Type} {P : α → Prop} {x x' : α} (h : P x') : Fld true P x x' := ⟨(by intro e; cases e), fun _ => h⟩

/-- A text kept in an array of a given size. -/
def TextIn (n : Nat) (x : Str) : Prop := PlainValue x ∧ x.length < n

def Port (n : Int) : Prop := 0 ≤ n ∧ n ≤ MAX_PORT

def isTrue (b : Bool) : Prop := b = true

/-- What a command line of savable options does. -/
structure Frame (as : List CliArg) (o o' : CliOpts) : Prop where
  access_str : Fld (argMask as .access) (TextIn MAX_PATH_LEN) o.access_str o'.access_str
  server_command : o'.server_command = o.server_command
  get_key_file : Fld (argMask as .key_file) (TextIn MAX_PATH_LEN) o.get_key_file o'.get_key_file
  get_hmac_key_file : o'.get_hmac_key_file = o.get_hmac_key_file
  no_save_args : o'.no_save_args = o.no_save_args
  use_hmac : Fld (argMask as .use_hmac) isTrue o.use_hmac o'.use_hmac
  spa_server_str : Fld (argMask as .spa_server) (TextIn MAX_SERVER_STR_LEN) o.spa_server_str o'.spa_server_str
  allow_ip_str : Fld (argMask as .allow_ip) (fun x => TextIn MAX_IPV4_STR_LEN x ∧ ¬ IsResolve x) o.allow_ip_str o'.allow_ip_str
  spoof_ip_src_str : Fld (argMask as .spoof_source_ip) (TextIn MAX_IPV4_STR_LEN) o.spoof_ip_src_str o'.spoof_ip_src_str
  spoof_user : Fld (argMask as .spoof_user) (TextIn MAX_USERNAME_LEN) o.spoof_user o'.spoof_user
  rand_port : Fld (argMask as .rand_port) isTrue o.rand_port o'.rand_port
  gpg_recipient_key : Fld (argMask as .gpg_recipient) (TextIn MAX_GPG_KEY_ID) o.gpg_recipient_key o'.gpg_recipient_key
  gpg_signer_key : o'.gpg_signer_key = o.gpg_signer_key
  gpg_home_dir : o'.gpg_home_dir = o.gpg_home_dir
  gpg_exe : o'.gpg_exe = o.gpg_exe
  key : Fld (argMask as .key) (TextIn (MAX_KEY_LEN + 1)) o.key o'.key
  key_base64 : Fld (argMask as .key_base64) (fun x => TextIn (MAX_B64_KEY_LEN + 1) x ∧ Base64.is_base64 x = true) o.key_base64 o'.key_base64
  hmac_key : Fld (argMask as .hmac_key) (TextIn (MAX_KEY_LEN + 1)) o.hmac_key o'.hmac_key
  hmac_key_base64 : Fld (argMask as .hmac_key_base64) (fun x => TextIn (MAX_B64_KEY_LEN + 1) x ∧ Base64.is_base64 x = true) o.hmac_key_base64 o'.hmac_key_base64
  have_key : Fld (argMask as .key) isTrue o.have_key o'.have_key
  have_base64_key : Fld (argMask as .key_base64) isTrue o.have_base64_key o'.have_base64_key
  have_hmac_key : Fld (argMask as .hmac_key) isTrue o.have_hmac_key o'.have_hmac_key
  have_hmac_base64_key : Fld (argMask as .hmac_key_base64) isTrue o.have_hmac_base64_key o'.have_hmac_base64_key
  hmac_type : Fld (argMask as .hmac_digest_type) (fun n => ∃ v, n = digest_strtoint v ∧ 0 ≤ n) o.hmac_type o'.hmac_type
  nat_access_str : Fld (argMask as .nat_access) (TextIn MAX_PATH_LEN) o.nat_access_str o'.nat_access_str
  nat_local : Fld (argMask as .nat_local) isTrue o.nat_local o'.nat_local
  nat_port : Fld (argMask as .nat_port) Port o.nat_port o'.nat_port
  nat_rand_port : Fld (argMask as .nat_rand_port) isTrue o.nat_rand_port o'.nat_rand_port
  resolve_ip_http_https : Fld (argMask as .resolve_ip_https) isTrue o.resolve_ip_http_https o'.resolve_ip_http_https
  resolve_http_only : o'.resolve_http_only = o.resolve_http_only
  resolve_url : o'.resolve_url = o.resolve_url
  http_user_agent : o'.http_user_agent = o.http_user_agent
  use_wget_user_agent : o'.use_wget_user_agent = o.use_wget_user_agent
  wget_bin : o'.wget_bin = o.wget_bin
  http_proxy : o'.http_proxy = o.http_proxy
  spa_proto : Fld (argMask as .spa_server_proto) (fun n => ∃ v, n = proto_strtoint v ∧ 0 ≤ n) o.spa_proto o'.spa_proto
  spa_dst_port : Fld (argMask as .spa_server_port) Port o.spa_dst_port o'.spa_dst_port
  spa_src_port : Fld (argMask as .spa_source_port) Port o.spa_src_port o'.spa_src_port
  digest_type : Fld (argMask as .digest_type) (fun n => ∃ v, n = digest_strtoint v ∧ 0 ≤ n) o.digest_type o'.digest_type
  encryption_mode : Fld (argMask as .encryption_mode) (fun n => ∃ v, n = enc_mode_strtoint v ∧ 0 ≤ n) o.encryption_mode o'.encryption_mode
  verbose : o'.verbose = o.verbose
  test : o'.test = o.test
  use_gpg : Fld (argMask as .use_gpg) isTrue o.use_gpg o'.use_gpg
  use_gpg_agent : o'.use_gpg_agent = o.use_gpg_agent
  gpg_no_signing_pw : o'.gpg_no_signing_pw = o.gpg_no_signing_pw
  time_offset_plus : Fld (as.any isPlus) (fun _ => True) o.time_offset_plus o'.time_offset_plus
  time_offset_minus : Fld (as.any isMinus) (fun _ => True) o.time_offset_minus o'.time_offset_minus
  fw_timeout : Fld (argMask as .fw_timeout) (fun n => 0 ≤ n) o.fw_timeout o'.fw_timeout
  use_rc_stanza : o'.use_rc_stanza = o.use_rc_stanza
  got_named_stanza : o'.got_named_stanza = o.got_named_stanza
  spa_server_resolve_ipv4 : o'.spa_server_resolve_ipv4 = o.spa_server_resolve_ipv4

theorem plain_take {v : Str} {n : Nat} (h : PlainValue v) (hn : 0 < n) : TextIn (n + 1) (strlcpy v (n + 1)) := by
  obtain ⟨h1, h2, h3⟩ := h
  unfold strlcpy
  refine ⟨⟨?_, ?_, fun c hc => h3 c (List.mem_of_mem_take hc)⟩, ?_⟩
  · intro he
    rw [List.take_eq_nil_iff] at he
    rcases he with he | he
    · omega
    · exact h1 he
  · rw [List.length_take]; omega
  · rw [List.length_take]; omega

theorem base64_take {v : Str} {n : Nat} (h : Base64.is_base64 v = true) : Base64.is_base64 (v.take n) = true := by
  unfold Base64.is_base64 at h ⊢
  rw [List.all_eq_true] at h ⊢
  exact fun c hc => h c (List.mem_of_mem_take hc)

theorem frame_trans {a b : List CliArg} {o o1 o2 : CliOpts} (h : Frame a o o1) (h' : Frame b o1 o2) : Frame (a ++ b) o o2 := by
  have e : ∀ w, argMask (a ++ b) w = (argMask a w || argMask b w) := by
    intro w; unfold argMask; rw [List.any_append]
  constructor
  all_goals
    first
      | rw [e]
      | rw [List.any_append]
      | skip
  exact h.access_str.trans h'.access_str
  exact h'.server_command.trans h.server_command
  exact h.get_key_file.trans h'.get_key_file
  exact h'.get_hmac_key_file.trans h.get_hmac_key_file
  exact h'.no_save_args.trans h.no_save_args
  exact h.use_hmac.trans h'.use_hmac
  exact h.spa_server_str.trans h'.spa_server_str
  exact h.allow_ip_str.trans h'.allow_ip_str
  exact h.spoof_ip_src_str.trans h'.spoof_ip_src_str
  exact h.spoof_user.trans h'.spoof_user
  exact h.rand_port.trans h'.rand_port
  exact h.gpg_recipient_key.trans h'.gpg_recipient_key
  exact h'.gpg_signer_key.trans h.gpg_signer_key
  exact h'.gpg_home_dir.trans h.gpg_home_dir
  exact h'.gpg_exe.trans h.gpg_exe
  exact h.key.trans h'.key
  exact h.key_base64.trans h'.key_base64
  exact h.hmac_key.trans h'.hmac_key
  exact h.hmac_key_base64.trans h'.hmac_key_base64
  exact h.have_key.trans h'.have_key
  exact h.have_base64_key.trans h'.have_base64_key
  exact h.have_hmac_key.trans h'.have_hmac_key
  exact h.have_hmac_base64_key.trans h'.have_hmac_base64_key
  exact h.hmac_type.trans h'.hmac_type
  exact h.nat_access_str.trans h'.nat_access_str
  exact h.nat_local.trans h'.nat_local
  exact h.nat_port.trans h'.nat_port
  exact h.nat_rand_port.trans h'.nat_rand_port
  exact h.resolve_ip_http_https.trans h'.resolve_ip_http_https
  exact h'.resolve_http_only.trans h.resolve_http_only
  exact h'.resolve_url.trans h.resolve_url
  exact h'.http_user_agent.trans h.http_user_agent
  exact h'.use_wget_user_agent.trans h.use_wget_user_agent
  exact h'.wget_bin.trans h.wget_bin
  exact h'.http_proxy.trans h.http_proxy
  exact h.spa_proto.trans h'.spa_proto
  exact h.spa_dst_port.trans h'.spa_dst_port
  exact h.spa_src_port.trans h'.spa_src_port
  exact h.digest_type.trans h'.digest_type
  exact h.encryption_mode.trans h'.encryption_mode
  exact h'.verbose.trans h.verbose
  exact h'.test.trans h.test
  exact h.use_gpg.trans h'.use_gpg
  exact h'.use_gpg_agent.trans h.use_gpg_agent
  exact h'.gpg_no_signing_pw.trans h.gpg_no_signing_pw
  exact h.time_offset_plus.trans h'.time_offset_plus
  exact h.time_offset_minus.trans h'.time_offset_minus
  exact h.fw_timeout.trans h'.fw_timeout
  exact h'.use_rc_stanza.trans h.use_rc_stanza
  exact h'.got_named_stanza.trans h.got_named_stanza
  exact h'.spa_server_resolve_ipv4.trans h.spa_server_resolve_ipv4

theorem frame_nil (o : CliOpts) : Frame [] o o := by
  constructor <;> first | rfl | exact fld_same rfl

theorem cliNum_range {v : Str} {m n : Int} (hm : 0 ≤ m) (h : cliNum v m = .ok n) : 0 ≤ n ∧ n ≤ m := by
  unfold cliNum at h
  obtain ⟨u, hg, h⟩ := Res.bind_eq_ok h
  have hg := Res.guard_inv hg
  have e : (strtol_wrapper v 0 m).1 = n := by injection h
  have := strtol_wrapper_range v 0 m n (by
    rw [← e]
    refine Prod.ext rfl ?_
    simpa using hg)
  omega

theorem cliName_both {n n' : Int} (h : cliName n = .ok n') : n' = n ∧ 0 ≤ n := by
  unfold cliName at h
  obtain ⟨u, hg, h⟩ := Res.bind_eq_ok h
  have hg := Res.guard_inv hg
  have e : n = n' := by injection h
  simp only [decide_eq_false_iff_not] at hg
  omega

macro "frame" t:tactic : tactic =>
  `(tactic| (constructor <;> first | rfl | exact fld_same rfl | exact fld_set rfl | exact fld_set trivial | (refine fld_set ?_; $t)))

theorem frame_arg {a : CliArg} {o o' : CliOpts} (hs : Savable a) (h : applyArg o a = .ok o') : Frame [a] o o' := by
  cases a with
  | allow_ip v =>
    cases h
    frame (refine ⟨plain_take hs.1 (by decide), ?_⟩; rintro ⟨t, ht⟩; exact hs.2 ⟨t ++ (v.map lower).drop 15, by
      rw [← List.append_assoc, ← ht, ← List.map_drop, ← List.map_append]; simp [strlcpy]⟩)
  | access v | destination v | get_key v | key v | hmac_key v | nat_access v | spoof_source v | spoof_user v
  | gpg_recipient v =>
    cases h
    frame (exact plain_take hs (by decide))
  | key_base64 v | hmac_key_base64 v =>
    obtain ⟨u, hg, h⟩ := Res.bind_eq_ok h
    have hg := Res.guard_inv hg
    cases h
    frame (exact ⟨plain_take hs (by decide), base64_take (by simpa using hg)⟩)
  | server_cmd _ | get_hmac_key _ | source_ip | test => exact hs.elim
  | rand_port | resolve | nat_local | nat_rand_port | use_hmac | gpg =>
    cases h
    frame skip
  | fw_timeout v | server_port v | source_port v | nat_port v =>
    obtain ⟨n, hn, h⟩ := Res.bind_eq_ok h
    have hn := cliNum_range (by decide) hn
    cases h
    frame (first | exact hn | exact hn.1)
  | time_plus v | time_minus v =>
    obtain ⟨n, hn, h⟩ := Res.bind_eq_ok h
    cases h
    frame skip
  | hmac_digest v | digest v | enc_mode v | server_proto v =>
    obtain ⟨n, hn, h⟩ := Res.bind_eq_ok h
    obtain ⟨rfl, hp⟩ := cliName_both hn
    cases h
    frame (exact ⟨_, rfl, hp⟩)

theorem frame_args : ∀ (as : List CliArg) (o o' : CliOpts), (∀ a ∈ as, Savable a) → applyArgs o as = .ok o' → Frame as o o' := by
  intro as
  induction as with
  | nil => intro o o' _ h; cases h; exact frame_nil o
  | cons a as ih =>
    intro o o' hs h
    obtain ⟨o1, h1, h2⟩ := Res.bind_eq_ok h
    exact frame_trans (frame_arg (hs a (by simp)) h1) (ih o1 o' (fun b hb => hs b (by simp [hb])) h2)

/-! ## Reading saved values -/

/-- What reading a saved value of `v` does to options, if the variable is marked. -/
def putVar (v : CliOpts) (m : Bool) (o : CliOpts) : RcVar → CliOpts
  | .digest_type => { o with digest_type := cond m v.digest_type o.digest_type }
  | .spa_server_proto => { o with spa_proto := cond m v.spa_proto o.spa_proto }
  | .spa_server_port => { o with spa_dst_port := cond m v.spa_dst_port o.spa_dst_port }
  | .spa_source_port => { o with spa_src_port := cond m v.spa_src_port o.spa_src_port }
  | .fw_timeout => { o with fw_timeout := cond m v.fw_timeout o.fw_timeout }
  | .allow_ip => { o with allow_ip_str := cond m v.allow_ip_str o.allow_ip_str
                          resolve_ip_http_https := cond m false o.resolve_ip_http_https }
  | .time_offset => { o with time_offset_minus := cond (m && v.time_offset_minus ≠ 0) v.time_offset_minus o.time_offset_minus
                             time_offset_plus := cond (m && v.time_offset_minus = 0) v.time_offset_plus o.time_offset_plus }
  | .encryption_mode => { o with encryption_mode := cond m v.encryption_mode o.encryption_mode }
  | .spoof_user => { o with spoof_user := cond m v.spoof_user o.spoof_user }
  | .spoof_source_ip => { o with spoof_ip_src_str := cond m v.spoof_ip_src_str o.spoof_ip_src_str }
  | .access => { o with access_str := cond m v.access_str o.access_str }
  | .spa_server => { o with spa_server_str := cond m v.spa_server_str o.spa_server_str }
  | .rand_port => { o with rand_port := cond m true o.rand_port }
  | .use_gpg => { o with use_gpg := cond m true o.use_gpg }
  | .gpg_recipient => { o with gpg_recipient_key := cond m v.gpg_recipient_key o.gpg_recipient_key }
  | .key => { o with key := cond m v.key o.key, have_key := cond m true o.have_key }
  | .key_base64 => { o with key_base64 := cond m v.key_base64 o.key_base64, have_base64_key := cond m true o.have_base64_key }
  | .hmac_digest_type => { o with hmac_type := cond m v.hmac_type o.hmac_type }
  | .hmac_key_base64 => { o with hmac_key_base64 := cond m v.hmac_key_base64 o.hmac_key_base64
                                 have_hmac_base64_key := cond m true o.have_hmac_base64_key
                                 use_hmac := cond m true o.use_hmac }
  | .hmac_key => { o with hmac_key := cond m v.hmac_key o.hmac_key, have_hmac_key := cond m true o.have_hmac_key
                          use_hmac := cond m true o.use_hmac }
  | .use_hmac => { o with use_hmac := cond m true o.use_hmac }
  | .key_file => { o with get_key_file := cond m v.get_key_file o.get_key_file }
  | .nat_access => { o with nat_access_str := cond m v.nat_access_str o.nat_access_str }
  | .nat_local => { o with nat_local := cond m true o.nat_local }
  | .nat_rand_port => { o with nat_rand_port := cond m true o.nat_rand_port }
  | .nat_port => { o with nat_port := cond m v.nat_port o.nat_port }
  | .resolve_ip_https => { o with resolve_ip_http_https := cond m (v.resolve_ip_http_https || o.resolve_ip_http_https) o.resolve_ip_http_https }
  | _ => o

theorem putVar_false (v o : CliOpts) (w : RcVar) : putVar v false o w = o := by
  cases w <;> rfl

/-- Values that can be read back. -/
structure Readable (m : RcVar → Bool) (v : CliOpts) : Prop where
  access_str : m .access = true → TextIn MAX_PATH_LEN v.access_str
  get_key_file : m .key_file = true → TextIn MAX_PATH_LEN v.get_key_file
  use_hmac : m .use_hmac = true → v.use_hmac = true
  spa_server_str : m .spa_server = true → TextIn MAX_SERVER_STR_LEN v.spa_server_str
  allow_ip_str : m .allow_ip = true → TextIn MAX_IPV4_STR_LEN v.allow_ip_str ∧
    is_valid_ipv4_addr v.allow_ip_str v.allow_ip_str.length = true
  spoof_ip_src_str : m .spoof_source_ip = true → TextIn MAX_IPV4_STR_LEN v.spoof_ip_src_str
  spoof_user : m .spoof_user = true → TextIn MAX_USERNAME_LEN v.spoof_user
  rand_port : m .rand_port = true → v.rand_port = true
  use_gpg : m .use_gpg = true → v.use_gpg = true
  gpg_recipient_key : m .gpg_recipient = true → TextIn MAX_GPG_KEY_ID v.gpg_recipient_key
  key : m .key = true → TextIn (MAX_KEY_LEN + 1) v.key
  key_base64 : m .key_base64 = true → TextIn (MAX_B64_KEY_LEN + 1) v.key_base64 ∧ Base64.is_base64 v.key_base64 = true
  hmac_key : m .hmac_key = true → TextIn (MAX_KEY_LEN + 1) v.hmac_key
  hmac_key_base64 : m .hmac_key_base64 = true → TextIn (MAX_B64_KEY_LEN + 1) v.hmac_key_base64 ∧ Base64.is_base64 v.hmac_key_base64 = true
  hmac_type : m .hmac_digest_type = true → ∃ x, v.hmac_type = digest_strtoint x ∧ 0 ≤ v.hmac_type
  nat_access_str : m .nat_access = true → TextIn MAX_PATH_LEN v.nat_access_str
  nat_local : m .nat_local = true → v.nat_local = true
  nat_port : m .nat_port = true → Port v.nat_port
  nat_rand_port : m .nat_rand_port = true → v.nat_rand_port = true
  spa_proto : m .spa_server_proto = true → ∃ x, v.spa_proto = proto_strtoint x ∧ 0 ≤ v.spa_proto
  spa_dst_port : m .spa_server_port = true → Port v.spa_dst_port
  spa_src_port : m .spa_source_port = true → Port v.spa_src_port
  digest_type : m .digest_type = true → ∃ x, v.digest_type = digest_strtoint x ∧ 0 ≤ v.digest_type
  encryption_mode : m .encryption_mode = true → ∃ x, v.encryption_mode = enc_mode_strtoint x ∧ 0 ≤ v.encryption_mode
  fw_timeout : m .fw_timeout = true → 0 ≤ v.fw_timeout ∧ v.fw_timeout ≤ 65536
  time : m .time_offset = true → (0 < v.time_offset_minus ∧ v.time_offset_minus ≤ 65536) ∨
    (v.time_offset_minus = 0 ∧ 0 < v.time_offset_plus ∧ v.time_offset_plus ≤ 65536)
  others : ∀ w, m w = true → w ∈ [RcVar.access, .key_file, .use_hmac, .spa_server, .allow_ip, .spoof_source_ip, .spoof_user,
    .rand_port, .key, .key_base64, .hmac_key, .hmac_key_base64, .hmac_digest_type, .nat_access, .nat_local, .nat_port,
    .nat_rand_port, .spa_server_proto, .spa_server_port, .spa_source_port, .digest_type, .encryption_mode, .fw_timeout,
    .time_offset, .use_gpg, .gpg_recipient, .resolve_ip_https]

theorem text_copy {n : Nat} {x : Str} (h : TextIn n x) : strlcpy x n = x := by
  unfold strlcpy
  exact List.take_of_length_le (by have := h.2; omega)

theorem dec_read {n max : Int} (h : 0 ≤ n) (h1 : n ≤ max) (h2 : max ≤ 131072) : strtol_wrapper (decStrInt n) 0 max = (n, true) := by
  obtain ⟨k, rfl⟩ := Int.eq_ofNat_of_zero_le h
  rw [decStrInt_nat, strtol_wrapper_digits _ (decStr_digits k) (decStr_ne_nil k) (by rw [decStr_val]; omega), decStr_val]
  simp only [Prod.mk.injEq, true_and, decide_eq_true_eq]
  omega

theorem rcNum_read {n max : Int} {o : CliOpts} {f : Int → CliOpts} (h : 0 ≤ n) (h1 : n ≤ max) (h2 : max ≤ 131072) :
    rcNum (decStrInt n) max o f = (f n, true) := by
  unfold rcNum
  rw [dec_read h h1 h2]
  rfl

theorem dec_plain {n : Int} (h : 0 ≤ n) (h2 : n ≤ 131072) : PlainValue (decStrInt n) := by
  obtain ⟨k, rfl⟩ := Int.eq_ofNat_of_zero_le h
  rw [decStrInt_nat]
  refine ⟨decStr_ne_nil k, ?_, ?_⟩
  · have := decStr_length_le k 6 (by decide) (by omega); omega
  · intro c hc
    have := decStr_digits k c hc
    unfold isDigit at this
    simp only [Bool.and_eq_true, decide_eq_true_eq] at this
    omega

instance (v : Str) : Decidable (PlainValue v) := by unfold PlainValue; infer_instance

theorem digest_read {n : Int} (h : ∃ x, n = digest_strtoint x ∧ 0 ≤ n) :
    digest_strtoint (digest_inttostr n MAX_LINE_LEN).1 = n ∧ PlainValue (digest_inttostr n MAX_LINE_LEN).1 ∧ 0 < n := by
  have : n ∈ ([1, 2, 3, 4, 5, 6, 7] : List Int) := by
    obtain ⟨x, hx, h0⟩ := h
    unfold digest_strtoint at hx
    repeat' split at hx
    all_goals first | (rw [hx]; decide) | (exfalso; omega)
  have all : ∀ n ∈ ([1, 2, 3, 4, 5, 6, 7] : List Int), digest_strtoint (digest_inttostr n MAX_LINE_LEN).1 = n ∧
    PlainValue (digest_inttostr n MAX_LINE_LEN).1 ∧ 0 < n := by decide +kernel
  exact all n this

theorem proto_read {n : Int} (h : ∃ x, n = proto_strtoint x ∧ 0 ≤ n) :
    proto_strtoint (proto_inttostr n) = n ∧ PlainValue (proto_inttostr n) := by
  have : n ∈ fko_protocol_array.map (·.2) := by
    obtain ⟨x, hx, h0⟩ := h
    unfold proto_strtoint at hx
    split at hx
    · rename_i e he
      rw [hx]
      exact List.mem_map_of_mem (List.mem_of_find?_eq_some he)
    · omega
  have all : ∀ n ∈ fko_protocol_array.map (·.2), proto_strtoint (proto_inttostr n) = n ∧ PlainValue (proto_inttostr n) := by
    decide +kernel
  exact all n this

theorem mode_read {n : Int} (h : ∃ x, n = enc_mode_strtoint x ∧ 0 ≤ n) :
    enc_mode_strtoint (enc_mode_inttostr n MAX_LINE_LEN).1 = n ∧ PlainValue (enc_mode_inttostr n MAX_LINE_LEN).1 := by
  have : n ∈ (fko_enc_mode_strs.filter (·.2.2)).map (·.2.1) := by
    obtain ⟨x, hx, h0⟩ := h
    unfold enc_mode_strtoint at hx
    split at hx
    · rename_i e he
      rw [hx]
      have h1 := List.find?_some he
      simp only [Bool.and_eq_true] at h1
      exact List.mem_map_of_mem (List.mem_filter.mpr ⟨List.mem_of_find?_eq_some he, h1.2⟩)
    · omega
  have all : ∀ n ∈ (fko_enc_mode_strs.filter (·.2.2)).map (·.2.1),
      enc_mode_strtoint (enc_mode_inttostr n MAX_LINE_LEN).1 = n ∧ PlainValue (enc_mode_inttostr n MAX_LINE_LEN).1 := by
    decide +kernel
  exact all n this

theorem rcName_read {n : Int} {o : CliOpts} {f : Int → CliOpts} (h : 0 ≤ n) : rcName n o f = (f n, true) := by
  unfold rcName
  rw [if_neg (by omega)]

theorem yes_read (o o' : CliOpts) : rcYes b!"Y" o o' = (o', true) := rfl
theorem no_read (o o' : CliOpts) : rcYes b!"N" o o' = (o, true) := rfl

theorem offset_read {n : Int} (h : 0 < n) (h1 : n ≤ 65536) : parse_time_offset (decStrInt n) = .ok n := by
  obtain ⟨k, rfl⟩ := Int.eq_ofNat_of_zero_le (Int.le_of_lt h)
  have hl : ∀ (ds acc : Str), (∀ c ∈ ds, isDigit c = true) → acc.length + ds.length < 9 → offsetLoop ds acc = some (acc ++ ds, 1) := by
    intro ds
    induction ds with
    | nil => intro acc _ _; unfold offsetLoop; rw [List.append_nil]
    | cons c ds ih =>
      intro acc hd hlen
      rw [List.length_cons] at hlen
      unfold offsetLoop
      rw [if_pos (hd c (by simp)), if_neg (by show ¬ acc.length + 1 ≥ 9; omega), ih _ (fun d hd' => hd d (by simp [hd'])) (by simp; omega)]
      simp
  have hlen := decStr_length_le k 6 (by decide) (by omega)
  unfold parse_time_offset
  rw [decStrInt_nat, hl _ [] (decStr_digits k) (by simp; omega)]
  simp only [List.nil_append]
  have hne : (decStr k).length ≠ 0 := by
    intro he
    exact decStr_ne_nil k (List.length_eq_zero_iff.mp he)
  have hr := dec_read (n := k) (max := 65536) (by omega) h1 (by omega)
  rw [decStrInt_nat] at hr
  have g1 : decide ((decStr k).length < 1) = false := by simp only [decide_eq_false_iff_not]; omega
  have g2 : decide ((strtol_wrapper (decStr k) 0 65536).1 * 1 > 2147483647) = false := by
    simp only [decide_eq_false_iff_not, hr]; omega
  rw [g1, g2, Res.guard_false, Res.mem_false]
  simp only [hr, Bool.not_true, Res.guard_false]
  show Res.ok ((k : Int) * 1) = _
  rw [Int.mul_one]

theorem rcAllow_read {o : CliOpts} {x : Str} (h : TextIn MAX_IPV4_STR_LEN x) (hv : is_valid_ipv4_addr x x.length = true) :
    rcAllow o x = ({ o with allow_ip_str := x, resolve_ip_http_https := false }, true) := by
  have hd := (valid_ipv4_iff x (by have : x.length < 16 := h.2; omega)).1 hv
  have hc := ipv4_chars x hd
  have hne : ∀ w : Str, w ≠ [] → (∀ c ∈ w, 97 ≤ c ∧ c ≤ 122) → strcaseeq x w = false := by
    intro w hw hl
    rw [sameName_eq]
    unfold sameName
    rw [decide_eq_false_iff_not]
    intro he
    cases x with
    | nil => exact h.1.1 rfl
    | cons c x =>
      cases w with
      | nil => exact hw rfl
      | cons d w =>
        rw [List.map_cons, List.map_cons] at he
        have h1 := (List.cons.inj he).1
        have h2 := hl d (by simp)
        have h3 := hc c (by simp)
        have : isDigit c = true → 48 ≤ c ∧ c ≤ 57 := by unfold isDigit; simp
        have h46 : c = 46 ∨ (48 ≤ c ∧ c ≤ 57) := h3.imp id this
        unfold lower at h1
        split at h1 <;> split at h1 <;> omega
  have h1 := hne b!"source" (by decide) (by decide)
  have h2 := hne b!"resolve" (by decide) (by decide)
  unfold rcAllow
  simp only [h1, h2, Bool.false_eq_true, if_false, text_copy h, hv]

/-- A marked variable has a value that the file can hold and that is read back. -/
theorem read_var {m : RcVar → Bool} {v : CliOpts} (h : Readable m v) (o : CliOpts) {w : RcVar} (hw : m w = true) :
    ∃ val, rcValue v w = some val ∧ PlainValue val ∧ rcSet o val w = .ok (putVar v true o w, true) := by
  have hin := h.others w hw
  simp only [List.mem_cons, List.not_mem_nil, or_false] at hin
  rcases hin with rfl | rfl | rfl | rfl | rfl | rfl | rfl | rfl | rfl | rfl | rfl | rfl | rfl | rfl | rfl | rfl | rfl | rfl |
    rfl | rfl | rfl | rfl | rfl | rfl | rfl | rfl | rfl
  · have t := h.access_str hw
    exact ⟨_, rfl, t.1, by simp only [rcSet, text_copy t]; rfl⟩
  · have t := h.get_key_file hw
    exact ⟨_, rfl, t.1, by simp only [rcSet, text_copy t]; rfl⟩
  · refine ⟨_, rfl, ?_, ?_⟩ <;> rw [h.use_hmac hw]
    · decide
    · rfl
  · have t := h.spa_server_str hw
    exact ⟨_, rfl, t.1, by simp only [rcSet, text_copy t]; rfl⟩
  · have t := h.allow_ip_str hw
    exact ⟨_, rfl, t.1.1, by simp only [rcSet, rcAllow_read t.1 t.2]; rfl⟩
  · have t := h.spoof_ip_src_str hw
    exact ⟨_, rfl, t.1, by simp only [rcSet, text_copy t]; rfl⟩
  · have t := h.spoof_user hw
    exact ⟨_, rfl, t.1, by simp only [rcSet, text_copy t]; rfl⟩
  · refine ⟨_, rfl, ?_, ?_⟩ <;> rw [h.rand_port hw]
    · decide
    · rfl
  · have t := h.key hw
    exact ⟨_, rfl, t.1, by simp only [rcSet, text_copy t]; rfl⟩
  · have t := h.key_base64 hw
    exact ⟨_, rfl, t.1.1, by simp only [rcSet, text_copy t.1, t.2]; rfl⟩
  · have t := h.hmac_key hw
    exact ⟨_, rfl, t.1, by simp only [rcSet, text_copy t]; rfl⟩
  · have t := h.hmac_key_base64 hw
    exact ⟨_, rfl, t.1.1, by simp only [rcSet, text_copy t.1, t.2]; rfl⟩
  · have t := digest_read (h.hmac_type hw)
    exact ⟨_, rfl, t.2.1, by simp only [rcSet, t.1, rcName_read (Int.le_of_lt t.2.2)]; rfl⟩
  · have t := h.nat_access_str hw
    exact ⟨_, rfl, t.1, by simp only [rcSet, text_copy t]; rfl⟩
  · refine ⟨_, rfl, ?_, ?_⟩ <;> rw [h.nat_local hw]
    · decide
    · rfl
  · have t := h.nat_port hw
    exact ⟨_, rfl, dec_plain t.1 (Int.le_trans t.2 (by decide)), by simp only [rcSet, rcNum_read t.1 t.2 (by decide)]; rfl⟩
  · refine ⟨_, rfl, ?_, ?_⟩ <;> rw [h.nat_rand_port hw]
    · decide
    · rfl
  · have t := proto_read (h.spa_proto hw)
    have t' := h.spa_proto hw
    exact ⟨_, rfl, t.2, by simp only [rcSet, t.1, rcName_read t'.choose_spec.2]; rfl⟩
  · have t := h.spa_dst_port hw
    exact ⟨_, rfl, dec_plain t.1 (Int.le_trans t.2 (by decide)), by simp only [rcSet, rcNum_read t.1 t.2 (by decide)]; rfl⟩
  · have t := h.spa_src_port hw
    exact ⟨_, rfl, dec_plain t.1 (Int.le_trans t.2 (by decide)), by simp only [rcSet, rcNum_read t.1 t.2 (by decide)]; rfl⟩
  · have t := digest_read (h.digest_type hw)
    exact ⟨_, rfl, t.2.1, by simp only [rcSet, t.1, rcName_read (Int.le_of_lt t.2.2)]; rfl⟩
  · have t := mode_read (h.encryption_mode hw)
    have t' := h.encryption_mode hw
    exact ⟨_, rfl, t.2, by simp only [rcSet, t.1, rcName_read t'.choose_spec.2]; rfl⟩
  · have t := h.fw_timeout hw
    exact ⟨_, rfl, dec_plain t.1 (Int.le_trans t.2 (by decide)), by simp only [rcSet, rcNum_read t.1 t.2 (by decide)]; rfl⟩
  · rcases h.time hw with ⟨t0, t1⟩ | ⟨t2, t0, t1⟩
    · have hm : v.time_offset_minus ≠ 0 := by omega
      have hd := dec_plain (Int.le_of_lt t0) (by omega)
      refine ⟨b!"-" ++ decStrInt v.time_offset_minus, by simp only [rcValue, offsetText, if_pos hm], ⟨by simp, ?_, ?_⟩, ?_⟩
      · have := decStr_length_le v.time_offset_minus.natAbs 6 (by decide) (by omega)
        unfold decStrInt
        rw [if_neg (by omega)]
        simp only [List.cons_append, List.nil_append, List.length_cons]
        omega
      · intro c hc
        rcases List.mem_cons.mp hc with rfl | hc
        · decide
        · exact hd.2.2 c hc
      · show rcOffset (decStrInt v.time_offset_minus) o _ = _
        unfold rcOffset
        rw [offset_read t0 t1]
        simp [putVar, hm]
    · have hp : v.time_offset_plus ≠ 0 := by omega
      have hd := dec_plain (Int.le_of_lt t0) (by omega)
      refine ⟨decStrInt v.time_offset_plus, by simp only [rcValue, offsetText, t2, ne_eq, not_true, if_false, if_pos hp], hd, ?_⟩
      have hh : ∀ r, decStrInt v.time_offset_plus ≠ 45 :: r := by
        intro r he
        unfold decStrInt at he
        rw [if_neg (by omega)] at he
        have := decStr_digits v.time_offset_plus.natAbs 45 (by rw [he]; simp)
        exact absurd this (by decide)
      show rcTime o _ = _
      unfold rcTime
      split
      · rename_i r he; exact absurd he (hh r)
      · unfold rcOffset
        rw [offset_read t0 t1]
        simp [putVar, t2]
  · refine ⟨_, rfl, ?_, ?_⟩ <;> rw [h.use_gpg hw]
    · decide
    · rfl
  · have t := h.gpg_recipient_key hw
    exact ⟨_, rfl, t.1, by simp only [rcSet, text_copy t]; rfl⟩
  · cases hr : v.resolve_ip_http_https with
    | true =>
      refine ⟨_, rfl, ?_, ?_⟩ <;> rw [hr]
      · decide
      · simp only [putVar, hr]; rfl
    | false =>
      refine ⟨_, rfl, ?_, ?_⟩ <;> rw [hr]
      · decide
      · simp only [putVar, hr]; rfl

/-- The entries of a saved stanza. -/
def savedEntries (m : RcVar → Bool) (v : CliOpts) (l : List (Str × RcVar)) : List Entry :=
  l.filterMap fun e => if m e.2 then (rcValue v e.2).map fun x => (e.1, x) else none

theorem array_lookup : ∀ e ∈ fko_var_array, lookup_var_by_name e.1 = some e.2 := by decide +kernel

/-- Reading a saved stanza. -/
theorem read_saved {m : RcVar → Bool} {v : CliOpts} (h : Readable m v) : ∀ (l : List (Str × RcVar)) (o : CliOpts),
    (∀ e ∈ l, e ∈ fko_var_array) →
    rcFold (savedEntries m v l) o true = .ok (l.foldl (fun o e => putVar v (m e.2) o e.2) o) := by
  intro l
  induction l with
  | nil => intro o _; rfl
  | cons e l ih =>
    intro o hl
    have hl' : ∀ e ∈ l, e ∈ fko_var_array := fun x hx => hl x (by simp [hx])
    unfold savedEntries
    rw [List.filterMap_cons, List.foldl_cons]
    cases hm : m e.2 with
    | false =>
      simp only [Bool.false_eq_true, if_false, putVar_false]
      exact ih o hl'
    | true =>
      obtain ⟨val, hv, -, hr⟩ := read_var h o hm
      simp only [if_true, hv, Option.map_some]
      unfold rcFold parse_rc_param
      simp only [array_lookup e (hl e (by simp)), hr, Bool.and_true]
      exact ih _ hl'

/-- What reading a whole saved stanza does. -/
def putAll (m : RcVar → Bool) (v o : CliOpts) : CliOpts := fko_var_array.foldl (fun o e => putVar v (m e.2) o e.2) o

/-- The fields after it. -/
def putFields (m : RcVar → Bool) (v o : CliOpts) : CliOpts :=
  { o with
    digest_type := cond (m .digest_type) v.digest_type o.digest_type
    spa_proto := cond (m .spa_server_proto) v.spa_proto o.spa_proto
    spa_dst_port := cond (m .spa_server_port) v.spa_dst_port o.spa_dst_port
    spa_src_port := cond (m .spa_source_port) v.spa_src_port o.spa_src_port
    fw_timeout := cond (m .fw_timeout) v.fw_timeout o.fw_timeout
    allow_ip_str := cond (m .allow_ip) v.allow_ip_str o.allow_ip_str
    resolve_ip_http_https := cond (m .resolve_ip_https) (v.resolve_ip_http_https || cond (m .allow_ip) false o.resolve_ip_http_https)
      (cond (m .allow_ip) false o.resolve_ip_http_https)
    time_offset_minus := cond (m .time_offset && v.time_offset_minus ≠ 0) v.time_offset_minus o.time_offset_minus
    time_offset_plus := cond (m .time_offset && v.time_offset_minus = 0) v.time_offset_plus o.time_offset_plus
    encryption_mode := cond (m .encryption_mode) v.encryption_mode o.encryption_mode
    spoof_user := cond (m .spoof_user) v.spoof_user o.spoof_user
    spoof_ip_src_str := cond (m .spoof_source_ip) v.spoof_ip_src_str o.spoof_ip_src_str
    access_str := cond (m .access) v.access_str o.access_str
    spa_server_str := cond (m .spa_server) v.spa_server_str o.spa_server_str
    rand_port := cond (m .rand_port) true o.rand_port
    use_gpg := cond (m .use_gpg) true o.use_gpg
    gpg_recipient_key := cond (m .gpg_recipient) v.gpg_recipient_key o.gpg_recipient_key
    key := cond (m .key) v.key o.key
    have_key := cond (m .key) true o.have_key
    key_base64 := cond (m .key_base64) v.key_base64 o.key_base64
    have_base64_key := cond (m .key_base64) true o.have_base64_key
    hmac_type := cond (m .hmac_digest_type) v.hmac_type o.hmac_type
    hmac_key_base64 := cond (m .hmac_key_base64) v.hmac_key_base64 o.hmac_key_base64
    have_hmac_base64_key := cond (m .hmac_key_base64) true o.have_hmac_base64_key
    hmac_key := cond (m .hmac_key) v.hmac_key o.hmac_key
    have_hmac_key := cond (m .hmac_key) true o.have_hmac_key
    use_hmac := cond (m .use_hmac) true (cond (m .hmac_key) true (cond (m .hmac_key_base64) true o.use_hmac))
    get_key_file := cond (m .key_file) v.get_key_file o.get_key_file
    nat_access_str := cond (m .nat_access) v.nat_access_str o.nat_access_str
    nat_local := cond (m .nat_local) true o.nat_local
    nat_rand_port := cond (m .nat_rand_port) true o.nat_rand_port
    nat_port := cond (m .nat_port) v.nat_port o.nat_port }

theorem putAll_fields (m : RcVar → Bool) (v o : CliOpts) : putAll m v o = putFields m v o := by
  simp only [putAll, fko_var_array, List.foldl_cons, List.foldl_nil, putVar, putFields]

theorem fld_cond {α : Type} {m : Bool} {P : α → Prop} {x x' y : α} (h : Fld m P x x') (hv : y = x') : cond m y x = x' := by
  cases m with
  | true => exact hv
  | false => exact (h.1 rfl).symm

theorem fld_flag {m : Bool} {x x' : Bool} (h : Fld m isTrue x x') : cond m true x = x' := by
  cases m with
  | true => exact (h.2 rfl).symm
  | false => exact (h.1 rfl).symm

theorem mask_imp {w w' : RcVar} (h : ∀ a, (argVars a).contains w = true → (argVars a).contains w' = true) (as : List CliArg)
    (hm : argMask as w = true) : argMask as w' = true := by
  unfold argMask at hm ⊢
  obtain ⟨a, ha, hc⟩ := List.any_eq_true.mp hm
  exact List.any_eq_true.mpr ⟨a, ha, h a hc⟩

theorem mask_time (as : List CliArg) : argMask as .time_offset = (as.any isPlus || as.any isMinus) := by
  unfold argMask
  induction as with
  | nil => rfl
  | cons a as ih =>
    rw [List.any_cons, List.any_cons, List.any_cons, ih]
    have : (argVars a).contains .time_offset = (isPlus a || isMinus a) := by cases a <;> rfl
    rw [this]
    cases isPlus a <;> cases isMinus a <;> cases as.any isPlus <;> cases as.any isMinus <;> rfl

/-- Reading the saved stanza gives the options of the command line, except that an address or a wish to
have it found may be switched. -/
theorem putAll_eq {as : List CliArg} {o o' v : CliOpts} (hF : Frame as o o') {r : Bool} {s : Str} {g : Bool}
    (hv : v = withStz s g { o' with resolve_ip_http_https := r
                                    hmac_type := if o'.use_hmac = true ∧ o'.hmac_type = 0 then 3 else o'.hmac_type })
    (hn : SavableNumbers as v) :
    putAll (argMask as) v o = { o' with
      resolve_ip_http_https := cond (argMask as .resolve_ip_https)
        (r || cond (argMask as .allow_ip) false o.resolve_ip_http_https) (cond (argMask as .allow_ip) false o.resolve_ip_http_https) } := by
  have hh1 := mask_imp (w := .hmac_key) (w' := .use_hmac) (by intro a; cases a <;> first | (intro _; rfl) | (intro h; cases h)) as
  have hh2 := mask_imp (w := .hmac_key_base64) (w' := .use_hmac) (by intro a; cases a <;> first | (intro _; rfl) | (intro h; cases h)) as
  have htime := mask_time as
  have hp := hn.plus
  have hm := hn.minus
  subst hv
  rw [putAll_fields]
  apply CliOpts.ext
  · exact fld_cond hF.access_str rfl
  · exact hF.server_command.symm
  · exact fld_cond hF.get_key_file rfl
  · exact hF.get_hmac_key_file.symm
  · exact hF.no_save_args.symm
  · refine Eq.trans ?_ (fld_flag hF.use_hmac)
    show cond _ true (cond _ true (cond _ true _)) = _
    cases h0 : argMask as .use_hmac with
    | true => cases argMask as .hmac_key <;> cases argMask as .hmac_key_base64 <;> rfl
    | false =>
      cases h1 : argMask as .hmac_key with
      | true => rw [hh1 h1] at h0; cases h0
      | false =>
        cases h2 : argMask as .hmac_key_base64 with
        | true => rw [hh2 h2] at h0; cases h0
        | false => rfl
  · exact fld_cond hF.spa_server_str rfl
  · exact fld_cond hF.allow_ip_str rfl
  · exact fld_cond hF.spoof_ip_src_str rfl
  · exact fld_cond hF.spoof_user rfl
  · exact fld_flag hF.rand_port
  · exact fld_cond hF.gpg_recipient_key rfl
  · exact hF.gpg_signer_key.symm
  · exact hF.gpg_home_dir.symm
  · exact hF.gpg_exe.symm
  · exact fld_cond hF.key rfl
  · exact fld_cond hF.key_base64 rfl
  · exact fld_cond hF.hmac_key rfl
  · exact fld_cond hF.hmac_key_base64 rfl
  · exact fld_flag hF.have_key
  · exact fld_flag hF.have_base64_key
  · exact fld_flag hF.have_hmac_key
  · exact fld_flag hF.have_hmac_base64_key
  · show cond (argMask as .hmac_digest_type) (if o'.use_hmac = true ∧ o'.hmac_type = 0 then (3 : Int) else o'.hmac_type) o.hmac_type = o'.hmac_type
    cases h0 : argMask as .hmac_digest_type with
    | false => exact (hF.hmac_type.1 h0).symm
    | true =>
      have := digest_read (hF.hmac_type.2 h0)
      show (if _ then _ else _) = _
      rw [if_neg (by omega)]
  · exact fld_cond hF.nat_access_str rfl
  · exact fld_flag hF.nat_local
  · exact fld_cond hF.nat_port rfl
  · exact fld_flag hF.nat_rand_port
  · rfl
  · exact hF.resolve_http_only.symm
  · exact hF.resolve_url.symm
  · exact hF.http_user_agent.symm
  · exact hF.use_wget_user_agent.symm
  · exact hF.wget_bin.symm
  · exact hF.http_proxy.symm
  · exact fld_cond hF.spa_proto rfl
  · exact fld_cond hF.spa_dst_port rfl
  · exact fld_cond hF.spa_src_port rfl
  · exact fld_cond hF.digest_type rfl
  · exact fld_cond hF.encryption_mode rfl
  · exact hF.verbose.symm
  · exact hF.test.symm
  · exact fld_flag hF.use_gpg
  · exact hF.use_gpg_agent.symm
  · exact hF.gpg_no_signing_pw.symm
  · show cond (argMask as .time_offset && decide (o'.time_offset_minus = 0)) o'.time_offset_plus o.time_offset_plus = o'.time_offset_plus
    have f1 := hF.time_offset_plus
    cases h1 : as.any isPlus with
    | false =>
      rw [f1.1 h1]
      cases (argMask as .time_offset && decide (o'.time_offset_minus = 0)) <;> rfl
    | true =>
      have h2 := hp h1
      have h3 : o'.time_offset_minus = 0 := h2.2.2
      rw [htime, h1, h3]
      rfl
  · show cond (argMask as .time_offset && decide (o'.time_offset_minus ≠ 0)) o'.time_offset_minus o.time_offset_minus = o'.time_offset_minus
    have f1 := hF.time_offset_minus
    cases h1 : as.any isMinus with
    | false =>
      rw [f1.1 h1]
      cases (argMask as .time_offset && decide (o.time_offset_minus ≠ 0)) <;> rfl
    | true =>
      have h2 : 0 < o'.time_offset_minus ∧ o'.time_offset_minus ≤ 65536 := hm h1
      have h3 : decide (o'.time_offset_minus ≠ 0) = true := by simp only [decide_eq_true_eq]; omega
      rw [htime, h1, h3, Bool.or_true]
      rfl
  · exact fld_cond hF.fw_timeout rfl
  · exact hF.use_rc_stanza.symm
  · exact hF.got_named_stanza.symm
  · exact hF.spa_server_resolve_ipv4.symm

end Fwknop
