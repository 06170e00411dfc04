import Verif.Lemmas.Gpg
import Verif.Props.AccessFile

/-!
# C113: requests by GnuPG are signed by somebody who is listed
-/

namespace Fwknop.Props

open Spec Res

/-- The text is long enough to be looked at as GPG data. -/
theorem long_is_gpg {E : Env} {acc : Stanza} {text : Str} {c : Ctx} (h : authenticate E acc text = .ok c)
    (hl : acc.use_rijndael = false ∨ 400 ≤ text.length) : fko_encryption_type text = FKO_ENCRYPTION_GPG := by
  have gpg : authGpg E acc text = .ok c → fko_encryption_type text = FKO_ENCRYPTION_GPG := by
    intro h
    unfold authGpg at h
    split at h
    · rename_i hc; exact hc.2.1
    · cases h
  unfold authenticate at h
  split at h
  · rename_i htry
    split at h
    · cases h
    · rename_i c1 h1
      have hr : acc.use_rijndael = true := by
        unfold triesRijndael at htry
        cases hu : acc.use_rijndael with
        | true => rfl
        | false => rw [hu] at htry; cases htry
      have hl' := hl.resolve_left (by rw [hr]; decide)
      rcases new_with_data_eq (E.crypto acc) text acc.key acc.encryption_mode acc.hmac_key acc.hmac_type with e | ⟨⟨-, h15, -⟩, -⟩
      · rw [e] at h1; cases h1
      unfold fko_encryption_type
      have hmin : min text.length MAX_SPA_ENCODED_MSG_SIZE = text.length := by
        simp only [MAX_SPA_ENCODED_MSG_SIZE]; omega
      dsimp only
      rw [hmin]
      have hv : is_valid_encoded_msg_len (text.length : Int) = true := by
        unfold is_valid_encoded_msg_len; simp only [MIN_SPA_ENCODED_MSG_SIZE]; simp; omega
      rw [hv]
      simp [hl']
    · exact gpg h
  · exact gpg h

/-- What is behind a request that a stanza took from GnuPG. -/
theorem gpg_request {K : Crypto} (hH : K.H.Lawful) {G : Gpg} {acc : Stanza} {text : Str} {c : Ctx}
    (hk : KeysOk acc) (h : authenticate (gpgEnv K G) acc text = .ok c)
    (hs : handle_gpg_sigs (gpgEnv K G) acc text c = .ok ()) (hreq : acc.gpg_require_sig = true)
    (hl : acc.use_rijndael = false ∨ 400 ≤ text.length ∧ acc.encryption_mode ≠ 7) :
    acc.use_gpg = true ∧ SignedRequest K.H G (acc.gpg_exe.getD GPG_EXE) acc.gpg_home_dir (acc.gpg_decrypt_pw.getD []) text c fun s =>
      (acc.gpg_ignore_sig_error = false → Vouched s) ∧
      (acc.gpg_remote_fpr_list ≠ [] → s.fpr ∈ acc.gpg_remote_fpr_list) ∧
      (acc.gpg_remote_id_list ≠ [] → keyId s.fpr ∈ acc.gpg_remote_id_list) := by
  have hty := long_is_gpg h (hl.imp id And.left)
  unfold handle_gpg_sigs at hs
  rw [if_pos ⟨hty, hreq⟩] at hs
  split at hs
  · cases hs
  rename_i ht
  have ht : c.encryption_type = FKO_ENCRYPTION_GPG := Classical.byContradiction fun h => ht h
  obtain ⟨c1, cipher, pt, h1, h2, h3, h4, hug⟩ := authenticate_gpg (E := gpgEnv K G) hH hk h ht (hl.imp id And.right)
  have hK : (gpgEnv K G).K = K := rfl
  rw [hK] at h1 h4
  dsimp only [gpgEnv] at h3 hs
  rw [h1] at hs
  dsimp only at hs
  cases hg : gpgSettings G acc with
  | none => rw [hg] at h3; cases h3
  | some g =>
    rw [hg] at h3 hs
    cases hd : gpgme_decrypt G g (acc.gpg_decrypt_pw.getD []) cipher with
    | none =>
      have : (none : Option Str) = some pt := by rw [← h3]; simp [Bind.bind, Option.bind, hd]
      cases this
    | some q =>
      obtain ⟨pt', g'⟩ := q
      have hpt : pt' = pt := by
        have : some pt' = some pt := by rw [← h3]; simp [Bind.bind, Option.bind, hd]
        exact Option.some.inj this
      subst hpt
      obtain ⟨e1, e2, e3, e4, -, -⟩ := gpgSettings_eq hg
      obtain ⟨r, s, r1, r2, r3, r4, r5, r6⟩ := gpgme_decrypt_verified hd (by rw [e3, hreq])
      have hfpr : (gpgCipher c1 >>= fun cipher => some g >>= fun g =>
          gpgme_decrypt G g (acc.gpg_decrypt_pw.getD []) cipher >>= fun r => fko_get_gpg_signature_fpr r.2) = some s.fpr := by
        simp [Bind.bind, Option.bind, h2, hd, fko_get_gpg_signature_fpr, r5, r4]
      rw [hfpr] at hs
      obtain ⟨_, m1, hs⟩ := bind_eq_ok hs
      obtain ⟨_, m2, m3⟩ := bind_eq_ok hs
      have m1 : 8 ≤ s.fpr.length := by
        apply Classical.byContradiction
        intro hn
        rw [show decide (s.fpr.length < 8) = true from decide_eq_true (by omega)] at m1
        cases m1
      refine ⟨hug, cipher, r, s, cipher_carried hH h1 h2, ?_, by rw [r2]; exact h4, r3, m1, ?_, ?_, ?_⟩
      · rw [e1, e2] at r1; exact r1
      · intro hi
        exact r6 (by rw [e4, hreq, hi]; rfl)
      · intro hne
        apply Classical.byContradiction
        intro hn
        simp [Res.guard, hne, hn] at m2
      · intro hne
        apply Classical.byContradiction
        intro hn
        unfold keyId at hn
        simp [Res.guard, hne, hn] at m3

/-- **C113.** From the text of access.conf to the effects: when the server has loaded a file without
directives and handles any packets, then each effect belongs to a stanza of the file, and if that
stanza has no KEY (or, in a symmetric mode, if the packet is as long as those of GnuPG) and does not
disable signatures, then the request was signed: GnuPG, with the key ring and the passphrase of the
stanza, decrypts the packet to the very request that is obeyed, and the first signature that it
reports is good (unless GPG_IGNORE_SIG_VERIFY_ERROR is set), its fingerprint is in GPG_FINGERPRINT_ID
if there is such a list, and the last eight digits of the fingerprint are in GPG_REMOTE_ID if there
is such a list; and there is one of the two. -/
theorem C113_requests_are_signed {env : AccEnv} {fds : Nat} {name content : Str} {es : List Entry} {l : List AccEnt}
    (hf : env.file name = some content) (hes : FileHolds content es) (hn : ∀ e ∈ es, Plain e.1)
    (hload : load_access env fds (.file name) = .ok l)
    {conf : Conf} {K : Crypto} (hH : K.H.Lawful) {G : Gpg} {sv sv' : Server}
    (hsv : sv.stanzas = l.map (·.st)) {as : List Arrival}
    {outs : List (List Effect)} (h : serve conf (gpgEnv K G) sv as = .ok (sv', outs)) {i : Nat} {o : List Effect}
    (ho : outs[i]? = some o) {eff : Effect} (he : eff ∈ o) :
    ∃ a src opts text proxy c ip rest, as[i]? = some a ∧ (stanzasOf es)[stanzaNo eff - 1]? = some (src, opts) ∧
      Received conf a.pkt text proxy ∧ Message c ip rest ∧
      (yes (lastOf [b!"GPG_DISABLE_SIG"] opts) = false →
        (lastOf [b!"KEY", b!"KEY_BASE64"] opts = none ∨ 400 ≤ text.length ∧ SymmetricMode opts) →
        gpgPw opts ≠ none →
        (lastOf [b!"GPG_REMOTE_ID"] opts ≠ none ∨ lastOf [b!"GPG_FINGERPRINT_ID"] opts ≠ none) ∧
        ∃ pw home, gpgPw opts = some pw ∧
          home = (lastOf [b!"GPG_HOME_DIR"] opts).getD env.gpg_home ∧
          SignedRequest K.H G ((lastOf [b!"GPG_EXE"] opts).getD GPG_EXE) (some home) pw text c fun s =>
            (yes (lastOf [b!"GPG_IGNORE_SIG_VERIFY_ERROR"] opts) = false → Vouched s) ∧
            (∀ v l, lastOf [b!"GPG_FINGERPRINT_ID"] opts = some v → Items v l → s.fpr ∈ l) ∧
            (∀ v l, lastOf [b!"GPG_REMOTE_ID"] opts = some v → Items v l → keyId s.fpr ∈ l)) ∧
      (lastOf [b!"KEY", b!"KEY_BASE64"] opts = none → gpgPw opts ≠ none) := by
  obtain ⟨hlen, hconf⟩ := C79_configured_partial hf hes hn hload
  obtain ⟨a, sv1, sv2, ha, hi, hl1, hst⟩ := serve_when h i o ho
  have hk1 : ∀ acc ∈ sv1.stanzas, KeysOk acc := by
    intro acc hacc
    obtain ⟨k, hk⟩ := List.mem_iff_getElem?.1 hacc
    obtain ⟨acc0, h0, hor⟩ := hst k acc hk
    have := C85_keys hload acc0 (by rw [← hsv]; exact List.mem_of_getElem? h0)
    rcases hor with rfl | rfl <;> exact this
  obtain ⟨acc, text, proxy, c, ip, rest, hc, hadr, hlive, hsig, -⟩ := effect_meets hk1 hi he
  obtain ⟨acc0, h0, hor⟩ := hst _ _ hc.stanza
  have hka : KeysOk acc := hk1 acc (List.mem_of_getElem? hc.stanza)
  rw [hsv, List.getElem?_map] at h0
  obtain ⟨e0, he0, hst0⟩ := Option.map_eq_some_iff.1 h0
  have hlt : stanzaNo eff - 1 < (stanzasOf es).length := by
    have := (List.getElem?_eq_some_iff.1 he0).1
    omega
  have hp0 := List.getElem?_eq_getElem hlt
  generalize (stanzasOf es)[stanzaNo eff - 1] = p0 at hp0
  obtain ⟨src, opts⟩ := p0
  have hC := hconf _ _ _ _ hp0 he0
  have hR := (C81_in_range hload).2 e0 (List.mem_of_getElem? he0)
  rw [hst0] at hC hR
  have u1 : acc.use_rijndael = acc0.use_rijndael := by rcases hor with rfl | rfl <;> rfl
  have u2 : acc.encryption_mode = acc0.encryption_mode := by rcases hor with rfl | rfl <;> rfl
  have u3 : acc.gpg_require_sig = acc0.gpg_require_sig := by rcases hor with rfl | rfl <;> rfl
  have u4 : acc.gpg_home_dir = acc0.gpg_home_dir := by rcases hor with rfl | rfl <;> rfl
  have u5 : acc.gpg_decrypt_pw = acc0.gpg_decrypt_pw := by rcases hor with rfl | rfl <;> rfl
  have u6 : acc.gpg_ignore_sig_error = acc0.gpg_ignore_sig_error := by rcases hor with rfl | rfl <;> rfl
  have u7 : acc.gpg_remote_fpr_list = acc0.gpg_remote_fpr_list := by rcases hor with rfl | rfl <;> rfl
  have u8 : acc.gpg_remote_id_list = acc0.gpg_remote_id_list := by rcases hor with rfl | rfl <;> rfl
  have u9 : acc.use_gpg = acc0.use_gpg := by rcases hor with rfl | rfl <;> rfl
  refine ⟨a, src, opts, text, proxy, c, ip, rest, ha, hp0, hc.received, hc.message, ?_, ?_⟩
  · intro hdis hkey hpw
    have hd : acc0.gpg_disable_sig = false := by rw [hC.gpg_disable]; exact hdis
    have hpw0 : acc0.gpg_decrypt_pw ≠ none := by rw [hC.gpg_pw]; exact hpw
    obtain ⟨hreq, hlists⟩ := hR.signer hpw0 hd
    obtain ⟨pw, hpw1⟩ := Option.ne_none_iff_exists'.1 hpw
    have hl : acc.use_rijndael = false ∨ 400 ≤ text.length ∧ acc.encryption_mode ≠ 7 := by
      rcases hkey with hkey | ⟨hlen, hmode⟩
      · left
        rw [u1]
        cases hu : acc0.use_rijndael with
        | false => rfl
        | true => exact absurd hkey (hC.rijndael.1 hu)
      · refine .inr ⟨hlen, ?_⟩
        rcases hmode with hmode | ⟨n, k, v, m1, m2, m3, m4⟩
        · rw [u2, hC.mode_default hmode]; decide
        · rw [u2, hC.mode n k m1 v m3 m4]; exact m2
    obtain ⟨-, cipher, r, s, q1, q2, q3, q4, q5, q6, q7, q8⟩ := gpg_request hH hka hc.decoded hsig (by rw [u3]; exact hreq) hl
    refine ⟨?_, pw, _, hpw1, rfl, cipher, r, s, q1, ?_, q3, q4, q5, ?_, ?_, ?_⟩
    · rcases hlists with hne | hne
      · exact .inl fun hn => hne (hC.no_ids hn)
      · exact .inr fun hn => hne (hC.no_fprs hn)
    · have e1 : acc.gpg_decrypt_pw.getD [] = pw := by rw [u5, hC.gpg_pw, hpw1]; rfl
      have e2 : acc.gpg_home_dir = some ((lastOf [b!"GPG_HOME_DIR"] opts).getD env.gpg_home) := by
        rw [u4]
        cases hh : lastOf [b!"GPG_HOME_DIR"] opts with
        | none => exact hC.gpg_home_default hpw hh
        | some v => exact hC.gpg_home v hh
      have e3 : acc.gpg_exe = lastOf [b!"GPG_EXE"] opts := by
        rw [← hC.gpg_exe]
        rcases hor with rfl | rfl <;> rfl
      rw [e1, e2, e3] at q2
      exact q2
    · intro hi
      exact q6 (by rw [u6, hC.gpg_ignore]; exact hi)
    · rintro v l hv ⟨q, hq, rfl, hv2, hq2⟩
      have := hC.fprs v q hv hq hv2 hq2
      rw [u7, this] at q7
      exact q7 (by simpa using hq)
    · rintro v l hv ⟨q, hq, rfl, hv2, hq2⟩
      have := hC.ids v q hv hq hv2 hq2
      rw [u8, this] at q8
      exact q8 (by simpa using hq)
  · intro hkey
    refine hC.gpg.1 ?_
    rw [← u9]
    have hu : acc.use_rijndael = false := by
      rw [u1]
      cases hu : acc0.use_rijndael with
      | false => rfl
      | true => exact absurd hkey (hC.rijndael.1 hu)
    have := hc.decoded
    unfold authenticate at this
    rw [if_neg (by unfold triesRijndael; rw [hu]; simp)] at this
    unfold authGpg at this
    split at this
    · rename_i hcond; exact hcond.1
    · cases this

/-- The settings of a stanza that requires signatures, when the program and the key ring exist. -/
theorem gpgSettings_of {G : Gpg} {acc : Stanza} (hreq : acc.gpg_require_sig = true)
    (hx : ∀ e, acc.gpg_exe = some e → G.isFile e = true) (hd : ∀ d, acc.gpg_home_dir = some d → G.isDir d = true) :
    gpgSettings G acc = some { gpg_exe := acc.gpg_exe, gpg_home_dir := acc.gpg_home_dir, verify_gpg_sigs := true,
                                   ignore_gpg_sig_error := acc.gpg_ignore_sig_error } := by
  unfold gpgSettings fko_set_gpg_exe fko_set_gpg_home_dir
  cases he : acc.gpg_exe with
  | none =>
    cases hh : acc.gpg_home_dir with
    | none => simp [Bind.bind, Option.bind, hreq]
    | some d => simp [Bind.bind, Option.bind, hreq, hd d hh]
  | some e =>
    cases hh : acc.gpg_home_dir with
    | none => simp [Bind.bind, Option.bind, hreq, hx e he]
    | some d => simp [Bind.bind, Option.bind, hreq, hd d hh, hx e he]

/-- **C113.** Conversely a request signed by somebody who is listed passes: when a stanza without KEY
requires signatures, the packet's HMAC (if there is a key) is right, the packet is long enough, and
GnuPG decrypts it and reports first a good signature whose fingerprint and identity are in those
lists that the stanza has, then the request is what the plaintext spells and the signature is
accepted. -/
theorem C113_listed_signers_get_in {K : Crypto} (hH : K.H.Lawful) {G : Gpg} {acc : Stanza} {text pw cipher : Str}
    {c1 : Ctx} {r : GpgReply} {s : GpgSig}
    (hg : acc.use_gpg = true) (hr : acc.use_rijndael = false) (hpw : acc.gpg_decrypt_pw = some pw) (hreq : acc.gpg_require_sig = true)
    (hx : ∀ e, acc.gpg_exe = some e → G.isFile e = true) (hd : ∀ d, acc.gpg_home_dir = some d → G.isDir d = true)
    (heng : G.engine (acc.gpg_exe.getD GPG_EXE) acc.gpg_home_dir = true)
    (h1 : fko_new_with_data K text none FKO_ENC_MODE_ASYMMETRIC acc.hmac_key acc.hmac_type = .ok c1)
    (ht : fko_encryption_type text = FKO_ENCRYPTION_GPG) (ht1 : fko_encryption_type (c1.encrypted_msg.getD []) = FKO_ENCRYPTION_GPG)
    (hc : gpgCipher c1 = some cipher)
    (hsays : GpgSays G (acc.gpg_exe.getD GPG_EXE) acc.gpg_home_dir pw cipher r) (hu : r.unsupported_algorithm = false)
    (hs : r.sigs.head? = some s) (hv : Vouched s) (h8 : 8 ≤ s.fpr.length)
    (hfpr : acc.gpg_remote_fpr_list = [] ∨ s.fpr ∈ acc.gpg_remote_fpr_list)
    (hid : acc.gpg_remote_id_list = [] ∨ keyId s.fpr ∈ acc.gpg_remote_id_list)
    (hlen : 36 ≤ (r.plain.takeWhile (· ≠ 0)).length ∧ (r.plain.takeWhile (· ≠ 0)).length < 1500) :
    (∃ c0 : Ctx, c0.encryption_type = FKO_ENCRYPTION_GPG ∧
      (c0.nat_access = none ∧ c0.server_auth = none ∧ c0.client_timeout = 0) ∧ authenticate (gpgEnv K G) acc text = fko_decode_spa_data K.H
        { c0 with encoded_msg := some (r.plain ++ [0]), encoded_msg_len := (r.plain.takeWhile (· ≠ 0)).length }) ∧
    ∀ c, c.encryption_type = FKO_ENCRYPTION_GPG → handle_gpg_sigs (gpgEnv K G) acc text c = .ok () := by
  obtain ⟨hmode, hnone, m, hm1, hm2, hm3⟩ := new_gpg_ctx hH h1
  have hset := gpgSettings_of (G := G) hreq hx hd
  obtain ⟨rest, hrest⟩ : ∃ rest, keepSigs r.sigs = s :: rest := by
    have := keepSigs_head r.sigs
    rw [hs] at this
    cases hk : keepSigs r.sigs with
    | nil => rw [hk] at this; cases this
    | cons a b => rw [hk] at this; cases this; exact ⟨b, rfl⟩
  have hproc : ∀ g : GpgCtx, process_sigs g r.sigs = some { g with gpg_sigs := s :: rest } := by
    intro g
    unfold process_sigs
    rw [hrest]
    dsimp only
    split
    · rfl
    · rw [if_neg (by have := hv.1; have := hv.2; omega)]
  have hdec : ∀ ig : Bool, gpgme_decrypt G { gpg_exe := acc.gpg_exe, gpg_home_dir := acc.gpg_home_dir, verify_gpg_sigs := true, ignore_gpg_sig_error := ig } pw cipher = some (r.plain, { gpg_exe := acc.gpg_exe, gpg_home_dir := acc.gpg_home_dir, verify_gpg_sigs := true, ignore_gpg_sig_error := ig, gpg_sigs := s :: rest }) := by
    intro ig
    unfold gpgme_decrypt
    dsimp only
    rw [heng, show G.decrypt_verify (acc.gpg_exe.getD GPG_EXE) acc.gpg_home_dir (my_passphrase_cb pw) cipher = some r from hsays]
    dsimp only
    rw [hu, hproc]
    rfl
  constructor
  · have hauth : authenticate (gpgEnv K G) acc text = authGpg (gpgEnv K G) acc text := by
      unfold authenticate
      rw [if_neg (by unfold triesRijndael; rw [hr]; simp)]
    rw [hauth]
    unfold authGpg
    rw [if_pos ⟨hg, ht, .inl (by rw [hpw]; simp)⟩]
    have h1' : fko_new_with_data ((gpgEnv K G).crypto acc) text none FKO_ENC_MODE_ASYMMETRIC acc.hmac_key acc.hmac_type = .ok c1 := h1
    rw [h1', Res.bind_ok]
    have hready : (gpgEnv K G).gpgReady acc = true := by dsimp only [gpgEnv]; rw [hset]; rfl
    rw [hready]
    simp only [Bool.not_true, Res.guard_false, Res.bind_ok]
    unfold fko_decrypt_spa_data
    dsimp only
    rw [if_pos ⟨ht1, hmode⟩]
    have hpl : ((gpgEnv K G).crypto acc).gpgDec (acc.gpg_decrypt_pw.getD []) cipher = some r.plain := by
      show (gpgSettings G acc >>= fun g => gpgme_decrypt G g (acc.gpg_decrypt_pw.getD []) cipher >>= fun r => some r.1) = _
      rw [hset, hpw]
      simp [Bind.bind, Option.bind, hdec]
    obtain ⟨c0, q1, ⟨q2, q3, q4⟩, q5⟩ := gpg_decrypt_eq (K := (gpgEnv K G).crypto acc)
      (c := { c1 with encryption_type := FKO_ENCRYPTION_GPG }) hm1 hm2 hm3 ((gpgCipher_type c1 _).trans hc) hpl hlen
    exact ⟨c0, q1, ⟨q2.trans hnone.1, q3.trans hnone.2.1, q4.trans hnone.2.2⟩, q5⟩
  · intro c hct
    unfold handle_gpg_sigs
    rw [if_pos ⟨ht, hreq⟩, if_neg (by rw [hct]; simp)]
    dsimp only [gpgEnv]
    rw [h1]
    dsimp only
    have hfp : (gpgCipher c1 >>= fun cipher => gpgSettings G acc >>= fun g =>
        gpgme_decrypt G g (acc.gpg_decrypt_pw.getD []) cipher >>= fun r => fko_get_gpg_signature_fpr r.2) = some s.fpr := by
      rw [hc, hset, hpw]
      simp [Bind.bind, Option.bind, hdec, fko_get_gpg_signature_fpr]
    rw [hfp]
    dsimp only
    rw [show decide (s.fpr.length < 8) = false from decide_eq_false (by omega)]
    unfold keyId at hid
    rcases hfpr with e | e <;> rcases hid with e2 | e2 <;> simp [e, e2, Res.mem, Res.guard, Bind.bind, Res.bind]

/-! ## A world with GnuPG -/

/-- access.conf with one stanza for GnuPG. -/
def gpgFile : Str := b!"SOURCE 10.0.0.0/8
GPG_HOME_DIR /root/.gnupg
GPG_DECRYPT_ID ABCD1234
GPG_DECRYPT_PW secret
GPG_REMOTE_ID 1234ABCD, 89ABCDEF
"

def gpgEntries : List Entry := [(b!"SOURCE", b!"10.0.0.0/8"), (b!"GPG_HOME_DIR", b!"/root/.gnupg"), (b!"GPG_DECRYPT_ID", b!"ABCD1234"),
  (b!"GPG_DECRYPT_PW", b!"secret"), (b!"GPG_REMOTE_ID", b!"1234ABCD, 89ABCDEF")]

theorem gpgFile_holds : FileHolds gpgFile gpgEntries :=
  ⟨[(b!"SOURCE 10.0.0.0/8", some (b!"SOURCE", b!"10.0.0.0/8")), (b!"GPG_HOME_DIR /root/.gnupg", some (b!"GPG_HOME_DIR", b!"/root/.gnupg")),
    (b!"GPG_DECRYPT_ID ABCD1234", some (b!"GPG_DECRYPT_ID", b!"ABCD1234")), (b!"GPG_DECRYPT_PW secret", some (b!"GPG_DECRYPT_PW", b!"secret")),
    (b!"GPG_REMOTE_ID 1234ABCD, 89ABCDEF", some (b!"GPG_REMOTE_ID", b!"1234ABCD, 89ABCDEF"))], by decide, by
    intro l hl
    simp only [List.mem_cons, List.not_mem_nil, or_false] at hl
    rcases hl with rfl | rfl | rfl | rfl | rfl <;>
    · refine ⟨by decide, by decide, .entry _ _ _ ⟨[], [], b!" ", [], b!"\n", by decide, by simp, by decide, by decide, by decide,
        by decide, by decide, by simp [SpTab], by decide, by decide, by decide, by decide, by simp, by decide, .inr ⟨10, _, rfl, by decide⟩⟩⟩, rfl⟩

/-- The request that the ciphertext of the sample hides. -/
def gpgPlain : Str :=
  b!"1804289383846930:bWJy:1700000000:3.0.0:1:NS42LjcuOCx0Y3AvMjI:BAQEBAQEBAQEBAQEBAQEBAQEBAQEBAQEBAQEBAQEBAQ"

/-- GnuPG with one secret key, under a passphrase, that finds these signatures. -/
def sampleGpg (sigs : List GpgSig) : Gpg where
  engine exe home := exe = GPG_EXE ∧ home = some b!"/root/.gnupg"
  decrypt_verify _ _ cb cipher :=
    if cb false = some b!"secret\n" ∧ cb true = none ∧ cipher.take 4 = [133, 1, 4, 16] then some { plain := gpgPlain, sigs := sigs } else none
  isFile _ := false
  isDir d := d = b!"/root/.gnupg"

/-- The text of the packet: the base64 text of the ciphertext, without its first two characters. -/
def gpgText : Str := b!"EEEA" ++ List.replicate 416 65

/-- The file system of the sample. -/
def gpgFiles (file : Str) : AccEnv := { oneFile file with isDir := fun d => d = b!"/root/.gnupg" }

/-- What the server does with the sample when these signatures are found, and this is the file. -/
def gpgOutcome (file : Str) (sigs : List GpgSig) : Option (List Nat) :=
  match load_access (gpgFiles file) 20 (.file b!"access.conf") with
  | .ok l =>
    match serve {} (gpgEnv toyCrypto (sampleGpg sigs)) (sampleServer (l.map (·.st))) [sampleArrival 1700000010 gpgText] with
    | .ok r => some (r.2.map (·.length))
    | _ => none
  | _ => none

/-- A fingerprint whose short identity is listed, one with the same short identity, and another. -/
def listedFpr : Str := b!"0123456789ABCDEF0123456789ABCDEF89ABCDEF"
def alikeFpr : Str := b!"FFFF00009999AAAA8888BBBB7777CCCC89ABCDEF"
def otherFpr : Str := b!"0123456789ABCDEF0123456789ABCDEF00000000"

/-- The sample request is obeyed when it is signed by a listed key, whatever else is signed; not when
the signature is bad, the signer is not the first, is not listed, or there is none. -/
theorem gpg_sample : gpgOutcome gpgFile [⟨0, 0, 3, listedFpr⟩] = some [1] := by decide +kernel

example : gpgOutcome gpgFile [⟨0, 0, 3, listedFpr⟩, ⟨0, 1, 0, otherFpr⟩] = some [1] := by decide +kernel
example : gpgOutcome gpgFile [⟨0, 1, 3, listedFpr⟩] = some [0] := by decide +kernel
example : gpgOutcome gpgFile [⟨0, 0, 2, listedFpr⟩] = some [0] := by decide +kernel
example : gpgOutcome gpgFile [⟨0, 0, 3, otherFpr⟩, ⟨0, 0, 3, listedFpr⟩] = some [0] := by decide +kernel
example : gpgOutcome gpgFile [⟨0, 0, 3, otherFpr⟩] = some [0] := by decide +kernel
example : gpgOutcome gpgFile [] = some [0] := by decide +kernel

/-- The stanza of the sample. -/
def gpgStanza : Stanza :=
  { source_list := [⟨0x0A000000, 0xFF000000⟩], use_gpg := true, gpg_home_dir := some b!"/root/.gnupg", gpg_decrypt_pw := some b!"secret"
    gpg_require_sig := true, gpg_remote_id_list := [b!"1234ABCD", b!"89ABCDEF"] }

/-- What GnuPG is given. -/
def seenBy : Res Ctx → Option (Int × Option Str)
  | .ok c => some (fko_encryption_type (c.encrypted_msg.getD []), (gpgCipher c).map (·.take 4))
  | _ => none

/-- The hypotheses of `C113_listed_signers_get_in` are met by the sample. -/
example : ∀ c, c.encryption_type = FKO_ENCRYPTION_GPG →
    handle_gpg_sigs (gpgEnv toyCrypto (sampleGpg [⟨0, 0, 3, listedFpr⟩])) gpgStanza gpgText c = .ok () := by
  have hd : seenBy (fko_new_with_data toyCrypto gpgText none FKO_ENC_MODE_ASYMMETRIC none 0) = some (FKO_ENCRYPTION_GPG, some [133, 1, 4, 16]) := by
    decide +kernel
  generalize h1 : fko_new_with_data toyCrypto gpgText none FKO_ENC_MODE_ASYMMETRIC none 0 = r1 at hd
  cases r1 with
  | ub => cases hd
  | err => cases hd
  | ok c1 =>
    obtain ⟨h2, h3⟩ := Prod.mk.inj (Option.some.inj hd)
    obtain ⟨cipher, hc, h4⟩ := Option.map_eq_some_iff.1 h3
    refine (C113_listed_signers_get_in (K := toyCrypto) (acc := gpgStanza) (s := ⟨0, 0, 3, listedFpr⟩) (pw := b!"secret")
      (r := { plain := gpgPlain, sigs := [⟨0, 0, 3, listedFpr⟩] }) toyHash_lawful rfl rfl rfl rfl (fun e h => by cases h)
      (fun d h => by cases h; decide) (by decide) h1 (by decide +kernel) h2 hc ?_ rfl rfl ⟨rfl, by decide⟩ (by decide) (.inl rfl)
      (.inr (by decide)) (by decide)).2
    unfold GpgSays sampleGpg
    dsimp only
    rw [if_pos ⟨by decide, by decide, h4⟩]

theorem one_effect {outs : List (List Effect)} (h : outs.map (·.length) = [1]) : ∃ e, outs = [[e]] := by
  have h1 : outs.length = 1 := by have := congrArg List.length h; simpa using this
  obtain ⟨o, rfl⟩ := List.length_eq_one_iff.1 h1
  have h2 : o.length = 1 := by simpa using h
  obtain ⟨e, rfl⟩ := List.length_eq_one_iff.1 h2
  exact ⟨e, rfl⟩

/-- The hypotheses of `C113_requests_are_signed` are met by the sample. -/
example : ∃ c, SignedRequest toyHash (sampleGpg [⟨0, 0, 3, listedFpr⟩]) GPG_EXE (some b!"/root/.gnupg") b!"secret" gpgText c fun s =>
    Vouched s ∧ keyId s.fpr ∈ [b!"1234ABCD", b!"89ABCDEF"] := by
  have hs := gpg_sample
  unfold gpgOutcome at hs
  cases hl : load_access (gpgFiles gpgFile) 20 (.file b!"access.conf") with
  | ub => rw [hl] at hs; cases hs
  | err => rw [hl] at hs; cases hs
  | ok l =>
    rw [hl] at hs
    dsimp only at hs
    cases hr : serve {} (gpgEnv toyCrypto (sampleGpg [⟨0, 0, 3, listedFpr⟩])) (sampleServer (l.map (·.st)))
        [sampleArrival 1700000010 gpgText] with
    | ub => rw [hr] at hs; cases hs
    | err => rw [hr] at hs; cases hs
    | ok r =>
      obtain ⟨sv', outs⟩ := r
      rw [hr] at hs
      have hs := Option.some.inj hs
      obtain ⟨eff, rfl⟩ := one_effect hs
      clear hs
      obtain ⟨a, src, opts, text, proxy, c, ip, rest, h1, h2, h3, -, h5, -⟩ := C113_requests_are_signed (i := 0) (o := [eff]) (eff := eff)
        (content := gpgFile) rfl gpgFile_holds (by unfold Plain; decide) hl toyHash_lawful rfl hr rfl (List.mem_singleton.2 rfl)
      have hso : stanzasOf gpgEntries = [(b!"10.0.0.0/8", gpgEntries.drop 1)] := by decide
      rw [hso] at h2
      cases hn : stanzaNo eff - 1 with
      | succ k => rw [hn] at h2; cases h2
      | zero =>
        rw [hn] at h2
        cases h2
        cases h1
        have ht : text = gpgText := (received_plain rfl ⟨by decide +kernel, by decide +kernel⟩ h3).1.trans (by decide +kernel)
        subst ht
        obtain ⟨-, pw, home, e1, rfl, cipher, r, s, q1, q2, q3, q4, q5, q6, q7, q8⟩ := h5 (by decide) (.inl (by decide)) (by decide)
        have e1 : pw = b!"secret" := by
          have : gpgPw (gpgEntries.drop 1) = some b!"secret" := by decide
          rw [this] at e1
          exact (Option.some.inj e1).symm
        subst e1
        refine ⟨c, cipher, r, s, q1, q2, q3, q4, q5, q6 (by decide), ?_⟩
        exact q8 b!"1234ABCD, 89ABCDEF" _ (by decide) ⟨[([], b!"1234ABCD"), (b!" ", b!"89ABCDEF")], by simp, rfl, by decide, by
          intro i hi
          simp only [List.mem_cons, List.not_mem_nil, or_false] at hi
          rcases hi with rfl | rfl
          · exact ⟨by simp, by decide, by decide, by unfold IsBlank; decide⟩
          · exact ⟨by unfold IsBlank; decide, by decide, by decide, by unfold IsBlank; decide⟩⟩

/-- **C113, a limit.** GPG_REMOTE_ID compares the last eight digits of a fingerprint: somebody who makes
a key with the same last eight digits (and whose key GnuPG believes in) passes as well. -/
theorem C113_false_for_equal_short_ids :
    listedFpr ≠ alikeFpr ∧ gpgOutcome gpgFile [⟨0, 0, 3, listedFpr⟩] = some [1] ∧ gpgOutcome gpgFile [⟨0, 0, 3, alikeFpr⟩] = some [1] := by
  decide +kernel

/-- The same file with the long form of the identity, or with the fingerprint itself. -/
def gpgLongFile (id : Str) : Str := b!"SOURCE 10.0.0.0/8\nGPG_HOME_DIR /root/.gnupg\nGPG_DECRYPT_PW secret\nGPG_REMOTE_ID " ++ id ++ b!"\n"

/-- **C113, a limit.** A longer form of the identity in GPG_REMOTE_ID matches nobody, and in lower case
it does not match either. -/
theorem C113_false_for_long_ids :
    gpgOutcome (gpgLongFile (keyId listedFpr)) [⟨0, 0, 3, listedFpr⟩] = some [1] ∧
    gpgOutcome (gpgLongFile (listedFpr.drop 24)) [⟨0, 0, 3, listedFpr⟩] = some [0] ∧
    gpgOutcome (gpgLongFile listedFpr) [⟨0, 0, 3, listedFpr⟩] = some [0] ∧
    gpgOutcome (gpgLongFile ((keyId listedFpr).map toLower)) [⟨0, 0, 3, listedFpr⟩] = some [0] := by
  decide +kernel

/-- **C113.** A stanza of a file without directives that may call GnuPG has a passphrase, so the
function that hands it to GnuPG has something to hand. -/
theorem C113_passphrase_is_there {env : AccEnv} {fds : Nat} {name content : Str} {es : List Entry} {l : List AccEnt}
    (hf : env.file name = some content) (hes : FileHolds content es) (hn : ∀ e ∈ es, Plain e.1)
    (hload : load_access env fds (.file name) = .ok l) {e : AccEnt} (he : e ∈ l) (hg : e.st.use_gpg = true) :
    ∃ pw, e.st.gpg_decrypt_pw = some pw := by
  obtain ⟨hlen, hconf⟩ := C79_configured_partial hf hes hn hload
  obtain ⟨k, hk⟩ := List.mem_iff_getElem?.1 he
  have hlt : k < (stanzasOf es).length := by
    have := (List.getElem?_eq_some_iff.1 hk).1
    omega
  have hp0 := List.getElem?_eq_getElem hlt
  generalize (stanzasOf es)[k] = p0 at hp0
  obtain ⟨src, opts⟩ := p0
  have hC := hconf _ _ _ _ hp0 hk
  exact Option.ne_none_iff_exists'.1 (by rw [hC.gpg_pw]; exact hC.gpg.1 hg)

end Fwknop.Props
