import Verif.Spec.Gpg
import Verif.Lemmas.Incoming
import Verif.Lemmas.Fko

namespace Fwknop

open Res Spec

/-! ## What decoding keeps -/

theorem parseFields_type (buf : Str) (c : Ctx) :
    Post (parseFields buf c) fun c' => c'.encryption_type = c.encryption_type := by
  unfold parseFields
  refine post_bind _ (parse_rand_val_post buf 0 c) ?_
  rintro ⟨n1, c1⟩ ⟨r, h1⟩
  refine post_bind _ (parse_username_post buf n1 c1) ?_
  rintro ⟨n2, c2⟩ ⟨u, -, h2⟩
  refine post_bind _ (parse_timestamp_post buf n2 c2) ?_
  rintro ⟨n3, c3⟩ ⟨t, -, -, h3⟩
  refine post_bind _ (parse_version_post buf n3 c3) ?_
  rintro ⟨n4, c4⟩ ⟨v, h4⟩
  refine post_bind _ (parse_msg_type_post buf n4 c4) ?_
  rintro ⟨n5, c5⟩ ⟨mt, -, -, h5⟩
  refine post_bind _ (parse_msg_post buf n5 c5) ?_
  rintro ⟨n6, c6⟩ ⟨m, -, -, h6⟩
  refine post_bind _ (parse_nat_msg_post buf n6 c6) ?_
  rintro ⟨n7, c7⟩ h7
  refine post_bind _ (parse_server_auth_post buf n7 c7) ?_
  rintro ⟨n8, c8⟩ ⟨sa, h8⟩
  refine post_bind _ (parse_client_timeout_post buf n8 c8) ?_
  rintro ⟨n9, c9⟩ h9
  refine post_pure ?_
  dsimp only at h1 h2 h3 h4 h5 h6 h7 h8 h9 ⊢
  have e7 : c7.encryption_type = c6.encryption_type := by
    rcases h7 with ⟨-, _, -, h⟩ | ⟨-, h⟩ <;> rw [h]
  have e9 : c9.encryption_type = c8.encryption_type := by
    rcases h9 with ⟨-, _, -, h⟩ | ⟨-, h⟩ <;> rw [h]
  rw [e9, h8, e7, h6, h5, h4, h3, h2, h1]

theorem decode_type (H : Hash) (c : Ctx) :
    Post (fko_decode_spa_data H c) fun c' => c'.encryption_type = c.encryption_type := by
  unfold fko_decode_spa_data
  split
  · exact post_ub
  · refine post_guard fun _ => post_any fun s => post_guard fun _ => post_guard fun _ => ?_
    refine post_any fun dig => ?_
    dsimp only
    split
    · exact post_err
    · refine post_guard fun _ => post_mem fun _ => post_mem fun _ => ?_
      split
      · exact post_err
      · exact parseFields_type _ _

theorem add_salted_type (c : Ctx) :
    Post (add_salted_str c) fun c' => c'.encryption_type = c.encryption_type ∧ c'.encryption_mode = c.encryption_mode := by
  unfold add_salted_str
  split
  · exact post_ub
  · refine post_mem fun _ => post_guard fun _ => ?_
    split <;> exact post_pure ⟨rfl, rfl⟩

/-- Rijndael does not make a context that says GPG. -/
theorem rijndael_type (K : Crypto) (c : Ctx) (key : Str) :
    Post (_rijndael_decrypt K c key) fun c' => c'.encryption_type = c.encryption_type := by
  unfold _rijndael_decrypt
  refine post_guard fun _ => ?_
  refine post_bind (fun c' => c'.encryption_type = c.encryption_type) ?_ ?_
  · split
    · exact (add_salted_type c).mono fun c' h => h.1
    · exact post_pure rfl
  · intro c1 h1
    split
    · exact post_err
    · refine post_guard fun _ => post_any fun r => ?_
      unfold afterDecrypt
      refine post_guard fun _ => post_guard fun _ => post_guard fun _ => ?_
      exact (decode_type _ _).mono fun c' h => h.trans h1

/-- What `gpg_decrypt` does. -/
theorem gpg_decrypt_inv {K : Crypto} {c c' : Ctx} {key : Str} (h : gpg_decrypt K c key = .ok c') :
    ∃ cipher pt, ∃ c0 : Ctx, gpgCipher c = some cipher ∧ K.gpgDec key cipher = some pt ∧
      fko_decode_spa_data K.H { c0 with encoded_msg := some (pt ++ [0]), encoded_msg_len := (pt.takeWhile (· ≠ 0)).length } = .ok c' := by
  unfold gpg_decrypt at h
  obtain ⟨c1, h1, h2⟩ := bind_eq_ok h
  have hc : gpgCipher c = Base64.b64_decode (c1.encrypted_msg.getD []) := by
    unfold gpgCipher
    dsimp only
    split at h1
    · rename_i ha
      rw [if_pos ha]
      split at h1
      · cases h1
      · cases h1
        rename_i he
        rw [he]
      · cases h1
        rename_i he
        rw [he]
    · rename_i ha
      rw [if_neg ha]
      cases h1
      rfl
  rw [hc]
  split at h2
  · cases h2
  · rename_i cipher hci
    split at h2
    · cases h2
    · rename_i pt hpt
      obtain ⟨_, hg, hd⟩ := bind_eq_ok h2
      have hv : is_valid_encoded_msg_len ((min (pt.takeWhile (· ≠ 0)).length MAX_SPA_ENCODED_MSG_SIZE : Nat) : Int) = true := by
        cases hb : is_valid_encoded_msg_len ((min (pt.takeWhile (· ≠ 0)).length MAX_SPA_ENCODED_MSG_SIZE : Nat) : Int) with
        | true => rfl
        | false => rw [hb] at hg; cases hg
      have hmin : min (pt.takeWhile (· ≠ 0)).length MAX_SPA_ENCODED_MSG_SIZE = (pt.takeWhile (· ≠ 0)).length := by
        unfold is_valid_encoded_msg_len at hv
        simp only [MAX_SPA_ENCODED_MSG_SIZE, MIN_SPA_ENCODED_MSG_SIZE] at hv ⊢
        simp at hv
        simp
        omega
      rw [hmin] at hd
      exact ⟨cipher, pt, c1, hci, hpt, hd⟩

theorem gpgCipher_type (c : Ctx) (t : Int) : gpgCipher { c with encryption_type := t } = gpgCipher c := by
  unfold gpgCipher add_gpg_prefix
  dsimp only
  split
  · cases hx : c.encrypted_msg with
    | none => simp [hx]
    | some m =>
      dsimp only
      cases hm : decide (c.encrypted_msg_len ≠ m.length ∨ m.length < 2) with
      | true => simp [Bind.bind, Res.bind, Res.mem, hx]
      | false =>
        cases hb : Base64.is_base64 m with
        | false => simp [Bind.bind, Res.bind, Res.mem, Res.guard, hx]
        | true =>
          by_cases hp : constant_runtime_cmp m B64_GPG_PREFIX 2 = 0 <;>
            simp [Bind.bind, Res.bind, hp, Res.mem, Res.guard, Pure.pure, hx]
  · rfl

/-- Decryption that ends in a context of GPG was done by GnuPG. -/
theorem decrypt_gpg_inv {K : Crypto} {c c' : Ctx} {key : Str} (h : fko_decrypt_spa_data K c key = .ok c')
    (ht : c'.encryption_type = FKO_ENCRYPTION_GPG) :
    c.encryption_mode = FKO_ENC_MODE_ASYMMETRIC ∧ ∃ cipher pt, gpgCipher c = some cipher ∧ K.gpgDec key cipher = some pt ∧ SpelledBy K.H pt c' := by
  unfold fko_decrypt_spa_data at h
  dsimp only at h
  split at h
  · rename_i hc
    obtain ⟨cipher, pt, c0, h1, h2, h3⟩ := gpg_decrypt_inv h
    rw [gpgCipher_type] at h1
    exact ⟨hc.2, cipher, pt, h1, h2, c0, h3⟩
  · split at h
    · have : c'.encryption_type = FKO_ENCRYPTION_RIJNDAEL := rijndael_type _ _ _ _ h
      rw [ht] at this
      cases this
    · cases h

theorem restored_cipher {body text cipher : Str} (hp : body <+: text) (h : Base64.b64_decode (restored true body) = some cipher) :
    CarriesCipher text cipher := by
  refine ⟨body, hp, ?_⟩
  unfold restored at h
  split at h
  · exact .inl h
  · exact .inr h

/-- The ciphertext is that of the packet. -/
theorem cipher_carried {K : Crypto} (hH : K.H.Lawful) {text : Str} {hk : Option Str} {ht : Int} {c : Ctx} {cipher : Str}
    (h : fko_new_with_data K text none FKO_ENC_MODE_ASYMMETRIC hk ht = .ok c) (hc : gpgCipher c = some cipher) :
    CarriesCipher text cipher := by
  rcases new_with_data_eq K text none FKO_ENC_MODE_ASYMMETRIC hk ht with e | ⟨⟨h36, -⟩, e⟩
  · rw [e] at h; cases h
  rw [e] at h
  obtain ⟨c3, h3, h4⟩ := bind_eq_ok h
  cases h4
  have plain : c3 = startCtx text FKO_ENC_MODE_ASYMMETRIC ht → CarriesCipher text cipher := by
    rintro rfl
    cases hb : Base64.is_base64 text with
    | true =>
      obtain ⟨c', e, e2, -⟩ := add_gpg_eq ((startCtx text FKO_ENC_MODE_ASYMMETRIC ht).setFlag FKO_CTX_INITIALIZED) text rfl rfl (by omega) hb
      unfold gpgCipher at hc
      dsimp only at hc
      rw [if_pos (by rfl), e] at hc
      dsimp only at hc
      rw [e2] at hc
      exact restored_cipher (List.prefix_refl _) hc
    | false =>
      have e : add_gpg_prefix ((startCtx text FKO_ENC_MODE_ASYMMETRIC ht).setFlag FKO_CTX_INITIALIZED) = .err := by
        unfold add_gpg_prefix
        show (do
          Res.mem (((text.length : Int)) ≠ text.length ∨ text.length < 2)
          Res.guard (!Base64.is_base64 text)
          _ : Res Ctx) = _
        rw [mem_of_not (by omega), hb]
        rfl
      unfold gpgCipher at hc
      dsimp only at hc
      rw [if_pos (by rfl), e] at hc
      exact ⟨text, List.prefix_refl _, .inl hc⟩
  cases hk with
  | none => cases h3; exact plain rfl
  | some k =>
    dsimp only at h3
    split at h3
    · rcases verify_hmac_cases hH (startCtx text FKO_ENC_MODE_ASYMMETRIC ht) k text rfl rfl rfl rfl with
        e | ⟨body, c', e, hb, hbl, hb64, -, hver⟩
      · rw [e] at h3; cases h3
      · rw [e] at h3
        cases h3
        have hm : c3.encrypted_msg = some (restored true body) := hver.msg
        have hp : body <+: text := ⟨_, hb.symm⟩
        unfold gpgCipher at hc
        dsimp only at hc
        split at hc
        · have hl : (c3.setFlag FKO_CTX_INITIALIZED).encrypted_msg_len = (restored true body).length := hver.len
          have hlen := (restored_length true body).1
          obtain ⟨c', e, e2, -⟩ := add_gpg_eq (c3.setFlag FKO_CTX_INITIALIZED) (restored true body) hm hl (by omega)
            (restored_base64 true body hb64)
          rw [e] at hc
          dsimp only at hc
          rw [e2, restored_idem] at hc
          exact restored_cipher hp hc
        · rw [show (c3.setFlag FKO_CTX_INITIALIZED).encrypted_msg = _ from hm] at hc
          exact restored_cipher hp hc
    · cases h3; exact plain rfl

/-- The context before GnuPG is called. -/
theorem new_gpg_ctx {K : Crypto} (hH : K.H.Lawful) {text : Str} {mode : Int} {hk : Option Str} {ht : Int} {c : Ctx}
    (h : fko_new_with_data K text none mode hk ht = .ok c) :
    c.encryption_mode = mode ∧ (c.nat_access = none ∧ c.server_auth = none ∧ c.client_timeout = 0) ∧
      ∃ m, c.encrypted_msg = some m ∧ c.encrypted_msg_len = m.length ∧ 36 ≤ m.length := by
  rcases new_with_data_eq K text none mode hk ht with e | ⟨⟨h36, -⟩, e⟩
  · rw [e] at h; cases h
  rw [e] at h
  obtain ⟨c3, h3, h4⟩ := bind_eq_ok h
  cases h4
  cases hk with
  | none => cases h3; exact ⟨rfl, ⟨rfl, rfl, rfl⟩, text, rfl, rfl, h36⟩
  | some k =>
    dsimp only at h3
    split at h3
    · rcases verify_hmac_cases hH (startCtx text mode ht) k text rfl rfl rfl rfl with
        e | ⟨body, c', e, hb, hbl, hb64, -, hver⟩
      · rw [e] at h3; cases h3
      · rw [e] at h3
        cases h3
        have hlen := (restored_length (isGpgMode (startCtx text mode ht).encryption_mode) body).1
        exact ⟨hver.mode, ⟨hver.nat, hver.auth, hver.timeout⟩, _, hver.msg, hver.len, by omega⟩
    · cases h3; exact ⟨rfl, ⟨rfl, rfl, rfl⟩, text, rfl, rfl, h36⟩

theorem gpg_decrypt_eq {K : Crypto} {c : Ctx} {key m cipher pt : Str} (hm : c.encrypted_msg = some m)
    (hl : c.encrypted_msg_len = m.length) (h36 : 36 ≤ m.length) (hc : gpgCipher c = some cipher)
    (hp : K.gpgDec key cipher = some pt) (hlen : 36 ≤ (pt.takeWhile (· ≠ 0)).length ∧ (pt.takeWhile (· ≠ 0)).length < 1500) :
    ∃ c0 : Ctx, c0.encryption_type = c.encryption_type ∧ (c0.nat_access = c.nat_access ∧ c0.server_auth = c.server_auth ∧
      c0.client_timeout = c.client_timeout) ∧ gpg_decrypt K c key = fko_decode_spa_data K.H
      { c0 with encoded_msg := some (pt ++ [0]), encoded_msg_len := (pt.takeWhile (· ≠ 0)).length } := by
  have fin : ∀ c1 : Ctx, Base64.b64_decode (c1.encrypted_msg.getD []) = some cipher →
      (match Base64.b64_decode (c1.encrypted_msg.getD []) with
      | none => (.err : Res Ctx)
      | some cipher =>
        match K.gpgDec key cipher with
        | none => .err
        | some pt => do
          let n := min (pt.takeWhile (· ≠ 0)).length MAX_SPA_ENCODED_MSG_SIZE
          Res.guard (!is_valid_encoded_msg_len (n : Int))
          fko_decode_spa_data K.H { c1 with encoded_msg := some (pt ++ [0]), encoded_msg_len := n }) =
      fko_decode_spa_data K.H { c1 with encoded_msg := some (pt ++ [0]), encoded_msg_len := (pt.takeWhile (· ≠ 0)).length } := by
    intro c1 h1
    rw [h1]
    dsimp only
    rw [hp]
    dsimp only
    have hmin : min (pt.takeWhile (· ≠ 0)).length MAX_SPA_ENCODED_MSG_SIZE = (pt.takeWhile (· ≠ 0)).length := by
      simp only [MAX_SPA_ENCODED_MSG_SIZE]; omega
    rw [hmin]
    have hv : is_valid_encoded_msg_len (((pt.takeWhile (· ≠ 0)).length : Nat) : Int) = true := by
      unfold is_valid_encoded_msg_len; simp only [MIN_SPA_ENCODED_MSG_SIZE]; simp; simp at hlen; omega
    rw [hv]
    simp only [Bool.not_true, Res.guard_false, Res.bind_ok]
  unfold gpgCipher at hc
  dsimp only at hc
  unfold gpg_decrypt
  by_cases ha : (!c.added_gpg_prefix) = true
  · rw [if_pos ha] at hc ⊢
    cases hb : Base64.is_base64 m with
    | true =>
      obtain ⟨c', e, e2, e3, f, e4⟩ := add_gpg_eq c m hm hl (by omega) hb
      rw [e] at hc ⊢
      dsimp only at hc
      refine ⟨c', by rw [e4], by rw [e4]; exact ⟨rfl, rfl, rfl⟩, ?_⟩
      exact fin c' hc
    | false =>
      have e : add_gpg_prefix c = .err := by
        unfold add_gpg_prefix
        simp only [hm, hl, hb]
        rw [mem_of_not (by omega)]
        rfl
      rw [e] at hc ⊢
      exact ⟨c, rfl, ⟨rfl, rfl, rfl⟩, fin c hc⟩
  · rw [if_neg ha] at hc ⊢
    exact ⟨c, rfl, ⟨rfl, rfl, rfl⟩, fin c hc⟩

/-- With a key that is not of GnuPG, and in a mode for it, the context does not say GPG. -/
theorem keyed_not_gpg {K : Crypto} (hH : K.H.Lawful) {text key : Str} {mode : Int} {hk : Option Str} {ht : Int} {c : Ctx}
    (h : fko_new_with_data K text (some key) mode hk ht = .ok c) (hm : mode ≠ FKO_ENC_MODE_ASYMMETRIC) :
    c.encryption_type ≠ FKO_ENCRYPTION_GPG := by
  intro hty
  rcases new_with_data_eq K text (some key) mode hk ht with e | ⟨⟨h36, -⟩, e⟩
  · rw [e] at h; cases h
  rw [e] at h
  obtain ⟨c3, h3, h4⟩ := bind_eq_ok h
  have h5 := (decrypt_gpg_inv h4 hty).1
  have hmode : c3.encryption_mode = mode := by
    cases hk with
    | none => cases h3; rfl
    | some k =>
      dsimp only at h3
      split at h3
      · rcases verify_hmac_cases hH (startCtx text mode ht) k text rfl rfl rfl rfl with
          e | ⟨body, c', e, hb, hbl, hb64, -, hver⟩
        · rw [e] at h3; cases h3
        · rw [e] at h3
          cases h3
          exact hver.mode
      · cases h3; rfl
  exact hm (hmode.symm.trans h5)

/-- A stanza whose Rijndael mode is not that of GnuPG decrypts by GnuPG only with its settings for
it. -/
theorem authenticate_gpg {E : Env} (hH : E.K.H.Lawful) {acc : Stanza} {text : Str} {c : Ctx} (hk : KeysOk acc)
    (h : authenticate E acc text = .ok c) (hty : c.encryption_type = FKO_ENCRYPTION_GPG)
    (hm : acc.use_rijndael = false ∨ acc.encryption_mode ≠ FKO_ENC_MODE_ASYMMETRIC) :
    ∃ c1 cipher pt, fko_new_with_data E.K text none FKO_ENC_MODE_ASYMMETRIC acc.hmac_key acc.hmac_type = .ok c1 ∧
      gpgCipher c1 = some cipher ∧ E.gpgDec acc (acc.gpg_decrypt_pw.getD []) cipher = some pt ∧ SpelledBy E.K.H pt c ∧ acc.use_gpg = true := by
  have gpg : authGpg E acc text = .ok c → ∃ c1 cipher pt,
      fko_new_with_data E.K text none FKO_ENC_MODE_ASYMMETRIC acc.hmac_key acc.hmac_type = .ok c1 ∧
      gpgCipher c1 = some cipher ∧ E.gpgDec acc (acc.gpg_decrypt_pw.getD []) cipher = some pt ∧ SpelledBy E.K.H pt c ∧ acc.use_gpg = true := by
    intro h
    unfold authGpg at h
    split at h
    · rename_i hcond
      obtain ⟨c1, h1, h2⟩ := bind_eq_ok h
      obtain ⟨_, _, h3⟩ := bind_eq_ok h2
      obtain ⟨-, cipher, pt, h4, h5, h6⟩ := decrypt_gpg_inv h3 hty
      exact ⟨c1, cipher, pt, h1, h4, h5, h6, hcond.1⟩
    · cases h
  unfold authenticate at h
  split at h
  · rename_i htry
    have hr : acc.use_rijndael = true := by
      unfold triesRijndael at htry
      cases hu : acc.use_rijndael with
      | true => rfl
      | false => rw [hu] at htry; cases htry
    have hm' := hm.resolve_left (by rw [hr]; decide)
    split at h
    · cases h
    · rename_i c1 h1
      cases h
      cases hkey : acc.key with
      | none => exact absurd hkey (hk hr)
      | some k =>
        rw [hkey] at h1
        exact absurd hty (keyed_not_gpg (K := E.crypto acc) hH h1 hm')
    · exact gpg h
  · exact gpg h

/-- The settings for a stanza that requires signatures. -/
theorem gpgSettings_eq {G : Gpg} {acc : Stanza} {g : GpgCtx} (h : gpgSettings G acc = some g) :
    g.gpg_exe = acc.gpg_exe ∧ g.gpg_home_dir = acc.gpg_home_dir ∧ g.verify_gpg_sigs = acc.gpg_require_sig ∧
      g.ignore_gpg_sig_error = (!acc.gpg_require_sig || acc.gpg_ignore_sig_error) ∧
      (∀ e, acc.gpg_exe = some e → G.isFile e = true) ∧ (∀ d, acc.gpg_home_dir = some d → G.isDir d = true) := by
  have fin : ∀ g0 : GpgCtx, (if acc.gpg_require_sig then
      some { g0 with verify_gpg_sigs := true, ignore_gpg_sig_error := acc.gpg_ignore_sig_error }
      else some { g0 with verify_gpg_sigs := false, ignore_gpg_sig_error := true } : Option GpgCtx) = some g →
      g.gpg_exe = g0.gpg_exe ∧ g.gpg_home_dir = g0.gpg_home_dir ∧ g.verify_gpg_sigs = acc.gpg_require_sig ∧
      g.ignore_gpg_sig_error = (!acc.gpg_require_sig || acc.gpg_ignore_sig_error) := by
    intro g0 h0
    split at h0 <;> cases h0 <;> simp_all
  have home : ∀ g0 : GpgCtx, g0.gpg_home_dir = none → ((match acc.gpg_home_dir with
      | none => some g0
      | some d => fko_set_gpg_home_dir G g0 d) >>= fun g0 => (if acc.gpg_require_sig then
      some { g0 with verify_gpg_sigs := true, ignore_gpg_sig_error := acc.gpg_ignore_sig_error }
      else some { g0 with verify_gpg_sigs := false, ignore_gpg_sig_error := true } : Option GpgCtx)) = some g →
      g.gpg_exe = g0.gpg_exe ∧ g.gpg_home_dir = acc.gpg_home_dir ∧ g.verify_gpg_sigs = acc.gpg_require_sig ∧
      g.ignore_gpg_sig_error = (!acc.gpg_require_sig || acc.gpg_ignore_sig_error) ∧
      ∀ d, acc.gpg_home_dir = some d → G.isDir d = true := by
    intro g0 hn h0
    cases hd : acc.gpg_home_dir with
    | none =>
      rw [hd] at h0
      obtain ⟨a1, a2, a3, a4⟩ := fin g0 h0
      exact ⟨a1, a2.trans hn, a3, a4, fun _ h => by cases h⟩
    | some d =>
      rw [hd] at h0
      dsimp only [fko_set_gpg_home_dir] at h0
      cases hi : G.isDir d with
      | false => rw [hi] at h0; cases h0
      | true =>
        rw [hi] at h0
        obtain ⟨a1, a2, a3, a4⟩ := fin { g0 with gpg_home_dir := some d } h0
        exact ⟨a1, a2, a3, a4, fun _ h => by cases h; exact hi⟩
  unfold gpgSettings at h
  cases he : acc.gpg_exe with
  | none =>
    rw [he] at h
    obtain ⟨a1, a2, a3, a4, a5⟩ := home {} rfl h
    exact ⟨a1, a2, a3, a4, (fun _ h => by cases h), a5⟩
  | some e =>
    rw [he] at h
    dsimp only [fko_set_gpg_exe] at h
    cases hi : G.isFile e with
    | false => rw [hi] at h; cases h
    | true =>
      rw [hi] at h
      obtain ⟨a1, a2, a3, a4, a5⟩ := home { gpg_exe := some e } rfl h
      exact ⟨a1, a2, a3, a4, (fun _ h => by cases h; exact hi), a5⟩

theorem keepSigs_head (l : List GpgSig) : (keepSigs l).head? = l.head? := by
  rcases l with _ | ⟨s, _ | ⟨t, r⟩⟩ <;> rfl

/-- What a decryption with signatures required tells. -/
theorem gpgme_decrypt_verified {G : Gpg} {g g' : GpgCtx} {pw cipher pt : Str}
    (h : gpgme_decrypt G g pw cipher = some (pt, g')) (hv : g.verify_gpg_sigs = true) :
    ∃ r s, GpgSays G (g.gpg_exe.getD GPG_EXE) g.gpg_home_dir pw cipher r ∧ r.plain = pt ∧ r.sigs.head? = some s ∧
      g'.gpg_sigs.head? = some s ∧ g'.verify_gpg_sigs = true ∧ (g.ignore_gpg_sig_error = false → Vouched s) := by
  unfold gpgme_decrypt at h
  dsimp only at h
  split at h
  · cases h
  · split at h
    · cases h
    · rename_i r hr
      split at h
      · cases h
      · cases hp : process_sigs g r.sigs with
        | none => rw [hp] at h; cases h
        | some g1 =>
          rw [hp] at h
          obtain ⟨e1, e2⟩ := Prod.mk.inj (Option.some.inj h)
          subst e2
          unfold process_sigs at hp
          have hk := keepSigs_head r.sigs
          cases hks : keepSigs r.sigs with
          | nil => rw [hks] at hp; cases hp
          | cons s rest =>
            rw [hks] at hp hk
            dsimp only at hp
            refine ⟨r, s, hr, e1, hk.symm, ?_⟩
            split at hp
            · rename_i hi
              cases hp
              exact ⟨rfl, hv, fun h => by rw [hi] at h; cases h⟩
            · split at hp
              · cases hp
              · rename_i hn
                cases hp
                exact ⟨rfl, hv, fun _ => ⟨by omega, by omega⟩⟩

end Fwknop
