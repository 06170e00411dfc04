import Verif.Spec.GpgSend
import Verif.Lemmas.GpgSend
import Verif.Props.Knock
import Verif.Props.Gpg

/-!
# C115: a knock encrypted and signed by GnuPG

What GnuPG does is quoted: `K.gpgEnc` is the client's, `G` is the server's.
-/

namespace Fwknop.Props
open Fwknop Fwknop.Spec Fwknop.Res Fwknop.Base64

/-- The server reads the request from the text of the packet, and accepts the signature. -/
theorem gpg_read {K : Crypto} (hH : K.H.Lawful) {G : Gpg} {acc : Stanza} {pw : Str} (ha : GpgStanza acc pw) (hG : GpgThere G acc)
    {r : Request} (hr : r.WellFormed) {d : Int} (hd : 1 ≤ d ∧ d ≤ 7) {cipher : Str} (hu : Understands G acc pw cipher (r.signed K.H d))
    {text : Str} {c1 : Ctx} (h1 : fko_encryption_type text = FKO_ENCRYPTION_GPG)
    (h2 : fko_new_with_data K text none FKO_ENC_MODE_ASYMMETRIC acc.hmac_key acc.hmac_type = .ok c1)
    (h3 : fko_encryption_type (c1.encrypted_msg.getD []) = FKO_ENCRYPTION_GPG) (h4 : gpgCipher c1 = some cipher) :
    ∃ s, authenticate (gpgEnv K G) acc text = .ok s ∧ Carries s r ∧ handle_gpg_sigs (gpgEnv K G) acc text s = .ok () := by
  obtain ⟨rep, sig, u1, u2, u3, u4, u5⟩ := hu
  have hw := wire_length hr
  have hfl := fullText_length (r := r) hH d
  have hdr := b64DigestLen_range d
  rw [← fullText_signed hH] at u3
  have htk : (rep.plain.takeWhile (· ≠ 0)) = fullText K.H d r := by
    rw [u3]
    have hall : ∀ x ∈ fullText K.H d r, decide (x ≠ 0) = true := fun x hx => by
      have : x ≠ 0 := by
        rintro rfl
        unfold fullText at hx
        rcases List.mem_append.1 hx with hx | hx
        · exact wire_no_zero hr hx
        · rcases List.mem_cons.1 hx with hx | hx
          · cases hx
          · rw [digest_base64_eq hH] at hx
            exact (b64NoPad_no (hH.bytes _ _)).2 hx
      simpa using this
    have := List.takeWhile_append_of_pos (l₂ := []) hall
    simpa using this
  obtain ⟨⟨c0, q1, ⟨q2, q3, q4⟩, q5⟩, q6⟩ := C113_listed_signers_get_in hH (G := G) (r := rep) (s := sig) ha.gpg ha.no_key ha.pw ha.signed
    hG.exe hG.home hG.engine h2 h1 h3 h4 u1 u2 u4 u5.vouched u5.long u5.fpr u5.id (by rw [htk, hfl]; omega)
  obtain ⟨s, w1, w2, -⟩ := decode_wire hr hH d hd
    { c0 with encoded_msg := some (rep.plain ++ [0]), encoded_msg_len := (rep.plain.takeWhile (· ≠ 0)).length } [] (by
      rw [u3]; rfl) (by rw [htk]; rfl) q2 q3 q4
  rw [w1] at q5
  refine ⟨s, q5, w2, q6 s ?_⟩
  exact (decode_type _ _ _ w1).trans q1

/-- **C115** (partial: a message of GnuPG in the old packet format, between 301 octets and what fits a
packet).  Whatever request a context of the library carries: if GnuPG encrypts the request and its digest
to such a message, then the packet can be made; and a server with the same HMAC key, whose GnuPG decrypts
the message to the same text and finds first a signature that the stanza takes, reads the same request
from the packet and accepts the signature. -/
theorem C115_gpg_round_trip_partial {K : Crypto} (hH : K.H.Lawful) {r : Request} (hr : r.WellFormed)
    (c : Ctx) (hfresh : Fresh K.H c) (hc : Carries c r) (hd : 1 ≤ c.digest_type ∧ c.digest_type ≤ 7) (htype : c.encryption_type = 2)
    (salt : Str) (key hkey : Option Str) {cipher : Str}
    (henc : K.gpgEnc (key.getD []) (r.signed K.H c.digest_type) = some cipher) (hold : OldSessionKey cipher)
    (hmin : 301 ≤ cipher.length)
    (hmax : (b64NoPad cipher).length + (if c.hmac_type = 0 then 0 else b64DigestLen c.hmac_type) < 1500)
    (hcase : (c.hmac_type = 0 ∧ hkey = none) ∨
      ((1 ≤ c.hmac_type ∧ c.hmac_type ≤ 7) ∧ ∃ k, hkey = some k ∧ 1 ≤ k.length ∧ k.length ≤ 136)) :
    ∃ c' packet, fko_spa_data_final K salt c key hkey = .ok (true, c') ∧ fko_get_spa_data c' = some packet ∧
      SentText packet ∧ 400 ≤ packet.length ∧ packet.length < 1500 ∧
      ∀ (G : Gpg) (acc : Stanza) (pw : Str), GpgStanza acc pw → GpgThere G acc →
        acc.hmac_key = hkey → acc.hmac_type = c.hmac_type → Understands G acc pw cipher (r.signed K.H c.digest_type) →
        ∃ s, authenticate (gpgEnv K G) acc packet = .ok s ∧ Carries s r ∧ handle_gpg_sigs (gpgEnv K G) acc packet s = .ok () := by
  have hl := b64NoPad_length cipher
  obtain ⟨c', e1, g1, -, g2⟩ := gpg_final hH hr salt key c hc hd htype hfresh (by rw [fullText_signed hH]; exact henc) hold.1 hkey
    (by omega) (by omega) (by
      rcases hcase with h | ⟨h1, k, h2, h3, h4⟩
      · exact .inl h.1
      · exact .inr ⟨h1, k, h2, h4⟩)
  obtain ⟨k0, body, hk0, hsplit⟩ := gpg_split hold (by omega)
  have hres := gpg_restored hk0 body
  rw [← hsplit] at hres
  have hbl : (b64Char k0 :: body).length + 2 = (b64NoPad cipher).length := by rw [hsplit]; simp
  generalize htag : (if c.hmac_type = 0 then [] else tagOf K.H c.hmac_type (hkey.getD []) (b64NoPad cipher)) = tag at g2
  have htl : tag.length = if c.hmac_type = 0 then 0 else b64DigestLen c.hmac_type := by
    rw [← htag]
    split
    · rfl
    · exact tagOf_length hH _ _ _
  have htc : ∀ x ∈ tag, IsB64Char x := by
    rw [← htag]
    split
    · simp
    · intro x hx
      unfold tagOf at hx
      refine b64NoPad_chars _ ?_ x hx
      rw [← hmac_eq hH]
      exact hmac_bytes hH _ _ _
  refine ⟨c', (b64Char k0 :: body) ++ tag, e1, ?_, ⟨?_, ?_, ?_⟩, by simp at hbl ⊢; omega, by simp at hbl ⊢; omega, ?_⟩
  · unfold fko_get_spa_data
    rw [g2, hsplit]
    dsimp only
    rw [if_neg, if_neg (by rw [g1]; decide), if_pos g1]
    · rfl
    · have hm : min (B64_GPG_PREFIX ++ b64Char k0 :: body ++ tag).length MAX_SPA_ENCODED_MSG_SIZE
          = (b64NoPad cipher).length + tag.length := by
        simp only [MAX_SPA_ENCODED_MSG_SIZE, ← hsplit, List.length_append]
        omega
      rw [hm]
      unfold is_valid_encoded_msg_len; simp only [MIN_SPA_ENCODED_MSG_SIZE]; simp; omega
  · intro x hx
    rcases List.mem_append.1 hx with hx | hx
    · exact b64NoPad_chars _ hold.1 x (by rw [hsplit]; exact List.mem_append_right _ hx)
    · exact htc x hx
  · rw [List.cons_append, show B64_RIJNDAEL_SALT = 85 :: b!"2FsdGVkX1" from rfl, List.cons_prefix_cons]
    exact fun h => (gpg_first hk0).2 h.1.symm
  · rw [List.cons_append, show B64_GPG_PREFIX = 104 :: b!"Q" from rfl, List.cons_prefix_cons]
    exact fun h => (gpg_first hk0).1 h.1.symm
  · intro G acc pw ha hG hk1 hk2 hu
    obtain ⟨t1, c1, t2, t3, t4⟩ := gpg_received (K := K) hH hold.1 hsplit hres (by omega) (hkey := hkey) (ht := c.hmac_type)
      (tag := tag) (by omega) (by
        rcases hcase with h | ⟨h1, k, h2, h3, h4⟩
        · exact .inl ⟨by rw [← htag, if_pos h.1], h.2, by omega, by omega⟩
        · refine .inr ⟨h1, k, h2, h3, h4, ?_⟩
          rw [← htag, if_neg (by omega), h2]
          rfl)
    exact gpg_read hH ha hG hr hd hu t1 (by rw [hk1, hk2]; exact t2) t3 t4

/-! ## Other formats -/

/-- **C115.** Whatever the packet and the stanza (unless KEY is used in the mode for GnuPG): a request
that was decrypted by GnuPG came from a message whose base64 text begins with `hQ`, since that is what the
server puts in front of what it gets. -/
theorem C115_only_one_format_is_tried {E : Env} (hH : E.K.H.Lawful) {acc : Stanza} {text : Str} {c : Ctx} (hk : KeysOk acc)
    (hb : ∀ x ∈ text, IsB64Char x) (h : authenticate E acc text = .ok c) (hty : c.encryption_type = 2)
    (hm : acc.use_rijndael = false ∨ acc.encryption_mode ≠ 7) :
    ∃ cipher plain, E.gpgDec acc (acc.gpg_decrypt_pw.getD []) cipher = some plain ∧ SpelledBy E.K.H plain c ∧
      b!"hQ" <+: b64NoPad cipher := by
  obtain ⟨c1, cipher, pt, h1, h2, h3, h4, -⟩ := authenticate_gpg hH hk h hty hm
  exact ⟨cipher, pt, h3, h4, gpg_only_prefixed hH (is_base64_of hb) h1 h2⟩

/-- **C115 fails for other messages**: when the server's GnuPG understands only messages whose base64 text
does not begin with `hQ` (this is so for keys on Curve25519, whose messages begin 0x84 0x5E), no packet
whatever gets a request to a stanza that requires signatures and has no KEY. -/
theorem C115_other_formats_are_lost {K : Crypto} (hH : K.H.Lawful) {G : Gpg} {acc : Stanza} {text : Str} {c : Ctx} (hk : KeysOk acc)
    (hb : ∀ x ∈ text, IsB64Char x) (hr : acc.use_rijndael = false) (hreq : acc.gpg_require_sig = true)
    (hG : ∀ exe home cb cipher r, G.decrypt_verify exe home cb cipher = some r → ¬ b!"hQ" <+: b64NoPad cipher)
    (h : authenticate (gpgEnv K G) acc text = .ok c) : handle_gpg_sigs (gpgEnv K G) acc text c ≠ .ok () := by
  intro hs
  have hlong := long_is_gpg h (.inl hr)
  have hty : c.encryption_type = FKO_ENCRYPTION_GPG := by
    unfold handle_gpg_sigs at hs
    rw [if_pos ⟨hlong, hreq⟩] at hs
    split at hs
    · cases hs
    · rename_i ht
      exact Classical.byContradiction fun h => ht h
  obtain ⟨cipher, pt, h1, -, h3⟩ := C115_only_one_format_is_tried (E := gpgEnv K G) hH hk hb h hty (.inl hr)
  dsimp only [gpgEnv] at h1
  cases hg : gpgSettings G acc with
  | none => rw [hg] at h1; cases h1
  | some g =>
    rw [hg] at h1
    cases hd : gpgme_decrypt G g (acc.gpg_decrypt_pw.getD []) cipher with
    | none =>
      have : (none : Option Str) = some pt := by rw [← h1]; simp [Bind.bind, Option.bind, hd]
      cases this
    | some q =>
      cases hx : G.decrypt_verify (g.gpg_exe.getD GPG_EXE) g.gpg_home_dir (my_passphrase_cb (acc.gpg_decrypt_pw.getD [])) cipher with
      | none =>
        simp only [gpgme_decrypt, hx] at hd
        split at hd <;> cases hd
      | some r => exact hG _ _ _ _ _ hx h3

/-! ## From the command line -/

/-- What the client has when it finishes the packet. -/
theorem gpg_pack {K : Crypto} (hH : K.H.Lawful) {E : CliEnv} {o : CliOpts}
    (ho : OptsOk o) (hv : Valid o) (hrand : 16 ≤ E.rands.length ∧ 16 ≤ E.rands2.length)
    (hres : ∀ ip, E.resolved = some ip → IsText ip ∧ ip.length ≤ 15)
    (hcmd : o.server_command ≠ [] → o.nat_local = false ∧ o.nat_access_str = [] ∧ o.fw_timeout ≤ 0)
    (hgpg : o.use_gpg = true) {p : Packed} (h : clientPack K E o = .ok p) :
    ∃ r, Asks E o r ∧ ∀ t, fko_get_spa_data p.ctx = some t → FitsReceiver r → p.hmac ≠ some [] →
      ∃ cipher, K.gpgEnc p.key (r.signed K.H (if o.digest_type = 0 then 3 else o.digest_type)) = some cipher ∧
        (OldSessionKey cipher → 301 ≤ cipher.length →
          (b64NoPad cipher).length + (if p.hmac = none then 0 else b64DigestLen o.hmac_type) < 1500 →
          SentText t ∧ 400 ≤ t.length ∧ t.length < 1500 ∧ r.WellFormed ∧
          ∀ (G : Gpg) (acc : Stanza) (pw : Str), GpgStanza acc pw → GpgThere G acc →
            acc.hmac_key = p.hmac → acc.hmac_type = (if p.hmac = none then 0 else o.hmac_type) →
            Understands G acc pw cipher (r.signed K.H (if o.digest_type = 0 then 3 else o.digest_type)) →
            ∃ s, authenticate (gpgEnv K G) acc t = .ok s ∧ Carries s r ∧ handle_gpg_sigs (gpgEnv K G) acc t s = .ok ()) := by
  unfold clientPack at h
  obtain ⟨c, e1, h⟩ := Res.bind_eq_ok h
  obtain ⟨key, e2, h⟩ := Res.bind_eq_ok h
  obtain ⟨hk, e3, h⟩ := Res.bind_eq_ok h
  obtain ⟨c1, e4, h⟩ := Res.bind_eq_ok h
  obtain ⟨⟨b, c2⟩, e5, h⟩ := Res.bind_eq_ok h
  obtain ⟨_, g1, h⟩ := Res.bind_eq_ok h
  have g1 := guard_inv g1
  cases h
  have hbt : b = true := by simpa using g1
  subst hbt
  obtain ⟨r, hb⟩ := clientCtx_built ho hrand.1 hrand.2 hres hcmd e1
  refine ⟨r, hb.asks, ?_⟩
  intro t ht hfit hne
  simp only at ht hne ⊢
  obtain ⟨-, st, hc1⟩ := useHmac_rec e4
  have hwf := built_wellFormed ho hres hcmd hb hfit
  have hct : r.timeout = if o.fw_timeout ≥ 0 then o.fw_timeout.toNat else 0 := by
    rw [hb.asks.timeout]
    by_cases h1 : o.fw_timeout > 0
    · rw [if_pos h1, if_pos (by omega)]
    · rw [if_neg h1]
      split
      · omega
      · rfl
  let d : Ctx := { c1 with message_type := askedType o }
  have hmt : hk.isSome = true → 1 ≤ o.hmac_type := by
    intro hsm
    have hu : o.use_hmac = true := by
      unfold getHmacKey at e3
      split at e3
      · rename_i hq; exact ho.use_hmac (.inl hq)
      · split at e3
        · rename_i hq; exact ho.use_hmac (.inr hq)
        · split at e3
          · rename_i hq; exact hq
          · cases e3; cases hsm
    have := hv.hmac hu
    have := ho.hmac_type.1
    omega
  have hht : c1.hmac_type = if hk = none then 0 else o.hmac_type := by
    rw [hc1]
    show (if hk.isSome then o.hmac_type else c.hmac_type) = _
    cases hk with
    | none => exact hb.hmac
    | some k => rfl
  have hdt : c1.digest_type = if o.digest_type = 0 then 3 else o.digest_type := by
    rw [hc1]
    show c.digest_type = _
    rw [hb.digest]
    by_cases h0 : o.digest_type = 0 <;> simp [h0]
  have henc : c1.encryption_type = 2 := by
    rw [hc1]
    show c.encryption_type = _
    rw [hb.enc, hgpg]
    rfl
  have hcar : Carries d r := by
    refine ⟨?_, ?_, ?_, ?_, ?_, ?_, ?_, ?_, ?_⟩
    · show c1.rand_val = _; rw [hc1]; exact hb.rand
    · show c1.username = _; rw [hc1]; exact hb.user.1
    · show c1.timestamp = _; rw [hc1]; exact hb.ts
    · show c1.version = _; rw [hc1]; exact hb.version
    · show ((askedType o : Nat) : Int) = _; rw [hb.asks.type]
    · show c1.message = _; rw [hc1]; exact hb.msg.1
    · show c1.nat_access = _; rw [hc1]; exact hb.nat.1
    · show c1.server_auth = _; rw [hc1, hb.asks.auth]; exact hb.auth
    · show c1.client_timeout = _; rw [hc1, hct]; exact hb.timeout
  have hrv : c1.rand_val.isSome = true := by
    rw [hc1]
    show c.rand_val.isSome = true
    rw [hb.rand]; rfl
  have hem : c1.encoded_msg = none := by rw [hc1]; exact hb.encoded
  have hf1 : Fresh K.H c1 := ⟨hrv, .inl hem⟩
  have hfd : Fresh K.H d := ⟨hrv, .inl hem⟩
  obtain ⟨-, l2⟩ := final_limits hH hf1 e5
  have hvals : { c1 with message_type := timeoutType c1.message_type c1.client_timeout : Ctx }.values
      = { d with message_type := timeoutType d.message_type d.client_timeout : Ctx }.values := by
    have q1 : timeoutType c1.message_type c1.client_timeout = askedType o := by
      rw [hc1]
      show timeoutType c.message_type c.client_timeout = _
      rw [hb.type, hb.timeout]
      exact ctxType_norm hcmd
    have q2 : timeoutType d.message_type d.client_timeout = askedType o := by
      show timeoutType (askedType o) c1.client_timeout = askedType o
      rw [← q1, timeoutType_idem]
    rw [q1, q2]
  have hdd : 1 ≤ d.digest_type ∧ d.digest_type ≤ 7 := by
    show 1 ≤ c1.digest_type ∧ c1.digest_type ≤ 7
    rw [hdt]
    have := ho.digest
    split <;> omega
  have hdd' : d.digest_type = if o.digest_type = 0 then 3 else o.digest_type := hdt
  obtain ⟨cipher, hcip⟩ := gpg_final_inv hH hwf hf1 hcar hdd henc hvals hfd e5
  rw [fullText_signed hH] at hcip
  refine ⟨cipher, by rw [← hdd']; exact hcip, ?_⟩
  intro hold hmin hmax
  cases hhk : hk with
  | none =>
    rw [hhk] at hht hmax
    simp only [if_true] at hht hmax
    obtain ⟨d', pk, r1, r2, r3, r4, r5, r6⟩ := C115_gpg_round_trip_partial hH hwf d hfd hcar hdd henc E.salt (some (usedKey o key)) none
      hcip hold hmin (by rw [show d.hmac_type = 0 from hht]; exact hmax) (.inl ⟨hht, rfl⟩)
    have r1' := final_no_hmac hH (some (hk.getD [])) hfd hht r1
    have := final_det_norm hH hf1 hfd hvals e5 r1'
    rw [ht, r2] at this
    cases this
    refine ⟨r3, r4, r5, hwf, fun G acc pw a1 a2 a3 a4 a5 => r6 G acc pw a1 a2 a3 ?_ (by rw [hdd']; exact a5)⟩
    rw [a4]
    exact hht.symm
  | some k =>
    have hmt := hmt (by rw [hhk]; rfl)
    rw [hhk] at hht hmax hne
    simp only [reduceCtorEq, if_false] at hht hmax
    have hk0 : k ≠ [] := fun hk0 => hne (by rw [hk0])
    obtain ⟨w1, k', w2, w3⟩ := l2 (by rw [hht]; omega)
    rw [hhk] at w2
    cases w2
    have hht' : d.hmac_type = o.hmac_type := hht
    obtain ⟨d', pk, r1, r2, r3, r4, r5, r6⟩ := C115_gpg_round_trip_partial hH hwf d hfd hcar hdd henc E.salt (some (usedKey o key)) (some k)
      hcip hold hmin (by rw [hht', if_neg (by omega)]; exact hmax) (.inr ⟨w1, k, rfl, by
        have := List.length_pos_iff.2 hk0
        omega, w3⟩)
    rw [hhk] at e5
    have := final_det_norm hH hf1 hfd hvals e5 r1
    rw [ht, r2] at this
    cases this
    refine ⟨r3, r4, r5, hwf, fun G acc pw a1 a2 a3 a4 a5 => r6 G acc pw a1 a2 a3 ?_ (by rw [hdd']; exact a5)⟩
    rw [a4, hht']
    simp

/-- Fingerprints have at least eight digits. -/
theorem fingerprints_long {K : Crypto} {G : Gpg}
    (hfp : ∀ exe home cb cipher r, G.decrypt_verify exe home cb cipher = some r → ∀ s ∈ r.sigs, 8 ≤ s.fpr.length) (acc : Stanza)
    (text fpr : Str) (h : (gpgEnv K G).gpgSig acc text = some fpr) : 8 ≤ fpr.length := by
  dsimp only [gpgEnv] at h
  split at h
  · rename_i c hc
    cases hgc : gpgCipher c with
    | none => rw [hgc] at h; cases h
    | some cipher =>
      cases hg : gpgSettings G acc with
      | none => rw [hgc, hg] at h; cases h
      | some g =>
        cases hd : gpgme_decrypt G g (acc.gpg_decrypt_pw.getD []) cipher with
        | none => rw [hgc, hg] at h; simp [Bind.bind, Option.bind, hd] at h
        | some q =>
          obtain ⟨pt, g'⟩ := q
          have h : fko_get_gpg_signature_fpr g' = some fpr := by
            rw [← h, hgc, hg]; simp [Bind.bind, Option.bind, hd]
          have hv : g'.verify_gpg_sigs = g.verify_gpg_sigs := by
            unfold gpgme_decrypt at hd
            dsimp only at hd
            split at hd
            · cases hd
            · split at hd
              · cases hd
              · split at hd
                · cases hd
                · split at hd
                  · split at hd
                    · cases hd
                    · rename_i hp
                      cases hd
                      unfold process_sigs at hp
                      dsimp only at hp
                      repeat' split at hp
                      all_goals first | (cases hp; done) | (cases hp; rfl)
                  · cases hd; rfl
          have hvt : g.verify_gpg_sigs = true := by
            unfold fko_get_gpg_signature_fpr at h
            rw [hv] at h
            cases hgv : g.verify_gpg_sigs with
            | true => rfl
            | false => rw [hgv] at h; cases h
          obtain ⟨r, s, r1, r2, r3, r4, r5, -⟩ := gpgme_decrypt_verified hd hvt
          have : fpr = s.fpr := by
            unfold fko_get_gpg_signature_fpr at h
            simp [r4, r5] at h
            exact h.symm
          rw [this]
          refine hfp _ _ _ _ _ r1 s ?_
          cases hs : r.sigs with
          | nil => rw [hs] at r3; cases r3
          | cons a b => rw [hs] at r3; cases r3; simp
  · cases h

/-- **C115** (partial: an access request, a message of GnuPG in the old packet format between 301 octets
and what fits a packet, fields that fit the receiver's limits, a non-empty HMAC key, the server's clock
before 2038, and a server whose stanzas stay inside memory and whose replay cache file can be opened).
Whatever command line the client is given, GnuPG is given the request and its digest.  If a stanza of the
server is for GnuPG and requires signatures, has the client's HMAC key and type, expects the request and
opens the ports to it, the server's GnuPG understands the message and finds first a signature that the
stanza takes, and no stanza in front of it decodes the packet, then the packet, when it arrives and is not
in the replay cache, has exactly one effect: the stanza grants access to the address the client asked for,
to the ports the client asked for, for the time the client asked for (up to the stanza's limit). -/
theorem C115_gpg_knock_is_answered_partial {K : Crypto} (hH : K.H.Lawful) (hbc : K.bc.Lawful) {CE : CliEnv}
    {args : List CliArg} (htext : ∀ a ∈ args, IsText (argText a))
    (hrand : 16 ≤ CE.rands.length ∧ 16 ≤ CE.rands2.length)
    (hres : ∀ ip, CE.resolved = some ip → IsIPv4 ip)
    (hcmd : (given argCommand args).getD [] = []) (hgpg : args.any asksGpg = true)
    {p : Packed} {t : Str} (h : client K CE {} args = .ok (p, t)) :
    ∃ o o' r ip port ports ps, Meant args o ∧ Settled o o' ∧ Asks CE o' r ∧ AskedIp CE o' ip ∧
      AskedNatPort CE o' port ∧ AskedPorts o'.access_str port ports ∧
      r.msg = ip ++ 44 :: ports ∧ IsIPv4 ip ∧ RequestPorts ports ps ∧
      (FitsReceiver r → p.hmac ≠ some [] →
        ∃ cipher, K.gpgEnc p.key (r.signed K.H (if o'.digest_type = 0 then 3 else o'.digest_type)) = some cipher ∧
        (OldSessionKey cipher → 301 ≤ cipher.length →
          (b64NoPad cipher).length + (if p.hmac = none then 0 else b64DigestLen o'.hmac_type) < 1500 →
        ∀ (G : Gpg) (conf : Conf) (now : Int) (pkt : Pkt) (open_ok : Nat → Bool) (sv : Server) (n : Nat) (acc : Stanza) (pw : Str),
          (∀ exe home cb cipher r, G.decrypt_verify exe home cb cipher = some r → ∀ s ∈ r.sigs, 8 ≤ s.fpr.length) →
          Holds pkt t → conf.test = false → (0 ≤ now ∧ now < 2 ^ 31) → (∀ n, open_ok n = true) →
          (∀ a ∈ sv.stanzas, StanzaSafe a ∧ ClosingBuilds a) →
          (conf.persistence = true → ∀ e ∈ sv.cache, e.length = 43 ∧ e ≠ b64NoPad (K.H 3 t)) →
          1 ≤ n → stanzaAt sv.stanzas n = some acc → GpgStanza acc pw → GpgThere G acc →
          acc.hmac_key = p.hmac → acc.hmac_type = (if p.hmac = none then 0 else o'.hmac_type) →
          Understands G acc pw cipher (r.signed K.H (if o'.digest_type = 0 then 3 else o'.digest_type)) →
          Expects conf now pkt.src_ip pkt.dst_ip acc r ip → OpenTo acc ps →
          (0 ≤ acc.max_fw_timeout ∧ acc.max_fw_timeout < 2 ^ 31) →
          (∀ m a, 1 ≤ m → m < n → stanzaAt sv.stanzas m = some a →
            ¬ AddressesOk a pkt.src_ip pkt.dst_ip ∨ Expired a now ∨ ∀ c, authenticate (gpgEnv K G) a t ≠ .ok c) →
          ∃ sv' sp, incoming_spa conf (gpgEnv K G) now pkt open_ok sv = .ok (sv', [.access n acc sp]) ∧
            sp.use_src_ip = grantee (inet_ntop pkt.src_ip) [] ip ∧ sp.spa_message_remain = ports ∧
            sp.message_type = r.type ∧ sp.nat_access = r.nat ∧ sp.pkt_destination_ip = inet_ntop pkt.dst_ip ∧
            (sp.fw_access_timeout : Int) = timeFor acc r.timeout)) := by
  unfold client at h
  obtain ⟨o, e1, h⟩ := Res.bind_eq_ok h
  obtain ⟨o', e2, h⟩ := Res.bind_eq_ok h
  obtain ⟨p', e3, h⟩ := Res.bind_eq_ok h
  obtain ⟨t', e4, h⟩ := Res.bind_eq_ok h
  cases h
  have hm := args_meant e1
  have ho := optsOk_args htext e1 optsOk_default
  obtain ⟨hv, e⟩ := validate_rec e2
  have hsrc : o'.spoof_ip_src_str.length ≤ 15 := by
    rw [e]
    show o.spoof_ip_src_str.length ≤ 15
    exact source_short hm
  have hchk := valid_checked (optsOk_valid e2 ho) hsrc hv
  have hset := validate_settled ho e2
  obtain ⟨r, hask, hall⟩ := gpg_pack hH (optsOk_valid e2 ho) hv hrand
    (fun ip h => ⟨ipv4_text (hres ip h), (isIPv4_length (hres ip h)).2⟩) (by
      rw [e]
      show o.server_command ≠ [] → _
      rw [hm.command, hcmd]
      exact fun hc => absurd rfl hc) (by rw [e]; show o.use_gpg = true; rw [hm.use_gpg, hgpg]) e3
  obtain ⟨hsc, ip, port, ports, ps, hip1, hport, hports, hmsg, hip, hps, hlen⟩ := asked_access hres hcmd hm hset hchk hask
  refine ⟨o, o', r, ip, port, ports, ps, hm, hset, hask, hip1, hport, hports, hmsg, hip, hps, ?_⟩
  intro f1 f2
  obtain ⟨cipher, hcip, hall⟩ := hall t (ofOpt_ok e4) f1 f2
  refine ⟨cipher, hcip, ?_⟩
  intro hold hmin hmax G conf now pkt open_ok sv n acc pw hfp g1 g2 g3 g4 g5 g6 g7 g8 a1 a2 a3 a4 a5 g10 g11 g12 g13
  obtain ⟨r1, r2, r3, r4, r5⟩ := hall hold hmin hmax
  obtain ⟨s, ha1, h6, ha2⟩ := r5 G acc pw a1 a2 a3 a4 a5
  have htype : r.type ≠ 0 := by
    rw [hask.type]
    unfold askedType
    rw [if_neg (by simp [hsc])]
    repeat' split
    all_goals omega
  obtain ⟨sv', hsv⟩ := answered (E := gpgEnv K G) hH hbc (fingerprints_long hfp) r1 (by omega) r3 g1 g2 g3 g4 g5 g6 g7 g8 ha1 ha2 h6
    hmsg hip hps htype g10 g11 g13
  refine ⟨sv', _, hsv, rfl, rfl, h6.2.2.2.2.1, h6.2.2.2.2.2.2.1, rfl, ?_⟩
  have := set_timeout_eq acc s g12
  show (set_timeout acc s.client_timeout : Int) = _
  rw [this]
  unfold grantedTime timeFor
  rw [h6.2.2.2.2.2.2.2.2]

/-- **C115** (partial, as above, for a command without NAT and timeout, and a stanza without sudo).  The
packet that asks for a command has exactly one effect: that very command is run, as the user that the
stanza names. -/
theorem C115_gpg_command_is_run_partial {K : Crypto} (hH : K.H.Lawful) (hbc : K.bc.Lawful) {CE : CliEnv}
    {args : List CliArg} (htext : ∀ a ∈ args, IsText (argText a))
    (hrand : 16 ≤ CE.rands.length ∧ 16 ≤ CE.rands2.length)
    (hres : ∀ ip, CE.resolved = some ip → IsIPv4 ip)
    {cmd : Str} (hcmd : given argCommand args = some cmd) (hne : cmd ≠ [])
    (hplain : CliArg.nat_local ∉ args ∧ given argNat args = none ∧ given argTimeout args = none)
    (hgpg : args.any asksGpg = true)
    {p : Packed} {t : Str} (h : client K CE {} args = .ok (p, t)) :
    ∃ o o' r ip, Meant args o ∧ Settled o o' ∧ Asks CE o' r ∧ ip = o'.allow_ip_str ∧ r.msg = ip ++ 44 :: cmd ∧
      (FitsReceiver r → p.hmac ≠ some [] →
        ∃ cipher, K.gpgEnc p.key (r.signed K.H (if o'.digest_type = 0 then 3 else o'.digest_type)) = some cipher ∧
        (OldSessionKey cipher → 301 ≤ cipher.length →
          (b64NoPad cipher).length + (if p.hmac = none then 0 else b64DigestLen o'.hmac_type) < 1500 →
        ∀ (G : Gpg) (conf : Conf) (now : Int) (pkt : Pkt) (open_ok : Nat → Bool) (sv : Server) (n : Nat) (acc : Stanza) (pw : Str),
          (∀ exe home cb cipher r, G.decrypt_verify exe home cb cipher = some r → ∀ s ∈ r.sigs, 8 ≤ s.fpr.length) →
          Holds pkt t → conf.test = false → (0 ≤ now ∧ now < 2 ^ 31) → (∀ n, open_ok n = true) →
          (∀ a ∈ sv.stanzas, StanzaSafe a ∧ ClosingBuilds a) →
          (conf.persistence = true → ∀ e ∈ sv.cache, e.length = 43 ∧ e ≠ b64NoPad (K.H 3 t)) →
          1 ≤ n → stanzaAt sv.stanzas n = some acc → GpgStanza acc pw → GpgThere G acc →
          acc.hmac_key = p.hmac → acc.hmac_type = (if p.hmac = none then 0 else o'.hmac_type) →
          Understands G acc pw cipher (r.signed K.H (if o'.digest_type = 0 then 3 else o'.digest_type)) →
          Expects conf now pkt.src_ip pkt.dst_ip acc r ip → acc.enable_cmd_exec = true → acc.enable_cmd_sudo_exec = false →
          (∀ m a, 1 ≤ m → m < n → stanzaAt sv.stanzas m = some a →
            ¬ AddressesOk a pkt.src_ip pkt.dst_ip ∨ Expired a now ∨ ∀ c, authenticate (gpgEnv K G) a t ≠ .ok c) →
          IsIPv4 ip ∧ ∃ sv' ids, incoming_spa conf (gpgEnv K G) now pkt open_ok sv = .ok (sv', [.command n cmd ids]) ∧
            (∀ u, acc.cmd_exec_user = some u → ¬ IsRoot u → ids = some (acc.cmd_exec_uid, acc.cmd_exec_gid)) ∧
            (acc.cmd_exec_user = none → ids = none))) := by
  unfold client at h
  obtain ⟨o, e1, h⟩ := Res.bind_eq_ok h
  obtain ⟨o', e2, h⟩ := Res.bind_eq_ok h
  obtain ⟨p', e3, h⟩ := Res.bind_eq_ok h
  obtain ⟨t', e4, h⟩ := Res.bind_eq_ok h
  cases h
  have hm := args_meant e1
  have ho := optsOk_args htext e1 optsOk_default
  obtain ⟨hv, e⟩ := validate_rec e2
  have hsrc : o'.spoof_ip_src_str.length ≤ 15 := by
    rw [e]
    show o.spoof_ip_src_str.length ≤ 15
    exact source_short hm
  have hchk := valid_checked (optsOk_valid e2 ho) hsrc hv
  have hset := validate_settled ho e2
  obtain ⟨r, hask, hall⟩ := gpg_pack hH (optsOk_valid e2 ho) hv hrand
    (fun ip h => ⟨ipv4_text (hres ip h), (isIPv4_length (hres ip h)).2⟩) (by
      rw [e]
      show o.server_command ≠ [] → o.nat_local = false ∧ o.nat_access_str = [] ∧ o.fw_timeout ≤ 0
      rw [hm.nat_local, hm.nat]
      intro _
      obtain ⟨h1, h2, h3⟩ := hplain
      refine ⟨by simpa using h1, by rw [h2]; rfl, ?_⟩
      rw [hm.timeout.1 h3]
      decide) (by rw [e]; show o.use_gpg = true; rw [hm.use_gpg, hgpg]) e3
  have hsc : o'.server_command = cmd := by
    have := congrArg CliOpts.server_command hset.same
    rw [← this]
    show o.server_command = cmd
    rw [hm.command, hcmd]
    rfl
  have hmsg := hask.command (by rw [hsc]; exact hne)
  rw [hsc] at hmsg
  refine ⟨o, o', r, _, hm, hset, hask, rfl, hmsg, ?_⟩
  intro f1 f2
  obtain ⟨cipher, hcip, hall⟩ := hall t (ofOpt_ok e4) f1 f2
  refine ⟨cipher, hcip, ?_⟩
  intro hold hmin hmax G conf now pkt open_ok sv n acc pw hfp g1 g2 g3 g4 g5 g6 g7 g8 a1 a2 a3 a4 a5 g10 g11 g12 g13
  obtain ⟨r1, r2, r3, r4, r5⟩ := hall hold hmin hmax
  obtain ⟨s, ha1, h6, ha2⟩ := r5 G acc pw a1 a2 a3 a4 a5
  have htype : r.type = 0 := by
    rw [hask.type]
    unfold askedType
    rw [if_pos (by rw [hsc]; exact hne)]
  obtain ⟨ip', rest', i1, -, i2, -⟩ := r4.msg_cmd htype
  rw [hmsg] at i2
  have hip : IsIPv4 o'.allow_ip_str := asked_command hchk.allow i1 i2
  have hlen := r4.msg_len
  rw [hmsg] at hlen
  simp only [List.length_append, List.length_cons] at hlen
  obtain ⟨sv', hsv⟩ := answered_command (E := gpgEnv K G) hH hbc (fingerprints_long hfp) r1 (by omega) r3 g1 g2 g3 g4 g5 g6 g7 g8 ha1 ha2
    h6 hmsg hip htype g10 g11 g12 (by omega) g13
  exact ⟨hip, sv', _, hsv, cmdIds_spec acc⟩

/-! ## A world with GnuPG on both sides -/

/-- The client's GnuPG: a packet with these first octets, the text, and some more octets. -/
def gpgClient (a b : Nat) : Crypto :=
  { toyCrypto with gpgEnc := fun _ p => some (a :: b :: 4 :: p ++ List.replicate 300 9) }

/-- The server's GnuPG, which understands those messages, and finds these signatures. -/
def gpgServer (a b : Nat) (sigs : List GpgSig) : Gpg where
  engine exe home := exe = GPG_EXE ∧ home = some b!"/root/.gnupg"
  decrypt_verify _ _ cb cipher :=
    if cb false = some b!"secret\n" ∧ cb true = none ∧ cipher.take 3 = [a, b, 4] then
      some { plain := (cipher.drop 3).take (cipher.length - 303), sigs := sigs }
    else none
  isFile _ := false
  isDir d := d = b!"/root/.gnupg"

/-- `fwknop -A tcp/22 -a 5.6.7.8 -D spa.example.org --gpg-recipient-key ABCD1234`. -/
def gpgArgs : List CliArg :=
  [.access b!"tcp/22", .allow_ip b!"5.6.7.8", .destination b!"spa.example.org", .gpg_recipient b!"ABCD1234"]

/-- What the packet of a command line does to a server with another stanza in front. -/
def gpgKnock (a b : Nat) (sigs : List GpgSig) (acc : Stanza) (args : List CliArg) : Res (List Granted) := do
  let x ← client (gpgClient a b) cliEnv {} args
  let y ← incoming_spa {} (gpgEnv (gpgClient a b) (gpgServer a b sigs)) 1700000010 (samplePkt x.2) (fun _ => true) (knockServer acc)
  return y.2.filterMap fun
    | .access n _ sp => some ⟨n, sp.use_src_ip, sp.spa_message_remain, sp.message_type, sp.nat_access, sp.fw_access_timeout⟩
    | _ => none

/-- With RSA keys a knock is answered if the signer is listed (and, with an HMAC key, if the keys are the
same); not if the signer is another one. -/
example : gpgKnock 0x85 1 [⟨0, 0, 3, listedFpr⟩] gpgStanza gpgArgs = .ok [⟨2, b!"5.6.7.8", b!"tcp/22", 1, none, 30⟩] ∧
    gpgKnock 0x85 1 [⟨0, 0, 3, otherFpr⟩] gpgStanza gpgArgs = .ok [] ∧
    gpgKnock 0x85 1 [⟨0, 0, 3, listedFpr⟩] { gpgStanza with hmac_key := some b!"hmac key", hmac_type := 3, max_fw_timeout := 300 }
      (gpgArgs ++ [.hmac_key b!"hmac key", .fw_timeout b!"60"]) = .ok [⟨2, b!"5.6.7.8", b!"tcp/22", 3, none, 60⟩] ∧
    gpgKnock 0x85 1 [⟨0, 0, 3, listedFpr⟩] { gpgStanza with hmac_key := some b!"other key", hmac_type := 3 }
      (gpgArgs ++ [.hmac_key b!"hmac key"]) = .ok [] := by
  decide +kernel

/-- **C115 fails for keys on Curve25519**: the messages begin 0x84 0x5E; the client makes and sends the
packet, with its first two characters cut off, the server puts `hQ` in front of the rest, and its GnuPG,
which would understand the message, is not given it. -/
theorem C115_curve25519_is_lost :
    isErr (client (gpgClient 0x84 0x5E) cliEnv {} gpgArgs) = false ∧
    gpgKnock 0x84 0x5E [⟨0, 0, 3, listedFpr⟩] gpgStanza gpgArgs = .ok [] := by
  decide +kernel

/-- The hypotheses of `C115_gpg_knock_is_answered_partial` are met by the sample. -/
example : GpgStanza gpgStanza b!"secret" := ⟨rfl, rfl, rfl, rfl⟩

example : GpgThere (gpgServer 0x85 1 [⟨0, 0, 3, listedFpr⟩]) gpgStanza := ⟨nofun, fun d h => by cases h; decide, by decide⟩

example (plain : Str) (hb : IsBytes plain) (hl : 1 ≤ plain.length) :
    ∃ cipher, (gpgClient 0x85 1).gpgEnc [] plain = some cipher ∧ OldSessionKey cipher ∧ 301 ≤ cipher.length ∧
      Understands (gpgServer 0x85 1 [⟨0, 0, 3, listedFpr⟩]) gpgStanza b!"secret" cipher plain := by
  have hlen : (plain ++ List.replicate 300 9).length = plain.length + 300 := by
    rw [List.length_append, List.length_replicate]
  refine ⟨0x85 :: 1 :: 4 :: (plain ++ List.replicate 300 9), rfl, ⟨?_, 1, 4, plain ++ List.replicate 300 9, rfl, by omega⟩,
    by simp only [List.length_cons]; omega, ⟨plain, false, [⟨0, 0, 3, listedFpr⟩]⟩, ⟨0, 0, 3, listedFpr⟩, ?_, rfl, rfl, rfl,
    ⟨⟨rfl, by decide⟩, by decide, .inl rfl, .inr (by decide)⟩⟩
  · intro x hx
    simp only [List.mem_cons, List.mem_append, List.mem_replicate] at hx
    rcases hx with rfl | rfl | rfl | hx | ⟨-, rfl⟩
    · decide
    · decide
    · decide
    · exact hb x hx
    · decide
  · unfold GpgSays gpgServer
    dsimp only
    rw [if_pos ⟨by decide, by decide, rfl⟩]
    have : (0x85 :: 1 :: 4 :: (plain ++ List.replicate 300 9)).length - 303 = plain.length := by
      simp only [List.length_cons]; omega
    have h2 : List.take plain.length (List.drop 3 (0x85 :: 1 :: 4 :: (plain ++ List.replicate 300 9))) = plain := List.take_left
    rw [this, h2]

example : KeysOk gpgStanza ∧ ∀ exe home cb cipher r, (gpgServer 0x84 0x5E [⟨0, 0, 3, listedFpr⟩]).decrypt_verify exe home cb cipher = some r →
    ¬ b!"hQ" <+: b64NoPad cipher := by
  refine ⟨?_, ?_⟩
  · unfold KeysOk; decide
  · intro exe home cb cipher r h
    dsimp only [gpgServer] at h
    split at h
    · rename_i hc
      obtain ⟨-, -, hc⟩ := hc
      have : cipher = 0x84 :: 0x5E :: 4 :: cipher.drop 3 := by
        rw [← List.take_append_drop 3 cipher, hc]; rfl
      rw [this]
      intro ⟨w, hw⟩
      have := congrArg (List.take 2) hw
      simp [b64NoPad] at this
      revert this
      decide
    · cases h

end Fwknop.Props
