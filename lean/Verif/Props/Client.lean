import Verif.Lemmas.ClientSafe
import Verif.Props.Incoming

/-!
# C86-C90: the client
-/

namespace Fwknop.Props
open Fwknop Fwknop.Spec Fwknop.Res Fwknop.Base64

/-! ## A running example -/

/-- What the sample client finds outside. -/
def cliEnv : CliEnv :=
  { rands := List.replicate 16 7, rands2 := List.replicate 16 5, user := b!"mbr", now := 1700000000, salt := b!"saltsalt" }

/-- `fwknop -A tcp/23 -a 5.6.7.8 -D spa.example.org --key-rijndael key -A tcp/22 --key-hmac "hmac key"`. -/
def cliArgs : List CliArg :=
  [.access b!"tcp/23", .allow_ip b!"5.6.7.8", .destination b!"spa.example.org", .key b!"key", .access b!"tcp/22",
   .hmac_key b!"hmac key"]

/-- What a server with the given keys reads from the packet of a command line: message, NAT target,
type and timeout. -/
def serverReads (args : List CliArg) (mode hmac_type : Int) : Res (Option Str × Option Str × Int × Nat) := do
  let r ← client toyCrypto cliEnv {} args
  let s ← fko_new_with_data toyCrypto r.2 (some r.1.key) mode r.1.hmac hmac_type
  return (s.message, s.nat_access, s.message_type, s.client_timeout)

/-- The length of the packet of a command line. -/
def packetLength (args : List CliArg) : Res Nat := do
  let r ← client toyCrypto cliEnv {} args
  return r.2.length

/-- Whether a computation is undefined, and whether it is refused. -/
def isUb {α : Type} : Res α → Bool
  | .ub => true
  | _ => false

def isErr {α : Type} : Res α → Bool
  | .err => true
  | _ => false

theorem ub_of {α : Type} {r : Res α} (h : isUb r = true) : r = .ub := by cases r <;> first | rfl | cases h
theorem err_of {α : Type} {r : Res α} (h : isErr r = true) : r = .err := by cases r <;> first | rfl | cases h

/-! ## C87: what a command line means -/

/-- **C87** (part): the options of a command line: of several of a kind the last one counts, no option
changes what another kind sets, an unknown name or a number outside its range is refused, and what
was not given has its default.  What is missing: addresses and time offsets that are taken for others
(`C87_values_are_bent`). -/
theorem C87_last_option_wins_partial {args : List CliArg} {o : CliOpts} (h : applyArgs {} args = .ok o) : Meant args o :=
  args_meant h

example : ∃ o, applyArgs {} cliArgs = .ok o ∧ o.access_str = b!"tcp/22" ∧ o.use_hmac = true ∧ o.fw_timeout = -1 :=
  ⟨_, rfl, by decide, by decide, by decide⟩

example : applyArgs {} [.fw_timeout b!"131073"] = .err ∧ applyArgs {} [.hmac_digest b!"sha224"] = .err ∧
    applyArgs {} [.nat_port b!"65536"] = .err := by decide +kernel

/-- Two findings about values: an address is cut to 15 characters before it is checked, so
`-a 192.168.100.1999` asks for 192.168.100.199; and characters a time offset should not have are
passed over, so that `1x2` is twelve seconds. -/
theorem C87_values_are_bent :
    (do let o ← applyArgs {} [.allow_ip b!"192.168.100.1999", .time_plus b!"1x2", .destination b!"h"]
        let o ← validate_options o
        return (o.allow_ip_str, o.time_offset_plus)) = .ok (b!"192.168.100.199", 12) := by decide +kernel

/-! ## C86 -/

theorem pack_roundtrip {K : Crypto} (hH : K.H.Lawful) (hbc : K.bc.Lawful) {E : CliEnv} {o : CliOpts}
    (ho : OptsOk o) (hv : Valid o) (hrand : 16 ≤ E.rands.length ∧ 16 ≤ E.rands2.length)
    (hres : ∀ ip, E.resolved = some ip → IsText ip ∧ ip.length ≤ 15)
    (hcmd : o.server_command ≠ [] → o.nat_local = false ∧ o.nat_access_str = [] ∧ o.fw_timeout ≤ 0)
    (hgpg : o.use_gpg = false) {p : Packed} (h : clientPack K E o = .ok p) :
    ∃ r, Asks E o r ∧ ∀ t, fko_get_spa_data p.ctx = some t →
      E.salt.length = 8 → IsBytes E.salt → FitsReceiver r → p.hmac ≠ some [] →
      plainLen r (if o.digest_type = 0 then 3 else o.digest_type) ≤ (if p.hmac = none then 287 else 271) →
      ∀ gd, ∃ s, fko_new_with_data { K with gpgDec := gd } t (some p.key)
        (if o.encryption_mode = 0 then 2 else o.encryption_mode) p.hmac
        (if p.hmac = none then 0 else o.hmac_type) = .ok s ∧ Carries s r ∧
        PacketShape (plainLen r (if o.digest_type = 0 then 3 else o.digest_type))
          (if p.hmac = none then 0 else b64DigestLen o.hmac_type) t := by
  unfold clientPack at h
  obtain ⟨c, e1, h⟩ := Res.bind_eq_ok h
  obtain ⟨key, e2, h⟩ := Res.bind_eq_ok h
  obtain ⟨hk, e3, h⟩ := Res.bind_eq_ok h
  obtain ⟨c1, e4, h⟩ := Res.bind_eq_ok h
  obtain ⟨⟨b, c2⟩, e5, h⟩ := Res.bind_eq_ok h
  obtain ⟨_, g1, h⟩ := Res.bind_eq_ok h
  have g1 := guard_inv g1
  cases h
  have hbt : b = true := by simpa using g1
  subst hbt
  obtain ⟨r, hb⟩ := clientCtx_built ho hrand.1 hrand.2 hres hcmd e1
  refine ⟨r, hb.asks, ?_⟩
  intro t ht hs hsb hfit hne hlen gd
  simp only at ht hne hlen ⊢
  obtain ⟨-, st, hc1⟩ := useHmac_rec e4
  have hwf := built_wellFormed ho hres hcmd hb hfit
  have hct : r.timeout = if o.fw_timeout ≥ 0 then o.fw_timeout.toNat else 0 := by
    rw [hb.asks.timeout]
    by_cases h1 : o.fw_timeout > 0
    · rw [if_pos h1, if_pos (by omega)]
    · rw [if_neg h1]
      split
      · omega
      · rfl
  -- the context with the type the encoder will give it
  let d : Ctx := { c1 with message_type := askedType o }
  have hmt : hk.isSome = true → 1 ≤ o.hmac_type := by
    intro hsm
    have hu : o.use_hmac = true := by
      unfold getHmacKey at e3
      split at e3
      · rename_i hq; exact ho.use_hmac (.inl hq)
      · split at e3
        · rename_i hq; exact ho.use_hmac (.inr hq)
        · split at e3
          · rename_i hq; exact hq
          · cases e3; cases hsm
    have := hv.hmac hu
    have := ho.hmac_type.1
    omega
  have hht : c1.hmac_type = if hk = none then 0 else o.hmac_type := by
    rw [hc1]
    show (if hk.isSome then o.hmac_type else c.hmac_type) = _
    cases hk with
    | none => exact hb.hmac
    | some k => rfl
  have hdt : c1.digest_type = if o.digest_type = 0 then 3 else o.digest_type := by
    rw [hc1]
    show c.digest_type = _
    rw [hb.digest]
    by_cases h0 : o.digest_type = 0 <;> simp [h0]
  have hmode : c1.encryption_mode = if o.encryption_mode = 0 then 2 else o.encryption_mode := by
    rw [hc1]
    show c.encryption_mode = _
    rw [hb.mode, hgpg]
    by_cases h0 : o.encryption_mode = 0 <;> simp [h0]
  have henc : c1.encryption_type = 1 := by
    rw [hc1]
    show c.encryption_type = _
    rw [hb.enc, hgpg]
    rfl
  have hcar : Carries d r := by
    refine ⟨?_, ?_, ?_, ?_, ?_, ?_, ?_, ?_, ?_⟩
    · show c1.rand_val = _; rw [hc1]; exact hb.rand
    · show c1.username = _; rw [hc1]; exact hb.user.1
    · show c1.timestamp = _; rw [hc1]; exact hb.ts
    · show c1.version = _; rw [hc1]; exact hb.version
    · show ((askedType o : Nat) : Int) = _; rw [hb.asks.type]
    · show c1.message = _; rw [hc1]; exact hb.msg.1
    · show c1.nat_access = _; rw [hc1]; exact hb.nat.1
    · show c1.server_auth = _; rw [hc1, hb.asks.auth]; exact hb.auth
    · show c1.client_timeout = _; rw [hc1, hct]; exact hb.timeout
  have hrv : c1.rand_val.isSome = true := by
    rw [hc1]
    show c.rand_val.isSome = true
    rw [hb.rand]; rfl
  have hem : c1.encoded_msg = none := by rw [hc1]; exact hb.encoded
  have hf1 : Fresh K.H c1 := ⟨hrv, .inl hem⟩
  have hfd : Fresh K.H d := ⟨hrv, .inl hem⟩
  obtain ⟨l1, l2⟩ := final_limits hH hf1 e5
  have l1 := l1 henc
  have hvals : { c1 with message_type := timeoutType c1.message_type c1.client_timeout : Ctx }.values
      = { d with message_type := timeoutType d.message_type d.client_timeout : Ctx }.values := by
    have q1 : timeoutType c1.message_type c1.client_timeout = askedType o := by
      rw [hc1]
      show timeoutType c.message_type c.client_timeout = _
      rw [hb.type, hb.timeout]
      exact ctxType_norm hcmd
    have q2 : timeoutType d.message_type d.client_timeout = askedType o := by
      show timeoutType (askedType o) c1.client_timeout = askedType o
      rw [← q1, timeoutType_idem]
    rw [q1, q2]
  have hInv : InvertibleMode d.encryption_mode := by
    show InvertibleMode c1.encryption_mode
    rw [hmode]
    have h1 := ho.mode
    have h2 : o.encryption_mode ≠ 7 := fun h7 => by rw [hv.asym h7] at hgpg; cases hgpg
    unfold InvertibleMode
    simp only [consts]
    split <;> omega
  have hdd : 1 ≤ d.digest_type ∧ d.digest_type ≤ 7 := by
    show 1 ≤ c1.digest_type ∧ c1.digest_type ≤ 7
    rw [hdt]
    have := ho.digest
    split <;> omega
  have hpl : plainLen r d.digest_type ≤ if hk = none then 287 else 271 := by
    show plainLen r c1.digest_type ≤ _
    rw [hdt]
    exact hlen
  have hdig : ∀ ch ∈ r.rand, isDigit ch = true := fun ch hch => (isDigitChar_iff ch).1 (hb.asks.rand.2 ch hch)
  cases hhk : hk with
  | none =>
    rw [hhk] at hht hpl
    simp only [if_true] at hht hpl
    obtain ⟨d', pk, s, r1, r2, r3, r4, -, r5⟩ := roundtrip (K := { K with gpgDec := gd }) hH hbc hwf d hfd hcar hdd henc hInv hdig E.salt (usedKey o key)
      hs hsb l1 none (.inl ⟨hht, rfl, hpl⟩)
    have r1' := final_no_hmac hH (some (hk.getD [])) hfd hht r1
    have := final_det_norm hH hf1 hfd hvals e5 r1'
    rw [ht, r2] at this
    cases this
    have r5 : PacketShape (plainLen r c1.digest_type) (if c1.hmac_type = 0 then 0 else b64DigestLen c1.hmac_type) t := r5
    rw [if_pos hht, hdt] at r5
    refine ⟨s, ?_, r4, by simpa using r5⟩
    have r3 : fko_new_with_data { K with gpgDec := gd } t (some (usedKey o key)) c1.encryption_mode none c1.hmac_type = .ok s := r3
    rw [hht, hmode] at r3
    simpa using r3
  | some k =>
    have hmt := hmt (by rw [hhk]; rfl)
    rw [hhk] at hht hpl hne
    simp only [reduceCtorEq, if_false] at hht hpl
    have hk0 : k ≠ [] := fun hk0 => hne (by rw [hk0])
    obtain ⟨w1, k', w2, w3⟩ := l2 (by rw [hht]; omega)
    rw [hhk] at w2
    cases w2
    obtain ⟨d', pk, s, r1, r2, r3, r4, -, r5⟩ := roundtrip (K := { K with gpgDec := gd }) hH hbc hwf d hfd hcar hdd henc hInv hdig E.salt (usedKey o key)
      hs hsb l1 (some k) (.inr ⟨w1, ⟨k, rfl, by
        have := List.length_pos_iff.2 hk0
        omega, w3⟩, hpl⟩)
    rw [hhk] at e5
    have := final_det_norm hH hf1 hfd hvals e5 r1
    rw [ht, r2] at this
    cases this
    have r5 : PacketShape (plainLen r c1.digest_type) (if c1.hmac_type = 0 then 0 else b64DigestLen c1.hmac_type) t := r5
    rw [if_neg (by rw [hht]; omega), hdt, hht] at r5
    refine ⟨s, ?_, r4, by simpa using r5⟩
    have r3 : fko_new_with_data { K with gpgDec := gd } t (some (usedKey o key)) c1.encryption_mode (some k) c1.hmac_type = .ok s := r3
    rw [hht, hmode] at r3
    simpa using r3

theorem source_short {args : List CliArg} {o : CliOpts} (hm : Meant args o) : o.spoof_ip_src_str.length ≤ 15 := by
  rw [hm.source]
  cases hg : given argSource args with
  | none => simp
  | some x =>
    unfold given at hg
    obtain ⟨a, -, ha⟩ := List.mem_filterMap.1 (List.mem_of_getLast? hg)
    cases a <;> first
      | (cases ha; simp; omega)
      | cases ha

/-- What the server reads, and the text of the packet. -/
theorem client_reads {K : Crypto} (hH : K.H.Lawful) (hbc : K.bc.Lawful) {E : CliEnv}
    {args : List CliArg} (htext : ∀ a ∈ args, IsText (argText a))
    (hrand : 16 ≤ E.rands.length ∧ 16 ≤ E.rands2.length) (hsalt : E.salt.length = 8 ∧ IsBytes E.salt)
    (hres : ∀ ip, E.resolved = some ip → IsText ip ∧ ip.length ≤ 15)
    (hcmd : (given argCommand args).getD [] ≠ [] → CliArg.nat_local ∉ args ∧ given argNat args = none ∧
      given argTimeout args = none)
    (hgpg : args.any asksGpg = false) {p : Packed} {t : Str} (h : client K E {} args = .ok (p, t)) :
    ∃ o o' r, Meant args o ∧ Settled o o' ∧ OptsOk o' ∧ SendChecked o' ∧ Asks E o' r ∧
      (FitsReceiver r → p.hmac ≠ some [] →
        plainLen r (if o'.digest_type = 0 then 3 else o'.digest_type) ≤ (if p.hmac = none then 287 else 271) →
        ∀ gd, ∃ s, fko_new_with_data { K with gpgDec := gd } t (some p.key)
          (if o'.encryption_mode = 0 then 2 else o'.encryption_mode) p.hmac
          (if p.hmac = none then 0 else o'.hmac_type) = .ok s ∧ Carries s r ∧
          PacketShape (plainLen r (if o'.digest_type = 0 then 3 else o'.digest_type))
            (if p.hmac = none then 0 else b64DigestLen o'.hmac_type) t) := by
  unfold client at h
  obtain ⟨o, e1, h⟩ := Res.bind_eq_ok h
  obtain ⟨o', e2, h⟩ := Res.bind_eq_ok h
  obtain ⟨p', e3, h⟩ := Res.bind_eq_ok h
  obtain ⟨t', e4, h⟩ := Res.bind_eq_ok h
  cases h
  have hm := args_meant e1
  have ho := optsOk_args htext e1 optsOk_default
  obtain ⟨hv, e⟩ := validate_rec e2
  obtain ⟨r, hr, hall⟩ := pack_roundtrip hH hbc (optsOk_valid e2 ho) hv hrand hres (by
    rw [e]
    show o.server_command ≠ [] → o.nat_local = false ∧ o.nat_access_str = [] ∧ o.fw_timeout ≤ 0
    rw [hm.command, hm.nat_local, hm.nat]
    intro hc
    obtain ⟨h1, h2, h3⟩ := hcmd hc
    refine ⟨by simpa using h1, by rw [h2]; rfl, ?_⟩
    rw [hm.timeout.1 h3]
    decide) (by rw [e]; show o.use_gpg = false; rw [hm.use_gpg, hgpg]) e3
  have hsrc : o'.spoof_ip_src_str.length ≤ 15 := by
    rw [e]
    show o.spoof_ip_src_str.length ≤ 15
    exact source_short hm
  exact ⟨o, o', r, hm, validate_settled ho e2, optsOk_valid e2 ho, valid_checked (optsOk_valid e2 ho) hsrc hv, hr, fun f1 f2 f3 => hall t (ofOpt_ok e4) hsalt.1 hsalt.2 f1 f2 f3⟩

/-- **C86** (partial: symmetric encryption, a command without NAT and timeout, fields that fit the
receiver's limits, and a non-empty HMAC key).  A server that has the client's keys, encryption mode
and HMAC type reads from the packet exactly the request that the command line asks for: the address,
the ports, the NAT target, the timeout, the user, the time and the type. -/
theorem C86_server_reads_what_was_asked_partial {K : Crypto} (hH : K.H.Lawful) (hbc : K.bc.Lawful) {E : CliEnv}
    {args : List CliArg} (htext : ∀ a ∈ args, IsText (argText a))
    (hrand : 16 ≤ E.rands.length ∧ 16 ≤ E.rands2.length) (hsalt : E.salt.length = 8 ∧ IsBytes E.salt)
    (hres : ∀ ip, E.resolved = some ip → IsText ip ∧ ip.length ≤ 15)
    (hcmd : (given argCommand args).getD [] ≠ [] → CliArg.nat_local ∉ args ∧ given argNat args = none ∧
      given argTimeout args = none)
    (hgpg : args.any asksGpg = false) {p : Packed} {t : Str} (h : client K E {} args = .ok (p, t)) :
    ∃ o o' r, Meant args o ∧ Settled o o' ∧ Asks E o' r ∧
      (FitsReceiver r → p.hmac ≠ some [] →
        plainLen r (if o'.digest_type = 0 then 3 else o'.digest_type) ≤ (if p.hmac = none then 287 else 271) →
        ∃ s, fko_new_with_data K t (some p.key) (if o'.encryption_mode = 0 then 2 else o'.encryption_mode) p.hmac
          (if p.hmac = none then 0 else o'.hmac_type) = .ok s ∧ Carries s r) := by
  obtain ⟨o, o', r, h1, h2, -, -, h3, h4⟩ := client_reads hH hbc htext hrand hsalt hres hcmd hgpg h
  refine ⟨o, o', r, h1, h2, h3, fun f1 f2 f3 => ?_⟩
  obtain ⟨s, h5, h6, -⟩ := h4 f1 f2 f3 K.gpgDec
  exact ⟨s, h5, h6⟩

/-- The packets of three command lines, read by a server. -/
example : serverReads cliArgs 2 3 = .ok (some b!"5.6.7.8,tcp/22", none, 1, 0) ∧
    serverReads (cliArgs ++ [.nat_access b!"10.0.0.5:80", .nat_port b!"4000", .fw_timeout b!"60"]) 2 3
      = .ok (some b!"5.6.7.8,tcp/4000", some b!"10.0.0.5,80", 4, 60) ∧
    serverReads (cliArgs ++ [.server_cmd b!"w -h", .enc_mode b!"ctr", .hmac_digest b!"sha512"]) 6 5
      = .ok (some b!"5.6.7.8,w -h", none, 0, 0) := by
  decide +kernel

example : toyCrypto.H.Lawful ∧ toyCrypto.bc.Lawful ∧ (∀ a ∈ cliArgs, IsText (argText a)) ∧
    cliArgs.any asksGpg = false ∧ given argCommand cliArgs = none :=
  ⟨toyHash_lawful, toyCipher_lawful, by unfold IsText; decide, by decide, by decide⟩

/-- **C86 fails for a command with NAT or a timeout**: with NAT the client sends a packet that has the
type of a NAT request, and the server refuses its message; a timeout of a command is not sent. -/
theorem C86_command_with_nat_is_lost :
    packetLength (cliArgs ++ [.server_cmd b!"w", .nat_local]) = .ok 225 ∧
    serverReads (cliArgs ++ [.server_cmd b!"w", .nat_local]) 2 3 = .err ∧
    serverReads (cliArgs ++ [.server_cmd b!"w", .fw_timeout b!"60"]) 2 3 = .ok (some b!"5.6.7.8,w", none, 0, 0) := by
  decide +kernel

/-- **C86 fails beyond the receiver's limits**: a timeout of 131072 seconds is accepted by the
client, and the packet is refused by every server. -/
theorem C86_long_timeout_is_lost :
    serverReads (cliArgs ++ [.fw_timeout b!"65536"]) 2 3 = .ok (some b!"5.6.7.8,tcp/22", none, 3, 65536) ∧
    packetLength (cliArgs ++ [.fw_timeout b!"65537"]) = .ok 204 ∧
    serverReads (cliArgs ++ [.fw_timeout b!"65537"]) 2 3 = .err := by
  decide +kernel

/-- **C86 fails for an empty HMAC key** (`--key-hmac ""`): the packet carries an HMAC made with the
empty key, which no server verifies. -/
theorem C86_empty_hmac_key_is_lost :
    serverReads (cliArgs ++ [.hmac_key []]) 2 3 = .err := by
  decide +kernel

/-- Of the port of -A only five digits are read for the NAT target, while the port to open comes
from --nat-port: `-A tcp/222222 -N 10.0.0.5 --nat-port 4000` asks for 10.0.0.5,22222. -/
theorem C86_nat_port_is_cut :
    serverReads (cliArgs ++ [.access b!"tcp/222222", .nat_access b!"10.0.0.5", .nat_port b!"4000"]) 2 3
      = .ok (some b!"5.6.7.8,tcp/4000", some b!"10.0.0.5,22222", 2, 0) := by
  decide +kernel

/-- Without -A (and without a command) no packet is made at all: the client asks for `none/0`, which
its own library refuses. -/
theorem C86_access_is_needed {E : CliEnv} {o : CliOpts} (ho : OptsOk o)
    (h16 : 16 ≤ E.rands.length ∧ 16 ≤ E.rands2.length)
    (hres : ∀ ip, E.resolved = some ip → IsText ip ∧ ip.length ≤ 15) (h1 : o.server_command = []) (h2 : o.access_str = []) (K : Crypto) (p : Packed) : clientPack K E o ≠ .ok p := by
  intro h
  unfold clientPack at h
  obtain ⟨c, e1, h⟩ := Res.bind_eq_ok h
  obtain ⟨r, hb⟩ := clientCtx_built ho h16.1 h16.2 hres (fun hc => absurd h1 hc) e1
  obtain ⟨ip, port, ports, -, -, hp, hm, hi, -⟩ := hb.asks.access h1
  rw [h2] at hp
  cases hp with
  | given =>
    have := accessMsg_last hi hm (by simp)
    unfold IsProtoPort at this
    simp at this
  | replaced proto port p he =>
    exact absurd he (by simp)

/-! ## C88 -/

/-- **C88.** A packet is only made for a command line that names a server and an address (or a way
to find it), whose address and forged source are IPv4 addresses, whose forged source goes with a raw
protocol, that names a recipient for GnuPG, and that does not combine the legacy mode with an HMAC. -/
theorem C88_only_checked_requests {K : Crypto} {E : CliEnv} {args : List CliArg} (htext : ∀ a ∈ args, IsText (argText a))
    {p : Packed} {t : Str} (h : client K E {} args = .ok (p, t)) :
    ∃ o o', Meant args o ∧ Settled o o' ∧ SendChecked o' := by
  unfold client at h
  obtain ⟨o, e1, h⟩ := Res.bind_eq_ok h
  obtain ⟨o', e2, h⟩ := Res.bind_eq_ok h
  have hm := args_meant e1
  have ho := optsOk_args htext e1 optsOk_default
  obtain ⟨hv, e⟩ := validate_rec e2
  refine ⟨o, o', hm, validate_settled ho e2, valid_checked (optsOk_valid e2 ho) ?_ hv⟩
  rw [e]
  show o.spoof_ip_src_str.length ≤ 15
  exact source_short hm

theorem hostLoop_chars : ∀ (s : Str) (lab prev : Nat) (r : Nat × Nat), hostnameLoop s s.length lab prev = some r →
    ∀ c ∈ s, IsHostChar c := by
  intro s
  induction s with
  | nil => intro _ _ _ _ c hc; cases hc
  | cons x s ih =>
    intro lab prev r h c hc
    simp only [List.length_cons, hostnameLoop] at h
    have hx : IsHostChar x ∧ ∃ l q, hostnameLoop s s.length l q = some r := by
      unfold IsHostChar
      have key : ∀ b : Bool, (if b = true then none else
          if x = 46 then
            if lab > 63 then none
            else if (!isAlnum prev) = true then none
            else hostnameLoop s s.length 0 x
          else hostnameLoop s s.length (lab + 1) x) = some r → b = false ∧ ∃ l q, hostnameLoop s s.length l q = some r := by
        intro b hb
        cases b with
        | true => cases hb
        | false =>
          refine ⟨rfl, ?_⟩
          simp only [Bool.false_eq_true, if_false] at hb
          split at hb
          · split at hb
            · cases hb
            · split at hb
              · cases hb
              · exact ⟨_, _, hb⟩
          · exact ⟨_, _, hb⟩
      by_cases hl : lab = 0
      · rw [if_pos hl] at h
        obtain ⟨hx, hr⟩ := key _ h
        simp [isAlnum, isDigit, isAlpha] at hx
        exact ⟨by omega, hr⟩
      · rw [if_neg hl] at h
        obtain ⟨hx, hr⟩ := key _ h
        simp [isAlnum, isDigit, isAlpha] at hx
        exact ⟨by omega, hr⟩
    obtain ⟨hx, l, q, hr⟩ := hx
    rcases List.mem_cons.mp hc with rfl | hc
    · exact hx
    · exact ih _ _ _ hr c hc

theorem host_chars {h : Str} (hv : (!is_valid_ipv4_addr h h.length ∧ !is_valid_hostname 0 h h.length) → False) :
    ∀ c ∈ h, IsHostChar c := by
  by_cases h1 : is_valid_ipv4_addr h h.length = true
  · unfold is_valid_ipv4_addr at h1
    rw [ipv4Loop_spec] at h1
    split at h1
    · cases h1
    · split at h1
      · cases h1
      · rename_i hd
        split at hd
        · rename_i hall
          intro c hc
          rcases hall c hc with rfl | hd
          · exact .inr (.inr (.inr (.inr rfl)))
          · simp [isDigit] at hd
            exact .inl hd
        · cases hd
  · by_cases h2 : is_valid_hostname 0 h h.length = true
    · unfold is_valid_hostname at h2
      split at h2
      · cases h2
      · split at h2
        · cases h2
        · rename_i r hl
          exact hostLoop_chars h 0 0 _ hl
    · exact absurd (hv ⟨by simpa using h1, by simpa using h2⟩) id

/-- **C88**, the target of -N: a packet is only made if it is a host name or an address, perhaps with
a colon or a comma and the digits of a port. -/
theorem C88_nat_target_is_a_host {K : Crypto} {E : CliEnv} {args : List CliArg} {p : Packed} {t : Str}
    (h : client K E {} args = .ok (p, t)) {target : Str} (hn : given argNat args = some target) :
    ∃ host rest, target = host ++ rest ∧ (∀ c ∈ host, IsHostChar c) ∧
      (rest = [] ∨ ∃ sep digits, rest = sep :: digits ∧ (sep = 44 ∨ sep = 58) ∧ ∀ c ∈ digits, IsDigitChar c) := by
  unfold client at h
  obtain ⟨o, e1, h⟩ := Res.bind_eq_ok h
  obtain ⟨o', e2, h⟩ := Res.bind_eq_ok h
  obtain ⟨p', e3, h⟩ := Res.bind_eq_ok h
  have hm := (args_meant e1).nat
  rw [hn] at hm
  obtain ⟨hv, e⟩ := validate_rec e2
  have hs : o'.nat_access_str = target := by rw [e]; exact hm
  by_cases hne : target = []
  · exact ⟨[], [], by rw [hne]; rfl, by simp, .inl rfl⟩
  unfold clientPack at e3
  obtain ⟨c, e4, -⟩ := Res.bind_eq_ok e3
  unfold clientCtx at e4
  obtain ⟨_, -, e4⟩ := Res.bind_eq_ok e4
  obtain ⟨_, -, e4⟩ := Res.bind_eq_ok e4
  obtain ⟨_, -, e4⟩ := Res.bind_eq_ok e4
  obtain ⟨_, -, e4⟩ := Res.bind_eq_ok e4
  obtain ⟨_, -, e4⟩ := Res.bind_eq_ok e4
  obtain ⟨_, -, e4⟩ := Res.bind_eq_ok e4
  obtain ⟨_, -, e4⟩ := Res.bind_eq_ok e4
  obtain ⟨_, e5, -⟩ := Res.bind_eq_ok e4
  unfold setNat at e5
  rw [if_pos (.inr (by rw [hs]; exact hne))] at e5
  obtain ⟨_, e6, -⟩ := Res.bind_eq_ok e5
  unfold natAccessText at e6
  obtain ⟨q, -, e6⟩ := Res.bind_eq_ok e6
  rw [hs] at e6
  rw [if_neg (fun hc => hne hc.2), if_pos hne] at e6
  obtain ⟨⟨host, pt⟩, e7, e6⟩ := Res.bind_eq_ok e6
  obtain ⟨_, -, e6⟩ := Res.bind_eq_ok e6
  obtain ⟨_, e8, -⟩ := Res.bind_eq_ok e6
  have e8 := guard_inv e8
  have hch : ∀ c ∈ host, IsHostChar c := host_chars (by simpa using e8)
  unfold colonToComma at e7
  cases hx : strchr target 58 with
  | none =>
    rw [hx] at e7
    change natHostPort target q = _ at e7
    rcases natHostPort_ok e7 with ⟨-, b, -⟩ | ⟨ds, a, -, -, d, -⟩
    · exact ⟨host, [], by rw [b]; simp, hch, .inl rfl⟩
    · exact ⟨host, 44 :: ds, a, hch, .inr ⟨44, ds, rfl, .inl rfl, d⟩⟩
  | some i =>
    rw [hx] at e7
    obtain ⟨x, y, hxy, hx2, rfl⟩ := strchr_some _ _ _ hx
    have q1 : target.take x.length ++ 44 :: target.drop (x.length + 1) = x ++ 44 :: y := by
      rw [hxy, List.take_left, ← List.drop_drop, List.drop_left]; rfl
    simp only [q1] at e7
    rcases natHostPort_ok e7 with ⟨a, -, -⟩ | ⟨ds, a, b, -, d, -⟩
    · exact absurd (by simp) a
    · have hcase : host = x ∧ ds = y := by
        rcases List.append_eq_append_iff.1 a with ⟨m, hm1, hm2⟩ | ⟨m, hm1, hm2⟩
        · cases m with
          | nil => simp only [List.append_nil, List.nil_append, List.cons.injEq, true_and] at hm1 hm2; exact ⟨hm1, hm2.symm⟩
          | cons z zs =>
            simp only [List.cons_append, List.cons.injEq] at hm2
            exact absurd (by rw [hm1, ← hm2.1]; simp) b
        · cases m with
          | nil => simp only [List.append_nil, List.nil_append, List.cons.injEq, true_and] at hm1 hm2; exact ⟨hm1.symm, hm2⟩
          | cons z zs =>
            -- a comma among the digits
            simp only [List.cons_append, List.cons.injEq] at hm2
            have := d 44 (by rw [hm2.2]; simp)
            exact absurd this (by unfold IsDigitChar; omega)
      obtain ⟨rfl, rfl⟩ := hcase
      exact ⟨host, 58 :: ds, hxy, hch, .inr ⟨58, ds, rfl, .inr rfl, d⟩⟩

/-- Such a command line, and one with a target that is no host. -/
example : isErr (packetLength (cliArgs ++ [.nat_access b!"10.1.2.3:8080"])) = false ∧
    isUb (packetLength (cliArgs ++ [.nat_access b!"10.1.2.3:8080"])) = false ∧
    isErr (packetLength (cliArgs ++ [.nat_access b!"a_b"])) = true := by decide +kernel

/-- Refused command lines. -/
example : (∀ extra ∈ ([[.allow_ip b!"5.6.7"], [.allow_ip b!"host"], [.destination []], [.spoof_source b!"1.2.3.4"],
      [.gpg], [.enc_mode b!"legacy"], [.enc_mode b!"asymmetric"], [.hmac_key b!"key"]] : List (List CliArg)),
    client toyCrypto cliEnv {} (cliArgs ++ extra) = .err) ∧
    packetLength (cliArgs ++ [.spoof_source b!"1.2.3.4", .server_proto b!"udpraw"]) = .ok 204 := by
  exact ⟨fun extra he => err_of ((by decide +kernel : ∀ extra ∈ _, isErr (client toyCrypto cliEnv {} (cliArgs ++ extra)) = true) extra he),
    by decide +kernel⟩

/-! ## C89: the keys -/

theorem given_hmac_ok {E : CliEnv} {o : CliOpts} (ho : OptsOk o) (hn : KeyName o.spa_server_str) {h : Option Str}
    (e : getHmacKey E o = .ok h) : GivenHmac E o h := by
  unfold getHmacKey at e
  split at e
  · rename_i h1
    cases e
    show if _ then _ else _
    rw [if_pos h1]
    exact List.take_of_length_le ho.hmac_key.2
  · rename_i h1
    split at e
    · rename_i h2
      obtain ⟨k, e1, e⟩ := Res.bind_eq_ok e
      cases e
      show if _ then _ else _
      rw [if_neg h1, if_pos h2]
      intro b hb hby
      exact decodeKey_b64 (hb ▸ e1) hby
    · rename_i h2
      split at e
      · split at e
        · rename_i h4
          obtain ⟨k, e1, e⟩ := Res.bind_eq_ok e
          cases e
          show if _ then _ else _
          rw [if_neg h1, if_neg h2, if_pos h4]
          exact get_key_file_ok hn e1
        · rename_i h4
          obtain ⟨k, e1, e⟩ := Res.bind_eq_ok e
          cases e
          show if _ then _ else _
          rw [if_neg h1, if_neg h2, if_neg h4]
          exact typedKey_ok e1
      · rename_i h3
        cases e
        simpa [GivenHmac] using h3

theorem given_key_ok {E : CliEnv} {o : CliOpts} (ho : OptsOk o) (hn : KeyName o.spa_server_str) (hg : o.use_gpg = false)
    {k : Str} (e : getKey E o = .ok k) : GivenKey E o k := by
  unfold getKey at e
  unfold GivenKey
  split at e
  · rename_i h1
    cases e
    rw [if_pos h1]
    exact List.take_of_length_le ho.key.2
  · rename_i h1
    rw [if_neg h1]
    split at e
    · rename_i h2
      obtain ⟨k', e1, e⟩ := Res.bind_eq_ok e
      obtain ⟨_, -, e⟩ := Res.bind_eq_ok e
      cases e
      rw [if_pos h2]
      intro b hb hby
      exact decodeKey_b64 (hb ▸ e1) hby
    · rename_i h2
      rw [if_neg h2]
      split at e
      · rename_i h3
        rw [if_pos h3]
        exact get_key_file_ok hn e
      · rename_i h3
        rw [if_neg h3]
        rw [if_neg (by rw [hg]; decide)] at e
        exact typedKey_ok e

/-- **C89** (partial: symmetric keys; files with lines of at most 1022 characters; a server name
that does not begin like a comment).  The packet is made with the keys the user gave, the HMAC key is
never the encryption key, and there is an HMAC exactly if an option asks for one.  In the legacy mode
the first 16 characters of the key are used. -/
theorem C89_keys_as_given_partial {K : Crypto} {E : CliEnv} {args : List CliArg} (htext : ∀ a ∈ args, IsText (argText a))
    (hgpg : args.any asksGpg = false) {p : Packed} {t : Str} (h : client K E {} args = .ok (p, t))
    (hname : KeyName ((given argServer args).getD [])) :
    ∃ o o' k, Meant args o ∧ Settled o o' ∧ GivenKey E o' k ∧ GivenHmac E o' p.hmac ∧ p.hmac ≠ some k ∧
      (p.hmac = none ↔ o'.use_hmac = false) ∧
      p.key = if o'.encryption_mode = 8 then k.take 16 else k := by
  unfold client at h
  obtain ⟨o, e1, h⟩ := Res.bind_eq_ok h
  obtain ⟨o', e2, h⟩ := Res.bind_eq_ok h
  obtain ⟨p', e3, h⟩ := Res.bind_eq_ok h
  obtain ⟨t', e4, h⟩ := Res.bind_eq_ok h
  cases h
  have hm := args_meant e1
  have ho := optsOk_args htext e1 optsOk_default
  obtain ⟨hv, e⟩ := validate_rec e2
  have ho' := optsOk_valid e2 ho
  have hn : KeyName o'.spa_server_str := by
    have : o'.spa_server_str = o.spa_server_str := by rw [e]
    rw [this, hm.server]; exact hname
  have hg : o'.use_gpg = false := by
    have : o'.use_gpg = o.use_gpg := by rw [e]
    rw [this, hm.use_gpg, hgpg]
  unfold clientPack at e3
  obtain ⟨c, q1, e3⟩ := Res.bind_eq_ok e3
  obtain ⟨key, q2, e3⟩ := Res.bind_eq_ok e3
  obtain ⟨hk, q3, e3⟩ := Res.bind_eq_ok e3
  obtain ⟨c1, q4, e3⟩ := Res.bind_eq_ok e3
  obtain ⟨⟨b, c2⟩, q5, e3⟩ := Res.bind_eq_ok e3
  obtain ⟨_, q6, e3⟩ := Res.bind_eq_ok e3
  cases e3
  refine ⟨o, o', key, hm, validate_settled ho e2, given_key_ok ho' hn hg q2, given_hmac_ok ho' hn q3, ?_, ?_, ?_⟩
  · intro he
    have he : hk = some key := he
    exact (useHmac_rec q4).1 key he rfl
  · show hk = none ↔ _
    unfold getHmacKey at q3
    split at q3
    · rename_i h1
      cases q3
      simp [ho'.use_hmac (.inl h1)]
    · split at q3
      · rename_i h2
        obtain ⟨_, -, q3⟩ := Res.bind_eq_ok q3
        cases q3
        simp [ho'.use_hmac (.inr h2)]
      · split at q3
        · rename_i h3
          split at q3
          · obtain ⟨_, -, q3⟩ := Res.bind_eq_ok q3
            cases q3
            simp [h3]
          · obtain ⟨_, -, q3⟩ := Res.bind_eq_ok q3
            cases q3
            simp [h3]
        · rename_i h3
          cases q3
          simpa using h3
  · show usedKey o' key = _
    unfold usedKey
    simp only [consts]
    by_cases h8 : o'.encryption_mode = 8
    · by_cases hl : key.length > 16
      · rw [if_pos ⟨h8, hl⟩, if_pos h8]
      · rw [if_neg (fun h => hl h.2), if_pos h8, List.take_of_length_le (by omega)]
    · rw [if_neg (fun h => h8 h.1), if_neg h8]

/-- A key file with keys for three servers; the last line for the server counts. -/
def cliKeyFile : Str := fileOf [b!"# keys", b!"spa.example.org: old", b!"other: x", b!"  spa.example.org:  = secret", b!""]

example : (do let r ← client toyCrypto { cliEnv with file := fun n => if n = b!"keys" then some cliKeyFile else none } {}
                [.access b!"tcp/22", .allow_ip b!"5.6.7.8", .destination b!"spa.example.org", .get_key b!"keys",
                 .hmac_key_base64 b!"aG1hYw=="]
              return (r.1.key, r.1.hmac)) = .ok (b!"secret", some b!"hmac") := by
  decide +kernel

example : KeyName b!"spa.example.org" ∧
    FileKey b!"spa.example.org" [b!"# keys", b!"spa.example.org: old", b!"other: x", b!"  spa.example.org:  = secret"] b!"secret" := by
  refine ⟨⟨by unfold IsText; decide, by decide, fun c hc => ?_⟩, [b!"# keys", b!"spa.example.org: old", b!"other: x"], b!"  spa.example.org:  = secret", [], rfl, ⟨b!"  ", b!"  = ", rfl, ?_, ?_, ?_⟩, ?_⟩
  · cases hc; unfold IsKeySep; decide
  · unfold IsKeySep; decide
  · unfold IsKeySep; decide
  · intro c hc; cases hc; unfold IsKeySep; decide
  · simp

/-! ## C90 -/

/-- **C90** (partial: time offsets of at most five characters, -A of at most 1000, base64 keys of at
most 171, lines of key files of at most 128).  Whatever the command line, the client computes with no
number out of range and touches nothing outside its arrays. -/
theorem C90_no_undefined_behaviour_partial {K : Crypto} (hH : K.H.Lawful) {E : CliEnv} {args : List CliArg}
    (ht : ∀ a ∈ args, IsText (argText a)) (hs : ∀ a ∈ args, SafeArg a) (hf : ShortFiles E)
    (hres : ∀ ip, E.resolved = some ip → IsText ip ∧ ip.length ≤ 15) : client K E {} args ≠ .ub :=
  client_safe hH ht hs hf hres

/-- **C90 is false without the limit on base64 keys**: the text of a key of 129 bytes is accepted by
the option and decoded into an array of 129 bytes with a terminator behind. -/
theorem C90_base64_key_overflows :
    client toyCrypto cliEnv {} [.access b!"tcp/22", .allow_ip b!"5.6.7.8", .destination b!"h",
      .key_base64 (b64 (List.replicate 129 65))] = .ub :=
  ub_of (by decide +kernel)

/-- **C90 is false without the limit on lines of key files**: the key of a line is copied without
regard to the size of the array. -/
theorem C90_key_file_overflows :
    client toyCrypto { cliEnv with file := fun _ => some (b!"h:" ++ List.replicate 129 65) } {}
      [.access b!"tcp/22", .allow_ip b!"5.6.7.8", .destination b!"h", .get_key b!"keys"] = .ub :=
  ub_of (by decide +kernel)

/-- **C90 is false without the limit on -A**: with a NAT port, a long text before the slash is
appended with the bound of the text, not of the buffer. -/
theorem C90_access_overflows :
    client toyCrypto cliEnv {} [.access (List.replicate 1016 65 ++ b!"/22"), .allow_ip b!"5.6.7.8", .destination b!"h",
      .key b!"key", .nat_port b!"4000"] = .ub :=
  ub_of (by decide +kernel)

/-- The same by one byte: the text up to the slash ends where the buffer ends, and its terminator is
behind it (the second slash would have the line refused, but later). -/
theorem C90_access_overflows_by_one :
    client toyCrypto cliEnv {} [.access (List.replicate 1015 65 ++ b!"/22/1"), .allow_ip b!"5.6.7.8", .destination b!"h",
      .key b!"key", .nat_port b!"4000"] = .ub ∧
    client toyCrypto cliEnv {} [.access (List.replicate 1014 65 ++ b!"/22/1"), .allow_ip b!"5.6.7.8", .destination b!"h",
      .key b!"key", .nat_port b!"4000"] = .err :=
  ⟨ub_of (by decide +kernel), err_of (by decide +kernel)⟩

/-- **C90 is false without the limit on time offsets**: the product of 24856 days and 86400 seconds is
no `int`. -/
theorem C90_time_offset_overflows : client toyCrypto cliEnv {} [.time_plus b!"24856d"] = .ub ∧
    ∃ o, applyArgs {} [.time_plus b!"24855d"] = .ok o := by
  exact ⟨ub_of (by decide +kernel), _, rfl⟩

example : (∀ a ∈ cliArgs, SafeArg a) ∧ ShortFiles cliEnv := by
  refine ⟨fun a ha => ⟨fun v hv => ?_, fun v hv => ?_, fun v hv => ?_⟩, fun n c h => by cases h⟩
  · rcases hv with rfl | rfl <;> simp [cliArgs] at ha
  · subst hv
    simp [cliArgs] at ha
    rcases ha with rfl | rfl <;> decide
  · rcases hv with rfl | rfl <;> simp [cliArgs] at ha

end Fwknop.Props
