import Verif.Spec.Client
import Verif.Lemmas.Setters
import Verif.Lemmas.Grammar
import Verif.Lemmas.Fresh
import Verif.Lemmas.Post

/-! # Facts about the client's way from options to a context -/

namespace Fwknop
open Fwknop.Spec

theorem ofOpt_ok {α : Type} {x : Option α} {a : α} (h : Res.ofOpt x = .ok a) : x = some a := by
  cases x with
  | none => cases h
  | some b => cases h; rfl

/-! ## The steps of main -/

theorem new_rec {rands : List Nat} {user : Str} {now : Int} {c : Ctx}
    (h : fko_new rands user now = some c) :
    validate_username (user.take 63) = true ∧ 0 ≤ now ∧
    ∃ st, c = { rand_val := some (randValue rands []), username := some (user.take 63), timestamp := now, message_type := 1,
                version := some FKO_PROTOCOL_VERSION, digest_type := 3, encryption_type := 1, encryption_mode := 2, state := st } := by
  obtain ⟨-, -, -, -, -, h0, -, -, -, -, -, hv⟩ := fko_new_some h
  refine ⟨hv, h0, ?_⟩
  unfold fko_new at h
  simp only [Option.bind_eq_some_iff] at h
  obtain ⟨c1, h1, c2, h2, c3, h3, c4, h4, c5, h5, c6, h6, h7⟩ := h
  have hu : (if min user.length MAX_SPA_USERNAME_SIZE = MAX_SPA_USERNAME_SIZE
      then user.take (MAX_SPA_USERNAME_SIZE - 1) else user) = user.take 63 := by
    simp only [MAX_SPA_USERNAME_SIZE]
    split
    · rfl
    · rw [List.take_of_length_le (by omega)]
  unfold fko_set_username at h1
  rw [hu] at h1
  simp only [if_pos hv, Option.some.injEq] at h1
  unfold fko_set_timestamp at h2
  rw [if_neg (by omega), Option.some.injEq, Int.add_zero] at h2
  unfold fko_set_spa_digest_type at h3
  unfold fko_set_spa_message_type at h4
  unfold fko_set_spa_encryption_type at h5
  unfold fko_set_spa_encryption_mode at h6
  rw [if_neg (by decide), Option.some.injEq] at h3 h4 h5 h6
  rw [Option.some.injEq] at h7
  subst h1 h2 h3 h4 h5 h6 h7
  exact ⟨_, rfl⟩

theorem setTimeout_rec {c c' : Ctx} {o : CliOpts} (h : setTimeout c o = .ok c') :
    ∃ mt st, c' = { c with client_timeout := if o.fw_timeout ≥ 0 then o.fw_timeout.toNat else c.client_timeout
                           message_type := mt
                           state := st } := by
  unfold setTimeout at h
  split at h
  · rename_i hp
    have h := ofOpt_ok h
    unfold fko_set_spa_client_timeout at h
    rw [if_neg (by omega)] at h
    simp only [Option.some.injEq] at h
    refine ⟨c'.message_type, c'.state, ?_⟩
    subst h
    rw [if_pos hp]
    split <;> rfl
  · rename_i hp
    cases h
    rw [if_neg hp]
    exact ⟨_, _, rfl⟩

/-- The type `set_message_type` chooses. -/
def chosenType (o : CliOpts) : Int :=
  if o.server_command ≠ [] then 0
  else if o.nat_local then if o.fw_timeout ≥ 0 then 6 else 5
  else if o.nat_access_str ≠ [] then if o.fw_timeout ≥ 0 then 4 else 2
  else if o.fw_timeout ≥ 0 then 3 else 1

theorem setType_rec {c c' : Ctx} {o : CliOpts} (h : set_message_type c o = some c') :
    ∃ st, c' = { c with message_type := chosenType o, state := st } := by
  unfold set_message_type fko_set_spa_message_type at h
  have e : (if o.server_command ≠ [] then FKO_COMMAND_MSG
    else if o.nat_local then
      if o.fw_timeout ≥ 0 then FKO_CLIENT_TIMEOUT_LOCAL_NAT_ACCESS_MSG else FKO_LOCAL_NAT_ACCESS_MSG
    else if o.nat_access_str ≠ [] then
      if o.fw_timeout ≥ 0 then FKO_CLIENT_TIMEOUT_NAT_ACCESS_MSG else FKO_NAT_ACCESS_MSG
    else if o.fw_timeout ≥ 0 then FKO_CLIENT_TIMEOUT_ACCESS_MSG else FKO_ACCESS_MSG) = chosenType o := rfl
  rw [e] at h
  split at h
  · cases h
  · cases h; exact ⟨_, rfl⟩

theorem stamp_rec {c c' : Ctx} {now off : Int} (h : fko_set_timestamp c now off = some c') :
    0 ≤ now + off ∧ ∃ st, c' = { c with timestamp := now + off, state := st } := by
  unfold fko_set_timestamp at h
  split at h
  · cases h
  · cases h; exact ⟨by omega, _, rfl⟩

theorem setPlus_rec {c c' : Ctx} {E : CliEnv} {o : CliOpts} (h0 : 0 ≤ c.timestamp) (h : setPlus c E o = .ok c') :
    0 ≤ c'.timestamp ∧
    ∃ st, c' = { c with timestamp := if o.time_offset_plus > 0 then E.nowPlus + o.time_offset_plus else c.timestamp
                        state := st } := by
  unfold setPlus at h
  split at h
  · rename_i hp
    obtain ⟨a, st, rfl⟩ := stamp_rec (ofOpt_ok h)
    rw [if_pos hp]; exact ⟨a, st, rfl⟩
  · rename_i hp
    cases h
    rw [if_neg hp]; exact ⟨h0, _, rfl⟩

theorem setMinus_rec {c c' : Ctx} {E : CliEnv} {o : CliOpts} (h0 : 0 ≤ c.timestamp) (h : setMinus c E o = .ok c') :
    0 ≤ c'.timestamp ∧
    ∃ st, c' = { c with timestamp := if o.time_offset_minus > 0 then E.nowMinus - o.time_offset_minus else c.timestamp
                        state := st } := by
  unfold setMinus at h
  split at h
  · rename_i hp
    obtain ⟨a, st, rfl⟩ := stamp_rec (ofOpt_ok h)
    rw [if_pos hp]
    exact ⟨a, st, rfl⟩
  · rename_i hp
    cases h
    rw [if_neg hp]; exact ⟨h0, _, rfl⟩

theorem setMsg_rec {c c' : Ctx} {m : Str} (h : fko_set_spa_message c m = some c') :
    m.length < 256 ∧ (c.message_type = 0 → IsCommandMsg m) ∧ (c.message_type ≠ 0 → IsAccessMsg m) ∧
    ∃ st, c' = { c with message := some m, state := st } := by
  unfold fko_set_spa_message at h
  simp only [MAX_SPA_MESSAGE_SIZE, FKO_COMMAND_MSG] at h
  split at h
  · cases h
  split at h
  · cases h
  rename_i h1 h2
  by_cases h0 : c.message_type = 0
  · simp only [if_pos h0] at h
    split at h
    · rename_i h3
      cases h
      exact ⟨by omega, fun _ => (validate_cmd_iff m).1 h3, fun e => absurd h0 e, _, rfl⟩
    · cases h
  · simp only [if_neg h0] at h
    split at h
    · rename_i h3
      cases h
      exact ⟨by omega, fun e => absurd e h0, fun _ => (validate_access_iff m).1 h3, _, rfl⟩
    · cases h

theorem setNatAccess_rec {c c' : Ctx} {m : Str} (h : fko_set_spa_nat_access c m = some c') :
    m.length < 128 ∧ validate_nat_access_msg m = true ∧
    ∃ st, c' = { c with nat_access := some m
                        message_type := if c.client_timeout > 0 then (if c.message_type ≠ 6 then 4 else 6)
                          else if c.message_type ≠ 5 ∧ c.message_type ≠ 6 then 2 else c.message_type
                        state := st } := by
  unfold fko_set_spa_nat_access at h
  simp only [MAX_SPA_NAT_ACCESS_SIZE, consts] at h
  split at h
  · cases h
  split at h
  · cases h
  split at h
  · cases h
  · rename_i h1 h2 h3
    cases h
    refine ⟨by omega, by simpa using h3, c.state ||| 2, ?_⟩
    have e : (if c.message_type ≠ 6 then (4 : Int) else c.message_type) = if c.message_type ≠ 6 then 4 else 6 := by
      split <;> omega
    rw [e]
    rfl

theorem setUser_rec {c c' : Ctx} {o : CliOpts} (hl : o.spoof_user.length ≤ 29) (h : setUser c o = .ok c') :
    (o.spoof_user ≠ [] → validate_username o.spoof_user = true) ∧
    ∃ st, c' = { c with username := if o.spoof_user = [] then c.username else some o.spoof_user
                        state := st } := by
  unfold setUser at h
  split at h
  · rename_i hp
    have h := ofOpt_ok h
    unfold fko_set_username at h
    have hu : (if min o.spoof_user.length MAX_SPA_USERNAME_SIZE = MAX_SPA_USERNAME_SIZE
        then o.spoof_user.take (MAX_SPA_USERNAME_SIZE - 1) else o.spoof_user) = o.spoof_user := by
      simp only [MAX_SPA_USERNAME_SIZE]
      rw [if_neg (by omega)]
    rw [hu] at h
    dsimp only at h
    split at h
    · rename_i hv
      cases h
      rw [if_neg hp]
      exact ⟨fun _ => hv, _, rfl⟩
    · cases h
  · rename_i hp
    cases h
    have hp : o.spoof_user = [] := Classical.not_not.1 hp
    rw [if_pos hp]
    exact ⟨fun h => absurd hp h, _, rfl⟩

theorem setEnc_rec {c c' : Ctx} {o : CliOpts} (h : setEnc c o = .ok c') :
    ∃ st, c' = { c with encryption_type := if o.use_gpg then 2 else c.encryption_type
                        encryption_mode := if o.use_gpg then 7 else if o.encryption_mode ≠ 0 then o.encryption_mode else c.encryption_mode
                        state := st } := by
  unfold setEnc at h
  split at h
  · rename_i hp
    obtain ⟨d, h1, h2⟩ := Res.bind_eq_ok h
    have h1 := ofOpt_ok h1
    have h2 := ofOpt_ok h2
    unfold fko_set_spa_encryption_type at h1
    unfold fko_set_spa_encryption_mode at h2
    rw [if_neg (by decide), Option.some.injEq] at h1 h2
    subst h1 h2
    simp only [if_pos hp]
    exact ⟨_, rfl⟩
  · rename_i hp
    simp only [if_neg hp]
    split at h
    · rename_i hm
      have h := ofOpt_ok h
      unfold fko_set_spa_encryption_mode at h
      split at h
      · cases h
      · cases h
        rw [if_pos hm]
        exact ⟨_, rfl⟩
    · rename_i hm
      cases h
      rw [if_neg hm]
      exact ⟨_, rfl⟩

theorem setDigest_rec {c c' : Ctx} {o : CliOpts} (h : setDigest c o = .ok c') :
    ∃ st, c' = { c with digest_type := if o.digest_type ≠ 0 then o.digest_type else c.digest_type
                        state := st } := by
  unfold setDigest at h
  split at h
  · rename_i hp
    have h := ofOpt_ok h
    unfold fko_set_spa_digest_type at h
    split at h
    · cases h
    · cases h
      rw [if_pos hp]
      exact ⟨_, rfl⟩
  · rename_i hp
    cases h
    rw [if_neg hp]
    exact ⟨_, rfl⟩

theorem useHmac_rec {c c' : Ctx} {o : CliOpts} {key : Str} {h : Option Str} (hh : useHmac c o key h = .ok c') :
    (∀ k, h = some k → k ≠ key) ∧
    ∃ st, c' = { c with hmac_type := if h.isSome then o.hmac_type else c.hmac_type, state := st } := by
  cases h with
  | none => cases hh; exact ⟨by simp, _, rfl⟩
  | some k =>
    unfold useHmac at hh
    obtain ⟨u, h1, h2⟩ := Res.bind_eq_ok hh
    have h2 := ofOpt_ok h2
    unfold fko_set_spa_hmac_type at h2
    refine ⟨?_, ?_⟩
    · intro k' e; cases e
      intro e
      subst e
      simp [Res.guard] at h1
    · split at h2
      · cases h2
      · cases h2; exact ⟨_, rfl⟩

end Fwknop
