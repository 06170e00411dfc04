import Verif.Lemmas.ClientCtx
import Verif.Lemmas.Fresh
import Verif.Props.Fko

/-!
# From the client's context to the packet
-/

namespace Fwknop
open Spec Res

theorem decimal_text (n : Nat) : IsText (decimal n) := by
  intro c hc
  rw [← decStr_decimal] at hc
  have := decStr_digits n c hc
  unfold isDigit at this
  simp at this
  omega

theorem text_append {a b : Str} (ha : IsText a) (hb : IsText b) : IsText (a ++ b) := by
  intro c hc
  rcases List.mem_append.1 hc with h | h
  · exact ha c h
  · exact hb c h

theorem text_cons {x : Nat} {a : Str} (hx : 0 < x ∧ x < 256) (ha : IsText a) : IsText (x :: a) := by
  intro c hc
  rcases List.mem_cons.1 hc with rfl | h
  · exact hx
  · exact ha c h

theorem text_sub {a b : Str} (h : ∀ c ∈ a, c ∈ b) (hb : IsText b) : IsText a := fun c hc => hb c (h c hc)

/-- What a successful call says about the keys. -/
theorem final_limits {K : Crypto} (hH : K.H.Lawful) {salt : Str} {c c' : Ctx} {key : Str} {hk : Option Str}
    (hc : Fresh K.H c)
    (ec : fko_spa_data_final K salt c (some key) hk = .ok (true, c')) :
    (c.encryption_type = 1 → key.length ≤ 32) ∧ (c.hmac_type ≠ 0 → (1 ≤ c.hmac_type ∧ c.hmac_type ≤ 7) ∧ ∃ k, hk = some k ∧ k.length ≤ 136) := by
  obtain ⟨b, x1, e1, -⟩ := encrypt_fresh hH salt c (some key) hc
  unfold fko_spa_data_final at ec
  rw [e1, Res.bind_ok] at ec
  cases b with
  | false => simp at ec
  | true =>
    obtain ⟨c0, a3, a4, a5⟩ := encrypt_split hc e1
    obtain ⟨b, e, n, g, -⟩ := encryptEncoded_ok hH salt c0 (some key) a3
    have g0 := a4
    rw [a4] at g
    simp only [Res.ok.injEq, Prod.mk.injEq] at g
    simp only [Ctx.values, Prod.mk.injEq] at a5
    have hz : x1.hmac_type = c.hmac_type := by
      rw [g.2]
      show c0.hmac_type = _
      rw [a5.2.2.2.2.2.2.2.2.2.2.2.2]
    constructor
    · intro ht
      have hty : c0.encryption_type = 1 := by rw [a5.2.2.2.2.2.2.2.2.2.2.1, ht]
      apply Classical.byContradiction
      intro hn
      unfold encryptEncoded at g0
      split at g0
      · simp at g0
      · simp only [hty, consts, if_true] at g0
        unfold _rijndael_encrypt at g0
        rw [if_pos (Or.inl (by simp only [RIJNDAEL_MAX_KEYSIZE]; omega))] at g0
        simp at g0
    · intro h0
      rw [hz] at ec
      simp only [Bool.true_and, consts] at ec
      rw [if_pos (by simpa using h0)] at ec
      unfold appendHmac fko_set_spa_hmac at ec
      cases hk with
      | none => simp at ec
      | some k =>
        simp only at ec
        refine ⟨?_, k, rfl, ?_⟩
        · apply Classical.byContradiction
          intro hn
          have : Res.guard (decide (x1.hmac_type < 1 ∨ x1.hmac_type ≥ FKO_LAST_HMAC_MODE)) = .err := by
            rw [hz]
            unfold Res.guard
            rw [if_pos (by simp only [FKO_LAST_HMAC_MODE, decide_eq_true_eq]; omega)]
          rw [this] at ec
          cases hg : Res.guard (decide (k.length > MAX_DIGEST_BLOCK_LEN)) <;> rw [hg] at ec <;> simp at ec
        · apply Classical.byContradiction
          intro hn
          have : Res.guard (decide (k.length > MAX_DIGEST_BLOCK_LEN)) = .err := by
            unfold Res.guard
            rw [if_pos (by simp only [MAX_DIGEST_BLOCK_LEN, decide_eq_true_eq]; omega)]
          rw [this] at ec
          simp at ec

theorem built_wellFormed {E : CliEnv} {o : CliOpts} {c : Ctx} {r : Request} (ho : OptsOk o)
    (hres : ∀ ip, E.resolved = some ip → IsText ip ∧ ip.length ≤ 15)
    (hcmd : o.server_command ≠ [] → o.nat_local = false ∧ o.nat_access_str = [] ∧ o.fw_timeout ≤ 0)
    (hb : Built E o c r) (hf : FitsReceiver r) : r.WellFormed := by
  have A := hb.asks
  have hu := (validate_username_iff r.user).1 hb.user.2
  have hnat : ∀ n, r.nat = some n → IsText n := by
    intro n hn
    have := A.nat
    rw [hn] at this
    generalize hq : some n = q at this
    cases this with
    | no => cases hq
    | server p => cases hq; exact text_append ho.server.1 (text_cons (by omega) (decimal_text _))
    | host p => cases hq; exact text_append ho.nat.1 (text_cons (by omega) (decimal_text _))
    | target host digits sep _ he =>
      cases hq
      refine text_append (text_sub ?_ ho.nat.1) (text_cons (by omega) (decimal_text _))
      intro c hc
      rw [he]
      exact List.mem_append_left _ hc
  have hnat0 : r.nat = none ↔ ¬ HasNat r.type := by
    have := A.nat
    rw [A.type]
    generalize hq : r.nat = q at this
    unfold askedType HasNat
    cases this with
    | no h1 h2 =>
      by_cases hs : o.server_command = [] <;> by_cases h : o.fw_timeout > 0 <;> simp [h1, h2, hs, h]
    | server p h1 h2 =>
      by_cases hs : o.server_command = []
      · simp [hs, h1]
      · have := (hcmd hs).1; rw [this] at h1; cases h1
    | host p h1 =>
      by_cases hs : o.server_command = []
      · simp [hs, h1]; split <;> split <;> decide
      · exact absurd (hcmd hs).2.1 h1
    | target host digits sep h1 h2 =>
      have h1 : o.nat_access_str ≠ [] := by rw [h2]; simp
      by_cases hs : o.server_command = []
      · simp [hs, h1]; split <;> split <;> decide
      · exact absurd (hcmd hs).2.1 h1
  have hto : HasTimeout r.type ↔ o.fw_timeout > 0 := by
    rw [A.type]
    unfold askedType HasTimeout
    by_cases hs : o.server_command = []
    · by_cases h : o.fw_timeout > 0 <;> by_cases h2 : o.nat_local = true <;>
        by_cases h3 : o.nat_access_str = [] <;> simp [hs, h, h2, h3]
    · have := (hcmd hs).2.2
      simp [hs]
      omega
  have hmsg : IsText r.msg := by
    by_cases hs : o.server_command = []
    · obtain ⟨ip, port, ports, h1, -, h3, h4, -⟩ := A.access hs
      rw [h4]
      refine text_append ?_ (text_cons (by omega) ?_)
      · unfold AskedIp at h1
        split at h1
        · exact (hres _ h1).1
        · rw [h1]; exact ho.allow.1
      · cases h3 with
        | given => exact ho.access.1
        | replaced proto port p he =>
          refine text_append (text_sub ?_ ho.access.1) (text_cons (by omega) (decimal_text _))
          intro c hc
          rw [he]
          exact List.mem_append_left _ hc
    · rw [A.command hs]
      exact text_append ho.allow.1 (text_cons (by omega) ho.command.1)
  have ht0 : r.type = 0 ↔ o.server_command ≠ [] := by
    rw [A.type]
    unfold askedType
    by_cases hs : o.server_command = []
    · simp [hs]; repeat' split
      all_goals decide
    · simp [hs]
  refine ⟨A.rand.1, ?_, hu.1, hf.user, ?_, hf.ts, ?_, ?_, ?_, hmsg, hf.msg, hb.cmd, ?_, ?_, fun h => hnat0.2 h, ?_, ?_, ?_⟩
  · intro c hc
    have := A.rand.2 c hc
    unfold IsDigitChar at this
    omega
  · intro c hc
    exact hu.2 c (by rw [List.take_of_length_le (by have := hf.user; omega)]; exact hc)
  · rw [A.version]; decide
  · rw [A.version]; unfold IsPlainField; decide
  · rw [A.type]; unfold askedType; repeat' split
    all_goals decide
  · intro h
    have : o.server_command = [] := by
      apply Classical.byContradiction; intro hn; exact h (ht0.2 hn)
    obtain ⟨_, _, _, _, _, _, _, h, _⟩ := A.access this
    exact h
  · intro h
    cases hn : r.nat with
    | none => exact absurd h (hnat0.1 hn)
    | some n =>
      obtain ⟨h1, h2⟩ := hb.nat.2 n hn
      exact ⟨n, rfl, hnat n hn, ((validate_nat_iff n).1 h1).1, by omega⟩
  · intro a ha
    rw [A.auth] at ha; cases ha
  · intro h
    have h1 := hto.1 h
    have h2 := A.timeout
    rw [if_pos h1] at h2
    have := hf.timeout
    omega
  · intro h
    rw [A.timeout, if_neg fun h' => h (hto.2 h')]

end Fwknop
