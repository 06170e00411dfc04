import Verif.Lemmas.ClientArgs
import Verif.Lemmas.ClientKeys
import Verif.Lemmas.ClientSend

/-!
# The client stays inside its arrays
-/

namespace Fwknop
open Spec Res

theorem bind_safe {α β : Type} {x : Res α} {f : α → Res β} (hx : x ≠ .ub) (hf : ∀ a, x = .ok a → f a ≠ .ub) :
    (x >>= f) ≠ .ub := by
  cases x with
  | ub => exact absurd rfl hx
  | err => intro h; cases h
  | ok a => exact hf a rfl

theorem guard_safe (b : Bool) : Res.guard b ≠ .ub := by unfold Res.guard; split <;> simp

theorem mem_safe {b : Bool} (h : b = false) : Res.mem b ≠ .ub := by unfold Res.mem; rw [h]; simp

theorem ofOpt_safe {α : Type} (x : Option α) : Res.ofOpt x ≠ .ub := by cases x <;> simp [Res.ofOpt]

theorem ok_safe {α : Type} (a : α) : (Res.ok a) ≠ .ub := by simp

theorem pure_safe {α : Type} (a : α) : (pure a : Res α) ≠ .ub := by intro h; cases h

theorem ite_safe {α : Type} {p : Prop} [Decidable p] {x y : Res α} (hx : x ≠ .ub) (hy : y ≠ .ub) :
    (if p then x else y) ≠ .ub := by
  split
  · exact hx
  · exact hy

theorem offsetLoop_bound : ∀ (s acc ds : Str) (mul : Int), offsetLoop s acc = some (ds, mul) →
    (∀ c ∈ acc, isDigit c = true) →
    (∀ c ∈ ds, isDigit c = true) ∧ ((mul = 1 ∧ ds.length ≤ acc.length + s.length) ∨
      ((mul = 60 ∨ mul = 3600 ∨ mul = 86400) ∧ ds.length + 1 ≤ acc.length + s.length)) := by
  intro s
  induction s with
  | nil =>
    intro acc ds mul h ha
    unfold offsetLoop at h
    cases h
    exact ⟨ha, .inl ⟨rfl, by simp⟩⟩
  | cons c s ih =>
    intro acc ds mul h ha
    unfold offsetLoop at h
    split at h
    · rename_i hd
      split at h
      · cases h
      · have := ih (acc ++ [c]) ds mul h (by
          intro x hx
          rcases List.mem_append.1 hx with hx | hx
          · exact ha x hx
          · simp at hx; rw [hx]; exact hd)
        simp only [List.length_append, List.length_cons, List.length_nil] at this ⊢
        refine ⟨this.1, ?_⟩
        rcases this.2 with h | h
        · exact .inl ⟨h.1, by omega⟩
        · exact .inr ⟨h.1, by omega⟩
    · split at h
      · cases h; exact ⟨ha, .inr ⟨.inl rfl, by simp⟩⟩
      · split at h
        · cases h; exact ⟨ha, .inr ⟨.inr (.inl rfl), by simp⟩⟩
        · split at h
          · cases h; exact ⟨ha, .inr ⟨.inr (.inr rfl), by simp⟩⟩
          · have := ih acc ds mul h ha
            simp only [List.length_cons] at this ⊢
            refine ⟨this.1, ?_⟩
            rcases this.2 with h | h
            · exact .inl ⟨h.1, by omega⟩
            · exact .inr ⟨h.1, by omega⟩

theorem parse_time_offset_safe {v : Str} (hl : v.length ≤ 5) : parse_time_offset v ≠ .ub := by
  unfold parse_time_offset
  cases ho : offsetLoop v [] with
  | none => simp
  | some r =>
    obtain ⟨ds, mul⟩ := r
    obtain ⟨h1, h2⟩ := offsetLoop_bound v [] ds mul ho (by simp)
    simp only
    by_cases he : ds = []
    · subst he
      intro h; cases h
    have hp := digitsVal_lt ds h1
    simp only [List.length_nil] at h2
    have h5 : digitsVal 10 ds < 10 ^ 5 := Nat.lt_of_lt_of_le hp (Nat.pow_le_pow_right (by decide) (by omega))
    refine bind_safe (guard_safe _) fun _ _ => ?_
    have e := strtol_wrapper_digits ds h1 he (by omega) 0 65536
    rw [e]
    refine bind_safe (mem_safe ?_) fun _ _ => bind_safe (guard_safe _) fun _ _ => pure_safe _
    simp only [decide_eq_false_iff_not]
    rcases h2 with ⟨rfl, -⟩ | ⟨hm, hl4⟩
    · omega
    · have h4 : digitsVal 10 ds < 10 ^ 4 := Nat.lt_of_lt_of_le hp (Nat.pow_le_pow_right (by decide) (by omega))
      rcases hm with rfl | rfl | rfl <;> omega

theorem cliNum_safe (v : Str) (max : Int) : cliNum v max ≠ .ub := by
  unfold cliNum
  exact bind_safe (guard_safe _) fun _ _ => pure_safe _

theorem cliName_safe (n : Int) : cliName n ≠ .ub := by
  unfold cliName
  exact bind_safe (guard_safe _) fun _ _ => pure_safe _

/-- Sizes with which nothing is written or read outside an array. -/
structure SafeArg (a : CliArg) : Prop where
  offset : ∀ v, a = .time_plus v ∨ a = .time_minus v → v.length ≤ 5
  access : ∀ v, a = .access v → v.length ≤ 1000
  key64 : ∀ v, a = .key_base64 v ∨ a = .hmac_key_base64 v → v.length ≤ 171

theorem applyArg_safe (o : CliOpts) {a : CliArg} (ha : SafeArg a) : applyArg o a ≠ .ub := by
  cases a
  case time_plus v => exact bind_safe (parse_time_offset_safe (ha.offset v (.inl rfl))) fun _ _ => pure_safe _
  case time_minus v => exact bind_safe (parse_time_offset_safe (ha.offset v (.inr rfl))) fun _ _ => pure_safe _
  all_goals first
    | exact ok_safe _
    | exact bind_safe (cliNum_safe _ _) fun _ _ => pure_safe _
    | exact bind_safe (cliName_safe _) fun _ _ => pure_safe _
    | exact bind_safe (guard_safe _) fun _ _ => pure_safe _

theorem applyArgs_safe : ∀ (args : List CliArg) (o : CliOpts), (∀ a ∈ args, SafeArg a) → applyArgs o args ≠ .ub
  | [], o, _ => ok_safe o
  | a :: as, o, h => bind_safe (applyArg_safe o (h a (by simp))) fun o' _ =>
      applyArgs_safe as o' fun b hb => h b (List.mem_cons_of_mem _ hb)

/-- Options with such sizes. -/
structure SafeOpts (o : CliOpts) : Prop where
  access : o.access_str.length ≤ 1000
  key64 : o.key_base64.length ≤ 171
  hmac64 : o.hmac_key_base64.length ≤ 171

theorem safeOpts_args {args : List CliArg} (hs : ∀ a ∈ args, SafeArg a) {o o' : CliOpts}
    (h : applyArgs o args = .ok o') (ho : SafeOpts o) : SafeOpts o' := by
  refine args_keep SafeOpts ?_ o o' h ho
  intro o a ha o' h ho
  have hs := hs a ha
  have hl : ∀ (v : Str) (n k : Nat), v.length ≤ k → (strlcpy v n).length ≤ k := by
    intro v n k hk
    unfold strlcpy
    rw [List.length_take]
    omega
  cases a
  case access v => cases h; exact { ho with access := hl _ _ _ (hs.access v rfl) }
  case key_base64 v =>
    obtain ⟨n, h1, h2⟩ := Res.bind_eq_ok h
    cases h2
    exact { ho with key64 := hl _ _ _ (hs.key64 v (.inl rfl)) }
  case hmac_key_base64 v =>
    obtain ⟨n, h1, h2⟩ := Res.bind_eq_ok h
    cases h2
    exact { ho with hmac64 := hl _ _ _ (hs.key64 v (.inr rfl)) }
  all_goals first
    | (cases h; exact { ho with })
    | (obtain ⟨n, h1, h2⟩ := Res.bind_eq_ok h
       cases h2
       exact { ho with })

theorem decodeKey_safe {s : Str} (h : s.length ≤ 171) : decodeKey s ≠ .ub := by
  unfold decodeKey
  refine bind_safe (ofOpt_safe _) fun k hk => bind_safe (mem_safe ?_) fun _ _ => pure_safe _
  have := Base64.decodeLoop_length s 0 0 k (ofOpt_ok hk)
  simp only [MAX_KEY_LEN, decide_eq_false_iff_not]
  omega

theorem keyFileLine_safe {server line : Str} (hs : server.length ≤ 49) (hl : line.length ≤ 129) : keyFileLine server line ≠ .ub := by
  have hc : (cstr line).length ≤ 129 := Nat.le_trans (List.takeWhile_prefix _).length_le hl
  unfold keyFileLine
  simp only
  split
  · simp
  · refine bind_safe (mem_safe ?_) fun _ _ => ?_
    · simp only [MAX_LINE_LEN, decide_eq_false_iff_not]
      omega
    · split
      · exact pure_safe _
      · split
        · rename_i rest hr
          refine bind_safe (mem_safe ?_) fun _ _ => pure_safe _
          simp only [MAX_KEY_LEN, decide_eq_false_iff_not]
          have h1 := congrArg List.length hr
          simp only [List.length_drop, List.length_cons] at h1
          have h2 := (List.takeWhile_prefix (p := fun x => decide (x ≠ 10)) (l := rest.dropWhile isKeySep)).length_le
          have h3 := (List.dropWhile_suffix (l := rest) isKeySep).length_le
          have h4 := (List.dropWhile_suffix (l := cstr line) isKeySep).length_le
          omega
        · exact pure_safe _

theorem keyFileLoop_safe {server : Str} (hs : server.length ≤ 49) :
    ∀ (ls : List Str) (k : Str), (∀ l ∈ ls, l.length ≤ 129) → keyFileLoop server ls k ≠ .ub
  | [], k, _ => ok_safe k
  | l :: ls, k, h => bind_safe (keyFileLine_safe hs (h l (by simp))) fun _ _ =>
      keyFileLoop_safe hs ls _ fun x hx => h x (List.mem_cons_of_mem _ hx)

/-- Files whose lines have at most 128 characters. -/
def ShortFiles (E : CliEnv) : Prop :=
  ∀ name content, E.file name = some content → ∃ ls, content = fileOf ls ∧ ∀ l ∈ ls, 10 ∉ l ∧ l.length ≤ 128

theorem get_key_file_safe {E : CliEnv} {server name : Str} (hs : server.length ≤ 49) (hf : ShortFiles E) :
    get_key_file E server name ≠ .ub := by
  unfold get_key_file
  refine bind_safe (ofOpt_safe _) fun content hc => bind_safe ?_ fun _ _ => bind_safe (guard_safe _) fun _ _ => pure_safe _
  obtain ⟨ls, rfl, hls⟩ := hf _ _ (ofOpt_ok hc)
  unfold fileOf
  rw [fgetsLines_flatten _ _ (fun l hl => ⟨(hls l hl).1, by have := (hls l hl).2; omega⟩) (Nat.le_refl _)]
  refine keyFileLoop_safe hs _ _ fun l hl => ?_
  obtain ⟨x, hx, rfl⟩ := List.mem_map.1 hl
  have := (hls x hx).2
  simp
  omega

theorem typedKey_safe (p : Option Str) : typedKey p ≠ .ub := by
  unfold typedKey
  exact bind_safe (ofOpt_safe _) fun _ _ => pure_safe _

theorem getKey_safe {E : CliEnv} {o : CliOpts} (hs : o.spa_server_str.length ≤ 49) (ho : SafeOpts o) (hf : ShortFiles E) :
    getKey E o ≠ .ub := by
  unfold getKey
  split
  · exact ok_safe _
  · split
    · exact bind_safe (decodeKey_safe ho.key64) fun _ _ => bind_safe (guard_safe _) fun _ _ => pure_safe _
    · split
      · exact get_key_file_safe hs hf
      · split
        · unfold gpgKey
          split
          · exact ok_safe _
          · exact typedKey_safe _
        · exact typedKey_safe _

theorem getHmacKey_safe {E : CliEnv} {o : CliOpts} (hs : o.spa_server_str.length ≤ 49) (ho : SafeOpts o) (hf : ShortFiles E) :
    getHmacKey E o ≠ .ub := by
  unfold getHmacKey
  split
  · exact ok_safe _
  · split
    · exact bind_safe (decodeKey_safe ho.hmac64) fun _ _ => pure_safe _
    · split
      · split
        · exact bind_safe (get_key_file_safe hs hf) fun _ _ => pure_safe _
        · exact bind_safe (typedKey_safe _) fun _ _ => pure_safe _
      · exact ok_safe _

theorem strchr_lt : ∀ {s : Str} {c n : Nat}, strchr s c = some n → n < s.length := by
  intro s
  induction s with
  | nil => intro c n h; cases h
  | cons x s ih =>
    intro c n h
    unfold strchr at h
    split at h
    · cases h; simp
    · cases hs : strchr s c with
      | none => rw [hs] at h; cases h
      | some m =>
        rw [hs] at h
        cases h
        have := ih hs
        simp
        omega

theorem strlcat_length (d s : Str) (n : Nat) : (strlcat d s n).length ≤ d.length + s.length ∧
    ((strlcat d s n).length ≤ max d.length (n - 1)) := by
  unfold strlcat
  split
  · simp; omega
  · simp; omega

theorem accessWithPort_safe {o : CliOpts} {port : Int} (ha : o.allow_ip_str.length ≤ 15) (hs : o.access_str.length ≤ 1000) :
    accessWithPort o port ≠ .ub := by
  unfold accessWithPort
  cases hn : strchr o.access_str 47 with
  | none => simp
  | some ndx =>
    simp only
    have h1 := strchr_lt hn
    have h0 : ((o.allow_ip_str ++ b!",").take (MAX_LINE_LEN - 1)).length ≤ 16 := by
      rw [List.length_take, List.length_append]
      simp [MAX_LINE_LEN]
      omega
    generalize (o.allow_ip_str ++ b!",").take (MAX_LINE_LEN - 1) = b0 at h0
    have h2 := (strlcat_length b0 o.access_str (b0.length + ndx + 2)).2
    generalize strlcat b0 o.access_str (b0.length + ndx + 2) = b1 at h2
    have h3 := (strlcat_length b1 ((decStrInt port).take MAX_PORT_STR_LEN) (b1.length + MAX_PORT_STR_LEN + 1)).2
    generalize strlcat b1 ((decStrInt port).take MAX_PORT_STR_LEN) (b1.length + MAX_PORT_STR_LEN + 1) = b2 at h3
    simp only [MAX_PORT_STR_LEN] at h3
    refine bind_safe (mem_safe ?_) fun _ _ => bind_safe (guard_safe _) fun _ _ => bind_safe (mem_safe ?_) fun _ _ => pure_safe _
    · simp only [MAX_LINE_LEN, decide_eq_false_iff_not]; omega
    · simp only [MAX_LINE_LEN, decide_eq_false_iff_not]; omega

theorem set_access_buf_safe {c : Ctx} {o : CliOpts} {rands : List Nat} (hr : c.rand_val.isSome = true)
    (ha : o.allow_ip_str.length ≤ 15) (hs : o.access_str.length ≤ 1000) : set_access_buf c o rands ≠ .ub := by
  unfold set_access_buf
  split
  · refine bind_safe ?_ fun p _ => bind_safe ?_ fun _ _ => pure_safe _
    · unfold accessNatPort
      split
      · unfold get_rand_port
        cases h : c.rand_val with
        | none => rw [h] at hr; cases hr
        | some r => simp only; split <;> simp
      · exact ok_safe _
    · unfold accessText
      split
      · exact accessWithPort_safe ha hs
      · exact ok_safe _
  · exact ok_safe _

theorem natAccessText_safe (o : CliOpts) : natAccessText o ≠ .ub := by
  unfold natAccessText
  refine bind_safe ?_ fun _ _ => ?_
  · unfold accessPort
    split
    · simp
    · exact bind_safe (guard_safe _) fun _ _ => pure_safe _
  · split
    · exact pure_safe _
    · split
      · refine bind_safe ?_ fun _ _ => bind_safe (guard_safe _) fun _ _ => bind_safe (guard_safe _) fun _ _ => pure_safe _
        unfold natHostPort
        split
        · exact ok_safe _
        · exact bind_safe (guard_safe _) fun _ _ => bind_safe (guard_safe _) fun _ _ => pure_safe _
      · exact pure_safe _

theorem clientCtx_safe {E : CliEnv} {o : CliOpts} (ho : OptsOk o) (hs : SafeOpts o)
    (hres : ∀ ip, E.resolved = some ip → IsText ip ∧ ip.length ≤ 15) : clientCtx E o ≠ .ub := by
  unfold clientCtx
  refine bind_safe (ofOpt_safe _) fun c0 e0 => ?_
  refine bind_safe (ite_safe (ofOpt_safe _) (ok_safe _)) fun c1 e1 => ?_
  refine bind_safe (ofOpt_safe _) fun c2 e2 => ?_
  refine bind_safe (ite_safe (ofOpt_safe _) (ok_safe _)) fun c3 e3 => ?_
  refine bind_safe (ite_safe (ofOpt_safe _) (ok_safe _)) fun c4 e4 => ?_
  obtain ⟨hv, h0, s0, r0⟩ := new_rec (ofOpt_ok e0)
  obtain ⟨mt, s1, r1⟩ := setTimeout_rec e1
  obtain ⟨s2, r2⟩ := setType_rec (ofOpt_ok e2)
  obtain ⟨t3, s3, r3⟩ := setPlus_rec (by rw [r2, r1, r0]; exact h0) e3
  obtain ⟨t4, s4, r4⟩ := setMinus_rec t3 e4
  have hrand : c4.rand_val.isSome = true := by rw [r4, r3, r2, r1, r0]; rfl
  refine bind_safe ?_ fun m e5 => bind_safe (ofOpt_safe _) fun c6 _ => bind_safe ?_ fun c7 _ => bind_safe ?_ fun c8 _ =>
    bind_safe ?_ fun c9 _ => ?_
  · unfold messageText
    split
    · exact ok_safe _
    · refine bind_safe ?_ fun o' he => ?_
      · unfold resolveAllow
        split
        · exact bind_safe (ofOpt_safe _) fun _ _ => pure_safe _
        · exact ok_safe _
      · have : o'.allow_ip_str.length ≤ 15 ∧ o'.access_str = o.access_str := by
          unfold resolveAllow at he
          split at he
          · obtain ⟨ip, h1, h2⟩ := Res.bind_eq_ok he
            cases h2
            exact ⟨(hres _ (ofOpt_ok h1)).2, rfl⟩
          · cases he; exact ⟨ho.allow.2, rfl⟩
        exact set_access_buf_safe hrand this.1 (by rw [this.2]; exact hs.access)
  · unfold setNat
    split
    · exact bind_safe (natAccessText_safe _) fun _ _ => ofOpt_safe _
    · exact ok_safe _
  · exact ite_safe (ofOpt_safe _) (ok_safe _)
  · unfold setEnc
    split
    · exact bind_safe (ofOpt_safe _) fun _ _ => ofOpt_safe _
    · split
      · exact ofOpt_safe _
      · exact ok_safe _
  · exact ite_safe (ofOpt_safe _) (ok_safe _)

/-- A context that no encoding has been made of yet. -/
theorem clientCtx_fresh {E : CliEnv} {o : CliOpts} {c : Ctx} (ho : OptsOk o) (h : clientCtx E o = .ok c) :
    c.rand_val.isSome = true ∧ c.encoded_msg = none := by
  unfold clientCtx at h
  obtain ⟨c0, e0, h⟩ := Res.bind_eq_ok h
  obtain ⟨c1, e1, h⟩ := Res.bind_eq_ok h
  obtain ⟨c2, e2, h⟩ := Res.bind_eq_ok h
  obtain ⟨c3, e3, h⟩ := Res.bind_eq_ok h
  obtain ⟨c4, e4, h⟩ := Res.bind_eq_ok h
  obtain ⟨⟨m, c5⟩, e5, h⟩ := Res.bind_eq_ok h
  obtain ⟨c6, e6, h⟩ := Res.bind_eq_ok h
  obtain ⟨c7, e7, h⟩ := Res.bind_eq_ok h
  obtain ⟨c8, e8, h⟩ := Res.bind_eq_ok h
  obtain ⟨c9, e9, e10⟩ := Res.bind_eq_ok h
  obtain ⟨hv, h0, s0, r0⟩ := new_rec (ofOpt_ok e0)
  obtain ⟨mt, s1, r1⟩ := setTimeout_rec e1
  obtain ⟨s2, r2⟩ := setType_rec (ofOpt_ok e2)
  obtain ⟨t3, s3, r3⟩ := setPlus_rec (by rw [r2, r1, r0]; exact h0) e3
  obtain ⟨t4, s4, r4⟩ := setMinus_rec t3 e4
  have h4 : c4.rand_val.isSome = true ∧ c4.encoded_msg = none := by
    rw [r4, r3, r2, r1, r0]; exact ⟨rfl, rfl⟩
  have h5 : c5.rand_val.isSome = true ∧ c5.encoded_msg = none := by
    unfold messageText at e5
    split at e5
    · cases e5; exact h4
    · obtain ⟨o', g1, g2⟩ := Res.bind_eq_ok e5
      unfold set_access_buf at g2
      split at g2
      · obtain ⟨⟨q, c'⟩, k1, g2⟩ := Res.bind_eq_ok g2
        obtain ⟨t, k2, g2⟩ := Res.bind_eq_ok g2
        cases g2
        unfold accessNatPort at k1
        split at k1
        · unfold get_rand_port at k1
          cases hr : c4.rand_val with
          | none => rw [hr] at h4; cases h4.1
          | some r =>
            rw [hr] at k1
            simp only at k1
            split at k1
            · cases k1; exact h4
            · cases k1; exact ⟨rfl, h4.2⟩
        · cases k1; exact h4
      · cases g2; exact h4
  obtain ⟨-, -, -, s6, r6⟩ := setMsg_rec (ofOpt_ok e6)
  have h6 : c6.rand_val.isSome = true ∧ c6.encoded_msg = none := by rw [r6]; exact h5
  have h7 : c7.rand_val.isSome = true ∧ c7.encoded_msg = none := by
    unfold setNat at e7
    split at e7
    · obtain ⟨t, -, g⟩ := Res.bind_eq_ok e7
      obtain ⟨-, -, s7, r7⟩ := setNatAccess_rec (ofOpt_ok g)
      rw [r7]; exact h6
    · cases e7; exact h6
  have h8 : c8.rand_val.isSome = true ∧ c8.encoded_msg = none := by
    obtain ⟨_, s8, r8⟩ := setUser_rec ho.user.2 e8
    rw [r8]; exact h7
  have h9 : c9.rand_val.isSome = true ∧ c9.encoded_msg = none := by
    obtain ⟨s9, r9⟩ := setEnc_rec e9
    rw [r9]; exact h8
  obtain ⟨s10, r10⟩ := setDigest_rec e10
  rw [r10]; exact h9

theorem final_safe {K : Crypto} (hH : K.H.Lawful) {salt : Str} {c : Ctx} {key hk : Option Str} (hc : Fresh K.H c) :
    fko_spa_data_final K salt c key hk ≠ .ub := by
  obtain ⟨b, c', e, -, h⟩ := encrypt_fresh hH salt c key hc
  unfold fko_spa_data_final
  rw [e, Res.bind_ok]
  split
  · rename_i hb
    simp only [Bool.and_eq_true] at hb
    obtain ⟨-, x, hx, hl, -⟩ := h hb.1
    unfold appendHmac
    have : fko_set_spa_hmac K.H c' hk ≠ .ub := by
      unfold fko_set_spa_hmac
      cases hk with
      | none => simp
      | some k =>
        simp only
        refine bind_safe (guard_safe _) fun _ _ => bind_safe (guard_safe _) fun _ _ => bind_safe (mem_safe ?_) fun _ _ =>
          pure_safe _
        simp [hx, hl]
    split
    · rename_i hu; exact absurd hu this
    · simp
    · simp
  · intro h; cases h

theorem client_safe {K : Crypto} (hH : K.H.Lawful) {E : CliEnv} {args : List CliArg}
    (ht : ∀ a ∈ args, IsText (argText a)) (hs : ∀ a ∈ args, SafeArg a) (hf : ShortFiles E)
    (hres : ∀ ip, E.resolved = some ip → IsText ip ∧ ip.length ≤ 15) : client K E {} args ≠ .ub := by
  unfold client
  refine bind_safe (applyArgs_safe args _ hs) fun o1 e1 => bind_safe ?_ fun o e2 => bind_safe ?_ fun p _ =>
    bind_safe (ofOpt_safe _) fun _ _ => pure_safe _
  · unfold validate_options
    refine bind_safe (guard_safe _) fun _ _ => bind_safe ?_ fun _ _ => bind_safe ?_ fun _ _ =>
      bind_safe (guard_safe _) fun _ _ => bind_safe (guard_safe _) fun _ _ => bind_safe (guard_safe _) fun _ _ =>
      bind_safe (guard_safe _) fun _ _ => bind_safe (guard_safe _) fun _ _ => pure_safe _
    · unfold validateDest
      split
      · exact ok_safe _
      · exact bind_safe (guard_safe _) fun _ _ => bind_safe (guard_safe _) fun _ _ => pure_safe _
    · unfold validateAllow
      split
      · exact bind_safe (guard_safe _) fun _ _ => pure_safe _
      · exact ok_safe _
  · have ho := optsOk_valid e2 (optsOk_args ht e1 optsOk_default)
    have h1 := safeOpts_args hs e1 ⟨by decide, by decide, by decide⟩
    have h2 : SafeOpts o := by
      obtain ⟨-, e⟩ := validate_rec e2
      rw [e]
      exact ⟨h1.access, h1.key64, h1.hmac64⟩
    unfold clientPack
    refine bind_safe (clientCtx_safe ho h2 hres) fun c k1 => bind_safe (getKey_safe ho.server.2 h2 hf) fun key _ =>
      bind_safe (getHmacKey_safe ho.server.2 h2 hf) fun h _ => bind_safe ?_ fun c' k2 => bind_safe ?_ fun r _ =>
      bind_safe (guard_safe _) fun _ _ => pure_safe _
    · unfold useHmac
      split
      · exact ok_safe _
      · exact bind_safe (guard_safe _) fun _ _ => ofOpt_safe _
    · obtain ⟨-, st, hc⟩ := useHmac_rec k2
      obtain ⟨f1, f2⟩ := clientCtx_fresh ho k1
      refine final_safe hH ⟨?_, .inl ?_⟩
      · rw [hc]; exact f1
      · rw [hc]; exact f2

end Fwknop
