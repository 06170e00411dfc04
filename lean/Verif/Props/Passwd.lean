import Verif.Lemmas.Passwd
import Verif.Props.Client

/-!
# C110: keys that are typed in or read from a descriptor

The full claim: the key that the client uses is the line that was typed, as a line editor would have
it, a line that does not fit is refused, and Ctrl-C ends the client.  The first holds for lines of at most
127 characters; the other two do not hold.
-/

namespace Fwknop.Props

open Spec Res

/-! ## What is typed is what is used -/

/-- **C110 (partial: lines that never have more than 127 characters).** Whatever the array holds from an
earlier key, the key that is read is the line that was typed, with backspace and Ctrl-U obeyed; nothing
behind the line is consumed. -/
theorem C110_typed_partial {password ks rest : List Nat} (hp : password.length = 128) (hk : LineKeys ks)
    (hn : NeverLonger 127 ks) :
    (∃ p, p.length = 128 ∧ read_passwd_from_stream password ks = .ok (edited ks, p, [])) ∧
      ∃ p, p.length = 128 ∧ read_passwd_from_stream password (ks ++ 10 :: rest) = .ok (edited ks, p, rest) := by
  have main : ∀ tail e r, (∀ s, pwLoop tail s = .ok (s, e, r)) → e ≠ some PW_BREAK_CHAR →
      ∃ p, p.length = 128 ∧ read_passwd_from_stream password (ks ++ tail) = .ok (edited ks, p, r) := by
    intro tail e r ht he
    obtain ⟨s, h1, h2, h3, h4⟩ := pwLoop_run ks ⟨password, 0⟩ [] tail hp rfl rfl (fun k h => ⟨(hk k h).1, (hk k h).2.1⟩)
      (fun m => hn m)
    have h5 : s.ptr ≤ 127 := by
      rw [h3]
      have := hn ks.length
      rwa [List.take_length] at this
    obtain ⟨p, hp', h6⟩ := read_end (h1.trans (ht s)) h2 h5
    refine ⟨p, hp', ?_⟩
    rw [h6, if_neg he, h4]
    rw [show (ks.foldl editKey []).takeWhile (· ≠ 0) = edited ks from ?_]
    refine takeWhile_noNul fun c hc => ?_
    have : ∀ (l line : List Nat), (∀ k ∈ l, k ≠ 0) → (∀ c ∈ line, c ≠ 0) → ∀ c ∈ l.foldl editKey line, c ≠ 0 := by
      intro l
      induction l with
      | nil => exact fun line _ h => h
      | cons k l ih =>
        intro line hl hline
        refine ih _ (fun x hx => hl x (List.mem_cons_of_mem _ hx)) fun c hc => ?_
        unfold editKey at hc
        split at hc
        · exact hline c (List.dropLast_subset _ hc)
        · split at hc
          · cases hc
          · rcases List.mem_append.mp hc with h | h
            · exact hline c h
            · rw [List.mem_singleton.mp h]; exact hl k List.mem_cons_self
    simpa using this ks [] (fun k h => (hk k h).2.2) (by simp) c hc
  refine ⟨?_, main (10 :: rest) (some 10) rest (fun s => by rw [pwLoop, if_pos (Or.inl rfl)]) (by decide)⟩
  have := main [] none [] (fun s => rfl) (by decide)
  rwa [List.append_nil] at this

/-- `sesame`, with a mistyped letter, after a false start. -/
example : LineKeys (b!"opne" ++ [21] ++ b!"sesm" ++ [8] ++ b!"ame") ∧ NeverLonger 127 (b!"opne" ++ [21] ++ b!"sesm" ++ [8] ++ b!"ame") ∧
    edited (b!"opne" ++ [21] ++ b!"sesm" ++ [8] ++ b!"ame") = b!"sesame" := by
  refine ⟨by unfold LineKeys; decide, fun m => ?_, by decide⟩
  by_cases h : m < 13
  · exact (by decide : ∀ m < 13, (edited ((b!"opne" ++ [21] ++ b!"sesm" ++ [8] ++ b!"ame").take m)).length ≤ 127) m h
  · rw [List.take_of_length_le (by show 13 ≤ m; omega)]
    decide

/-- **C110.** Whatever is typed, and whatever the array holds before, nothing is written outside it, and
the key has at most 127 characters and no NUL. -/
theorem C110_safe {password stream : List Nat} (hp : password.length = 128) :
    ∃ key p rest, read_passwd_from_stream password stream = .ok (key, p, rest) ∧ key.length ≤ 127 ∧ 0 ∉ key ∧ p.length = 128 := by
  obtain ⟨s, e, r, h, hl, hq⟩ := pwLoop_total stream ⟨password, 0⟩ hp (Nat.zero_le _)
  obtain ⟨p, hp', h6⟩ := read_end h hl hq
  refine ⟨_, p, r, h6, ?_, ?_, hp'⟩
  · refine Nat.le_trans (List.takeWhile_prefix _).length_le ?_
    rw [List.length_take]
    refine Nat.le_trans (Nat.min_le_left ..) ?_
    split
    · exact Nat.zero_le _
    · exact hq
  · intro h0
    have := List.all_eq_true.mp List.all_takeWhile _ h0
    simp at this

/-! ## What is not as one would expect -/

/-- **C110, a line that does not fit.** Of a line of other characters than the two that edit, those behind
the 127th are dropped without a word: two keys that differ there are the same key. -/
theorem C110_long_keys_are_cut {password ks : List Nat} (hp : password.length = 128) (hk : LineKeys ks)
    (he : ∀ k ∈ ks, k ≠ 8 ∧ k ≠ 21) : ∃ p, read_passwd_from_stream password ks = .ok (ks.take 127, p, []) := by
  have key : ∀ (l : List Nat) (s : PwSt), s.ptr = 127 → (∀ k ∈ l, k ≠ 10 ∧ k ≠ 3 ∧ k ≠ 8 ∧ k ≠ 21) → pwLoop l s = .ok (s, none, []) := by
    intro l
    induction l with
    | nil => exact fun s _ _ => rfl
    | cons c l ih =>
      intro s hs h
      obtain ⟨a, b, d, e⟩ := h c List.mem_cons_self
      rw [pwLoop, if_neg (by rintro (h | h); exact a h; exact b h), if_neg d, if_neg e,
        if_neg (by rw [hs]; decide)]
      exact ih s hs fun k hk => h k (List.mem_cons_of_mem _ hk)
  have hplain : ∀ (l line : List Nat), (∀ k ∈ l, k ≠ 8 ∧ k ≠ 21) → l.foldl editKey line = line ++ l := by
    intro l
    induction l with
    | nil => intro line _; rw [List.append_nil]; rfl
    | cons c l ih =>
      intro line h
      obtain ⟨a, b⟩ := h c List.mem_cons_self
      rw [List.foldl_cons, show editKey line c = line ++ [c] from by unfold editKey; rw [if_neg a, if_neg b],
        ih _ fun k hk => h k (List.mem_cons_of_mem _ hk), List.append_assoc]
      rfl
  have hsub : ∀ m, ∀ k ∈ (ks.take 127).take m, k ≠ 8 ∧ k ≠ 21 := fun m k h => he k (List.mem_of_mem_take (List.mem_of_mem_take h))
  have hn : NeverLonger 127 (ks.take 127) := by
    intro m
    show (((ks.take 127).take m).foldl editKey []).length ≤ 127
    rw [hplain _ _ (hsub m), List.nil_append, List.length_take, List.length_take]
    omega
  have hk' : LineKeys (ks.take 127) := fun k h => hk k (List.mem_of_mem_take h)
  have hed : edited (ks.take 127) = ks.take 127 := by
    show (ks.take 127).foldl editKey [] = _
    rw [hplain _ _ fun k h => he k (List.mem_of_mem_take h), List.nil_append]
  by_cases hlen : ks.length ≤ 127
  · rw [List.take_of_length_le hlen] at hn hk' hed ⊢
    obtain ⟨⟨p, _, h⟩, _⟩ := C110_typed_partial (rest := []) hp hk' hn
    rw [hed] at h
    exact ⟨p, h⟩
  · obtain ⟨s, h1, h2, h3, h4⟩ := pwLoop_run (ks.take 127) ⟨password, 0⟩ [] (ks.drop 127) hp rfl rfl
      (fun k h => ⟨(hk' k h).1, (hk' k h).2.1⟩) (fun m => hn m)
    rw [show (ks.take 127).foldl editKey [] = ks.take 127 from hed] at h3 h4
    have h5 : s.ptr = 127 := by rw [h3, List.length_take]; omega
    rw [List.take_append_drop, key _ s h5 fun k h => ⟨(hk k (List.mem_of_mem_drop h)).1, (hk k (List.mem_of_mem_drop h)).2.1,
      he k (List.mem_of_mem_drop h)⟩] at h1
    obtain ⟨p, _, h6⟩ := read_end h1 h2 (by omega)
    refine ⟨p, ?_⟩
    rw [h6, if_neg (by decide), h4, takeWhile_noNul fun c hc => by simpa using (hk' c hc).2.2]

example : LineKeys (List.replicate 200 97) ∧ ∀ k ∈ List.replicate 200 97, k ≠ 8 ∧ k ≠ 21 := by
  constructor <;> intro k h <;> rw [List.eq_of_mem_replicate h] <;> decide

/-- **C110, editing a line that does not fit.** A character beyond the 127th that is taken away again takes
the 127th with it. -/
theorem C110_backspace_of_a_dropped_character : ∃ ks, LineKeys ks ∧ (edited ks).length = 127 ∧
    ∃ p, read_passwd_from_stream (List.replicate 128 0) ks = .ok ((edited ks).take 126, p, []) := by
  refine ⟨List.replicate 128 97 ++ [8], ?_, by decide +kernel, List.replicate 126 97 ++ [0, 0], by decide +kernel⟩
  intro k h
  rcases List.mem_append.mp h with h | h
  · rw [List.eq_of_mem_replicate h]; decide
  · rw [List.mem_singleton.mp h]; decide

/-- **C110, the other backspace key.** The character that most terminals send for it (DEL, 127) does not
take anything away: it becomes part of the key. -/
theorem C110_delete_key : ∃ p, read_passwd_from_stream (List.replicate 128 0) (b!"sesm" ++ [127] ++ b!"ame" ++ [10]) =
    .ok (b!"sesm" ++ [127] ++ b!"ame", p, []) :=
  ⟨b!"sesm" ++ [127] ++ b!"ame" ++ List.replicate 120 0, by decide +kernel⟩

/-- **C110, Ctrl-C.** Whatever was typed before it, Ctrl-C gives the empty key, not the NULL that the
callers test for. -/
theorem C110_ctrl_c_is_an_empty_key {password ks rest : List Nat} (hp : password.length = 128) (hk : ∀ k ∈ ks, k ≠ 10 ∧ k ≠ 3) :
    ∃ p, read_passwd_from_stream password (ks ++ 3 :: rest) = .ok ([], p, rest) := by
  obtain ⟨s, h, hl, hq⟩ : ∃ s, pwLoop (ks ++ 3 :: rest) ⟨password, 0⟩ = .ok (s, some 3, rest) ∧ s.password.length = 128 ∧ s.ptr ≤ 127 := by
    obtain ⟨s, e, r, h, hl, hq⟩ := pwLoop_total (ks ++ 3 :: rest) ⟨password, 0⟩ hp (Nat.zero_le _)
    have : ∀ (l : List Nat) (s0 s : PwSt) (e : Option Nat) (r : List Nat), (∀ k ∈ l, k ≠ 10 ∧ k ≠ 3) →
        pwLoop (l ++ 3 :: rest) s0 = .ok (s, e, r) → e = some 3 ∧ r = rest := by
      intro l
      induction l with
      | nil =>
        intro s0 s e r _ h
        rw [List.nil_append, pwLoop, if_pos (Or.inr rfl)] at h
        cases h
        exact ⟨rfl, rfl⟩
      | cons c l ih =>
        intro s0 s e r hl h
        have hl' : ∀ k ∈ l, k ≠ 10 ∧ k ≠ 3 := fun k hk => hl k (List.mem_cons_of_mem _ hk)
        obtain ⟨a, b⟩ := hl c List.mem_cons_self
        rw [List.cons_append, pwLoop, if_neg (by rintro (h | h); exact a h; exact b h)] at h
        split at h
        · exact ih _ _ _ _ hl' h
        · split at h
          · exact ih _ _ _ _ hl' h
          · split at h
            · obtain ⟨_, _, h⟩ := bind_eq_ok h
              exact ih _ _ _ _ hl' h
            · exact ih _ _ _ _ hl' h
    obtain ⟨rfl, rfl⟩ := this ks _ _ _ _ hk h
    exact ⟨s, h, hl, hq⟩
  obtain ⟨p, _, h6⟩ := read_end h hl hq
  refine ⟨p, ?_⟩
  rw [h6, if_pos rfl]
  rfl

/-- `fwknop -A tcp/22 -a 5.6.7.8 -D spa.example.org`: the key is asked for. -/
def askArgs : List CliArg := [.access b!"tcp/22", .allow_ip b!"5.6.7.8", .destination b!"spa.example.org"]

/-- The keys of a packet. -/
def keysUsed (r : Res (Packed × Str)) : Option (Str × Option Str) :=
  match r with
  | .ok r => some (r.1.key, r.1.hmac)
  | _ => none

set_option maxRecDepth 8000 in
/-- **C110, Ctrl-C does not end the client.** The world in which `mrash` types the start of a key and then
Ctrl-C: the client goes on and makes a packet with the empty key, which anybody can read. -/
theorem C110_ctrl_c_sends_a_packet : ∃ (o : CliOpts) (E : CliEnv), applyArgs {} askArgs = .ok o ∧
    withTyped cliEnv o (-1) { typed := [b!"ses" ++ [3]] } = .ok E ∧
    E = { cliEnv with passwd := some [] } ∧
    (keysUsed (client toyCrypto E {} askArgs)).map Prod.fst = some [] := by
  refine ⟨_, { cliEnv with passwd := some [] }, rfl, rfl, rfl, by decide +kernel⟩

/-! ## In the client -/

/-- The line that the world offers for the next key: what is behind the descriptor, or what is typed. -/
def Offers (fd : Int) (w : PwWorld) (stream : List Nat) : Prop :=
  (0 ≤ fd ∧ w.fds fd.toNat = some stream) ∨ (fd < 0 ∧ w.typed.head? = some stream)

theorem getpasswd_offers {fd : Int} {w : PwWorld} {ks rest stream : List Nat} (hw : w.password.length = 128) (ho : Offers fd w stream)
    (hs : stream = ks ∨ stream = ks ++ 10 :: rest) (hk : LineKeys ks) (hn : NeverLonger 127 ks) :
    ∃ w', getpasswd fd w = .ok (some (edited ks), w') ∧ w'.password.length = 128 ∧ (fd < 0 → w'.typed = w.typed.tail) := by
  have hr : ∃ p r, p.length = 128 ∧ read_passwd_from_stream w.password stream = .ok (edited ks, p, r) := by
    obtain ⟨⟨p, hp, h⟩, ⟨p', hp', h'⟩⟩ := C110_typed_partial (rest := rest) hw hk hn
    rcases hs with rfl | rfl
    · exact ⟨p, _, hp, h⟩
    · exact ⟨p', _, hp', h'⟩
  obtain ⟨p, r, hp, hr⟩ := hr
  unfold getpasswd
  rcases ho with ⟨h0, hf⟩ | ⟨h0, hf⟩
  · rw [if_pos h0, hf]
    dsimp only
    rw [hr, bind_ok]
    exact ⟨_, rfl, hp, fun h => absurd h (by omega)⟩
  · rw [if_neg (by omega)]
    cases ht : w.typed with
    | nil => rw [ht] at hf; cases hf
    | cons a l =>
      rw [ht] at hf
      cases hf
      dsimp only
      rw [hr, bind_ok]
      exact ⟨_, rfl, hp, fun _ => rfl⟩

/-- **C110.** If the client asks for the encryption key (or the passphrase of the signing key) and not for
an HMAC key, what it uses is the line that is typed, or read from the descriptor of `--fd` or `--stdin`. -/
theorem C110_client_uses_typed_key_partial {E : CliEnv} {o : CliOpts} {fd : Int} {w : PwWorld} {ks rest stream : List Nat}
    (ha : asksKey o = true) (hh : asksHmac o = false) (hw : w.password.length = 128) (ho : Offers fd w stream)
    (hs : stream = ks ∨ stream = ks ++ 10 :: rest) (hk : LineKeys ks) (hn : NeverLonger 127 ks) :
    ∃ E', withTyped E o fd w = .ok E' ∧ getKey E' o = .ok (edited ks) := by
  obtain ⟨w', hg, _, _⟩ := getpasswd_offers hw ho hs hk hn
  refine ⟨{ E with passwd := some (edited ks), hmacPasswd := none }, ?_, ?_⟩
  · unfold withTyped
    rw [ha, hh, if_pos rfl, hg]
    rfl
  · exact getKey_typed ha (show (_ : CliEnv).passwd = some (edited ks) from rfl) (typed_short hn)

/-- **C110.** If it asks for both keys on the terminal, the first line is the encryption key and the second
the HMAC key. -/
theorem C110_client_uses_both_typed_keys_partial {E : CliEnv} {o : CliOpts} {w : PwWorld} {ks hs more more' : List Nat} {l : List (List Nat)}
    (ha : asksKey o = true) (hh : asksHmac o = true) (hw : w.password.length = 128)
    (ht : w.typed = (ks ++ 10 :: more) :: (hs ++ 10 :: more') :: l)
    (hk : LineKeys ks) (hn : NeverLonger 127 ks) (hk' : LineKeys hs) (hn' : NeverLonger 127 hs) :
    ∃ E', withTyped E o (-1) w = .ok E' ∧ getKey E' o = .ok (edited ks) ∧ getHmacKey E' o = .ok (some (edited hs)) := by
  obtain ⟨w', hg, hw', htl⟩ := getpasswd_offers (fd := -1) hw (Or.inr ⟨by decide, by rw [ht]; rfl⟩) (Or.inr rfl) hk hn
  have ht' := htl (by decide)
  rw [ht] at ht'
  obtain ⟨w'', hg', _, _⟩ := getpasswd_offers (fd := -1) hw' (Or.inr ⟨by decide, by rw [ht']; rfl⟩) (Or.inr rfl) hk' hn'
  refine ⟨{ E with passwd := some (edited ks), hmacPasswd := some (edited hs) }, ?_, ?_, ?_⟩
  · unfold withTyped
    rw [ha, hh, if_pos rfl, hg, bind_ok]
    dsimp only
    rw [if_pos rfl, hg']
    rfl
  · exact getKey_typed ha (show (_ : CliEnv).passwd = some (edited ks) from rfl) (typed_short hn)
  · exact getHmac_typed hh (show (_ : CliEnv).hmacPasswd = some (edited hs) from rfl) (typed_short hn')

/-- **C110, two keys from a descriptor.** With `--fd` or `--stdin` and two keys to ask for, the client never
gets the second: the first call closes the descriptor.  Whatever the descriptor has, there is no packet. -/
theorem C110_two_keys_one_descriptor {E E' : CliEnv} {o : CliOpts} {fd : Int} {w : PwWorld} (hfd : 0 ≤ fd)
    (ha : asksKey o = true) (hh : asksHmac o = true) (h : withTyped E o fd w = .ok E') :
    E'.hmacPasswd = none ∧ getHmacKey E' o = .err := by
  suffices E'.hmacPasswd = none from ⟨this, getHmac_none hh this⟩
  unfold withTyped at h
  rw [ha, hh, if_pos rfl] at h
  obtain ⟨a, h1, h⟩ := bind_eq_ok h
  dsimp only at h
  rw [if_pos rfl] at h
  obtain ⟨b, h2, h⟩ := bind_eq_ok h
  cases h
  show b.1 = none
  have hn : a.2.fds fd.toNat = none := by
    unfold getpasswd at h1
    rw [if_pos hfd] at h1
    split at h1
    · rename_i hf
      cases h1
      exact hf
    · obtain ⟨r, _, h1⟩ := bind_eq_ok h1
      cases h1
      exact if_pos rfl
  unfold getpasswd at h2
  rw [if_pos hfd, hn] at h2
  cases h2
  rfl

set_option maxRecDepth 8000 in
/-- `fwknop -A tcp/22 -a 5.6.7.8 -D spa.example.org --use-hmac`: two keys are asked for. -/
example : ∃ o, applyArgs {} (askArgs ++ [.use_hmac]) = .ok o ∧ asksKey o = true ∧ asksHmac o = true ∧
    ∃ E, withTyped cliEnv o 0 { fds := fun d => if d = 0 then some (b!"one" ++ [10] ++ b!"two" ++ [10]) else none } = .ok E :=
  ⟨_, rfl, by decide, by decide, _, rfl⟩

set_option maxRecDepth 8000 in
/-- The same on a terminal gives a packet. -/
example : ∃ (o : CliOpts) (E : CliEnv), applyArgs {} (askArgs ++ [.use_hmac]) = .ok o ∧
    withTyped cliEnv o (-1) { typed := [b!"one" ++ [10], b!"two" ++ [10]] } = .ok E ∧
    E = { cliEnv with passwd := some b!"one", hmacPasswd := some b!"two" } ∧
    keysUsed (client toyCrypto E {} (askArgs ++ [.use_hmac])) = some (b!"one", some b!"two") :=
  ⟨_, { cliEnv with passwd := some b!"one", hmacPasswd := some b!"two" }, rfl, rfl, rfl, by decide +kernel⟩

example : ∃ o, applyArgs {} askArgs = .ok o ∧ asksKey o = true ∧ asksHmac o = false := ⟨_, rfl, by decide, by decide⟩

end Fwknop.Props
