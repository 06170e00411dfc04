import Verif.Lemmas.Resolve
import Verif.Props.Client
import Verif.Props.Extcmd

/-!
# C111: the client's own address, found with the help of a web server (-R, --resolve-http-only)

The full claim: whatever a web server answers, the client only ever takes an IPv4 address from it, namely
the one that the content of the answer begins with, however the answer arrives, and asks the host, the port
and the path of --resolve-url.  The middle holds; around it are the gaps that the theorems below name.
-/

namespace Fwknop.Props

open Spec Res

/-! ## Answers -/

/-- **C111.** No answer makes the client read or write outside its buffers, in whatever pieces it arrives. -/
theorem C111_any_answer_is_safe (pieces : List (List Nat)) : ∃ r, readAnswer pieces = .ok r := ⟨_, readAnswer_is pieces⟩

/-- **C111.** An answer of less than 2000 bytes with an address gives that address, in whatever pieces it
arrives. -/
theorem C111_answer {pieces : List (List Nat)} {resp : List Nat} {a b c d : Nat} (ha : a ≤ 255) (hb : b ≤ 255) (hc : c ≤ 255)
    (hd : d ≤ 255) (hr : Answers resp (dotted a b c d)) (hp : Arrives resp pieces) (hl : resp.length < 2000) :
    readAnswer pieces = .ok (some (dotted a b c d)) := by
  rw [readAnswer_is, keptBytes_all _ _ hp.2 (by rw [hp.1]; simpa using hl), hp.1, List.nil_append]
  obtain ⟨head, tail, rfl, h0, hf, ht⟩ := hr.text
  generalize hi : dotted a b c d ++ tail = body
  have hcut : (head ++ (blankLine ++ body)).takeWhile (· ≠ 0) = head ++ (blankLine ++ body.takeWhile (· ≠ 0)) := by
    rw [List.takeWhile_append_of_pos (show ∀ x ∈ head, decide (x ≠ 0) = true from fun x hx => decide_eq_true fun h : x = 0 => h0 (h ▸ hx)),
      List.takeWhile_append_of_pos (by decide)]
  have hfind : findSuffix (hasPrefix b!"\r\n\r\n") ((head ++ (blankLine ++ body)).takeWhile (· ≠ 0)) = some head.length := by
    rw [hcut]
    refine findSuffix_unique (by simp) ?_ ?_
    · rw [List.drop_left' rfl]
      exact List.isPrefixOf_iff_prefix.mpr (List.prefix_append ..)
    · intro i hi'
      cases hx : hasPrefix b!"\r\n\r\n" ((head ++ (blankLine ++ body.takeWhile (· ≠ 0))).drop i) with
      | false => rfl
      | true =>
        refine absurd ?_ (hf i hi')
        have h1 : blankLine <+: (head ++ (blankLine ++ body.takeWhile (· ≠ 0))).drop i := List.isPrefixOf_iff_prefix.mp hx
        refine h1.trans ?_
        have h2 : head ++ blankLine ++ body.takeWhile (· ≠ 0) <+: head ++ (blankLine ++ body) := by
          rw [List.append_assoc]
          exact (List.prefix_append_right_inj _).mpr ((List.prefix_append_right_inj _).mpr (List.takeWhile_prefix _))
        obtain ⟨w, hw⟩ := h2
        rw [hi, ← hw, List.append_assoc head, List.drop_append_of_le_length (l₂ := w) (by simp; omega)]
        exact List.prefix_append ..
  unfold answerFound
  rw [hfind]
  dsimp only
  rw [show (head ++ (blankLine ++ body)).drop (head.length + 4) = body from by
    rw [← List.append_assoc, List.drop_left' (by simp [blankLine])], ← hi, ipFound_dotted ha hb hc hd ht]

/-- `HTTP/1.1 200 OK`, one header field, the address and a newline. -/
def sampleAnswer : Str := b!"HTTP/1.1 200 OK\r\nServer: x\r\n\r\n" ++ b!"203.0.113.7" ++ b!"\n"

example : Answers sampleAnswer (dotted 203 0 113 7) ∧ Arrives sampleAnswer [sampleAnswer.take 20, sampleAnswer.drop 20] ∧
    sampleAnswer.length < 2000 := by
  refine ⟨⟨b!"HTTP/1.1 200 OK\r\nServer: x", b!"\n", by decide, by decide, by decide, ?_⟩, ⟨by decide, by decide⟩, by decide⟩
  intro c hc
  cases hc
  unfold IpChar IsDigitChar
  omega

/-- **C111 (partial).** Whatever is answered, what the client takes from it is a text of at most 15 digits
and dots that the answer has, and that begins like an address: four numbers, each below 256 when it is taken
modulo 2^32.  What is missing: that nothing follows, that the numbers are not taken modulo 2^32 and that the
last one is not cut (`C111_false_for_odd_answers`). -/
theorem C111_only_addresses_partial {pieces : List (List Nat)} {ip : List Nat} (h : readAnswer pieces = .ok (some ip)) :
    ip.length ≤ 15 ∧ (∀ c ∈ ip, IpChar c) ∧ ∃ d1 d2 d3 d4 rest,
      d1 ++ 46 :: (d2 ++ 46 :: (d3 ++ 46 :: (d4 ++ rest))) <:+: pieces.flatten ∧
      ip = (d1 ++ 46 :: (d2 ++ 46 :: (d3 ++ 46 :: (d4 ++ rest)))).take 15 ∧
      (∀ d ∈ [d1, d2, d3, d4], d ≠ [] ∧ (∀ c ∈ d, IsDigitChar c) ∧ number 10 d % 2 ^ 32 ≤ 255) ∧
      (rest = [] ∨ ∃ t, rest = 46 :: t) := by
  rw [readAnswer_is] at h
  have h := Res.ok.inj h
  unfold answerFound at h
  split at h
  · cases h
  · obtain ⟨d1, d2, d3, d4, rest, hpre, rfl, hd, hr, hall⟩ := ipFound_inv h
    refine ⟨by rw [List.length_take]; exact Nat.min_le_left _ _, fun c hc => (ipChar_iff c).mp (hall c hc), d1, d2, d3, d4, rest, ?_, rfl, ?_, hr⟩
    · have hkept : ∀ (cs : List Str) (d : Str), keptBytes cs d <+: d ++ cs.flatten := by
        intro cs
        induction cs with
        | nil => intro d; simp [keptBytes]
        | cons c cs ih =>
          intro d
          unfold keptBytes
          split
          · exact List.prefix_append ..
          · split
            · exact List.prefix_append ..
            · rw [List.flatten_cons, ← List.append_assoc]; exact ih _
      have h1 := hkept pieces []
      rw [List.nil_append] at h1
      exact (hpre.isInfix.trans (List.drop_suffix _ _).isInfix).trans h1.isInfix
    · intro d hdm
      obtain ⟨e1, e2, e3⟩ := hd d hdm
      exact ⟨e1, fun c hc => (isDigit_iff c).mp (e2 c hc), by rw [number_eq]; exact e3⟩

/-- **C111 fails for odd answers**: `1.2.3.4.5` is taken for an address, `4294967297.2.3.4` too (cut to 15
characters), and of `192.168.100.0001` the last digit is lost, so that the address is another one. -/
theorem C111_false_for_odd_answers :
    readAnswer [b!"A\r\n\r\n1.2.3.4.5"] = .ok (some b!"1.2.3.4.5") ∧
    readAnswer [b!"A\r\n\r\n4294967297.2.3.4"] = .ok (some b!"4294967297.2.3.") ∧
    readAnswer [b!"A\r\n\r\n192.168.100.0001"] = .ok (some b!"192.168.100.000") := by
  simp only [readAnswer_is]
  decide +kernel

/-- **C111 fails for long answers**: of 2000 bytes or more the piece that goes beyond is dropped, so that it
depends on the pieces whether there is an address. -/
theorem C111_false_for_long_answers : ∃ resp pieces pieces', Arrives resp pieces ∧ Arrives resp pieces' ∧
    readAnswer pieces = .ok none ∧ readAnswer pieces' = .ok (some b!"1.2.3.4") := by
  refine ⟨b!"A\r\n\r\n1.2.3.4\n" ++ List.replicate 1990 32, [b!"A\r\n\r\n1.2.3.4\n" ++ List.replicate 1990 32],
    [b!"A\r\n\r\n1.2.3.4\n", List.replicate 1990 32], ⟨List.append_nil _, by decide +kernel⟩, ⟨by decide +kernel, by decide +kernel⟩, ?_, ?_⟩
  · rw [readAnswer_is]; decide +kernel
  · rw [readAnswer_is]; decide +kernel

/-! ## URLs -/

/-- **C111 (partial: a port of at most four digits, no colon in the path unless there is a port, no more than
one slash at the end).** The parts of a URL are what they are; a slash at the end makes no difference. -/
theorem C111_url_partial {scheme host p q path : List Nat} {port : Nat} (hs : IsScheme scheme) (hp : UrlPort p port)
    (hq : UrlPath q path) (hh : 58 ∉ host ∧ 47 ∉ host) (hne : host ≠ []) (hc : p = [] → 58 ∉ q) (hb : 1 ≤ port ∧ port < 10000)
    (hlen : host.length ≤ 255) (hpl : path.length ≤ 1024) (hlast : q.getLast? ≠ some 47) :
    parse_url (scheme ++ (host ++ (p ++ q))) = .ok (⟨decimal port, host, path⟩, scheme ++ (host ++ (p ++ q))) ∧
    parse_url (scheme ++ (host ++ (p ++ (q ++ [47])))) = .ok (⟨decimal port, host, path⟩, scheme ++ (host ++ (p ++ q))) := by
  have h4 : (decimal port).take 4 = decimal port := by
    refine List.take_of_length_le ?_
    rw [← decStr_decimal]
    exact decStr_length_le _ 4 (by decide) (by omega)
  have hoff : p.take (p.length - (if p = [] then 0 else ((decimal port).take 4).length + 1)) = [] := by
    cases hp with
    | default => rfl
    | given => rw [if_neg (by simp), h4, List.length_cons, Nat.sub_self]; rfl
  have key := fun e he => parse_url_is hs hp hq hh hc ⟨hb.1, by omega⟩ ⟨hlen, by omega⟩ hpl hlast hne e he
  rw [hoff, h4, List.append_nil] at key
  exact ⟨by simpa using key [] (Or.inl rfl), key [47] (Or.inr rfl)⟩

/-- `HTTP://example.org:8080/my:ip`. -/
example : IsScheme b!"HTTP://" ∧ UrlPort b!":8080" 8080 ∧ UrlPath b!"/my:ip" b!"/my:ip" ∧
    (58 ∉ b!"example.org" ∧ 47 ∉ b!"example.org") ∧ (b!"/my:ip" : Str).getLast? ≠ some 47 :=
  ⟨Or.inr ⟨_, rfl, Or.inl (by decide)⟩, UrlPort.given 8080, UrlPath.given b!"my:ip", by decide, by decide⟩

/-- **C111 fails for every port of five digits**: the client takes the first four digits for the port, and the
colon for a part of the host. -/
theorem C111_false_for_long_ports {scheme host q path : List Nat} {port : Nat} (hs : IsScheme scheme)
    (hq : UrlPath q path) (hh : 58 ∉ host ∧ 47 ∉ host) (hne : host ≠ []) (hb : 10000 ≤ port ∧ port ≤ 65535)
    (hlen : host.length ≤ 254) (hpl : path.length ≤ 1024) (hlast : q.getLast? ≠ some 47) :
    parse_url (scheme ++ (host ++ (58 :: decimal port ++ q))) =
      .ok (⟨decimal (port / 10), host ++ b!":", path⟩, scheme ++ (host ++ (58 :: decimal port ++ q))) := by
  have key := parse_url_is hs (UrlPort.given port) hq hh (by simp) ⟨by omega, hb.2⟩ ⟨by omega, fun _ => hlen⟩ hpl hlast hne [] (Or.inl rfl)
  have hdec : decimal port = decimal (port / 10) ++ [48 + port % 10] := by
    rw [← decStr_decimal, ← decStr_decimal, decStr_ge _ (by omega)]
  have hl4 : (decimal (port / 10)).length = 4 := by
    rw [← decStr_decimal]
    refine Nat.le_antisymm (decStr_length_le _ 4 (by decide) (by omega)) ?_
    rw [decStr_ge _ (by omega), decStr_ge _ (by omega), decStr_ge _ (by omega)]
    simp only [List.length_append, List.length_cons, List.length_nil]
    have := List.length_pos_iff.mpr (decStr_ne_nil (port / 10 / 10 / 10 / 10))
    omega
  have h4 : (decimal port).take 4 = decimal (port / 10) := by rw [hdec, List.take_left' hl4]
  rw [h4, if_neg (by simp), List.length_cons, hl4, hdec, List.length_append, hl4, List.append_nil] at key
  rw [hdec]
  exact key

/-- `http://example.org:12345/ip`. -/
example : parse_url b!"http://example.org:12345/ip" = .ok (⟨b!"1234", b!"example.org:", b!"/ip"⟩, b!"http://example.org:12345/ip") := by
  decide +kernel

/-- **C111 fails for a colon in the path**: a number behind it is taken for the port, and that many characters
are taken away from the host. -/
theorem C111_false_for_a_colon_in_the_path :
    parse_url b!"http://example.org/my:81" = .ok (⟨b!"81", b!"example.", b!"/my:81"⟩, b!"http://example.org/my:81") := by
  decide +kernel

/-- **C111, memory errors in URLs**: an empty URL makes the client look at the byte before it, and a colon in the path behind a
short host makes the number of characters to copy negative, so that the whole URL is written over the array of 257 bytes. -/
theorem C111_false_for_hostile_urls : parse_url [] = .ub ∧ parse_url (b!"http://a/:12" ++ List.replicate 252 98) = .ub := by
  exact ⟨ub_of (by decide +kernel), ub_of (by decide +kernel)⟩

/-- **C111.** The parts of a URL that is not refused fit into their arrays (which have one byte more), whatever
the URL is. -/
theorem C111_parts_fit {url rest : List Nat} {u : Url} (h : parse_url url = .ok (u, rest)) :
    u.port.length ≤ 4 ∧ u.host.length ≤ 256 ∧ u.path.length ≤ 1024 := by
  unfold parse_url at h
  obtain ⟨p, hp, h⟩ := bind_eq_ok h
  have hport : p.1.length ≤ 4 := by
    unfold urlPort at hp
    split at hp
    · cases hp; decide
    · obtain ⟨_, -, hp⟩ := bind_eq_ok hp
      rw [← Res.ok.inj hp]
      exact List.length_take_le ..
  obtain ⟨_, -, h⟩ := bind_eq_ok h
  obtain ⟨_, -, h⟩ := bind_eq_ok h
  obtain ⟨host, hh, h⟩ := bind_eq_ok h
  have fits : ∀ n, Res.mem (decide (n + 1 > MAX_URL_HOST_LEN + 1)) = .ok () → n ≤ 256 := by
    intro n hm
    by_cases hx : n + 1 > MAX_URL_HOST_LEN + 1
    · rw [show decide (n + 1 > MAX_URL_HOST_LEN + 1) = true from decide_eq_true hx] at hm
      cases hm
    · have : ¬ n + 1 > 257 := hx
      omega
  have hhost : host.length ≤ 256 := by
    unfold strlcpyInt at hh
    split at hh
    · cases hh; decide
    · obtain ⟨_, hm, hh⟩ := bind_eq_ok hh
      rw [← Res.ok.inj hh]
      refine Nat.le_trans (List.length_take_le ..) ?_
      exact fits _ hm
  split at h
  · rw [← (Prod.mk.inj (Res.ok.inj h)).1]
    exact ⟨hport, hhost, by show 1 ≤ 1024; decide⟩
  · rename_i j _
    obtain ⟨_, hg, h⟩ := bind_eq_ok h
    rw [← (Prod.mk.inj (Res.ok.inj h)).1]
    refine ⟨hport, hhost, ?_⟩
    generalize (noSlash (urlRest url)).drop j = path at hg
    by_cases hx : path.length > MAX_URL_PATH_LEN
    · rw [show decide (path.length > MAX_URL_PATH_LEN) = true from decide_eq_true hx] at hg
      cases hg
    · exact Nat.le_of_not_lt hx

example : parse_url b!"HTTP://example.org:8080/my:ip/" =
    .ok (⟨b!"8080", b!"example.org", b!"/my:ip"⟩, b!"HTTP://example.org:8080/my:ip") := by
  decide +kernel

/-- **C111.** A URL that begins with `https` is never asked in the clear. -/
theorem C111_https_is_not_asked_in_the_clear {R : ResolveEnv} {o : CliOpts} {url : List Nat} (hu : o.resolve_url = some url)
    (hs : (url.take 5).map (fun c => if 65 ≤ c ∧ c ≤ 90 then c + 32 else c) = b!"https") : resolve_ip_http R o = .err := by
  have h : hasPrefixI b!"https" url = true := by
    rw [← List.take_append_drop 5 url]
    refine hasPrefixI_of ?_
    rw [show toLower = (fun c => if 65 ≤ c ∧ c ≤ 90 then c + 32 else c) from by funext c; simp [toLower], hs]
    decide
  unfold resolve_ip_http
  rw [hu]
  dsimp only
  rw [h]
  rfl

example : ((b!"HttpS://x" : Str).take 5).map (fun c => if 65 ≤ c ∧ c ≤ 90 then c + 32 else c) = b!"https" := by decide

/-! ## The whole -/

/-- The web server that the client asks with a URL. -/
theorem try_is (R : ResolveEnv) (n : Nat) (u : Url) (agent : Str) :
    try_url R n u agent = .ok ((R.http n u.host u.port (resolveRequest u agent)).bind fun c => answerFound (keptBytes c [])) := by
  unfold try_url
  cases R.http n u.host u.port (resolveRequest u agent) with
  | none => rfl
  | some c => exact readAnswer_is c

/-- **C111.** With --resolve-http-only and a URL, the host of the URL is asked at its port with a request for
its path; the address in its answer is the one that is used. -/
theorem C111_http_partial {R : ResolveEnv} {o : CliOpts} {url host path resp : List Nat} {port : Nat} {pieces : List (List Nat)} {a b c d : Nat}
    (hu : o.resolve_url = some url ∨ o.resolve_url = some (url ++ b!"/")) (hurl : PlainUrl url host port path)
    (hns : (url.take 5).map (fun c => if 65 ≤ c ∧ c ≤ 90 then c + 32 else c) ≠ b!"https") (hag : (agentOf R o).length ≤ 99)
    (hask : R.http 0 host (decimal port) (b!"GET " ++ path ++ b!" HTTP/1.1\r\nUser-Agent: " ++ agentOf R o ++ b!"\r\nAccept: */*\r\nHost: " ++
      host ++ b!"\r\nConnection: close\r\n\r\n") = some pieces)
    (ha : a ≤ 255) (hb' : b ≤ 255) (hc' : c ≤ 255) (hd : d ≤ 255) (hr : Answers resp (dotted a b c d)) (hpc : Arrives resp pieces)
    (hl : resp.length < 2000) : resolve_ip_http R o = .ok (dotted a b c d) := by
  obtain ⟨u, hu, hns', h1, hlen, hpl⟩ : ∃ u, o.resolve_url = some u ∧ hasPrefixI b!"https" u = false ∧
      parse_url u = .ok (⟨decimal port, host, path⟩, url) ∧ host.length ≤ 255 ∧ path.length ≤ 1024 := by
    obtain ⟨scheme, p, q, rfl, k1, k2, k3, k4, k5, k6, k7, k8, k9, k10⟩ := hurl
    obtain ⟨l1, l2⟩ := C111_url_partial k1 k2 k3 k4 k5 k6 k7 k8 k9 k10
    have no : ∀ w, w <+: b!"/" → hasPrefixI b!"https" (scheme ++ (host ++ (p ++ q)) ++ w) = false := by
      intro w hw
      cases hx : hasPrefixI b!"https" (scheme ++ (host ++ (p ++ q)) ++ w) with
      | false => rfl
      | true =>
        generalize scheme ++ (host ++ (p ++ q)) = url at hns hx
        obtain ⟨x, y, hxy, hm⟩ := hasPrefixI_split hx
        have h5 : x.length = 5 := by simpa using congrArg List.length hm
        by_cases hlen : 5 ≤ url.length
        · have hx' : x = url.take 5 := by
            have := congrArg (List.take 5) hxy
            rw [List.take_append_of_le_length hlen, List.take_left' h5] at this
            exact this.symm
          refine absurd ?_ hns
          rw [← hx', show (fun c => if 65 ≤ c ∧ c ≤ 90 then c + 32 else c) = toLower from by funext c; simp [toLower], hm]
          decide
        · have hl := congrArg List.length hxy
          rw [List.length_append, List.length_append] at hl
          obtain ⟨w', hw⟩ := hw
          have hl' : w.length + w'.length = 1 := by simpa using congrArg List.length hw
          have h0 : w' = [] := List.length_eq_zero_iff.mp (by omega)
          rw [h0, List.append_nil] at hw
          subst hw
          have hy : y = [] := List.length_eq_zero_iff.mp (by omega)
          rw [hy, List.append_nil] at hxy
          have := congrArg List.getLast? hm
          rw [← hxy, List.map_append, List.getLast?_append] at this
          cases this
    rcases hu with hu | hu
    · exact ⟨_, hu, by simpa using no [] (List.nil_prefix), l1, k8, k9⟩
    · exact ⟨_, hu, no _ (List.prefix_refl _), by simpa using l2, k8, k9⟩
  unfold resolve_ip_http
  rw [hu]
  dsimp only
  rw [hns', guard_false, bind_ok, h1, bind_ok]
  dsimp only
  unfold try_url
  have hreq : resolveRequest ⟨decimal port, host, path⟩ (agentOf R o) = b!"GET " ++ path ++ b!" HTTP/1.1\r\nUser-Agent: " ++ agentOf R o ++
      b!"\r\nAccept: */*\r\nHost: " ++ host ++ b!"\r\nConnection: close\r\n\r\n" := by
    unfold resolveRequest
    refine List.take_of_length_le ?_
    simp only [List.length_append, List.length_cons, List.length_nil]
    show _ ≤ 1999
    omega
  rw [hreq, hask]
  dsimp only
  rw [C111_answer ha hb' hc' hd hr hpc hl]
  rfl

/-- `fwknop --resolve-http-only --resolve-url http://ip.example:8080/me/`. -/
example : ∃ R : ResolveEnv, ∃ o : CliOpts, o.resolve_url = some (b!"http://ip.example:8080/me" ++ b!"/") ∧
    PlainUrl b!"http://ip.example:8080/me" b!"ip.example" 8080 b!"/me" ∧ (agentOf R o).length ≤ 99 ∧
    R.http 0 b!"ip.example" (decimal 8080) (b!"GET " ++ b!"/me" ++ b!" HTTP/1.1\r\nUser-Agent: " ++ agentOf R o ++ b!"\r\nAccept: */*\r\nHost: " ++
      b!"ip.example" ++ b!"\r\nConnection: close\r\n\r\n") = some [sampleAnswer.take 20, sampleAnswer.drop 20] ∧
    resolve_ip_http R o = .ok (dotted 203 0 113 7) := by
  refine ⟨⟨fun n h p r => if n = 0 ∧ h = b!"ip.example" ∧ p = b!"8080" ∧ r =
      b!"GET /me HTTP/1.1\r\nUser-Agent: Fwknop/2.6.11\r\nAccept: */*\r\nHost: ip.example\r\nConnection: close\r\n\r\n" then
      some [sampleAnswer.take 20, sampleAnswer.drop 20] else none, fun _ => none, none, b!"2.6.11"⟩,
    { resolve_url := some b!"http://ip.example:8080/me/" }, rfl, ⟨b!"http://", b!":8080", b!"/me", by decide, Or.inr ⟨_, rfl, Or.inl (by decide)⟩,
      UrlPort.given 8080, UrlPath.given b!"me", by decide, by decide, by decide, by decide, by decide, by decide, by decide⟩, by decide,
    by decide +kernel, by decide +kernel⟩

/-- Asked for /cgi-bin/myip in the `n`th connection, at port 80, `host` gives the address `ip`. -/
def Says (R : ResolveEnv) (agent : List Nat) (n : Nat) (host ip : List Nat) : Prop :=
  ∃ pieces, R.http n host b!"80" (b!"GET /cgi-bin/myip HTTP/1.1\r\nUser-Agent: " ++ agent ++ b!"\r\nAccept: */*\r\nHost: " ++
    host ++ b!"\r\nConnection: close\r\n\r\n") = some pieces ∧ readAnswer pieces = .ok (some ip)

/-- **C111.** Without a URL the two hosts that are built in are asked, and the second only if the first gives
no address. -/
theorem C111_default_hosts {R : ResolveEnv} {o : CliOpts} (hu : o.resolve_url = none) (hag : (agentOf R o).length ≤ 99) (ip : List Nat) :
    resolve_ip_http R o = .ok ip ↔ Says R (agentOf R o) 0 b!"www.cipherdyne.org" ip ∨
      (∀ ip', ¬ Says R (agentOf R o) 0 b!"www.cipherdyne.org" ip') ∧ Says R (agentOf R o) 1 b!"www.cipherdyne.com" ip := by
  have key : ∀ n host, host.length ≤ 100 → ∃ r, try_url R n ⟨b!"80", host, b!"/cgi-bin/myip"⟩ (agentOf R o) = .ok r ∧
      ∀ ip, Says R (agentOf R o) n host ip ↔ r = some ip := by
    intro n host hlen
    have hreq : resolveRequest ⟨b!"80", host, b!"/cgi-bin/myip"⟩ (agentOf R o) = b!"GET /cgi-bin/myip HTTP/1.1\r\nUser-Agent: " ++ agentOf R o ++
        b!"\r\nAccept: */*\r\nHost: " ++ host ++ b!"\r\nConnection: close\r\n\r\n" := by
      unfold resolveRequest
      refine List.take_of_length_le ?_
      simp only [List.length_append, List.length_cons, List.length_nil]
      show _ ≤ 1999
      omega
    refine ⟨_, try_is .., fun ip => ?_⟩
    dsimp only
    rw [hreq]
    unfold Says
    generalize R.http n host _ _ = x
    cases x with
    | none => simp
    | some c =>
      rw [Option.bind_some]
      constructor
      · rintro ⟨_, ⟨⟩, h⟩
        rw [readAnswer_is] at h
        exact Res.ok.inj h
      · exact fun h => ⟨c, rfl, by rw [readAnswer_is, h]⟩
  obtain ⟨r0, h0, k0⟩ := key 0 b!"www.cipherdyne.org" (by decide)
  obtain ⟨r1, h1, k1⟩ := key 1 b!"www.cipherdyne.com" (by decide)
  unfold resolve_ip_http
  rw [hu]
  dsimp only
  rw [h0, bind_ok]
  simp only [k0, k1]
  cases r0 with
  | some x => simp [Pure.pure]
  | none =>
    dsimp only
    rw [h1, bind_ok]
    cases r1 with
    | none => simp [Res.ofOpt]
    | some y => simp [Res.ofOpt]

/-- The first host is down, and the second one says 203.0.113.7. -/
example : ∃ R : ResolveEnv, ∃ o : CliOpts, o.resolve_url = none ∧ (agentOf R o).length ≤ 99 ∧
    (∀ ip, ¬ Says R (agentOf R o) 0 b!"www.cipherdyne.org" ip) ∧ resolve_ip_http R o = .ok (dotted 203 0 113 7) :=
  ⟨⟨fun n _ _ _ => if n = 1 then some [sampleAnswer] else none, fun _ => none, none, b!"2.6.11"⟩, {}, rfl, by decide,
    (by rintro ip ⟨_, h, _⟩; cases h), by decide +kernel⟩

theorem wget_fits {R : ResolveEnv} {o : CliOpts} {bin url : Str} (hbin : o.wget_bin.or R.wget_exe = some bin)
    (hu : (o.resolve_url = none ∧ url = WGET_RESOLVE_URL_SSL) ∨ ∃ u p, o.resolve_url = some u ∧ parse_url u = .ok (p, url))
    (hl : (spaced (wgetWords bin (agentOf R o) url o.use_wget_user_agent)).length < 1024) :
    wgetCmd R o = .ok (spaced (wgetWords bin (agentOf R o) url o.use_wget_user_agent)) := by
  have cat : ∀ a b : Str, (a ++ b).length < 1024 → strlcat a b MAX_URL_PATH_LEN = a ++ b := by
    intro a b h
    rw [List.length_append] at h
    unfold strlcat
    rw [if_neg (show ¬ a.length ≥ 1024 by omega), List.take_of_length_le (show b.length ≤ 1024 - 1 - a.length by omega)]
  have fin : ∀ c : Str, (c ++ url).length < 1024 →
      (match o.resolve_url with
        | none => return strlcat c WGET_RESOLVE_URL_SSL MAX_URL_PATH_LEN
        | some u => do
          let p ← parse_url u
          return strlcat c p.2 MAX_URL_PATH_LEN : Res Str) = .ok (c ++ url) := by
    intro c h
    rcases hu with ⟨h1, rfl⟩ | ⟨u, p, h1, h2⟩
    · rw [h1]
      dsimp only
      rw [cat _ _ h]
      rfl
    · rw [h1]
      dsimp only
      rw [h2, bind_ok]
      dsimp only
      rw [cat _ _ h]
      rfl
  unfold wgetCmd
  rw [hbin, show Res.ofOpt (some bin) = .ok bin from rfl, bind_ok]
  cases how : o.use_wget_user_agent with
  | true =>
    rw [how] at hl
    have hw : spaced (wgetWords bin (agentOf R o) url true) = bin ++ wgetOptions ++ url := by
      simp [wgetWords, spaced, wgetOptions]
    rw [hw] at hl ⊢
    have hl' := hl
    simp only [List.length_append] at hl'
    rw [show strlcpy bin MAX_URL_PATH_LEN = bin from List.take_of_length_le (show bin.length ≤ 1023 by omega)]
    dsimp only
    rw [if_pos rfl,
      cat bin wgetOptions (by rw [List.length_append]; omega)]
    exact fin _ hl
  | false =>
    rw [how] at hl
    have hw : spaced (wgetWords bin (agentOf R o) url false) =
        bin ++ b!" -U " ++ agentOf R o ++ wgetOptions ++ url := by
      simp [wgetWords, spaced, wgetOptions]
    rw [hw] at hl ⊢
    have hl' := hl
    simp only [List.length_append] at hl'
    rw [show strlcpy bin MAX_URL_PATH_LEN = bin from List.take_of_length_le (show bin.length ≤ 1023 by omega)]
    dsimp only
    rw [if_neg (by decide),
      cat bin _ (by simp only [List.length_append]; omega), cat _ (agentOf R o) (by simp only [List.length_append]; omega),
      cat _ wgetOptions (by simp only [List.length_append]; omega)]
    exact fin _ hl

theorem fgets_front : ∀ (x t : Str) (n : Nat), 10 ∉ x → x.length ≤ n → (fgetsOne n (x ++ t)).1 = x ++ (fgetsOne (n - x.length) t).1
  | [], t, n, _, _ => by simp
  | c :: x, t, n, h, hl => by
    cases n with
    | zero => simp at hl
    | succ n =>
      rw [List.cons_append, fgetsOne, if_neg (show ¬ c = 10 from fun h' => h (h' ▸ List.mem_cons_self))]
      dsimp only
      rw [fgets_front x t n (fun h' => h (List.mem_cons_of_mem _ h')) (by simpa using hl), List.length_cons, Nat.add_sub_add_right]
      rfl

/-- **C111.** With -R, `wget` is run once, with these words, and the address that its output begins with is the
one that is used (names without blanks, a command line of less than 1024 characters; the URL is the one given,
perhaps without a slash at its end, or the one that is built in). -/
theorem C111_https_partial {R : ResolveEnv} {o : CliOpts} {bin url out : List Nat} {a b c d : Nat} (hbin : o.wget_bin.or R.wget_exe = some bin)
    (hu : (o.resolve_url = none ∧ url = b!"https://www.cipherdyne.org/cgi-bin/myip") ∨
      ((o.resolve_url = some url ∨ o.resolve_url = some (url ++ b!"/")) ∧ ∃ host port path, PlainUrl url host port path))
    (hw : PlainWord bin ∧ PlainWord (agentOf R o) ∧ PlainWord url)
    (hl : (spaced (wgetWords bin (agentOf R o) url o.use_wget_user_agent)).length < 1024)
    (hout : R.wget (wgetWords bin (agentOf R o) url o.use_wget_user_agent) = some out)
    (ha : a ≤ 255) (hb : b ≤ 255) (hc : c ≤ 255) (hd : d ≤ 255) {tail : List Nat} (hip : out = dotted a b c d ++ tail)
    (ht : ∀ c, tail.head? = some c → ¬ IpChar c) : resolve_ip_https R o = .ok (dotted a b c d) := by
  have hu' : (o.resolve_url = none ∧ url = WGET_RESOLVE_URL_SSL) ∨ ∃ u p, o.resolve_url = some u ∧ parse_url u = .ok (p, url) := by
    rcases hu with h | ⟨h, host, port, path, scheme, p, q, rfl, h1, h2, h3, h4, h5, h6, h7, h8, h9, h10⟩
    · exact Or.inl h
    · obtain ⟨k1, k2⟩ := C111_url_partial h1 h2 h3 h4 h5 h6 h7 h8 h9 h10
      rcases h with h | h
      · exact Or.inr ⟨_, _, h, k1⟩
      · refine Or.inr ⟨_, ⟨decimal port, host, path⟩, h, ?_⟩
        simpa using k2
  unfold resolve_ip_https
  rw [wget_fits hbin hu' hl, bind_ok]
  generalize hws : wgetWords bin (agentOf R o) url o.use_wget_user_agent = ws at *
  have hmem : ∀ w ∈ ws, PlainWord w := by
    intro w h
    rw [← hws] at h
    unfold wgetWords at h
    simp only [List.mem_append, List.mem_cons, List.not_mem_nil, or_false] at h
    rcases h with (rfl | h) | rfl | rfl | rfl | rfl | rfl
    · exact hw.1
    · split at h
      · cases h
      · simp only [List.mem_cons, List.not_mem_nil, or_false] at h
        rcases h with rfl | rfl
        · exact ⟨by decide, by unfold IsBlank; decide⟩
        · exact hw.2.1
    · exact ⟨by decide, by unfold IsBlank; decide⟩
    · exact ⟨by decide, by unfold IsBlank; decide⟩
    · exact ⟨by decide, by unfold IsBlank; decide⟩
    · exact ⟨by decide, by unfold IsBlank; decide⟩
    · exact hw.2.2
  have hlen : ∀ w ∈ ws, w.length < MAX_ARGS_LINE_LEN := by
    have key : ∀ (l : List Word), ∀ w ∈ l, w.length ≤ (spaced l).length := by
      intro l
      induction l with
      | nil => intro w h; cases h
      | cons x l ih =>
        intro w h
        cases l with
        | nil => simp at h; subst h; simp [spaced]
        | cons y l =>
          rcases List.mem_cons.mp h with rfl | h
          · simp [spaced]
          · have := ih w h
            simp only [spaced, List.length_append, List.length_cons] at this ⊢
            omega
    exact fun w h => Nat.lt_of_le_of_lt (key ws w h) hl
  have hn : ws.length < MAX_CMDLINE_ARGS - 1 := by
    rw [← hws]
    unfold wgetWords
    split <;> exact Nat.lt_of_le_of_lt (m := 8) (by simp) (by decide)
  rw [strtoargv_spaced (fun w h => ⟨hmem w h, hlen w h⟩) hn, bind_ok, show Res.ofOpt (some ws) = .ok ws from rfl, bind_ok, hout,
    show Res.ofOpt (some out) = .ok out from rfl, bind_ok]
  have h15 := dotted_short ha hb hc hd
  have h10 : 10 ∉ dotted a b c d := by
    intro h
    have := dotted_chars _ _ _ _ _ h
    unfold IpChar IsDigitChar at this
    omega
  have hne : dotted a b c d ≠ [] := by
    unfold dotted
    simp
  rw [show decide (out = []) = false from decide_eq_false (by rw [hip]; simp [hne]), guard_false, bind_ok, hip,
    fgets_front _ _ 16 h10 (by omega)]
  dsimp only
  generalize hr : (fgetsOne (16 - (dotted a b c d).length) tail).1 = r
  have hrt : r = [] ∨ ∃ c l, r = c :: l ∧ tail.head? = some c := by
    have hpre : r ++ (fgetsOne (16 - (dotted a b c d).length) tail).2 = tail := by rw [← hr]; exact fgetsOne_split _ _
    cases r with
    | nil => exact Or.inl rfl
    | cons x l => exact Or.inr ⟨x, l, rfl, by rw [← hpre]; rfl⟩
  have hrl : r.length ≤ 16 - (dotted a b c d).length := by rw [← hr]; exact fgetsOne_length _ _
  generalize hz : MAX_IPV4_STR_LEN + 1 - (dotted a b c d ++ r).length = z
  have hzpos : z ≠ 0 := by
    rw [← hz, List.length_append]
    show 17 - _ ≠ 0
    omega
  rw [ipAt_is (by
    rw [List.drop_zero]
    exact List.mem_append_right _ (List.mem_replicate.mpr ⟨hzpos, rfl⟩)), List.drop_zero, List.append_assoc,
    ipFound_dotted ha hb hc hd (by
      intro x hx
      rcases hrt with rfl | ⟨y, l, rfl, hy⟩
      · rw [List.nil_append] at hx
        have : x = 0 := List.eq_of_mem_replicate (List.mem_of_mem_head? hx)
        subst this
        unfold IpChar IsDigitChar
        omega
      · cases hx
        exact ht x hy)]
  rfl

/-- `fwknop -R` with a program at /usr/bin/wget. -/
example : ∃ R : ResolveEnv, ∃ o : CliOpts, o.wget_bin.or R.wget_exe = some b!"/usr/bin/wget" ∧ o.resolve_url = none ∧
    (PlainWord b!"/usr/bin/wget" ∧ PlainWord (agentOf R o) ∧ PlainWord b!"https://www.cipherdyne.org/cgi-bin/myip") ∧
    (spaced (wgetWords b!"/usr/bin/wget" (agentOf R o) b!"https://www.cipherdyne.org/cgi-bin/myip" o.use_wget_user_agent)).length < 1024 ∧
    resolve_ip_https R o = .ok b!"203.0.113.7" := by
  refine ⟨⟨fun _ _ _ _ => none, fun _ => some b!"203.0.113.7\n", some b!"/usr/bin/wget", b!"2.6.11"⟩, {}, rfl, rfl, ⟨?_, ?_, ?_⟩, by decide, by decide +kernel⟩ <;>
    exact ⟨by decide, by unfold IsBlank; decide⟩

theorem split_shorter {s : List Nat} {ws : List Word} (h : Split s ws) : ∀ w ∈ ws, w.length ≤ s.length := by
  induction h with
  | nil => intro w h; cases h
  | blank c _ _ ih => exact fun w h => Nat.le_succ_of_le (ih w h)
  | word w _ _ _ ih =>
    intro x hx
    rw [List.length_append]
    rcases List.mem_cons.mp hx with rfl | hx
    · omega
    · have := ih x hx
      omega

/-- **C111 (partial: no URL, or a plain one; `C111_false_for_hostile_urls`).** Whatever the web server or
`wget` says, and however long the names of the program and of the client are, there is no memory error. -/
theorem C111_resolving_is_safe_partial {R : ResolveEnv} {o : CliOpts} (hu : o.resolve_url = none ∨
      ∃ url host port path, PlainUrl url host port path ∧ (o.resolve_url = some url ∨ o.resolve_url = some (url ++ b!"/"))) :
    resolveIp R o ≠ .ub := by
  have hparse : ∀ u, o.resolve_url = some u → ∃ p, parse_url u = .ok p := by
    intro u h
    rcases hu with h' | ⟨url, host, port, path, ⟨scheme, p, q, rfl, h1, h2, h3, h4, h5, h6, h7, h8, h9, h10⟩, h'⟩
    · rw [h] at h'; cases h'
    · obtain ⟨k1, k2⟩ := C111_url_partial h1 h2 h3 h4 h5 h6 h7 h8 h9 h10
      rcases h' with h' | h' <;> rw [h] at h' <;> cases h'
      · exact ⟨_, k1⟩
      · exact ⟨_, by simpa using k2⟩
  have hopt : ∀ {α : Type} (x : Option α), Res.ofOpt x ≠ .ub := by
    intro α x
    cases x <;> exact nofun
  have hcat : ∀ a b : Str, a.length < 1024 → (strlcat a b MAX_URL_PATH_LEN).length < 1024 := by
    intro a b h
    unfold strlcat
    rw [if_neg (show ¬ a.length ≥ 1024 by omega), List.length_append, List.length_take]
    show _ + min (1024 - 1 - _) _ < _
    omega
  unfold resolveIp
  split
  · unfold resolve_ip_http
    split
    · rename_i u h
      obtain ⟨p, hp⟩ := hparse u h
      cases hb : hasPrefixI b!"https" u with
      | true => exact nofun
      | false =>
        rw [guard_false, bind_ok, hp, bind_ok, try_is, bind_ok]
        exact hopt _
    · rw [try_is, bind_ok]
      split
      · exact nofun
      · rw [try_is, bind_ok]
        exact hopt _
  · unfold resolve_ip_https
    have hcmd : wgetCmd R o = .err ∨ ∃ c, wgetCmd R o = .ok c ∧ c.length < 1024 := by
      unfold wgetCmd
      cases o.wget_bin.or R.wget_exe with
      | none => exact Or.inl rfl
      | some bin =>
        rw [show Res.ofOpt (some bin) = .ok bin from rfl, bind_ok]
        dsimp only
        have h0 : (strlcpy bin MAX_URL_PATH_LEN).length < 1024 := by
          unfold strlcpy
          rw [List.length_take]
          show min (1024 - 1) _ < _
          omega
        have h1 : (if o.use_wget_user_agent = true then strlcpy bin MAX_URL_PATH_LEN
            else strlcat (strlcat (strlcpy bin MAX_URL_PATH_LEN) b!" -U " MAX_URL_PATH_LEN) (agentOf R o) MAX_URL_PATH_LEN).length < 1024 := by
          split
          · exact h0
          · exact hcat _ _ (hcat _ _ h0)
        split
        · exact Or.inr ⟨_, rfl, hcat _ _ (hcat _ _ h1)⟩
        · rename_i u h
          obtain ⟨p, hp⟩ := hparse u h
          rw [hp, bind_ok]
          exact Or.inr ⟨_, rfl, hcat _ _ (hcat _ _ h1)⟩
    rcases hcmd with hcmd | ⟨c, hcmd, hlen⟩
    · rw [hcmd]; exact nofun
    · obtain ⟨ws, hws⟩ := C67_split_exists c
      rw [hcmd, bind_ok, C67_words_partial c ws hws fun w h => Nat.lt_of_le_of_lt (split_shorter hws w h) hlen, bind_ok]
      generalize (if ws.length ≤ 28 then some ws else none) = a
      cases a with
      | none => exact nofun
      | some argv =>
        rw [show Res.ofOpt (some argv) = .ok argv from rfl, bind_ok]
        cases R.wget argv with
        | none => exact nofun
        | some out =>
          rw [show Res.ofOpt (some out) = .ok out from rfl, bind_ok]
          cases hx : decide (out = []) with
          | true => exact nofun
          | false =>
            have hl := fgetsOne_length MAX_IPV4_STR_LEN out
            rw [guard_false, bind_ok]
            dsimp only
            rw [ipAt_is (by
              rw [List.drop_zero]
              exact List.mem_append_right _ (List.mem_replicate.mpr ⟨by show 17 - _ ≠ 0; have : (fgetsOne MAX_IPV4_STR_LEN out).1.length ≤ 16 := hl; omega, rfl⟩)), bind_ok]
            exact hopt _

/-- **C111.** Whatever the web server or `wget` says, what the client uses is a text of at most 15
digits and dots. -/
theorem C111_resolved_text {R : ResolveEnv} {o : CliOpts} {ip : List Nat} (h : resolveIp R o = .ok ip) :
    ip.length ≤ 15 ∧ ∀ c ∈ ip, IpChar c := by
  have key : ∀ t, ipFound t = some ip → ip.length ≤ 15 ∧ ∀ c ∈ ip, IpChar c := by
    intro t h
    obtain ⟨d1, d2, d3, d4, rest, -, rfl, -, -, hall⟩ := ipFound_inv h
    exact ⟨by rw [List.length_take]; exact Nat.min_le_left _ _, fun c hc => (ipChar_iff c).mp (hall c hc)⟩
  have key2 : ∀ d, answerFound d = some ip → ip.length ≤ 15 ∧ ∀ c ∈ ip, IpChar c := by
    intro d h
    unfold answerFound at h
    split at h
    · cases h
    · exact key _ h
  have key3 : ∀ (x : Option (List Str)), (x.bind fun c => answerFound (keptBytes c [])) = some ip → ip.length ≤ 15 ∧ ∀ c ∈ ip, IpChar c := by
    intro x h
    cases x with
    | none => cases h
    | some c => exact key2 _ h
  have ofOpt : ∀ {x : Option Str}, Res.ofOpt x = .ok ip → x = some ip := by
    intro x h
    cases x with
    | none => cases h
    | some y => cases h; rfl
  unfold resolveIp at h
  split at h
  · unfold resolve_ip_http at h
    split at h
    · obtain ⟨_, -, h⟩ := bind_eq_ok h
      obtain ⟨p, -, h⟩ := bind_eq_ok h
      obtain ⟨r, h1, h⟩ := bind_eq_ok h
      rw [try_is] at h1
      exact key3 _ (by rw [Res.ok.inj h1]; exact ofOpt h)
    · obtain ⟨r, h1, h⟩ := bind_eq_ok h
      rw [try_is] at h1
      cases r with
      | some x =>
        cases h
        exact key3 _ (Res.ok.inj h1)
      | none =>
        obtain ⟨r, h2, h⟩ := bind_eq_ok h
        rw [try_is] at h2
        exact key3 _ (by rw [Res.ok.inj h2]; exact ofOpt h)
  · unfold resolve_ip_https at h
    obtain ⟨_, -, h⟩ := bind_eq_ok h
    obtain ⟨_, -, h⟩ := bind_eq_ok h
    obtain ⟨_, -, h⟩ := bind_eq_ok h
    obtain ⟨out, -, h⟩ := bind_eq_ok h
    obtain ⟨_, -, h⟩ := bind_eq_ok h
    obtain ⟨r, h1, h⟩ := bind_eq_ok h
    have hl := fgetsOne_length MAX_IPV4_STR_LEN out
    rw [ipAt_is (by
      rw [List.drop_zero]
      exact List.mem_append_right _ (List.mem_replicate.mpr ⟨by show 17 - _ ≠ 0; have : (fgetsOne MAX_IPV4_STR_LEN out).1.length ≤ 16 := hl; omega, rfl⟩))] at h1
    exact key _ (by rw [Res.ok.inj h1]; exact ofOpt h)

/-- **C111 with C86.** A client that finds its address by itself makes packets from which a server with its
keys reads what was asked: the hypothesis of C86 about the address always holds. -/
theorem C111_server_reads_resolved_partial {K : Crypto} (hH : K.H.Lawful) (hbc : K.bc.Lawful) {E E' : CliEnv} {R : ResolveEnv} {ro : CliOpts}
    (hE : withResolved E R ro = .ok E') {args : List CliArg} (htext : ∀ a ∈ args, IsText (argText a))
    (hrand : 16 ≤ E.rands.length ∧ 16 ≤ E.rands2.length) (hsalt : E.salt.length = 8 ∧ IsBytes E.salt)
    (hcmd : (given argCommand args).getD [] ≠ [] → CliArg.nat_local ∉ args ∧ given argNat args = none ∧
      given argTimeout args = none)
    (hgpg : args.any asksGpg = false) {p : Packed} {t : Str} (h : client K E' {} args = .ok (p, t)) :
    ∃ o o' r, Meant args o ∧ Settled o o' ∧ Asks E' o' r ∧
      (o'.resolve_ip_http_https = true → o'.server_command = [] → ∃ ip, resolveIp R ro = .ok ip ∧ ∃ ports, r.msg = ip ++ 44 :: ports) := by
  have hf : ∃ x, E' = { E with resolved := x } ∧ ∀ ip, x = some ip → resolveIp R ro = .ok ip := by
    unfold withResolved at hE
    split at hE
    · cases hE
    · cases hE; exact ⟨none, rfl, by simp⟩
    · rename_i ip hip; cases hE; exact ⟨some ip, rfl, by rintro x ⟨⟩; exact hip⟩
  obtain ⟨x, rfl, hx⟩ := hf
  obtain ⟨o, o', r, h1, h2, h3, -⟩ := C86_server_reads_what_was_asked_partial (E := { E with resolved := x }) hH hbc htext hrand hsalt (fun ip hip => by
    obtain ⟨hl, hc⟩ := C111_resolved_text (hx ip hip)
    refine ⟨fun c h => ?_, hl⟩
    have := hc c h
    unfold IpChar IsDigitChar at this
    omega) hcmd hgpg h
  refine ⟨o, o', r, h1, h2, h3, fun hr hcmd => ?_⟩
  obtain ⟨ip, port, ports, hip, -, -, hm, -⟩ := h3.access hcmd
  unfold AskedIp at hip
  rw [if_pos hr] at hip
  exact ⟨ip, hx ip hip, ports, hm⟩

/-- `fwknop -A tcp/22 -R`, with 203.0.113.7 from `wget`. -/
example : (do
    let E ← withResolved cliEnv ⟨fun _ _ _ _ => none, fun _ => some b!"203.0.113.7\n", some b!"/usr/bin/wget", b!"2.6.11"⟩ {}
    let r ← client toyCrypto E {} [.access b!"tcp/22", .resolve, .destination b!"h", .key b!"secret"]
    let s ← fko_new_with_data toyCrypto r.2 (some r.1.key) 2 r.1.hmac 0
    return s.message) = Res.ok (some b!"203.0.113.7,tcp/22") := by
  decide +kernel

end Fwknop.Props
