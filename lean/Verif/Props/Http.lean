import Verif.Lemmas.Http
import Verif.Props.Incoming

/-!
# C50, C51, C64: requests over HTTP
-/

namespace Fwknop.Props

open Fwknop Spec Res

theorem ipv4_chars {v : Str} (h : IsIPv4 v) : (∀ c ∈ v, 46 ≤ c ∧ c ≤ 57) ∧ v.length ≤ 15 := by
  obtain ⟨a, b, c, d, ha, hb, hc, hd, rfl, hl⟩ := h
  have ho : ∀ {p : Str}, IsOctet p → ∀ x ∈ p, 46 ≤ x ∧ x ≤ 57 := by
    intro p hp x hx
    rcases hp.2 with ⟨_, h, _⟩ | ⟨_, h, _⟩
    · have := h x hx
      unfold IsDigitChar at this
      omega
    · have := h x hx
      omega
  refine ⟨?_, hl⟩
  intro x hx
  simp only [List.mem_append, List.mem_cons] at hx
  rcases hx with hx | rfl | hx | rfl | hx | rfl | hx
  · exact ho ha x hx
  · omega
  · exact ho hb x hx
  · omega
  · exact ho hc x hx
  · omega
  · exact ho hd x hx

theorem ipv4_not_blank {v : Str} (h : IsIPv4 v) : ∀ c ∈ v, ¬ IsBlank c := by
  intro c hc hb
  have := (ipv4_chars h).1 c hc
  unfold IsBlank at hb
  omega

/-- The search finds the address. -/
theorem forwarded_value {text before v after junk : Str} {b : Nat} (h0 : 0 ∉ text)
    (hf : FirstForwarded text before (v ++ b :: after)) (hb : IsBlank b) (hv : IsIPv4 v) :
    ∃ buf, xffHeader (text ++ 0 :: junk) = .ok (buf, v) := by
  obtain ⟨buf, h⟩ := xffHeader_value (junk := junk) h0 hf hb (ipv4_not_blank hv)
  have hl := (ipv4_chars hv).2
  rw [if_pos ((valid_ipv4_iff v hl).2 hv), if_neg (by omega)] at h
  exact ⟨buf, h⟩

/-! ## C50 -/

/-- `preprocess_spa_data` on a packet that is a request. -/
theorem preprocess_http {conf : Conf} {text : Str} {p : Pkt} (hh : conf.http = true) (hp : Carrying p text)
    (hg : b!"get /" <+: text.map lower) (hm : 140 ≤ p.len) (hl : p.len ≤ 1500) :
    preprocess_spa_data conf p.data p.len = httpRequest conf p.data p.len := by
  obtain ⟨h1, h2, junk, h3⟩ := hp
  have hi : isHttp conf p.data = true := by
    unfold isHttp
    rw [hh, h3, cstr_append h2, Bool.true_and]
    unfold hasPrefixI
    rw [List.isPrefixOf_iff_prefix, ← lower_eq]
    exact hg
  have hlen : 140 ≤ p.data.length := by
    rw [h3]; simp only [List.length_append, List.length_cons]; omega
  have hfirst : ∀ q : Str, ∀ c, (c :: q) <+: p.data → c = 71 ∨ c = 103 := by
    intro q c hq
    cases text with
    | nil => simp at h1; omega
    | cons d ds =>
      obtain ⟨z, hz⟩ := hq
      obtain ⟨y, hy⟩ := hg
      rw [h3] at hz
      simp only [List.cons_append, List.cons.injEq] at hz
      simp only [List.map_cons, List.cons_append, List.cons.injEq] at hy
      have := hy.1
      rw [← hz.1] at this
      unfold lower at this
      split at this <;> omega
  unfold preprocess_spa_data
  rw [hi, if_pos rfl]
  have g1 : decide (p.len < MIN_SPA_DATA_SIZE) = false := by simp [MIN_SPA_DATA_SIZE]; omega
  have g2 : decide (p.len > MAX_SPA_PACKET_LEN) = false := by simp [MAX_SPA_PACKET_LEN]; omega
  have g3 : decide (constant_runtime_cmp p.data B64_RIJNDAEL_SALT 10 = 0) = false := by
    refine decide_eq_false fun h => ?_
    have := hfirst _ _ ((cmp_prefix p.data b!"U2FsdGVkX1" 10 rfl (by omega)).1 h)
    omega
  have g4 : decide (constant_runtime_cmp p.data B64_GPG_PREFIX 2 = 0) = false := by
    refine decide_eq_false fun h => ?_
    have := hfirst _ _ ((cmp_prefix p.data b!"hQ" 2 rfl (by omega)).1 h)
    omega
  rw [g1, g2, g3, g4]
  simp only [Bool.and_false, Res.guard_false, Res.bind_ok]

theorem preprocess_length {conf : Conf} {buf : Str} {len : Nat} {x : Str × Str}
    (hb : preprocess_spa_data conf buf len = .ok x) : 140 ≤ len ∧ len ≤ 1500 := by
  unfold preprocess_spa_data at hb
  obtain ⟨_, g1, hb⟩ := bind_eq_ok hb
  obtain ⟨_, g2, hb⟩ := bind_eq_ok hb
  have inv : ∀ {b : Bool} {u : Unit}, Res.guard b = .ok u → b = false := by
    intro b u hg; cases b with
    | false => rfl
    | true => cases hg
  have g1 := inv g1; have g2 := inv g2
  simp only [MIN_SPA_DATA_SIZE, MAX_SPA_PACKET_LEN, decide_eq_false_iff_not, Nat.not_lt] at g1 g2
  exact ⟨g1, g2⟩

theorem get_data {t rest : Str} {p : Pkt} (hp : Carrying p (getRequest (urlSafe t) rest)) :
    ∃ junk, p.data = b!"GET /" ++ t.map urlChar ++ 32 :: (rest ++ 0 :: junk) := by
  obtain ⟨h1, h2, junk, h3⟩ := hp
  exact ⟨junk, by rw [h3]; simp [getRequest, urlSafe_eq]⟩

theorem get_len (t rest : Str) : (getRequest (urlSafe t) rest).length = t.length + rest.length + 6 := by
  simp only [getRequest, urlSafe_eq, List.length_append, List.length_map, List.length_cons, List.length_nil]
  omega

theorem get_start (t rest : Str) : b!"get /" <+: (getRequest (urlSafe t) rest).map lower := by
  unfold getRequest
  simp only [List.map_append, List.append_assoc]
  exact List.prefix_append _ _

/-- **C50**, the server's side: from any request for the URL-safe form of a base64 text, whatever
headers follow and whether or not X-Forwarded-For is honoured, the server takes nothing but that
text. -/
theorem C50_only_the_data {conf : Conf} {t rest text proxy : Str} {p : Pkt} (hh : conf.http = true)
    (ht : ∀ c ∈ t, IsB64Char c) (hp : Carrying p (getRequest (urlSafe t) rest))
    (hr : Received conf p text proxy) : text = t := by
  obtain ⟨buf, hb, rfl⟩ := hr
  obtain ⟨hm, hl⟩ := preprocess_length hb
  rw [preprocess_http hh hp (get_start t rest) hm hl] at hb
  obtain ⟨junk, h1⟩ := get_data hp
  rw [h1] at hb
  refine httpRequest_text (x := (buf, proxy)) ht ?_ hb
  have := hp.1
  rw [get_len] at this
  omega

/-- The server accepts a request if the search for X-Forwarded-For succeeds. -/
theorem get_accepted {conf : Conf} {t rest : Str} {p : Pkt} (hh : conf.http = true)
    (ht : ∀ c ∈ t, IsB64Char c) (hm : 140 ≤ t.length)
    (hp : Carrying p (getRequest (urlSafe t) rest)) (hl : p.len ≤ 1500)
    (ha : conf.need_agent = true → ∃ a b, rest = a ++ b!"User-Agent: Fwknop" ++ b) {y : Str × Str}
    (hy : (if conf.xff = true then xffHeader p.data else Res.ok (p.data, [])) = .ok y) :
    Received conf p t y.2 := by
  have h6 : t.length + 6 ≤ p.len := by rw [hp.1, get_len]; omega
  obtain ⟨junk, h1⟩ := get_data hp
  have h0 : 0 ∉ rest := fun h => hp.2.1 (List.mem_append_right _ h)
  rw [h1] at hy
  obtain ⟨b, hb⟩ := httpRequest_ok (conf := conf) (t := t) (r := rest ++ 0 :: junk) (len := p.len) ht h6 hm hy
    (by rw [cstr_append h0]; exact ha)
  rw [← h1] at hb
  refine ⟨_, (preprocess_http hh hp (get_start t rest) (by omega) hl).trans hb, ?_⟩
  rw [cstr_append]
  intro h0
  have := ht 0 h0
  unfold IsB64Char at this
  omega

/-- **C50**, the server's side (partial: requests of at most 1500 bytes).  If X-Forwarded-For is not
honoured or the request does not have it, the server accepts the request and takes the text. -/
theorem C50_accepted_partial {conf : Conf} {t rest : Str} {p : Pkt} (hh : conf.http = true)
    (ht : ∀ c ∈ t, IsB64Char c) (hm : 140 ≤ t.length)
    (hp : Carrying p (getRequest (urlSafe t) rest)) (hl : p.len ≤ 1500)
    (hx : conf.xff = true → ∀ i ≤ p.len, ¬ b!"x-forwarded-for: " <+: ((getRequest (urlSafe t) rest).drop i).map lower)
    (ha : conf.need_agent = true → ∃ a b, rest = a ++ b!"User-Agent: Fwknop" ++ b) :
    Received conf p t [] := by
  refine get_accepted hh ht hm hp hl ha (y := (p.data, [])) ?_
  cases hc : conf.xff with
  | false => rfl
  | true =>
    obtain ⟨h1, h2, junk, h3⟩ := hp
    rw [if_pos rfl, h3]
    exact xffHeader_absent h2 (by rw [← h1]; exact hx hc)

/-- **C50** with X-Forwarded-For honoured (partial: requests of at most 1500 bytes).  If the first
such header of the request has an IPv4 address followed by white space, the server takes the text
and that address. -/
theorem C50_accepted_forwarded_partial {conf : Conf} {t rest before v after : Str} {b : Nat} {p : Pkt}
    (hh : conf.http = true) (hx : conf.xff = true)
    (ht : ∀ c ∈ t, IsB64Char c) (hm : 140 ≤ t.length)
    (hp : Carrying p (getRequest (urlSafe t) rest)) (hl : p.len ≤ 1500)
    (hf : FirstForwarded (getRequest (urlSafe t) rest) before (v ++ b :: after)) (hb : IsBlank b) (hv : IsIPv4 v)
    (ha : conf.need_agent = true → ∃ a b, rest = a ++ b!"User-Agent: Fwknop" ++ b) :
    Received conf p t v := by
  obtain ⟨buf, hbuf⟩ := forwarded_value (junk := p.data.drop (p.len + 1)) hp.2.1 hf hb hv
  refine get_accepted hh ht hm hp hl ha (y := (buf, v)) ?_
  rw [hx, if_pos rfl, ← hbuf]
  obtain ⟨h1, h2, junk, h3⟩ := hp
  rw [h3, h1, show (getRequest (urlSafe t) rest).length + 1 = (getRequest (urlSafe t) rest ++ [0]).length by simp,
    show getRequest (urlSafe t) rest ++ 0 :: junk = (getRequest (urlSafe t) rest ++ [0]) ++ junk by simp,
    List.drop_left]
  simp

theorem tail_agent (agent host : Str) :
    ∃ rest, httpTail (b!"Fwknop" ++ agent) host = b!" " ++ rest ∧
      ∃ a b, rest = a ++ b!"User-Agent: Fwknop" ++ b := by
  refine ⟨_, rfl, b!"HTTP/1.1" ++ [13, 10], agent ++ [13, 10] ++ b!"Accept: */*" ++ [13, 10] ++
    b!"Host: " ++ host ++ [13, 10] ++ b!"Connection: close" ++ [13, 10] ++ [13, 10], ?_⟩
  simp

/-- **C50** (partial: requests of at most 1500 bytes, no HTTP proxy, X-Forwarded-For off).  What the
client sends for a base64 text is taken by the server as that very text. -/
theorem C50_round_trip_partial {conf : Conf} {t server agent : Str} {port : Int} {s : HttpSend} {p : Pkt}
    (hh : conf.http = true) (hx : conf.xff = false) (ht : ∀ c ∈ t, IsB64Char c) (hm : 140 ≤ t.length)
    (hs : send_spa_packet_http t server port (b!"Fwknop" ++ agent) [] = .ok s)
    (hp : Carrying p s.request) (hl : p.len ≤ 1500) :
    s.host = server ∧ s.port = port ∧ Received conf p t [] := by
  unfold send_spa_packet_http at hs
  rw [if_pos rfl] at hs
  cases hs
  refine ⟨rfl, rfl, ?_⟩
  obtain ⟨rest, h1, h2⟩ := tail_agent agent server
  have hreq : (b!"GET /" ++ t.map urlChar ++ httpTail (b!"Fwknop" ++ agent) server).take (HTTP_MAX_REQUEST_LEN - 1) =
      getRequest (urlSafe t) rest := by
    have e : b!"GET /" ++ t.map urlChar ++ httpTail (b!"Fwknop" ++ agent) server = getRequest (urlSafe t) rest := by
      rw [h1]; simp [getRequest, urlSafe_eq]
    have hlen := hp.1
    simp only [HTTP_MAX_REQUEST_LEN] at hlen ⊢
    rw [List.length_take] at hlen
    rw [List.take_of_length_le (by omega), e]
  simp only at hp
  rw [hreq] at hp
  exact C50_accepted_partial hh ht hm hp hl (by rw [hx]; nofun) fun _ => h2

/-- Through a proxy, the client asks the proxy's host for the data on the server. -/
theorem C50_proxy_request {t server agent proxy : Str} {port : Int} {s : HttpSend} (hne : proxy ≠ [])
    (hc : 58 ∉ proxy) (hs : send_spa_packet_http t server port agent proxy = .ok s)
    (hl : t.length + server.length + agent.length + proxy.length ≤ 1800) (hpl : proxy.length < 50) :
    s.host = proxy ∧ s.port = port ∧
      ∃ rest, s.request = b!"GET http://" ++ server ++ b!"/" ++ urlSafe t ++ b!" HTTP/1.1" ++ rest := by
  have h1 : hasPrefixI b!"http://" proxy = false := by
    cases h : hasPrefixI b!"http://" proxy with
    | false => rfl
    | true =>
      exfalso
      apply hc
      unfold hasPrefixI at h
      rw [List.isPrefixOf_iff_prefix] at h
      obtain ⟨z, hz⟩ := h
      have : (proxy.map toLower)[4]? = some 58 := by rw [← hz]; rfl
      rw [List.getElem?_map] at this
      obtain ⟨c, hc1, hc2⟩ := Option.map_eq_some_iff.1 this
      rw [lower_colon hc2] at hc1
      exact List.mem_of_getElem? hc1
  unfold send_spa_packet_http at hs
  rw [if_neg hne] at hs
  simp only [stripScheme, h1, splitProxy, hc, Bool.false_eq_true, if_false, Res.bind_ok] at hs
  cases hs
  refine ⟨List.take_of_length_le (by simp only [MAX_SERVER_STR_LEN]; omega), by simp,
    [13, 10] ++ b!"User-Agent: " ++ agent ++ [13, 10] ++ b!"Accept: */*" ++ [13, 10] ++
      b!"Host: " ++ proxy ++ [13, 10] ++ b!"Connection: close" ++ [13, 10] ++ [13, 10], ?_⟩
  · have e : b!"GET http://" ++ server ++ b!"/" ++ t.map urlChar ++ httpTail agent proxy =
        b!"GET http://" ++ server ++ b!"/" ++ urlSafe t ++ b!" HTTP/1.1" ++ ([13, 10] ++ b!"User-Agent: " ++ agent ++
          [13, 10] ++ b!"Accept: */*" ++ [13, 10] ++ b!"Host: " ++ proxy ++ [13, 10] ++ b!"Connection: close" ++
          [13, 10] ++ [13, 10]) := by
      simp [httpTail, urlSafe_eq]
    simp only
    rw [List.take_of_length_le, e]
    rw [e]
    simp only [HTTP_MAX_REQUEST_LEN, List.length_append, urlSafe_eq, List.length_map, List.length_cons, List.length_nil]
    omega

/-- A request over 1500 bytes, which the client sends, is dropped: **C50 is false as stated**. -/
theorem C50_long_request_lost :
    ∃ s, send_spa_packet_http (List.replicate 1450 65) b!"www.example.org" 80 b!"Fwknop/3.0.0" [] = .ok s ∧
      1500 < s.request.length ∧ ∀ p, Carrying p s.request → ∀ conf text proxy, ¬ Received conf p text proxy := by
  refine ⟨_, rfl, by decide +kernel, ?_⟩
  intro p hp conf text proxy hr
  obtain ⟨buf, hb, _⟩ := hr
  have h1 := (preprocess_length hb).2
  rw [hp.1] at h1
  revert h1
  decide +kernel

/-- The packet with a text. -/
theorem carrying_sample (t : Str) (h0 : 0 ∉ t) (hl : t.length < 1501) : Carrying (samplePkt t) t := by
  refine ⟨rfl, h0, List.replicate (1500 - t.length) 0, ?_⟩
  show t ++ List.replicate (1501 - t.length) 0 = _
  rw [show 1501 - t.length = (1500 - t.length) + 1 by omega, List.replicate_succ]

example : ∃ s, send_spa_packet_http sampleText b!"www.example.org" 80 b!"Fwknop/3.0.0" [] = .ok s ∧
    Received { http := true } (samplePkt s.request) sampleText [] := by
  refine ⟨_, rfl, ?_⟩
  refine (C50_round_trip_partial (agent := b!"/3.0.0") rfl rfl ?_ (by decide +kernel) rfl
    (carrying_sample _ (by decide +kernel) (by decide +kernel)) (by decide +kernel)).2.2
  unfold IsB64Char
  decide +kernel

/-! ## C51 -/

/-- A request with two headers. -/
def forwardedText (value : Str) : Str :=
  b!"GET /" ++ urlSafe sampleText ++ b!" HTTP/1.1" ++ [13, 10] ++ b!"User-Agent: Fwknop/3.0.0" ++ [13, 10] ++
    b!"X-Forwarded-For: " ++ value

/-- Which address the server takes from a packet. -/
def forwardedOf (t : Str) : Res Str := do
  let x ← preprocess_spa_data { http := true, xff := true } (samplePkt t).data (samplePkt t).len
  return x.2

/-- **C51 is false as stated**: if the packet ends with the header's value, the value's first
character is lost. -/
theorem C51_last_header_misread : forwardedOf (forwardedText b!"10.0.0.1") = .ok b!"0.0.0.1" := by
  decide +kernel

/-- **C51** (partial: the value is an IPv4 address of at most 15 characters and white space follows
it).  When X-Forwarded-For is honoured, the address the server uses is the one in the first
X-Forwarded-For header of the request. -/
theorem C51_forwarded_address_partial {conf : Conf} {req before v after text proxy : Str} {b : Nat} {p : Pkt}
    (hh : conf.http = true) (hx : conf.xff = true) (hp : Carrying p req) (hg : b!"get /" <+: req.map lower)
    (hf : FirstForwarded req before (v ++ b :: after)) (hb : IsBlank b) (hv : IsIPv4 v)
    (hr : Received conf p text proxy) : proxy = v := by
  obtain ⟨buf, hbuf, _⟩ := hr
  obtain ⟨hm, hl⟩ := preprocess_length hbuf
  rw [preprocess_http hh hp hg hm hl] at hbuf
  obtain ⟨_, h2, junk, h3⟩ := hp
  obtain ⟨buf', hbuf'⟩ := forwarded_value (junk := junk) h2 hf hb hv
  unfold httpRequest at hbuf
  obtain ⟨_, _, hbuf⟩ := bind_eq_ok hbuf
  rw [hx, if_pos rfl, h3, hbuf'] at hbuf
  simp only [Res.bind_ok] at hbuf
  obtain ⟨_, _, hbuf⟩ := bind_eq_ok hbuf
  obtain ⟨_, _, hbuf⟩ := bind_eq_ok hbuf
  cases hbuf
  rfl

/-- A value that is not an address is not used. -/
theorem C51_other_value_ignored {conf : Conf} {req before v after text proxy : Str} {b : Nat} {p : Pkt}
    (hh : conf.http = true) (hx : conf.xff = true) (hp : Carrying p req) (hg : b!"get /" <+: req.map lower)
    (hf : FirstForwarded req before (v ++ b :: after)) (hb : IsBlank b) (hv : ¬ IsIPv4 v)
    (hvb : ∀ c ∈ v, ¬ IsBlank c)
    (hr : Received conf p text proxy) : proxy = [] := by
  obtain ⟨buf, hbuf, _⟩ := hr
  obtain ⟨hm, hl⟩ := preprocess_length hbuf
  rw [preprocess_http hh hp hg hm hl] at hbuf
  obtain ⟨_, h2, junk, h3⟩ := hp
  obtain ⟨buf', hbuf'⟩ := xffHeader_value (junk := junk) h2 hf hb hvb
  unfold httpRequest at hbuf
  obtain ⟨_, _, hbuf⟩ := bind_eq_ok hbuf
  rw [hx, if_pos rfl, h3, hbuf'] at hbuf
  by_cases hc : is_valid_ipv4_addr v v.length = true
  · rw [if_pos hc] at hbuf
    by_cases h16 : v.length ≥ 16
    · rw [if_pos h16] at hbuf; cases hbuf
    · exact absurd ((valid_ipv4_iff v (by omega)).1 hc) hv
  · rw [if_neg hc] at hbuf
    simp only [Res.bind_ok] at hbuf
    obtain ⟨_, _, hbuf⟩ := bind_eq_ok hbuf
    obtain ⟨_, _, hbuf⟩ := bind_eq_ok hbuf
    cases hbuf
    rfl

/-- Without the header, or with the header not honoured, no address is used. -/
theorem C51_no_header_no_address {conf : Conf} {req text proxy : Str} {p : Pkt}
    (hh : conf.http = true) (hp : Carrying p req) (hg : b!"get /" <+: req.map lower)
    (hx : conf.xff = false ∨ ∀ i ≤ req.length, ¬ b!"x-forwarded-for: " <+: (req.drop i).map lower)
    (hr : Received conf p text proxy) : proxy = [] := by
  obtain ⟨buf, hbuf, _⟩ := hr
  obtain ⟨hm, hl⟩ := preprocess_length hbuf
  rw [preprocess_http hh hp hg hm hl] at hbuf
  obtain ⟨_, h2, junk, h3⟩ := hp
  have hy : (if conf.xff = true then xffHeader p.data else Res.ok (p.data, [])) = .ok (p.data, []) := by
    cases hc : conf.xff with
    | false => rfl
    | true =>
      rw [if_pos rfl, h3]
      rcases hx with hx | hx
      · rw [hc] at hx; cases hx
      · exact xffHeader_absent h2 hx
  unfold httpRequest at hbuf
  obtain ⟨_, _, hbuf⟩ := bind_eq_ok hbuf
  rw [hy] at hbuf
  simp only [Res.bind_ok] at hbuf
  obtain ⟨_, _, hbuf⟩ := bind_eq_ok hbuf
  obtain ⟨_, _, hbuf⟩ := bind_eq_ok hbuf
  cases hbuf
  rfl

example : forwardedOf (forwardedText (b!"10.0.0.1" ++ [13, 10])) = .ok b!"10.0.0.1" := by decide +kernel

/-- The hypotheses of the theorems above can be met. -/
example : FirstForwarded (forwardedText (b!"10.0.0.1" ++ [13, 10]))
    (b!"GET /" ++ urlSafe sampleText ++ b!" HTTP/1.1" ++ [13, 10] ++ b!"User-Agent: Fwknop/3.0.0" ++ [13, 10])
    (b!"10.0.0.1" ++ 13 :: [10]) :=
  ⟨⟨b!"X-Forwarded-For: ", rfl, rfl⟩, by decide +kernel⟩

/-! ## C64 -/

/-- **C64 is false as stated**: a value of sixteen characters that `inet_aton` accepts is copied with
its NUL into an array of sixteen bytes. -/
theorem C64_forwarded_overflow :
    forwardedOf (forwardedText (b!"0001.0002.03.004" ++ [13, 10])) = .ub := by
  decide +kernel

/-- It is also false for an empty value at the end of a packet of full size: the text read next
starts behind the array. -/
theorem C64_forwarded_overread :
    forwardedOf (b!"GET / HTTP/1.1 User-Agent: Fwknop" ++ List.replicate 1450 65 ++ b!"X-Forwarded-For: ") = .ub := by
  decide +kernel

/-- **C64** (partial: the header is absent, or its value is followed by white space and does not
have sixteen or more characters, or it is not honoured).  Extracting the data from a packet stays
inside the arrays. -/
theorem C64_no_overflow_partial {conf : Conf} {req : Str} {p : Pkt} (hp : Carrying p req)
    (hx : conf.xff = false ∨ (∀ i ≤ req.length, ¬ b!"x-forwarded-for: " <+: (req.drop i).map lower) ∨
      ∃ before v b after, FirstForwarded req before (v ++ b :: after) ∧ IsBlank b ∧ v.length < 16 ∧
        ∀ c ∈ v, ¬ IsBlank c) :
    preprocess_spa_data conf p.data p.len ≠ .ub := by
  have key : ∀ (b : Bool) (r : Res (Str × Str)), r ≠ .ub → (Res.guard b >>= fun _ => r) ≠ .ub := by
    intro b r hr
    cases b with
    | true => nofun
    | false => exact hr
  obtain ⟨h1, h2, junk, h3⟩ := hp
  have hy : (if conf.xff = true then xffHeader p.data else Res.ok (p.data, [])) ≠ .ub := by
    cases hc : conf.xff with
    | false => nofun
    | true =>
      rw [if_pos rfl, h3]
      rcases hx with hx | hx | ⟨before, v, b, after, hf, hb, hl, hv⟩
      · rw [hc] at hx; cases hx
      · rw [xffHeader_absent h2 hx]; nofun
      · obtain ⟨buf, hbuf⟩ := xffHeader_value (junk := junk) h2 hf hb hv
        rw [hbuf, if_neg (show ¬ v.length ≥ 16 by omega)]
        split <;> nofun
  unfold preprocess_spa_data
  refine key _ _ (key _ _ (key _ _ (key _ _ ?_)))
  split
  · unfold httpRequest
    refine key _ _ ?_
    cases hq : (if conf.xff = true then xffHeader p.data else Res.ok (p.data, [])) with
    | ub => exact absurd hq hy
    | err => nofun
    | ok y => exact key _ _ (key _ _ nofun)
  · exact key _ _ nofun

end Fwknop.Props
