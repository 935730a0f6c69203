import Verif.Spec.Http
import Verif.Props.Client
/-
C79, and C56 for clients with a policy of their own: the HTTP requests of clients.
-/
namespace Ofx.Props
open Ofx Spec

theorem sents_append (a b : Trace) : sents (a ++ b) = sents a ++ sents b := by
  simp [sents, List.filterMap_append]

theorem httpLoop_allows (net : Net) (hc : HttpClient) (body : List UInt8) (fuel : Nat) (via : List HttpRequest)
    (req : HttpRequest) (incl : Bool) (tr : Trace) :
    ∃ evs qs, (httpLoop net hc body fuel via req incl tr).2 = tr ++ evs ∧ sents evs = req :: qs ∧
      Allows hc (via ++ [req]) qs ∧ qs.length ≤ fuel := by
  induction fuel generalizing via req incl tr with
  | zero =>
    unfold httpLoop roundTrip
    cases net.transport tr req with
    | none => exact ⟨[.sent req], [], rfl, rfl, trivial, by simp⟩
    | some r =>
      simp only
      cases redirectBehavior req.method r.status with
      | none => exact ⟨[.sent req, .opened _], [], rfl, rfl, trivial, by simp⟩
      | some b =>
        obtain ⟨m, again⟩ := b
        simp only
        by_cases hl : r.location = []
        · rw [if_pos hl]; exact ⟨[.sent req, .opened _], [], rfl, rfl, trivial, by simp⟩
        · rw [if_neg hl]
          cases net.resolve req.url r.location with
          | none => exact ⟨[.sent req, .opened { r with id := tr.length + 1 }, .closed (tr.length + 1)], [], by simp, rfl, trivial, by simp⟩
          | some u =>
            simp only
            cases hc.check _ (via ++ [req]) with
            | useLast => exact ⟨[.sent req, .opened _], [], rfl, rfl, trivial, by simp⟩
            | fail => exact ⟨[.sent req, .opened { r with id := tr.length + 1 }, .closed (tr.length + 1)], [], by simp, rfl, trivial, by simp⟩
            | follow => exact ⟨[.sent req, .opened { r with id := tr.length + 1 }, .closed (tr.length + 1)], [], by simp, rfl, trivial, by simp⟩
  | succ fuel ih =>
    unfold httpLoop roundTrip
    cases net.transport tr req with
    | none => exact ⟨[.sent req], [], rfl, rfl, trivial, by simp⟩
    | some r =>
      simp only
      cases redirectBehavior req.method r.status with
      | none => exact ⟨[.sent req, .opened _], [], rfl, rfl, trivial, by simp⟩
      | some b =>
        obtain ⟨m, again⟩ := b
        simp only
        by_cases hl : r.location = []
        · rw [if_pos hl]; exact ⟨[.sent req, .opened _], [], rfl, rfl, trivial, by simp⟩
        · rw [if_neg hl]
          cases net.resolve req.url r.location with
          | none => exact ⟨[.sent req, .opened { r with id := tr.length + 1 }, .closed (tr.length + 1)], [], by simp, rfl, trivial, by simp⟩
          | some u =>
            simp only
            cases hk : hc.check ⟨m, u, [], [], if incl && again then body else [], req.hop + 1⟩ (via ++ [req]) with
            | useLast => exact ⟨[.sent req, .opened _], [], rfl, rfl, trivial, by simp⟩
            | fail => exact ⟨[.sent req, .opened { r with id := tr.length + 1 }, .closed (tr.length + 1)], [], by simp, rfl, trivial, by simp⟩
            | follow =>
              simp only
              obtain ⟨evs, qs, h1, h2, h3, h4⟩ := ih (via ++ [req]) ⟨m, u, [], [], if incl && again then body else [], req.hop + 1⟩
                (incl && again) (tr ++ [.sent req, .opened { r with id := tr.length + 1 }] ++ [.closed (tr.length + 1)])
              refine ⟨[.sent req, .opened { r with id := tr.length + 1 }, .closed (tr.length + 1)] ++ evs, _ :: qs, ?_, ?_, ⟨hk, h3⟩, ?_⟩
              · rw [h1]; simp
              · rw [sents_append, h2]; rfl
              · simpa using h4

theorem post_allows (net : Net) (hc : HttpClient) (url : Str) (headers : List (String × Str)) (cookies : List (Str × Str))
    (body : List UInt8) (tr : Trace) :
    ∃ evs, (post net hc url headers cookies body tr).2 = tr ++ evs ∧ (evs = [] ∨ ∃ qs,
      sents evs = ⟨"POST", url, headers, cookies, body, 0⟩ :: qs ∧
      Allows hc [⟨"POST", url, headers, cookies, body, 0⟩] qs ∧ qs.length ≤ hc.redirects) := by
  unfold post
  cases net.parseURL url with
  | none => exact ⟨[], by simp, .inl rfl⟩
  | some u =>
    simp only
    obtain ⟨evs, qs, h1, h2, h3, h4⟩ := httpLoop_allows net hc body hc.redirects [] ⟨"POST", url, headers, cookies, body, 0⟩ true tr
    replace h1 : (httpDo net hc ⟨"POST", url, headers, cookies, body, 0⟩ tr).2 = tr ++ evs := h1
    generalize httpDo net hc ⟨"POST", url, headers, cookies, body, 0⟩ tr = x at h1
    obtain ⟨res, tr'⟩ := x
    simp only at h1
    subst h1
    cases res with
    | none => exact ⟨evs, rfl, .inr ⟨qs, h2, h3, h4⟩⟩
    | some resp => exact ⟨evs, rfl, .inr ⟨qs, h2, h3, h4⟩⟩

/-- The request a basic client makes. -/
def basicPost (bc : BasicClient) (url : Str) (document : List UInt8) : HttpRequest :=
  ⟨"POST", url, [contentType, ("Accept", "*/*, application/x-ofx".toList)] ++ bc.userAgentHeader, [], document, 0⟩

/-- The first request a Vanguard client makes. -/
def vanguardPost (bc : BasicClient) (url : Str) (document : List UInt8) : HttpRequest :=
  ⟨"POST", url, contentType :: bc.userAgentHeader, [], document, 0⟩

theorem basicPost_of (bc : BasicClient) (url : Str) (d : List UInt8) :
    PostOf url d (basicPost bc url d) ∧ NamesAgent bc (basicPost bc url d) ∧
      headerValues "Accept" (basicPost bc url d) = ["*/*, application/x-ofx".toList] := by
  unfold NamesAgent headerValues basicPost BasicClient.userAgentHeader
  by_cases h : bc.UserAgent = []
  · simp only [h]
    exact ⟨⟨rfl, rfl, by simp [headerValues, contentType], rfl⟩, by simp [contentType], by simp [contentType]⟩
  · rw [if_pos h, if_neg h]
    exact ⟨⟨rfl, rfl, by simp [headerValues, contentType], rfl⟩, by simp [contentType], by simp [contentType]⟩

theorem vanguardPost_of (bc : BasicClient) (url : Str) (d : List UInt8) :
    PostOf url d (vanguardPost bc url d) ∧ NamesAgent bc (vanguardPost bc url d) := by
  unfold NamesAgent headerValues vanguardPost BasicClient.userAgentHeader
  by_cases h : bc.UserAgent = []
  · simp only [h]
    exact ⟨⟨rfl, rfl, by simp [headerValues, contentType], rfl⟩, by simp [contentType]⟩
  · rw [if_pos h, if_neg h]
    exact ⟨⟨rfl, rfl, by simp [headerValues, contentType], rfl⟩, by simp [contentType]⟩

theorem noParse_basic (net : Net) (bc : BasicClient) (r : Request Message) (tr : Trace) :
    ∃ evs, ((Client.basic bc).requestNoParse net r tr).2.2 = tr ++ evs ∧ (evs = [] ∨ ∃ d qs,
      (r.setClientFields net.now bc).marshal.1 = .ok d ∧ "https://".toList <+: r.url ∧
      sents evs = basicPost bc r.url d.bytes :: qs ∧
      Allows (bc.HTTPClient.getD defaultHttpClient) [basicPost bc r.url d.bytes] qs ∧
      qs.length ≤ (bc.HTTPClient.getD defaultHttpClient).redirects) := by
  rcases noParse_cases net (.basic bc) r tr with ⟨e, -, h⟩ | ⟨d, hd, ⟨-, h⟩ | ⟨resp, -, ⟨⟨b, hb⟩, -⟩, -⟩⟩
  · rw [h]; exact ⟨[], by simp, .inl rfl⟩
  · rw [h]
    simp only [Client.rawRequest, BasicClient.rawRequest]
    by_cases hs : hasPrefix "https://".toList r.url = true
    · rw [if_neg (by simpa using hs)]
      obtain ⟨evs, h1, h2⟩ := post_allows net (bc.HTTPClient.getD defaultHttpClient) r.url
        ([contentType, ("Accept", "*/*, application/x-ofx".toList)] ++ bc.userAgentHeader) [] d.bytes tr
      refine ⟨evs, h1, ?_⟩
      rcases h2 with h2 | ⟨qs, h2, h3, h4⟩
      · exact .inl h2
      · exact .inr ⟨d, qs, hd, hasPrefix_prefix.mp hs, h2, h3, h4⟩
    · rw [if_pos (by simpa using hs)]
      exact ⟨[], by simp, .inl rfl⟩
  · cases hb

theorem sents_posts (evs : Trace) : posts evs = (sents evs).filter (fun q => q.hop = 0) := by
  induction evs with
  | nil => rfl
  | cons e evs ih =>
    rw [show e :: evs = [e] ++ evs from rfl, posts_append, sents_append, List.filter_append, ih]
    congr 1
    cases e with
    | sent q =>
      by_cases h : q.hop = 0
      · simp [posts, sents, h]
      · simp [posts, sents, h]
    | _ => rfl

theorem mem_sents {evs : Trace} {q : HttpRequest} : q ∈ sents evs ↔ .sent q ∈ evs := by
  unfold sents
  rw [List.mem_filterMap]
  constructor
  · rintro ⟨e, he, h⟩
    cases e with
    | sent q' => cases h; exact he
    | _ => cases h
  · intro h; exact ⟨_, h, rfl⟩

theorem post_posts {net : Net} {hc : HttpClient} {url : Str} {headers : List (String × Str)} {cookies : List (Str × Str)}
    {body : List UInt8} {tr evs : Trace} (hs : hasPrefix "https://".toList url = true)
    (h : (post net hc url headers cookies body tr).2 = tr ++ evs) :
    posts evs = [] ∨ posts evs = [⟨"POST", url, headers, cookies, body, 0⟩] := by
  obtain ⟨evs', h1, -, -, h2⟩ := post_effect net hc url headers cookies body tr (hasPrefix_prefix.mp hs)
  rw [h1] at h
  rw [← List.append_cancel_left h]
  rcases h2 with ⟨-, -, rfl⟩ | ⟨-, h2⟩
  · exact .inl rfl
  · exact .inr h2

/-- The first post of a client, if it makes any. -/
theorem raw_posts {net : Net} {c : Client} {url : Str} {body : List UInt8} {tr evs : Trace}
    (h : (c.rawRequest net url body tr).2 = tr ++ evs) :
    posts evs = [] ∨ (∃ bc, c = .basic bc ∧ posts evs = [basicPost bc url body]) ∨
      ∃ bc, c = .vanguard bc ∧ posts evs = [vanguardPost bc url body] := by
  by_cases hs : hasPrefix "https://".toList url = true
  · cases c with
    | basic bc =>
      simp only [Client.rawRequest, BasicClient.rawRequest] at h
      rw [if_neg (by simpa using hs)] at h
      exact (post_posts hs h).imp id (fun h => .inl ⟨bc, rfl, h⟩)
    | vanguard bc =>
      simp only [Client.rawRequest, vanguardRawRequest] at h
      rw [if_neg (by simpa using hs)] at h
      exact (post_posts hs h).imp id (fun h => .inr ⟨bc, rfl, h⟩)
    | discover bc =>
      obtain ⟨evs', h1, -, h2⟩ := discover_effect net url body tr (hasPrefix_prefix.mp hs)
      replace h : (discoverRawRequest net url body tr).2 = tr ++ evs := h
      rw [h1] at h
      rw [← List.append_cancel_left h]
      exact .inl h2
  · obtain ⟨e, h1⟩ := C42_raw_refused net c url body tr (fun h' => hs (hasPrefix_prefix.mpr h'))
    rw [h1] at h
    rw [List.append_right_eq_self.mp h.symm]
    exact .inl rfl

/-- The second post of the Vanguard client. -/
def retryPost (url : Str) (document : List UInt8) (cookies : List (Str × Str)) : HttpRequest :=
  ⟨"POST", url, [contentType], cookies, document, 0⟩

theorem retry_posts {net : Net} {url : Str} {body : List UInt8} {cookies : List (Str × Str)} {tr evs : Trace}
    (h : (vanguardRetry net url body cookies tr).2 = tr ++ evs) :
    posts evs = [] ∨ posts evs = [retryPost url body cookies] := by
  unfold vanguardRetry at h
  by_cases hs : hasPrefix "https://".toList url = true
  · rw [if_neg (by simpa using hs)] at h
    refine post_posts (net := net) (hc := defaultHttpClient) (tr := tr) hs ?_
    rw [← h]
    generalize post net defaultHttpClient url [contentType] cookies body tr = x
    obtain ⟨⟨a, b⟩, t⟩ := x
    cases b <;> rfl
  · rw [if_pos (by simpa using hs)] at h
    rw [List.append_right_eq_self.mp h.symm]
    exact .inl rfl

/-- The posts of a call. -/
theorem noParse_posts {net : Net} {c : Client} {r : Request Message} {tr evs : Trace}
    (h : (c.requestNoParse net r tr).2.2 = tr ++ evs) :
    posts evs = [] ∨ ∃ d, (r.setClientFields net.now c.bc).marshal.1 = .ok d ∧
      ((∃ bc, c = .basic bc ∧ posts evs = [basicPost bc r.url d.bytes]) ∨
       ∃ bc, c = .vanguard bc ∧ (posts evs = [vanguardPost bc r.url d.bytes] ∨
        ∃ cookies, posts evs = [vanguardPost bc r.url d.bytes, retryPost r.url d.bytes cookies])) := by
  rcases noParse_cases net c r tr with ⟨e, -, h'⟩ | ⟨d, hd, h'⟩
  · rw [h'] at h
    rw [List.append_right_eq_self.mp h.symm]
    exact .inl rfl
  rcases h' with ⟨-, h'⟩ | ⟨resp, hr, hre, h'⟩
  · rw [h'] at h
    rcases raw_posts h with h1 | ⟨bc, rfl, h1⟩ | ⟨bc, rfl, h1⟩
    · exact .inl h1
    · exact .inr ⟨d, hd, .inl ⟨bc, rfl, h1⟩⟩
    · exact .inr ⟨d, hd, .inr ⟨bc, rfl, .inl h1⟩⟩
  · obtain ⟨⟨bc, rfl⟩, -⟩ := hre
    obtain ⟨e1, he1, -, -, hp1⟩ := first_effect net (.vanguard bc) r.url d.bytes tr (by intro bc h; cases h)
    obtain ⟨e2, he2, -⟩ := retry_effect net r.url d.bytes resp.cookies (tr ++ e1)
    rw [h', he1] at h
    simp only at h
    rw [he2, List.append_assoc] at h
    rw [← List.append_cancel_left h, posts_append]
    have hfirst : posts e1 = [vanguardPost bc r.url d.bytes] := by
      rcases hp1 with ⟨hn, -⟩ | ⟨-, -, hs, hp1⟩
      · rw [hn] at hr; cases hr
      · rcases raw_posts he1 with h1 | ⟨bc', hb, h1⟩ | ⟨bc', hb, h1⟩
        · rw [h1] at hp1; cases hp1
        · cases hb
        · cases hb; exact h1
    rw [hfirst]
    right
    refine ⟨d, hd, .inr ⟨bc, rfl, ?_⟩⟩
    rcases retry_posts he2 with h2 | h2
    · rw [h2]; exact .inl rfl
    · rw [h2]; exact .inr ⟨_, rfl⟩

theorem retryPost_of (url : Str) (d : List UInt8) (cookies : List (Str × Str)) :
    PostOf url d (retryPost url d cookies) ∧ headerValues "User-Agent" (retryPost url d cookies) = [] :=
  ⟨⟨rfl, rfl, by simp [headerValues, retryPost, contentType], rfl⟩, by simp [headerValues, retryPost, contentType]⟩

/-- C79: every post a client makes is one of the whole document of the request to the URL of the
request, with the content type of OFX.  (For what a Discover client writes itself see C48.) -/
theorem C79_posted (net : Net) (c : Client) (r : Request Message) (tr evs : Trace)
    (h : (c.requestNoParse net r tr).2.2 = tr ++ evs) (q : HttpRequest) (hq : q ∈ posts evs) :
    ∃ d, (r.setClientFields net.now c.bc).marshal.1 = .ok d ∧ PostOf r.url d.bytes q := by
  rcases noParse_posts h with h0 | ⟨d, hd, ⟨bc, rfl, h0⟩ | ⟨bc, rfl, h0 | ⟨cs, h0⟩⟩⟩ <;> rw [h0] at hq
  · cases hq
  · rw [List.mem_singleton.mp hq]; exact ⟨d, hd, (basicPost_of ..).1⟩
  · rw [List.mem_singleton.mp hq]; exact ⟨d, hd, (vanguardPost_of ..).1⟩
  · rcases List.mem_cons.mp hq with hq | hq
    · rw [hq]; exact ⟨d, hd, (vanguardPost_of ..).1⟩
    · rw [List.mem_singleton.mp hq]; exact ⟨d, hd, (retryPost_of ..).1⟩

/-- C79: the first post names the user agent the client is set to.  Full statement: so does every
post.  The second one of the Vanguard client does not (next theorem). -/
theorem C79_agent_partial (net : Net) (c : Client) (r : Request Message) (tr evs : Trace)
    (h : (c.requestNoParse net r tr).2.2 = tr ++ evs) (q : HttpRequest) (hq : (posts evs).head? = some q) :
    NamesAgent c.bc q := by
  rcases noParse_posts h with h0 | ⟨d, -, ⟨bc, rfl, h0⟩ | ⟨bc, rfl, h0 | ⟨cs, h0⟩⟩⟩ <;> rw [h0] at hq
  · cases hq
  · cases hq; exact (basicPost_of ..).2.1
  · cases hq; exact (vanguardPost_of ..).2
  · cases hq; exact (vanguardPost_of ..).2

/-- C79 fails for the second post of the Vanguard client: it never names a user agent. -/
theorem C79_retry_agent (net : Net) (bc : BasicClient) (r : Request Message) (tr evs : Trace)
    (h : ((Client.vanguard bc).requestNoParse net r tr).2.2 = tr ++ evs) (q1 q2 : HttpRequest) (hq : posts evs = [q1, q2]) :
    headerValues "User-Agent" q2 = [] := by
  rcases noParse_posts h with h0 | ⟨d, -, ⟨bc', hb, h0⟩ | ⟨bc', hb, h0 | ⟨cs, h0⟩⟩⟩
  · rw [h0] at hq; cases hq
  · cases hb
  · rw [h0] at hq; cases hq
  · rw [h0] at hq; cases hq; exact (retryPost_of ..).2

/-- A client set to a user agent and a server that makes it post twice. -/
example (now : GoTime) : ∃ net : Net, ∃ evs q1 q2, net.now = now ∧
    ((Client.vanguard sampleClient).requestNoParse net sampleRequest []).2.2 = [] ++ evs ∧ posts evs = [q1, q2] ∧
    headerValues "User-Agent" q1 = ["agent".toList] ∧ headerValues "User-Agent" q2 = [] := by
  obtain ⟨d, hd⟩ := sampleClient_ok now
  obtain ⟨net, hn, evs, h1, h2, -⟩ := C45_retry_after_error sampleClient sampleRequest [] now (by decide) d hd
  match hp : posts evs, h2 with
  | [q1, q2], _ =>
    refine ⟨net, evs, q1, q2, hn, h1, hp, ?_, C79_retry_agent _ _ _ _ _ h1 q1 q2 hp⟩
    exact C79_agent_partial _ _ _ _ _ h1 q1 (by rw [hp]; rfl)

/-- C79: neither the user agent nor the HTTP client set has any influence on what the Discover
client does. -/
theorem C79_discover_ignores (net : Net) (bc : BasicClient) (r : Request Message) (tr : Trace) (agent : Str)
    (hc : Option HttpClient) :
    (Client.discover { bc with UserAgent := agent, HTTPClient := hc }).requestNoParse net r tr =
      (Client.discover bc).requestNoParse net r tr := rfl

/-- C79: nor has the HTTP client set any on what the Vanguard client does. -/
theorem C79_vanguard_ignores (net : Net) (bc : BasicClient) (r : Request Message) (tr : Trace) (hc : Option HttpClient) :
    (Client.vanguard { bc with HTTPClient := hc }).requestNoParse net r tr = (Client.vanguard bc).requestNoParse net r tr := rfl

/-- C79: all requests a call of a basic client makes are a post, which also says what answers are
accepted, and redirections; each of these its HTTP client (by default that of net/http) allowed,
given the requests before it, and there are no more of them than that permits.  Full statement: so
it is for all clients.  The others use HTTP clients of their own (last theorems). -/
theorem C79_redirections_partial (net : Net) (bc : BasicClient) (r : Request Message) (tr evs : Trace)
    (h : ((Client.basic bc).requestNoParse net r tr).2.2 = tr ++ evs) :
    sents evs = [] ∨ ∃ first qs, sents evs = first :: qs ∧ first.url = r.url ∧
      headerValues "Accept" first = ["*/*, application/x-ofx".toList] ∧
      Allows (bc.HTTPClient.getD defaultHttpClient) [first] qs ∧
      qs.length ≤ (bc.HTTPClient.getD defaultHttpClient).redirects := by
  obtain ⟨evs', h1, h2⟩ := noParse_basic net bc r tr
  rw [h1] at h
  rw [← List.append_cancel_left h]
  rcases h2 with rfl | ⟨d, qs, -, -, h3, h4, h5⟩
  · exact .inl rfl
  · exact .inr ⟨_, qs, h3, rfl, (basicPost_of ..).2.2, h4, h5⟩

theorem allows_url {hc : HttpClient} (hp : ∀ q before, hc.check q before = .follow → "https://".toList <+: q.url) :
    ∀ {qs before : List HttpRequest}, Allows hc before qs → ∀ q ∈ qs, "https://".toList <+: q.url
  | q' :: qs, before, ⟨h1, h2⟩, q, hq => by
    rcases List.mem_cons.mp hq with rfl | hq
    · exact hp _ _ h1
    · exact allows_url hp h2 q hq

theorem request_sents {env : Env} {nt : NameTable} {net : Net} {c : Client} {r : Request Message} {tr evs : Trace}
    (h : (c.request env nt net r tr).2.2 = tr ++ evs) : ∃ evs', (c.requestNoParse net r tr).2.2 = tr ++ evs' ∧ sents evs = sents evs' := by
  rcases request_events env nt net c r tr evs h with ⟨h1, -⟩ | ⟨resp, evs', rfl, h1, -⟩
  · exact ⟨evs, h1, rfl⟩
  · exact ⟨evs', h1, by rw [sents_append]; simp [sents]⟩

/-- C56: a basic client with an HTTP client that follows redirections only to URLs starting with
https:// sends nothing anywhere else, whatever servers answer.  Missing: the other clients, which
ignore the HTTP client set. -/
theorem C56_guarded_partial (env : Env) (nt : NameTable) (net : Net) (bc : BasicClient) (hc : HttpClient) (r : Request Message)
    (tr evs : Trace) (hb : bc.HTTPClient = some hc)
    (hp : ∀ q before, hc.check q before = .follow → "https://".toList <+: q.url)
    (h : ((Client.basic bc).request env nt net r tr).2.2 = tr ++ evs) (q : HttpRequest) (hq : .sent q ∈ evs) :
    "https://".toList <+: q.url := by
  have hs := C42_https env nt net _ r tr evs h (by rintro rfl; cases hq)
  obtain ⟨evs', h1, h2⟩ := request_sents h
  rw [← mem_sents, h2] at hq
  rcases C79_redirections_partial net bc r tr evs' h1 with h3 | ⟨first, qs, h3, h4, -, h5, -⟩
  · rw [h3] at hq; cases hq
  · rw [h3] at hq
    rcases List.mem_cons.mp hq with rfl | hq
    · rw [h4]; exact hs
    · rw [hb] at h5
      exact allows_url hp h5 q hq

/-- C56 fails for the Vanguard client even with such an HTTP client. -/
theorem C56_guard_ignored (env : Env) (nt : NameTable) (bc : BasicClient) (hc : HttpClient) (r : Request Message) (tr : Trace)
    (now : GoTime) (hs : "https://".toList <+: r.url) (d : Doc) (hd : (r.setClientFields now bc).marshal.1 = .ok d) :
    ∃ net : Net, net.now = now ∧ ∃ q, .sent q ∈ ((Client.vanguard { bc with HTTPClient := some hc }).request env nt net r tr).2.2 ∧
      q.url = "http://plain.example.com/".toList ∧ q.body = d.bytes :=
  C56_redirect_leak env nt (.vanguard { bc with HTTPClient := some hc }) r tr now (.inr ⟨_, rfl⟩) hs d hd

/-- An HTTP client that follows redirections to https only. -/
def carefulHttpClient : HttpClient := ⟨9, fun q _ => if "https://".toList.isPrefixOf q.url then .follow else .useLast⟩

theorem careful (q : HttpRequest) (before : List HttpRequest) (h : carefulHttpClient.check q before = .follow) :
    "https://".toList <+: q.url := by
  by_cases hp : "https://".toList.isPrefixOf q.url = true
  · exact List.isPrefixOf_iff_prefix.mp hp
  · simp only [carefulHttpClient] at h
    rw [if_neg hp] at h; cases h

theorem careful_follows (body : List UInt8) (before : List HttpRequest) :
    carefulHttpClient.check ⟨"POST", "https://other.example.com/".toList, [], [], body, 1⟩ before = .follow :=
  if_pos (e := .useLast) (show "https://".toList.isPrefixOf "https://other.example.com/".toList = true by decide)

/-- It does follow some: with a server that redirects, the request is sent on to an https URL. -/
example (env : Env) (nt : NameTable) (now : GoTime) (tr : Trace) : ∃ net : Net, ∃ d : Doc,
    .sent ⟨"POST", "https://other.example.com/".toList, [], [], d.bytes, 1⟩ ∈
      ((Client.basic { sampleClient with HTTPClient := some carefulHttpClient }).request env nt net sampleRequest tr).2.2 := by
  obtain ⟨d, hd⟩ := sampleClient_ok now
  refine ⟨redirectNet now 307 "https://other.example.com/".toList, d, ?_⟩
  obtain ⟨e1, h1⟩ := noParse_first (redirectNet now 307 "https://other.example.com/".toList)
    (.basic { sampleClient with HTTPClient := some carefulHttpClient }) sampleRequest tr d hd
  obtain ⟨e2, h2⟩ := request_extends env nt (redirectNet now 307 "https://other.example.com/".toList)
    (.basic { sampleClient with HTTPClient := some carefulHttpClient }) sampleRequest tr
  rw [h2, h1]
  refine List.mem_append_left _ (List.mem_append_left _ ?_)
  simp only [Client.rawRequest, BasicClient.rawRequest]
  rw [if_neg (by decide)]
  exact post_redirected now carefulHttpClient 8 rfl _ _ _ d.bytes tr (by decide) (careful_follows _)

/-- And with the Vanguard client nothing it refuses is refused. -/
example (env : Env) (nt : NameTable) (now : GoTime) (tr : Trace) : ∃ d : Doc, ∃ net : Net, net.now = now ∧ ∃ q,
    .sent q ∈ ((Client.vanguard { sampleClient with HTTPClient := some carefulHttpClient }).request env nt net sampleRequest tr).2.2 ∧
      q.url = "http://plain.example.com/".toList ∧ q.body = d.bytes :=
  let ⟨d, hd⟩ := sampleClient_ok now
  ⟨d, C56_guard_ignored env nt sampleClient carefulHttpClient sampleRequest tr now (by decide) d hd⟩

end Ofx.Props
