import Verif.Spec.Answered
import Verif.Props.Text
import Verif.Props.Delivery
import Verif.Props.Client
/-
Property C87: a server's answer gets through.
-/
namespace Ofx.Props
open Ofx Spec

/-- A written response is read without error as the same response. -/
theorem written_parsed (env : Env) (nt : NameTable) (r : Response Message) (d : Doc) (h : r.marshal.1 = .ok d)
    (hv : 1 ≤ r.version ∧ r.version ≤ 11) (hs : ExactSignon env r.signon ∧ CleanSignonResponse r.signon ∧ SettledSignon r.signon)
    (hm : ∀ s, s ≠ .signon → ∀ m ∈ r.sets s, ExactMessage env m ∧ CleanMessage m ∧ SettledMessage m) (tail : List UInt8) :
    ∃ r', decodeResponse env nt (d.bytes ++ tail) = .ok r' ∧ r'.valid = none ∧ SameResponse r' r := by
  obtain ⟨r', g1, g2, g3, g4⟩ := C37_text_roundtrip_eq_partial env nt r d h hv hs hm tail
  refine ⟨r', g1, ?_, g2, g3, g4⟩
  have hok := (C26_response_marshal_iff _).mp ⟨d, h⟩
  rw [C36_valid_iff, g2, g3]
  refine ⟨(C23_signon_response_valid_iff r.version r.signon).mpr hok.1, fun s hs m hm => ?_⟩
  rw [g4 s hs] at hm
  exact (hok.2 s hs m hm).2.1

theorem httpDo_served {net : Net} {hc : HttpClient} {req : HttpRequest} {tr : Trace} {raw : RawResponse}
    (h : net.transport tr req = some raw) (h2 : raw.status = 200) :
    ∃ resp tr', httpDo net hc req tr = (some resp, tr') ∧ resp.toRawResponse = raw := by
  unfold httpDo httpLoop roundTrip
  rw [h]
  simp only [redirectBehavior, h2]
  exact ⟨_, _, rfl, rfl⟩

theorem post_served {net : Net} {hc : HttpClient} {url : Str} {headers : List (String × Str)} {cookies : List (Str × Str)}
    {body : List UInt8} {tr : Trace} {raw : RawResponse} (hk : ∃ u, net.parseURL url = some u)
    (h : net.transport tr ⟨"POST", url, headers, cookies, body, 0⟩ = some raw) (h2 : raw.status = 200) :
    ∃ resp tr', post net hc url headers cookies body tr = ((some resp, none), tr') ∧ resp.toRawResponse = raw := by
  obtain ⟨u, hu⟩ := hk
  obtain ⟨resp, tr', h3, h4⟩ := httpDo_served (hc := hc) h h2
  refine ⟨resp, tr', ?_, h4⟩
  unfold post
  rw [hu]
  simp only [h3, checkStatus]
  rw [if_neg (by rw [← h4] at h2; simpa using h2)]

theorem raw_served {net : Net} {c : Client} {url : Str} {doc : List UInt8} {raw : RawResponse} (hu : "https://".toList <+: url)
    (hs : Serves net url doc raw) (h2 : raw.status = 200) (tr : Trace) :
    ∃ resp tr', c.rawRequest net url doc tr = ((some resp, none), tr') ∧ resp.toRawResponse = raw := by
  have hp : hasPrefix "https://".toList url = true := by
    simpa [hasPrefix] using hu
  cases c with
  | basic bc =>
    unfold Client.rawRequest BasicClient.rawRequest
    rw [hp]
    exact post_served hs.known (hs.http tr _ rfl rfl rfl) h2
  | vanguard bc =>
    unfold Client.rawRequest vanguardRawRequest
    rw [hp]
    exact post_served hs.known (hs.http tr _ rfl rfl rfl) h2
  | discover bc =>
    obtain ⟨u, hu⟩ := hs.known
    obtain ⟨conn, c1, c2, c3⟩ := hs.connection tr (if u.port = [] then u.host ++ ":443".toList else u.host)
    have : ∃ resp tr', discoverPost net url doc tr = (some resp, tr') ∧ resp.toRawResponse = raw := by
      unfold discoverPost
      rw [hu]
      simp only [c1, Conn.transmits, c2]
      rw [if_neg (by simp), c3 _ (List.suffix_append ..)]
      exact ⟨_, _, rfl, rfl⟩
    obtain ⟨resp, tr', h3, h4⟩ := this
    have h5 : ¬ resp.status ≠ 200 := by
      have : resp.status = raw.status := by rw [← h4]
      omega
    unfold Client.rawRequest discoverRawRequest
    simp only [hp, h3, Bool.not_true, Bool.false_eq_true, if_false]
    rw [if_neg h5]
    exact ⟨_, _, rfl, h4⟩

/-- C87: whatever the client, a valid request to an https URL whose server answers it with status
200 and a document the library writes for a response is answered with that response (the texts in
it as in C37).  For Vanguard, that answer must not be the one that makes it try again, see below. -/
theorem C87_answered (env : Env) (nt : NameTable) (net : Net) (c : Client) (r : Request Message) (tr : Trace) (q : Doc)
    (hu : "https://".toList <+: r.url) (hq : (r.setClientFields net.now c.bc).marshal.1 = .ok q)
    (raw : RawResponse) (hs : Serves net r.url q.bytes raw) (h2 : raw.status = 200)
    (hc : ∀ bc, c = .vanguard bc → 0 < raw.contentLength ∨ raw.cookies = [])
    (res : Response Message) (d : Doc) (tail : List UInt8) (hb : raw.body = d.bytes ++ tail) (h : res.marshal.1 = .ok d)
    (hv : 1 ≤ res.version ∧ res.version ≤ 11)
    (hsig : ExactSignon env res.signon ∧ CleanSignonResponse res.signon ∧ SettledSignon res.signon)
    (hm : ∀ s, s ≠ .signon → ∀ m ∈ res.sets s, ExactMessage env m ∧ CleanMessage m ∧ SettledMessage m) :
    ∃ got, (c.request env nt net r tr).1 = (some got, none) ∧ SameResponse got res := by
  obtain ⟨got, g1, g2, g3⟩ := written_parsed env nt res d h hv hsig hm tail
  refine ⟨got, request_ok.mpr ?_, g3⟩
  have hurl : (r.setClientFields net.now c.bc).marshal.2.url = r.url := marshal_url _
  obtain ⟨resp, tr', h3, h4⟩ := raw_served (c := c) hu hs h2 tr
  refine ⟨resp, ?_, by rw [← h4] at hb; rw [hb]; exact g1, g2⟩
  unfold Client.requestNoParse
  rcases hr : (r.setClientFields net.now c.bc).marshal with ⟨e, r2⟩
  rw [hr] at hq hurl
  cases hq
  simp only at hurl ⊢
  rw [hurl, h3]
  cases c with
  | basic bc => rfl
  | discover bc => rfl
  | vanguard bc =>
    simp only
    rw [if_neg]
    intro hn
    rw [← h4] at hc
    rcases hc bc rfl with hc | hc
    · have : 0 < resp.contentLength := hc
      omega
    · have : resp.cookies = [] := hc
      rw [this] at hn
      simp at hn

/-- Every client gets the sample response from a server that answers everything with it. -/
example (nt : NameTable) (now : GoTime) (c : Client) (hc : c.bc = sampleClient) : ∃ net got, net.now = now ∧
    (c.request sampleEnv nt net sampleRequest []).1 = (some got, none) ∧ SameResponse got sampleResponse := by
  obtain ⟨d, hd⟩ := sampleResponse_ok
  obtain ⟨q, hq⟩ := sampleClient_ok now
  obtain ⟨h1, h2, h3⟩ := sampleResponse_exact
  obtain ⟨got, g1, g2⟩ := C87_answered sampleEnv nt (constNet now ⟨200, [], 0, [], [], d.bytes⟩) c sampleRequest [] q (by decide)
    (by rw [hc]; exact hq) ⟨200, [], 0, [], [], d.bytes⟩
    ⟨⟨_, rfl⟩, fun _ _ _ _ _ => rfl, fun _ _ => ⟨_, rfl, rfl, fun _ _ => rfl⟩⟩ rfl (fun _ _ => .inr rfl)
    sampleResponse d [] (by simp) hd (by decide) ⟨h1, sampleResponse_clean.1, h2⟩
    (fun s hs m hm => ⟨(h3 s hs m hm).1, sampleResponse_clean.2 s hs m hm, (h3 s hs m hm).2⟩)
  exact ⟨_, got, rfl, g1, g2⟩

theorem post_answered {net : Net} {hc : HttpClient} {url : Str} {headers : List (String × Str)} {cookies : List (Str × Str)}
    {body : List UInt8} {tr : Trace} {raw : RawResponse} (hk : ∃ u, net.parseURL url = some u)
    (h : net.transport tr ⟨"POST", url, headers, cookies, body, 0⟩ = some raw) (h2 : raw.location = []) :
    ∃ resp e tr', post net hc url headers cookies body tr = ((some resp, e), tr') ∧ resp.toRawResponse = raw := by
  obtain ⟨u, hu⟩ := hk
  have : ∃ resp tr', httpDo net hc ⟨"POST", url, headers, cookies, body, 0⟩ tr = (some resp, tr') ∧ resp.toRawResponse = raw := by
    unfold httpDo httpLoop roundTrip
    rw [h]
    simp only
    cases redirectBehavior "POST" raw.status with
    | none => exact ⟨_, _, rfl, rfl⟩
    | some p =>
      simp only
      rw [if_pos h2]
      exact ⟨_, _, rfl, rfl⟩
  obtain ⟨resp, tr', h3, h4⟩ := this
  unfold post
  rw [hu]
  simp only [h3, checkStatus]
  split
  · exact ⟨_, _, _, rfl, h4⟩
  · exact ⟨_, _, _, rfl, h4⟩

/-- C87, for Vanguard: so it is also if the server first answers with cookies and no content, with
whatever status, and gives its answer only to who comes back with them. -/
theorem C87_vanguard_cookies (env : Env) (nt : NameTable) (net : Net) (bc : BasicClient) (r : Request Message) (tr : Trace) (q : Doc)
    (hu : "https://".toList <+: r.url) (hq : (r.setClientFields net.now bc).marshal.1 = .ok q)
    (first raw : RawResponse) (hs : ServesAfterCookies net r.url q.bytes first raw) (h2 : raw.status = 200)
    (res : Response Message) (d : Doc) (tail : List UInt8) (hb : raw.body = d.bytes ++ tail) (h : res.marshal.1 = .ok d)
    (hv : 1 ≤ res.version ∧ res.version ≤ 11)
    (hsig : ExactSignon env res.signon ∧ CleanSignonResponse res.signon ∧ SettledSignon res.signon)
    (hm : ∀ s, s ≠ .signon → ∀ m ∈ res.sets s, ExactMessage env m ∧ CleanMessage m ∧ SettledMessage m) :
    ∃ got, ((Client.vanguard bc).request env nt net r tr).1 = (some got, none) ∧ SameResponse got res := by
  obtain ⟨got, g1, g2, g3⟩ := written_parsed env nt res d h hv hsig hm tail
  refine ⟨got, request_ok.mpr ?_, g3⟩
  have hurl : (r.setClientFields net.now bc).marshal.2.url = r.url := marshal_url _
  have hagain := C27_marshal_again (r.setClientFields net.now bc)
  have hp : hasPrefix "https://".toList r.url = true := by simpa [hasPrefix] using hu
  obtain ⟨resp, e, tr1, p1, p2⟩ := post_answered (hc := defaultHttpClient) (headers := contentType :: bc.userAgentHeader) (cookies := [])
    (body := q.bytes) (tr := tr) hs.known (hs.before tr _ rfl rfl rfl rfl) hs.cookies.2.2
  obtain ⟨resp2, tr2, p3, p4⟩ := post_served (hc := defaultHttpClient) (headers := [contentType]) (cookies := first.cookies)
    (body := q.bytes) (tr := tr1) hs.known (hs.after tr1 _ rfl rfl rfl rfl) h2
  refine ⟨resp2, ?_, by rw [← p4] at hb; rw [hb]; exact g1, g2⟩
  unfold Client.requestNoParse
  have hbc : (Client.vanguard bc).bc = bc := rfl
  rw [hbc]
  rcases hr : (r.setClientFields net.now bc).marshal with ⟨e', r2⟩
  rw [hr] at hq hurl hagain
  cases hq
  simp only at hurl hagain ⊢
  have f1 : resp.contentLength ≤ 0 := by have := hs.cookies.2.1; rw [← p2] at this; exact this
  have f2 : resp.cookies = first.cookies := by rw [← p2]
  have f3 : resp.cookies.length > 0 := by rw [f2]; exact List.length_pos_iff.mpr hs.cookies.1
  unfold Client.rawRequest vanguardRawRequest
  rw [hurl, hp]
  simp only [Bool.not_true, Bool.false_eq_true, if_false, p1]
  rw [if_pos ⟨f1, f3⟩, hagain]
  simp only
  unfold vanguardRetry
  rw [hurl, hp, f2]
  simp only [Bool.not_true, Bool.false_eq_true, if_false, p3]

/-- And so does Vanguard's from one that wants its cookie back. -/
example (nt : NameTable) (now : GoTime) : ∃ net got, net.now = now ∧
    ((Client.vanguard sampleClient).request sampleEnv nt net sampleRequest []).1 = (some got, none) ∧
    SameResponse got sampleResponse := by
  obtain ⟨d, hd⟩ := sampleResponse_ok
  obtain ⟨q, hq⟩ := sampleClient_ok now
  obtain ⟨h1, h2, h3⟩ := sampleResponse_exact
  let first : RawResponse := ⟨302, [], 0, [("id".toList, "7".toList)], [], []⟩
  let net : Net := { constNet now first with
    transport := fun _ q => if q.cookies = [] then some first else some ⟨200, [], -1, [], [], d.bytes⟩ }
  obtain ⟨got, g1, g2⟩ := C87_vanguard_cookies sampleEnv nt net sampleClient sampleRequest [] q (by decide) hq
    first ⟨200, [], -1, [], [], d.bytes⟩
    ⟨⟨_, rfl⟩, ⟨by simp [first], by simp [first], rfl⟩, fun _ q _ _ _ hc => by simp [net, hc],
      fun _ q _ _ _ hc => by simp [net, hc, first]⟩ rfl
    sampleResponse d [] (by simp) hd (by decide) ⟨h1, sampleResponse_clean.1, h2⟩
    (fun s hs m hm => ⟨(h3 s hs m hm).1, sampleResponse_clean.2 s hs m hm, (h3 s hs m hm).2⟩)
  exact ⟨net, got, rfl, g1, g2⟩

end Ofx.Props
