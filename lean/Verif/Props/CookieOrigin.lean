import Verif.Props.Http
/-
C102: whose cookies the Vanguard client returns.
-/
namespace Ofx.Props
open Ofx Spec

/-- Without redirections there is one message, and the answer is the one to it. -/
theorem httpLoop_plain (net : Net) (hc : HttpClient) (body : List UInt8) (fuel : Nat) (via : List HttpRequest)
    (req : HttpRequest) (incl : Bool) (tr evs : Trace) (h : (httpLoop net hc body fuel via req incl tr).2 = tr ++ evs)
    (hr : ∀ resp, .opened resp ∈ evs → ¬ Redirecting resp) :
    evs = [.sent req] ∨ ∃ resp, evs = [.sent req, .opened resp] ∧ (httpLoop net hc body fuel via req incl tr).1 = some resp := by
  unfold httpLoop roundTrip at h ⊢
  cases hT : net.transport tr req with
  | none =>
    rw [hT] at h
    exact .inl (List.append_cancel_left h).symm
  | some r =>
    right
    rw [hT] at h
    simp only at h ⊢
    cases hb : redirectBehavior req.method r.status with
    | none =>
      rw [hb] at h
      exact ⟨_, (List.append_cancel_left h).symm, rfl⟩
    | some b =>
      obtain ⟨m, again⟩ := b
      rw [hb] at h
      simp only at h ⊢
      by_cases hl : r.location = []
      · rw [if_pos hl] at h ⊢
        exact ⟨_, (List.append_cancel_left h).symm, rfl⟩
      · exfalso
        have hs : r.status ∈ [301, 302, 303, 307, 308] := by
          unfold redirectBehavior at hb
          split at hb
          · rename_i h0
            rcases h0 with h0 | h0 | h0 <;> rw [h0] <;> decide
          · split at hb
            · rename_i h0
              rcases h0 with h0 | h0 <;> rw [h0] <;> decide
            · cases hb
        refine hr { r with id := tr.length + 1 } ?_ ⟨hs, hl⟩
        obtain ⟨res, evs', h1, h2⟩ := httpLoop_effect net hc req.body fuel via req incl tr (.inl rfl)
        have hmem : ∀ l : Trace, .opened { r with id := tr.length + 1 } ∈ ([.sent req, .opened { r with id := tr.length + 1 }] : Trace) ++ l := by
          intro l; simp
        rw [if_neg hl] at h
        cases hres : net.resolve req.url r.location with
        | none =>
          rw [hres] at h
          simp only [List.append_assoc] at h
          rw [← List.append_cancel_left h]
          exact hmem _
        | some u =>
          rw [hres] at h
          simp only at h
          revert h
          cases hc.check _ _ with
          | useLast => intro h; rw [← List.append_cancel_left h]; simp
          | fail =>
            intro h
            simp only [List.append_assoc] at h
            rw [← List.append_cancel_left h]
            exact hmem _
          | follow =>
            cases fuel with
            | zero =>
              intro h
              simp only [List.append_assoc] at h
              rw [← List.append_cancel_left h]
              exact hmem _
            | succ fuel =>
              simp only
              intro h
              obtain ⟨res', evs2, h3, -⟩ := httpLoop_effect net hc body fuel (via ++ [req])
                ⟨m, u, [], [], if incl && again then body else [], req.hop + 1⟩ (incl && again)
                (tr ++ [.sent req, .opened { r with id := tr.length + 1 }] ++ [.closed (tr.length + 1)])
                (by cases incl && again <;> simp)
              rw [h3] at h
              simp only [List.append_assoc] at h
              rw [← List.append_cancel_left h]
              exact hmem _

theorem post_plain (net : Net) (hc : HttpClient) (url : Str) (headers : List (String × Str)) (cookies : List (Str × Str))
    (body : List UInt8) (tr evs : Trace) (h : (post net hc url headers cookies body tr).2 = tr ++ evs)
    (hr : ∀ resp, .opened resp ∈ evs → ¬ Redirecting resp) :
    (∀ q, .sent q ∈ evs → q = ⟨"POST", url, headers, cookies, body, 0⟩) ∧
    ∀ resp, (post net hc url headers cookies body tr).1.1 = some resp →
      evs = [.sent ⟨"POST", url, headers, cookies, body, 0⟩, .opened resp] := by
  unfold post at h ⊢
  cases hu : net.parseURL url with
  | none =>
    rw [hu] at h
    rw [List.append_right_eq_self.mp h.symm]
    exact ⟨fun q hq => (by cases hq), fun resp hresp => (by cases hresp)⟩
  | some u =>
    rw [hu] at h
    simp only at h ⊢
    have h' : (httpDo net hc ⟨"POST", url, headers, cookies, body, 0⟩ tr).2 = tr ++ evs := by
      rw [← h]
      rcases httpDo net hc ⟨"POST", url, headers, cookies, body, 0⟩ tr with ⟨res, tr'⟩
      cases res <;> rfl
    have h2 := httpLoop_plain net hc body hc.redirects [] ⟨"POST", url, headers, cookies, body, 0⟩ true tr evs h' hr
    have hsame : httpLoop net hc body hc.redirects [] ⟨"POST", url, headers, cookies, body, 0⟩ true tr =
        httpDo net hc ⟨"POST", url, headers, cookies, body, 0⟩ tr := rfl
    rw [hsame] at h2
    obtain ⟨res0, evs0, he1, he2⟩ := httpLoop_effect net hc body hc.redirects [] ⟨"POST", url, headers, cookies, body, 0⟩ true tr (.inl rfl)
    rw [hsame] at he1
    rcases hd : httpDo net hc ⟨"POST", url, headers, cookies, body, 0⟩ tr with ⟨res, tr'⟩
    rw [hd] at h2 he1
    obtain ⟨rfl, rfl⟩ := Prod.mk.inj he1
    rw [hd] at h'
    have := List.append_cancel_left h'
    subst this
    constructor
    · intro q hq
      rcases h2 with h2 | ⟨resp, h2, -⟩ <;> (rw [h2] at hq; simpa using hq)
    · intro resp hresp
      cases res with
      | none => cases hresp
      | some resp' =>
        have : resp' = resp := by
          simp only [checkStatus] at hresp
          split at hresp <;> exact Option.some.inj hresp
        subst this
        rcases h2 with h2 | ⟨resp2, h2, h3⟩
        · exfalso
          have := he2.last resp' rfl
          rw [h2] at this
          simp [lastResponse, responses] at this
        · rw [h2, Option.some.inj h3]

/-- C102 (partial): unless a server redirects, the cookies sent are those of an answer of the server named, to which
they are sent. -/
theorem C102_own_partial (env : Env) (nt : NameTable) (net : Net) (c : Client) (r : Request Message) (tr evs : Trace)
    (h : (c.request env nt net r tr).2.2 = tr ++ evs) (hr : ∀ resp, .opened resp ∈ evs → ¬ Redirecting resp)
    (q : HttpRequest) (hq : .sent q ∈ evs) (hne : q.cookies ≠ []) :
    q.url = r.url ∧ ∃ p resp, [.sent p, .opened resp] <:+: evs ∧ p.url = r.url ∧ resp.cookies = q.cookies := by
  refine ⟨(C56_no_redirects_partial env nt net c r tr evs h hr q hq).1, ?_⟩
  have hraw : ∀ (url : Str) (body : List UInt8) (e1 : Trace), (c.rawRequest net url body tr).2 = tr ++ e1 →
      (∀ resp, .opened resp ∈ e1 → ¬ Redirecting resp) → (∀ p, .sent p ∈ e1 → p.cookies = [] ∧ p.url = url) ∧
      ∀ bc, c = .vanguard bc → ∀ resp, (c.rawRequest net url body tr).1.1 = some resp → ∃ p, e1 = [.sent p, .opened resp] := by
    intro url body e1 h1 hr1
    have hnil : tr = tr ++ e1 → e1 = [] := fun h => List.append_right_eq_self.mp h.symm
    cases c with
    | basic bc =>
      refine ⟨?_, fun _ h => (by cases h)⟩
      simp only [Client.rawRequest, BasicClient.rawRequest] at h1
      split at h1
      · rw [hnil h1]; exact fun p hp => (by cases hp)
      · intro p hp
        rw [(post_plain _ _ _ _ _ _ _ _ h1 hr1).1 p hp]
        exact ⟨rfl, rfl⟩
    | vanguard bc =>
      simp only [Client.rawRequest, vanguardRawRequest] at h1 ⊢
      split at h1
      · rename_i h2
        rw [hnil h1, if_pos h2]
        exact ⟨fun p hp => (by cases hp), fun _ _ resp hresp => (by cases hresp)⟩
      · rename_i h2
        rw [if_neg h2]
        obtain ⟨h3, h4⟩ := post_plain _ _ _ _ _ _ _ _ h1 hr1
        exact ⟨fun p hp => by rw [h3 p hp]; exact ⟨rfl, rfl⟩, fun _ _ resp hresp => ⟨_, h4 resp hresp⟩⟩
    | discover bc =>
      refine ⟨?_, fun _ h => (by cases h)⟩
      intro p hp
      obtain ⟨evs', h2, h3⟩ := raw_effect net (.discover bc) url body tr
      rw [h2] at h1
      have := List.append_cancel_left h1
      subst this
      rcases h3.sent p hp with h4 | ⟨resp, h4, h5⟩
      · have hposts : p ∈ posts evs' := by
          unfold posts
          rw [List.mem_filterMap]
          exact ⟨_, hp, by simp [h4.1]⟩
        exfalso
        have hd : ∀ tr', (discoverPost net url body tr).2 = tr ++ tr' → .sent p ∉ tr' := by
          intro tr' h3
          unfold discoverPost at h3
          cases hu : net.parseURL url with
          | none => rw [hu] at h3; rw [List.append_right_eq_self.mp h3.symm]; exact List.not_mem_nil
          | some u =>
            rw [hu] at h3
            simp only at h3
            revert h3
            generalize (if u.port = [] then u.host ++ ":443".toList else u.host) = host
            generalize (if u.path = [] then ['/'] else u.path) = path
            cases net.dial tr host with
            | none => intro h3; rw [← List.append_cancel_left h3]; simp
            | some conn =>
              simp only
              split
              · intro h3; rw [← List.append_cancel_left h3]; simp
              · cases conn.answer _ with
                | none => intro h3; rw [← List.append_cancel_left h3]; simp
                | some r => intro h3; simp only [List.append_assoc] at h3; rw [← List.append_cancel_left h3]; simp
        simp only [Client.rawRequest, discoverRawRequest] at h2
        split at h2
        · rw [List.append_right_eq_self.mp h2.symm] at hp; cases hp
        · refine hd evs' ?_ hp
          rw [← h2]
          rcases discoverPost net url body tr with ⟨res, tr'⟩
          cases res with
          | none => rfl
          | some resp => simp only; split <;> rfl
      · exact absurd h5 (hr1 resp h4)
  have key : ∀ evs', (c.requestNoParse net r tr).2.2 = tr ++ evs' → evs' <:+: evs → .sent q ∈ evs' →
      ∃ p resp, [.sent p, .opened resp] <:+: evs ∧ p.url = r.url ∧ resp.cookies = q.cookies := by
    intro evs' h1 hE hq
    have hr' : ∀ resp, .opened resp ∈ evs' → ¬ Redirecting resp := fun resp hresp => hr resp (hE.subset hresp)
    rcases noParse_cases net c r tr with ⟨e, -, h2⟩ | ⟨d, -, ⟨-, h2⟩ | ⟨resp, h0, hret, h2⟩⟩
    · rw [h2] at h1
      rw [List.append_right_eq_self.mp h1.symm] at hq
      cases hq
    · rw [h2] at h1
      exact absurd ((hraw r.url d.bytes evs' h1 hr').1 q hq).1 hne
    · rw [h2] at h1
      obtain ⟨e1, h3, -⟩ := raw_effect net c r.url d.bytes tr
      obtain ⟨e2, h4, -⟩ := retry_effect net r.url d.bytes resp.cookies (c.rawRequest net r.url d.bytes tr).2
      simp only at h1
      have h5 := h1
      rw [h4, h3, List.append_assoc] at h5
      have h6 := List.append_cancel_left h5
      subst h6
      obtain ⟨h7, h8⟩ := hraw r.url d.bytes e1 h3 fun resp hresp => hr' resp (List.mem_append_left _ hresp)
      rcases List.mem_append.mp hq with hq | hq
      · exact absurd (h7 q hq).1 hne
      · obtain ⟨bc, hbc⟩ := hret.1
        obtain ⟨p, hp⟩ := h8 bc hbc resp h0
        refine ⟨p, resp, ?_, (h7 p (by rw [hp]; simp)).2, ?_⟩
        · rw [hp] at hE
          exact List.IsInfix.trans ⟨[], e2, by simp⟩ hE
        · generalize (c.rawRequest net r.url d.bytes tr).2 = t at h4
          unfold vanguardRetry at h4
          split at h4
          · rw [List.append_right_eq_self.mp h4.symm] at hq; cases hq
          · have h9 : (post net defaultHttpClient r.url [contentType] resp.cookies d.bytes t).2 = t ++ e2 := by
              rw [← h4]
              rcases post net defaultHttpClient r.url [contentType] resp.cookies d.bytes t with ⟨⟨a, b⟩, tr'⟩
              cases b <;> rfl
            rw [(post_plain _ _ _ _ _ _ _ _ h9 fun resp hresp => hr' resp (List.mem_append_right _ hresp)).1 q hq]
  rcases request_events env nt net c r tr evs h with ⟨h1, -⟩ | ⟨resp, evs', rfl, h1, -⟩
  · exact key evs h1 (List.infix_refl _) hq
  · exact key evs' h1 ⟨[], [.closed resp.id], by simp⟩ (by simpa using hq)

/-- A server that redirects to one which sets the cookies given. -/
def foreignNet (now : GoTime) (loc : Str) (cookies : List (Str × Str)) : Net where
  parseURL := fun _ => some ⟨[], [], [], []⟩
  resolve := fun _ l => some l
  transport := fun _ q => some (if q.hop = 0 then ⟨302, [], 0, [], loc, []⟩ else ⟨200, "200 OK".toList, 0, cookies, [], []⟩)
  dial := fun _ _ => none
  now := now

theorem post_foreign (now : GoTime) (loc : Str) (cookies : List (Str × Str)) (url : Str) (headers : List (String × Str))
    (body : List UInt8) (tr : Trace) (hl : loc ≠ []) :
    ∃ more resp, post (foreignNet now loc cookies) defaultHttpClient url headers [] body tr =
      ((some resp, none), tr ++ more ++ [.sent ⟨"GET", loc, [], [], [], 1⟩, .opened resp]) ∧ resp.cookies = cookies ∧
      resp.contentLength = 0 := by
  have hf := httpLoop_follow (foreignNet now loc cookies) defaultHttpClient body 8 []
    ⟨"POST", url, headers, [], body, 0⟩ true tr (a := ⟨302, [], 0, [], loc, []⟩)
    (m := "GET") (again := false) (u := loc) rfl (by simp [redirectBehavior]) hl rfl rfl
  refine ⟨[.sent ⟨"POST", url, headers, [], body, 0⟩, .opened ⟨⟨302, [], 0, [], loc, []⟩, tr.length + 1⟩,
      .closed (tr.length + 1)], ⟨⟨200, "200 OK".toList, 0, cookies, [], []⟩, tr.length + 3 + 1⟩, ?_, rfl, rfl⟩
  have hu : (foreignNet now loc cookies).parseURL url = some ⟨[], [], [], []⟩ := rfl
  have hd : httpDo (foreignNet now loc cookies) defaultHttpClient ⟨"POST", url, headers, [], body, 0⟩ tr =
      httpLoop (foreignNet now loc cookies) defaultHttpClient body (8 + 1) [] ⟨"POST", url, headers, [], body, 0⟩ true tr := rfl
  unfold post
  rw [hu]
  simp only
  rw [hd.trans hf]
  simp [httpLoop, roundTrip, foreignNet, redirectBehavior, checkStatus]

/-- C102 fails: when the server named redirects, the cookies of the server redirected to are sent to the one named (any
request that the Vanguard client can send at all). -/
theorem C102_foreign (env : Env) (nt : NameTable) (bc : BasicClient) (r : Request Message) (tr : Trace) (now : GoTime)
    (other : Str) (hother : other ≠ []) (cookies : List (Str × Str)) (hcookies : cookies ≠ [])
    (hs : "https://".toList <+: r.url) (d : Doc) (hd : (r.setClientFields now bc).marshal.1 = .ok d) :
    ∃ net : Net, net.now = now ∧ ∃ p resp q, [.sent p, .opened resp] <:+: ((Client.vanguard bc).request env nt net r tr).2.2 ∧
      p.url = other ∧ resp.cookies = cookies ∧
      .sent q ∈ ((Client.vanguard bc).request env nt net r tr).2.2 ∧ q.url = r.url ∧ q.cookies = cookies := by
  have hpre := hasPrefix_prefix.mpr hs
  obtain ⟨more, resp, h1, h2, h3⟩ := post_foreign now other cookies r.url (contentType :: bc.userAgentHeader) d.bytes tr hother
  have hraw : (Client.vanguard bc).rawRequest (foreignNet now other cookies) r.url d.bytes tr =
      ((some resp, none), tr ++ more ++ [.sent ⟨"GET", other, [], [], [], 1⟩, .opened resp]) := by
    simp only [Client.rawRequest, vanguardRawRequest]
    rw [if_neg (by simpa using hpre), h1]
  obtain ⟨e, he⟩ := request_extends env nt (foreignNet now other cookies) (.vanguard bc) r tr
  have hn : ((Client.vanguard bc).requestNoParse (foreignNet now other cookies) r tr).2.2 =
      (vanguardRetry (foreignNet now other cookies) r.url d.bytes cookies
        (tr ++ more ++ [.sent ⟨"GET", other, [], [], [], 1⟩, .opened resp])).2 := by
    rcases noParse_cases (foreignNet now other cookies) (.vanguard bc) r tr with ⟨e', h4, -⟩ | ⟨d', h4, h5⟩
    · exact absurd (h4.symm.trans hd) (by simp)
    · have hdd : d' = d := by
        have := h4.symm.trans hd
        injection this
      subst hdd
      rw [hraw] at h5
      rcases h5 with ⟨h5, -⟩ | ⟨resp', h5, -, h6⟩
      · exact absurd ⟨⟨bc, rfl⟩, by omega, by rw [h2]; exact hcookies⟩ (h5 resp rfl)
      · obtain rfl := Option.some.inj h5
        rw [h6, h2]
  refine ⟨foreignNet now other cookies, rfl, ⟨"GET", other, [], [], [], 1⟩, resp,
    ⟨"POST", r.url, [contentType], cookies, d.bytes, 0⟩, ?_, rfl, h2, ?_, rfl, rfl⟩
  · obtain ⟨e2, h4, -⟩ := retry_effect (foreignNet now other cookies) r.url d.bytes cookies
      (tr ++ more ++ [.sent ⟨"GET", other, [], [], [], 1⟩, .opened resp])
    rw [he, hn, h4]
    exact ⟨tr ++ more, e2 ++ e, by simp⟩
  · rw [he, hn]
    refine List.mem_append_left _ ?_
    have hsend := httpLoop_sends (foreignNet now other cookies) defaultHttpClient d.bytes defaultHttpClient.redirects []
      ⟨"POST", r.url, [contentType], cookies, d.bytes, 0⟩ true
      (tr ++ more ++ [.sent ⟨"GET", other, [], [], [], 1⟩, .opened resp]) (.inl rfl)
    have hu : (foreignNet now other cookies).parseURL r.url = some ⟨[], [], [], []⟩ := rfl
    generalize foreignNet now other cookies = net at hu hsend
    generalize tr ++ more ++ [.sent ⟨"GET", other, [], [], [], 1⟩, .opened resp] = t at hsend
    unfold vanguardRetry
    rw [if_neg (by simpa using hpre)]
    unfold post httpDo
    rw [hu]
    simp only
    revert hsend
    generalize httpLoop net _ _ _ _ _ _ _ = x
    intro hsend
    obtain ⟨res, tr'⟩ := x
    cases res with
    | none => exact hsend
    | some r => simp only [checkStatus]; split <;> (rename_i h; split at h <;> (cases h; first | done | exact hsend))

/-! A request that is sent, and one whose cookies are sent back to the server that set them. -/

example (env : Env) (nt : NameTable) (tr : Trace) (now : GoTime) : ∃ net : Net, ∃ p resp q,
    [.sent p, .opened resp] <:+: ((Client.vanguard sampleClient).request env nt net sampleRequest tr).2.2 ∧
      p.url = "https://elsewhere.example.com/".toList ∧ resp.cookies = [("a".toList, "b".toList)] ∧
      .sent q ∈ ((Client.vanguard sampleClient).request env nt net sampleRequest tr).2.2 ∧ q.url = sampleRequest.url ∧
      q.cookies = [("a".toList, "b".toList)] := by
  obtain ⟨d, hd⟩ := sampleClient_ok now
  obtain ⟨net, -, h⟩ := C102_foreign env nt sampleClient sampleRequest tr now "https://elsewhere.example.com/".toList (by decide)
    [("a".toList, "b".toList)] (by decide) (by decide) d hd
  exact ⟨net, h⟩

example (env : Env) (nt : NameTable) (now : GoTime) : ∃ net : Net, ∃ evs,
    ((Client.vanguard sampleClient).request env nt net sampleRequest []).2.2 = [] ++ evs ∧
      (∀ resp, .opened resp ∈ evs → ¬ Redirecting resp) ∧ ∃ q, .sent q ∈ evs ∧ q.cookies ≠ [] := by
  obtain ⟨d, hd⟩ := sampleClient_ok now
  obtain ⟨net, -, evs, h1, h2, h3⟩ := C45_retry_after_error sampleClient sampleRequest [] now (by decide) d hd
  obtain ⟨q1, q2, hq⟩ : ∃ q1 q2, posts evs = [q1, q2] := by
    revert h2
    generalize posts evs = l
    intro h2
    match l, h2 with
    | [a, b], _ => exact ⟨a, b, rfl⟩
  obtain ⟨-, -, -, -, -, e1, e2, resp, -, -, h4, -, -, h5, h6⟩ := (C45_retry_partial net _ _ [] evs h1).2 q1 q2 hq
  have hmem : .sent q2 ∈ evs := by
    have : q2 ∈ posts evs := by rw [hq]; simp
    unfold posts at this
    rw [List.mem_filterMap] at this
    obtain ⟨e, he, h7⟩ := this
    cases e with
    | sent q =>
      simp only at h7
      split at h7
      · rw [← Option.some.inj h7]; exact he
      · cases h7
    | _ => cases h7
  have hno : ∀ resp, .opened resp ∈ evs → ¬ Redirecting resp := by
    intro resp hresp hred
    have : resp ∈ responses evs := by
      unfold responses
      rw [List.mem_filterMap]
      exact ⟨_, hresp, rfl⟩
    have h8 := hred.1
    rw [h3 resp this] at h8
    exact absurd h8 (by decide)
  rcases request_events env nt net (.vanguard sampleClient) sampleRequest [] _ rfl with ⟨h, -⟩ | ⟨resp, evs', h, h', -⟩
  · have : ((Client.vanguard sampleClient).request env nt net sampleRequest []).2.2 = evs := h.symm.trans h1
    exact ⟨net, evs, this, hno, q2, hmem, by rw [h6]; exact h5⟩
  · have : evs' = evs := h'.symm.trans h1
    subst this
    exact ⟨net, _, h, by simpa using hno, q2, by simpa using hmem, by rw [h6]; exact h5⟩

end Ofx.Props
