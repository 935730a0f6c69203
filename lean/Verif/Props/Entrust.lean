import Verif.Props.Http
import Verif.Spec.Entrust
/-
C101: who is sent the documents.
-/
namespace Ofx.Props
open Ofx Spec

theorem httpLoop_entrusted (net : Net) (hc : HttpClient) (body : List UInt8) (url : Str) (E : Trace) (fuel : Nat) (via : List HttpRequest)
    (req : HttpRequest) (incl : Bool) (tr evs : Trace)
    (h : (httpLoop net hc body fuel via req incl tr).2 = tr ++ evs) (hE : evs <:+: E)
    (hincl : req.body ≠ [] → Entrusted net E url req.url) (hb : incl = true → body ≠ [] → req.body ≠ [])
    (q : HttpRequest) (hq : .sent q ∈ evs) (hne : q.body ≠ []) : Entrusted net E url q.url := by
  induction fuel generalizing via req incl tr evs with
  | zero =>
    have : ∀ x, .sent x ∈ evs → x = req := by
      intro x hx
      unfold httpLoop roundTrip at h
      cases hT : net.transport tr req with
      | none =>
        rw [hT] at h
        rw [← List.append_cancel_left h] at hx
        simpa using hx
      | some r =>
        rw [hT] at h
        simp only at h
        have hx1 : ∀ evs', tr ++ [Event.sent req, .opened { r with id := tr.length + 1 }] = tr ++ evs' → .sent x ∈ evs' → x = req := by
          intro evs' h hx
          rw [← List.append_cancel_left h] at hx
          simpa using hx
        have hx2 : ∀ evs', tr ++ [Event.sent req, .opened { r with id := tr.length + 1 }] ++ [.closed (tr.length + 1)] = tr ++ evs' →
            .sent x ∈ evs' → x = req := by
          intro evs' h hx
          rw [List.append_assoc] at h
          rw [← List.append_cancel_left h] at hx
          simpa using hx
        cases hbh : redirectBehavior req.method r.status with
        | none => rw [hbh] at h; exact hx1 _ h hx
        | some b =>
          obtain ⟨m, again⟩ := b
          rw [hbh] at h
          simp only at h
          by_cases hl : r.location = []
          · rw [if_pos hl] at h; exact hx1 _ h hx
          · rw [if_neg hl] at h
            cases hr : net.resolve req.url r.location with
            | none => rw [hr] at h; exact hx2 _ h hx
            | some u =>
              rw [hr] at h
              simp only at h
              revert h
              cases hc.check _ _ with
              | useLast => exact fun h => hx1 _ h hx
              | fail => exact fun h => hx2 _ h hx
              | follow => exact fun h => hx2 _ h hx
    rw [this q hq] at hne ⊢
    exact hincl hne
  | succ fuel ih =>
    by_cases hqr : q = req
    · rw [hqr] at hne ⊢
      exact hincl hne
    unfold httpLoop roundTrip at h
    cases hT : net.transport tr req with
    | none =>
      rw [hT] at h
      rw [← List.append_cancel_left h] at hq
      exact absurd (by simpa using hq) hqr
    | some r =>
      rw [hT] at h
      simp only at h
      have hx1 : ∀ evs', tr ++ [Event.sent req, .opened { r with id := tr.length + 1 }] = tr ++ evs' → .sent q ∈ evs' →
          Entrusted net E url q.url := by
        intro evs' h hx
        rw [← List.append_cancel_left h] at hx
        exact absurd (by simpa using hx) hqr
      have hx2 : ∀ evs', tr ++ [Event.sent req, .opened { r with id := tr.length + 1 }] ++ [.closed (tr.length + 1)] = tr ++ evs' →
          .sent q ∈ evs' → Entrusted net E url q.url := by
        intro evs' h hx
        rw [List.append_assoc] at h
        rw [← List.append_cancel_left h] at hx
        exact absurd (by simpa using hx) hqr
      cases hbh : redirectBehavior req.method r.status with
      | none => rw [hbh] at h; exact hx1 _ h hq
      | some b =>
        obtain ⟨m, again⟩ := b
        rw [hbh] at h
        simp only at h
        by_cases hl : r.location = []
        · rw [if_pos hl] at h; exact hx1 _ h hq
        · rw [if_neg hl] at h
          cases hr : net.resolve req.url r.location with
          | none => rw [hr] at h; exact hx2 _ h hq
          | some u =>
            rw [hr] at h
            simp only at h
            revert h
            cases hc.check _ _ with
            | useLast => exact fun h => hx1 _ h hq
            | fail => exact fun h => hx2 _ h hq
            | follow =>
              simp only
              intro h
              obtain ⟨res, evs2, h1, -⟩ := httpLoop_effect net hc body fuel (via ++ [req])
                ⟨m, u, [], [], if incl && again then body else [], req.hop + 1⟩ (incl && again)
                (tr ++ [.sent req, .opened { r with id := tr.length + 1 }] ++ [.closed (tr.length + 1)])
                (by cases incl && again <;> simp)
              have h2 := h
              rw [h1] at h2
              simp only [List.append_assoc] at h2
              have h3 := List.append_cancel_left h2
              simp only [List.cons_append, List.nil_append] at h3
              have hsent : .sent q ∈ evs2 := by
                rw [← h3] at hq
                simpa [hqr] using hq
              have hinf : evs2 <:+: E := by
                refine List.IsInfix.trans ?_ hE
                rw [← h3]
                exact ⟨[Event.sent req, .opened { r with id := tr.length + 1 }, .closed (tr.length + 1)], [], by simp⟩
              have hpair : [Event.sent req, .opened { r with id := tr.length + 1 }] <:+: E := by
                refine List.IsInfix.trans ?_ hE
                rw [← h3]
                exact ⟨[], .closed (tr.length + 1) :: evs2, by simp⟩
              refine ih _ _ _ _ _ (by rw [h1]) hinf ?_ ?_ hsent
              · intro hbody
                have hboth : (incl && again) = true ∧ body ≠ [] := by
                  cases hia : incl && again with
                  | false => rw [hia] at hbody; exact absurd rfl hbody
                  | true => rw [hia] at hbody; exact ⟨rfl, hbody⟩
                obtain ⟨hia, hbody⟩ := hboth
                rw [Bool.and_eq_true] at hia
                have hreq := hb hia.1 hbody
                refine .passed (hincl hreq) hreq hpair ?_ hr
                unfold redirectBehavior at hbh
                split at hbh
                · cases hbh; exact absurd hia.2 (by decide)
                · split at hbh
                  · rename_i hs
                    simpa using hs
                  · cases hbh
              · intro hia hbody
                simp only [hia, if_true]
                exact hbody

theorem post_entrusted (net : Net) (hc : HttpClient) (url : Str) (headers : List (String × Str)) (cookies : List (Str × Str))
    (body : List UInt8) (tr evs E : Trace) (h : (post net hc url headers cookies body tr).2 = tr ++ evs) (hE : evs <:+: E)
    (q : HttpRequest) (hq : .sent q ∈ evs) (hne : q.body ≠ []) : Entrusted net E url q.url := by
  unfold post at h
  cases hu : net.parseURL url with
  | none =>
    rw [hu] at h
    rw [List.append_right_eq_self.mp h.symm] at hq
    cases hq
  | some u =>
    rw [hu] at h
    simp only at h
    have h' : (httpDo net hc ⟨"POST", url, headers, cookies, body, 0⟩ tr).2 = tr ++ evs := by
      rw [← h]
      rcases httpDo net hc ⟨"POST", url, headers, cookies, body, 0⟩ tr with ⟨res, tr'⟩
      cases res <;> rfl
    exact httpLoop_entrusted net hc body url E _ _ _ _ _ _ h' hE (fun _ => .named) (fun _ h => h) q hq hne

theorem raw_entrusted (net : Net) (c : Client) (url : Str) (body : List UInt8) (tr evs E : Trace)
    (h : (c.rawRequest net url body tr).2 = tr ++ evs) (hE : evs <:+: E)
    (q : HttpRequest) (hq : .sent q ∈ evs) (hne : q.body ≠ []) : Entrusted net E url q.url := by
  have hnil : tr = tr ++ evs → Entrusted net E url q.url := by
    intro h
    rw [List.append_right_eq_self.mp h.symm] at hq
    cases hq
  cases c with
  | basic bc =>
    simp only [Client.rawRequest, BasicClient.rawRequest] at h
    split at h
    · exact hnil h
    · exact post_entrusted _ _ _ _ _ _ _ _ _ h hE q hq hne
  | vanguard bc =>
    simp only [Client.rawRequest, vanguardRawRequest] at h
    split at h
    · exact hnil h
    · exact post_entrusted _ _ _ _ _ _ _ _ _ h hE q hq hne
  | discover bc =>
    obtain ⟨evs', h1, h2⟩ := raw_effect net (.discover bc) url body tr
    rw [h1] at h
    have := List.append_cancel_left h
    subst this
    exfalso
    have hd : ∀ tr', (discoverPost net url body tr).2 = tr ++ tr' → .sent q ∉ tr' := by
      intro tr' h3
      unfold discoverPost at h3
      cases hu : net.parseURL url with
      | none => rw [hu] at h3; rw [List.append_right_eq_self.mp h3.symm]; exact List.not_mem_nil
      | some u =>
        rw [hu] at h3
        simp only at h3
        revert h3
        generalize (if u.port = [] then u.host ++ ":443".toList else u.host) = host
        generalize (if u.path = [] then ['/'] else u.path) = path
        cases net.dial tr host with
        | none => intro h3; rw [← List.append_cancel_left h3]; simp
        | some conn =>
          simp only
          split
          · intro h3; rw [← List.append_cancel_left h3]; simp
          · cases conn.answer _ with
            | none => intro h3; rw [← List.append_cancel_left h3]; simp
            | some r => intro h3; simp only [List.append_assoc] at h3; rw [← List.append_cancel_left h3]; simp
    simp only [Client.rawRequest, discoverRawRequest] at h1
    split at h1
    · rw [List.append_right_eq_self.mp h1.symm] at hq; cases hq
    · refine hd evs' ?_ hq
      rw [← h1]
      rcases discoverPost net url body tr with ⟨res, tr'⟩
      cases res with
      | none => rfl
      | some resp => simp only; split <;> rfl

/-- C101 (partial): a message with a document in it goes to the URL of the request, or to one that a server entrusted
with the document named for it (307 or 308). -/
theorem C101_entrusted_partial (env : Env) (nt : NameTable) (net : Net) (c : Client) (r : Request Message) (tr evs : Trace)
    (h : (c.request env nt net r tr).2.2 = tr ++ evs) (q : HttpRequest) (hq : .sent q ∈ evs) (hne : q.body ≠ []) :
    Entrusted net evs r.url q.url := by
  have key : ∀ evs', (c.requestNoParse net r tr).2.2 = tr ++ evs' → evs' <:+: evs → .sent q ∈ evs' →
      Entrusted net evs r.url q.url := by
    intro evs' h1 hE hq
    rcases noParse_cases net c r tr with ⟨e, -, h2⟩ | ⟨d, -, ⟨-, h2⟩ | ⟨resp, -, -, h2⟩⟩
    · rw [h2] at h1
      rw [List.append_right_eq_self.mp h1.symm] at hq
      cases hq
    · rw [h2] at h1
      exact raw_entrusted net c r.url d.bytes tr evs' evs h1 hE q hq hne
    · rw [h2] at h1
      obtain ⟨e1, h3, -⟩ := raw_effect net c r.url d.bytes tr
      obtain ⟨e2, h4, -⟩ := retry_effect net r.url d.bytes resp.cookies (c.rawRequest net r.url d.bytes tr).2
      simp only at h1
      have h5 := h1
      rw [h4, h3, List.append_assoc] at h5
      have h6 := List.append_cancel_left h5
      subst h6
      rcases List.mem_append.mp hq with hq | hq
      · exact raw_entrusted net c r.url d.bytes tr e1 evs h3 (List.IsInfix.trans ⟨[], e2, by simp⟩ hE) q hq hne
      · have hE2 : e2 <:+: evs := List.IsInfix.trans ⟨e1, [], by simp⟩ hE
        generalize (c.rawRequest net r.url d.bytes tr).2 = t at h4
        unfold vanguardRetry at h4
        split at h4
        · rw [List.append_right_eq_self.mp h4.symm] at hq; cases hq
        · refine post_entrusted net defaultHttpClient r.url [contentType] resp.cookies d.bytes t e2 evs ?_ hE2 q hq hne
          rw [← h4]
          rcases post net defaultHttpClient r.url [contentType] resp.cookies d.bytes t with ⟨⟨a, b⟩, tr'⟩
          cases b <;> rfl
  rcases request_events env nt net c r tr evs h with ⟨h1, -⟩ | ⟨resp, evs', rfl, h1, -⟩
  · exact key evs h1 (List.infix_refl _) hq
  · exact key evs' h1 ⟨[], [.closed resp.id], by simp⟩ (by simpa using hq)

/-- C101 (partial): so if no server answers 307 or 308, nobody but the server named gets the document. -/
theorem C101_named_partial (env : Env) (nt : NameTable) (net : Net) (c : Client) (r : Request Message) (tr evs : Trace)
    (h : (c.request env nt net r tr).2.2 = tr ++ evs) (hr : ∀ resp, .opened resp ∈ evs → resp.status ∉ [307, 308])
    (q : HttpRequest) (hq : .sent q ∈ evs) (hne : q.body ≠ []) : q.url = r.url := by
  have := C101_entrusted_partial env nt net c r tr evs h q hq hne
  generalize q.url = u at this
  cases this with
  | named => rfl
  | passed h1 h2 h3 h4 h5 => exact absurd h4 (hr _ (h3.subset (by simp)))

theorem allows_all {hc : HttpClient} {P : Str → Prop} (hp : ∀ q before, hc.check q before = .follow → P q.url) :
    ∀ {qs before : List HttpRequest}, Allows hc before qs → ∀ q ∈ qs, P q.url
  | q' :: qs, before, ⟨h1, h2⟩, q, hq => by
    rcases List.mem_cons.mp hq with rfl | hq
    · exact hp _ _ h1
    · exact allows_all hp h2 q hq

/-- C101 (partial): a basic client given an HTTP client that follows redirections to trusted URLs only sends nothing,
with or without a document, anywhere else. -/
theorem C101_guarded_partial (env : Env) (nt : NameTable) (net : Net) (bc : BasicClient) (hc : HttpClient) (trusted : Str → Prop)
    (r : Request Message) (tr evs : Trace) (hb : bc.HTTPClient = some hc)
    (hp : ∀ q before, hc.check q before = .follow → trusted q.url)
    (h : ((Client.basic bc).request env nt net r tr).2.2 = tr ++ evs) (q : HttpRequest) (hq : .sent q ∈ evs) :
    q.url = r.url ∨ trusted q.url := by
  obtain ⟨evs', h1, h2⟩ := request_sents h
  rw [← mem_sents, h2] at hq
  rcases C79_redirections_partial net bc r tr evs' h1 with h3 | ⟨first, qs, h3, h4, -, h5, -⟩
  · rw [h3] at hq; cases hq
  · rw [h3] at hq
    rcases List.mem_cons.mp hq with rfl | hq
    · exact .inl h4
    · rw [hb] at h5
      exact .inr (allows_all hp h5 q hq)

/-- C101 fails: the server named may refer to any other, which is then sent the whole document, login included (any
request that can be sent at all, through the basic client with the default HTTP client or the Vanguard client). -/
theorem C101_elsewhere (env : Env) (nt : NameTable) (c : Client) (r : Request Message) (tr : Trace) (now : GoTime) (other : Str)
    (hother : other ≠ []) (hc : (∃ bc, c = .basic bc ∧ bc.HTTPClient = none) ∨ ∃ bc, c = .vanguard bc)
    (hs : "https://".toList <+: r.url) (d : Doc) (hd : (r.setClientFields now c.bc).marshal.1 = .ok d) :
    ∃ net : Net, net.now = now ∧ ∃ q, .sent q ∈ (c.request env nt net r tr).2.2 ∧ q.url = other ∧ q.body = d.bytes := by
  refine ⟨redirectNet now 307 other, rfl, ⟨"POST", other, [], [], d.bytes, 1⟩, ?_, rfl, rfl⟩
  obtain ⟨e1, h1⟩ := noParse_first (redirectNet now 307 other) c r tr d hd
  obtain ⟨e2, h2⟩ := request_extends env nt (redirectNet now 307 other) c r tr
  rw [h2, h1]
  refine List.mem_append_left _ (List.mem_append_left _ ?_)
  have hpre := hasPrefix_prefix.mpr hs
  have key : ∀ headers, .sent ⟨"POST", other, [], [], d.bytes, 1⟩ ∈
      (post (redirectNet now 307 other) defaultHttpClient r.url headers [] d.bytes tr).2 :=
    fun headers => post_redirected now defaultHttpClient 8 rfl r.url other headers d.bytes tr hother (fun _ => rfl)
  rcases hc with ⟨bc, rfl, hh⟩ | ⟨bc, rfl⟩
  · simp only [Client.rawRequest, BasicClient.rawRequest]
    rw [if_neg (by simpa using hpre), hh]
    exact key _
  · simp only [Client.rawRequest, vanguardRawRequest]
    rw [if_neg (by simpa using hpre)]
    exact key _

/-! A request that is sent, and whose document is passed on to another server. -/

example (env : Env) (nt : NameTable) (tr : Trace) (now : GoTime) : ∃ d, ∃ net : Net, ∃ q,
    .sent q ∈ ((Client.basic sampleClient).request env nt net sampleRequest tr).2.2 ∧
      q.url = "https://elsewhere.example.com/".toList ∧ q.body = d := by
  obtain ⟨d, hd⟩ := sampleClient_ok now
  obtain ⟨net, -, q, h1, h2, h3⟩ := C101_elsewhere env nt (.basic sampleClient) sampleRequest tr now
    "https://elsewhere.example.com/".toList (by decide) (.inl ⟨_, rfl, rfl⟩) (by decide) d hd
  exact ⟨_, net, q, h1, h2, h3⟩

end Ofx.Props
