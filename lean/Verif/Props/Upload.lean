import Verif.Spec.Upload
import Verif.Props.Client
/-
Property C94: RawRequest sends what the reader delivers.
-/
namespace Ofx.Props
open Ofx Spec

theorem readAll_pieces (pieces : List (List UInt8)) (rest : Source) :
    Source.readAll (pieces.map (fun p => (p, none)) ++ rest) = (pieces.flatten ++ rest.readAll.1, rest.readAll.2) := by
  induction pieces with
  | nil => rfl
  | cons p ps ih => simp [Source.readAll, ih]

theorem gives_iff (src : Source) (b : List UInt8) (e : Option String) : Gives src b e ↔ src.readAll = (b, e) := by
  constructor
  · rintro ⟨ps, rest, rfl, ⟨rfl, rfl, rfl⟩ | ⟨c, x, more, rfl, rfl, ⟨rfl, rfl⟩ | ⟨h, rfl⟩⟩⟩
    · rw [readAll_pieces]; simp [Source.readAll]
    · rw [readAll_pieces]; simp [Source.readAll]
    · rw [readAll_pieces]; simp [Source.readAll, h]
  · induction src generalizing b with
    | nil => rintro h; cases h; exact ⟨[], [], rfl, .inl ⟨rfl, rfl, rfl⟩⟩
    | cons x src ih =>
      obtain ⟨c, x⟩ := x
      cases x with
      | some x =>
        intro h
        cases h
        refine ⟨[], _, rfl, .inr ⟨_, x, src, rfl, rfl, ?_⟩⟩
        by_cases hx : x = "EOF"
        · exact .inl ⟨hx, if_pos hx⟩
        · exact .inr ⟨hx, if_neg hx⟩
      | none =>
        intro h
        simp only [Source.readAll, Prod.mk.injEq] at h
        obtain ⟨rfl, h⟩ := h
        obtain ⟨ps, rest, rfl, g⟩ := ih _ (Prod.ext rfl h)
        refine ⟨c :: ps, rest, rfl, ?_⟩
        rcases g with ⟨g1, g2, g3⟩ | ⟨d, x, more, g1, g2, g3⟩
        · exact .inl ⟨g1, congrArg (c ++ ·) g2, g3⟩
        · exact .inr ⟨d, x, more, g1, (congrArg (c ++ ·) g2).trans (by simp), g3⟩

/-- What a run of redirections adds to the history. -/
theorem redirectLoop_events (net : Net) (hc : HttpClient) : (fuel : Nat) → (via : List HttpRequest) → (req : HttpRequest) →
    (start : Option HttpResponse × Trace) → ∃ evs, (redirectLoop net hc fuel via req start).2 = start.2 ++ evs ∧
      ∀ q, Event.sent q ∈ evs → q.body = [] ∧ req.hop < q.hop
  | fuel, via, req, (none, tr) => ⟨[], by simp [redirectLoop], by simp⟩
  | fuel, via, req, (some resp, tr) => by
    unfold redirectLoop
    cases redirectBehaviorOnce req.method resp.status with
    | none => exact ⟨[], by simp, by simp⟩
    | some x =>
      obtain ⟨method, _⟩ := x
      simp only
      by_cases hl : resp.location = []
      · rw [if_pos hl]; exact ⟨[], by simp, by simp⟩
      rw [if_neg hl]
      cases net.resolve req.url resp.location with
      | none => exact ⟨[.closed resp.id], rfl, by simp⟩
      | some u =>
        simp only
        cases hc.check ⟨method, u, [], [], [], req.hop + 1⟩ (via ++ [req]) with
        | useLast => exact ⟨[], by simp, by simp⟩
        | fail => exact ⟨[.closed resp.id], rfl, by simp⟩
        | follow =>
          cases fuel with
          | zero => exact ⟨[.closed resp.id], rfl, by simp⟩
          | succ fuel =>
            simp only
            obtain ⟨evs, h1, h2⟩ := redirectLoop_events net hc fuel (via ++ [req]) ⟨method, u, [], [], [], req.hop + 1⟩
              (roundTrip net ⟨method, u, [], [], [], req.hop + 1⟩ (tr ++ [.closed resp.id]))
            have hr : ∃ o, (roundTrip net ⟨method, u, [], [], [], req.hop + 1⟩ (tr ++ [.closed resp.id])).2 =
                tr ++ [.closed resp.id, .sent ⟨method, u, [], [], [], req.hop + 1⟩] ++ o ∧ ∀ q, Event.sent q ∉ o := by
              unfold roundTrip
              cases net.transport (tr ++ [.closed resp.id]) ⟨method, u, [], [], [], req.hop + 1⟩ with
              | none => exact ⟨[], by simp, by simp⟩
              | some r => exact ⟨_, by simp; rfl, by simp⟩
            obtain ⟨o, hr, ho⟩ := hr
            refine ⟨[.closed resp.id, .sent ⟨method, u, [], [], [], req.hop + 1⟩] ++ o ++ evs, by rw [h1, hr]; simp, ?_⟩
            intro q hq
            rcases List.mem_append.mp hq with hq | hq
            · rcases List.mem_append.mp hq with hq | hq
              · simp only [List.mem_cons, reduceCtorEq, Event.sent.injEq, List.not_mem_nil, or_false, false_or] at hq
                rw [hq]; exact ⟨rfl, Nat.lt_succ_self _⟩
              · exact absurd hq (ho q)
            · obtain ⟨g1, g2⟩ := h2 q hq
              exact ⟨g1, Nat.lt_trans (Nat.lt_succ_self _) g2⟩

theorem httpLoop_grows (net : Net) (hc : HttpClient) (body : List UInt8) : (fuel : Nat) → (via : List HttpRequest) →
    (req : HttpRequest) → (inc : Bool) → (tr : Trace) → ∃ evs, (httpLoop net hc body fuel via req inc tr).2 = (roundTrip net req tr).2 ++ evs
  | fuel, via, req, inc, tr => by
    unfold httpLoop
    rcases roundTrip net req tr with ⟨_ | resp, tr'⟩
    · exact ⟨[], by simp⟩
    simp only
    cases redirectBehavior req.method resp.status with
    | none => exact ⟨[], by simp⟩
    | some x =>
      obtain ⟨method, again⟩ := x
      simp only
      by_cases hl : resp.location = []
      · rw [if_pos hl]; exact ⟨[], by simp⟩
      rw [if_neg hl]
      cases net.resolve req.url resp.location with
      | none => exact ⟨_, rfl⟩
      | some u =>
        simp only
        cases hc.check ⟨method, u, [], [], if (inc && again) = true then body else [], req.hop + 1⟩ (via ++ [req]) with
        | useLast => exact ⟨[], by simp⟩
        | fail => exact ⟨_, rfl⟩
        | follow =>
          cases fuel with
          | zero => exact ⟨_, rfl⟩
          | succ fuel =>
            simp only
            obtain ⟨evs, h⟩ := httpLoop_grows net hc body fuel (via ++ [req])
              ⟨method, u, [], [], if (inc && again) = true then body else [], req.hop + 1⟩ (inc && again) (tr' ++ [.closed resp.id])
            rw [h]
            unfold roundTrip
            cases net.transport (tr' ++ [.closed resp.id]) ⟨method, u, [], [], if (inc && again) = true then body else [], req.hop + 1⟩ with
            | none => exact ⟨_, by simp only [List.append_assoc]; rfl⟩
            | some r => exact ⟨_, by simp only [List.append_assoc]; rfl⟩

theorem once_eq {method : String} {status : Nat} (h : status ≠ 307 ∧ status ≠ 308) :
    redirectBehaviorOnce method status = redirectBehavior method status ∧ ∀ m again, redirectBehavior method status = some (m, again) → again = false := by
  refine ⟨if_neg (by omega), ?_⟩
  intro m again
  unfold redirectBehavior
  by_cases h1 : status = 301 ∨ status = 302 ∨ status = 303
  · rw [if_pos h1]; rintro ⟨⟩; rfl
  · rw [if_neg h1, if_neg (by omega)]; rintro ⟨⟩

theorem roundTrip_opened {net : Net} {req : HttpRequest} {tr tr' : Trace} {resp : HttpResponse} (h : roundTrip net req tr = (some resp, tr')) :
    tr' = tr ++ [.sent req, .opened resp] := by
  unfold roundTrip at h
  cases hn : net.transport tr req with
  | none => rw [hn] at h; cases h
  | some r => rw [hn] at h; cases h; rfl

/-- Without demands to send the document again, redirections are followed in the same way. -/
theorem redirectLoop_eq (net : Net) (hc : HttpClient) (body : List UInt8) : (fuel : Nat) → (via : List HttpRequest) →
    (req : HttpRequest) → (inc : Bool) → (tr : Trace) → (evs : Trace) → (httpLoop net hc body fuel via req inc tr).2 = tr ++ evs →
    (∀ resp, Event.opened resp ∈ evs → resp.status ≠ 307 ∧ resp.status ≠ 308) →
    redirectLoop net hc fuel via req (roundTrip net req tr) = httpLoop net hc body fuel via req inc tr
  | fuel, via, req, inc, tr => by
    intro evs he hs
    obtain ⟨more, hg⟩ := httpLoop_grows net hc body fuel via req inc tr
    rw [he] at hg
    unfold httpLoop redirectLoop at *
    cases hr : roundTrip net req tr with
    | mk o tr' =>
    rw [hr] at he hg
    cases o with
    | none => rfl
    | some resp =>
    have ht := roundTrip_opened hr
    simp only at he hg ⊢
    rw [ht, List.append_assoc] at hg
    have hst := hs resp (by rw [List.append_cancel_left hg]; simp)
    obtain ⟨h1, h2⟩ := once_eq (method := req.method) hst
    rw [h1]
    cases hb : redirectBehavior req.method resp.status with
    | none => rfl
    | some x =>
      obtain ⟨method, again⟩ := x
      rw [hb] at he
      have ha := h2 _ _ hb
      subst ha
      simp only [Bool.and_false, Bool.false_eq_true, if_false] at he ⊢
      by_cases hl : resp.location = []
      · rw [if_pos hl, if_pos hl]
      rw [if_neg hl] at he
      rw [if_neg hl, if_neg hl]
      cases hu : net.resolve req.url resp.location with
      | none => rfl
      | some u =>
        rw [hu] at he
        simp only at he ⊢
        cases hk : hc.check ⟨method, u, [], [], [], req.hop + 1⟩ (via ++ [req]) with
        | useLast => rfl
        | fail => rfl
        | follow =>
          rw [hk] at he
          cases fuel with
          | zero => rfl
          | succ fuel =>
            simp only at he ⊢
            rw [ht] at he ⊢
            obtain ⟨more', hg'⟩ := httpLoop_grows net hc body fuel (via ++ [req]) ⟨method, u, [], [], [], req.hop + 1⟩ false
              (tr ++ [.sent req, .opened resp] ++ [.closed resp.id])
            have hlast : ∃ rest, (httpLoop net hc body fuel (via ++ [req]) ⟨method, u, [], [], [], req.hop + 1⟩ false
                (tr ++ [.sent req, .opened resp] ++ [.closed resp.id])).2 = tr ++ [.sent req, .opened resp] ++ [.closed resp.id] ++ rest := by
              rw [hg']
              unfold roundTrip
              cases net.transport (tr ++ [.sent req, .opened resp] ++ [.closed resp.id]) ⟨method, u, [], [], [], req.hop + 1⟩ with
              | none => exact ⟨_, List.append_assoc _ _ _⟩
              | some r => exact ⟨_, List.append_assoc _ _ _⟩
            obtain ⟨rest, hrest⟩ := hlast
            refine redirectLoop_eq net hc body fuel (via ++ [req]) _ false _ rest hrest ?_
            rw [hrest] at he
            intro r hr'
            refine hs r ?_
            have := List.append_cancel_left (by simpa using he : tr ++ _ = tr ++ evs)
            rw [← this]
            simp [hr']

theorem roundTrip_events (net : Net) (broken : Trace → HttpRequest → Option RawResponse) (req : HttpRequest) (tr : Trace) (e : Option String) :
    ∃ evs, (firstTrip net broken e req tr).2 = tr ++ .sent req :: evs ∧ ∀ q, Event.sent q ∉ evs := by
  unfold firstTrip
  cases e with
  | none =>
    simp only
    unfold roundTrip
    cases net.transport tr req with
    | none => exact ⟨[], rfl, by simp⟩
    | some r => exact ⟨_, rfl, by simp⟩
  | some e =>
    simp only
    unfold roundTripBroken
    cases broken tr req with
    | none => exact ⟨[], rfl, by simp⟩
    | some r => exact ⟨_, rfl, by simp⟩

theorem postReader_events (net : Net) (broken : Trace → HttpRequest → Option RawResponse) (hc : HttpClient) (url : Str)
    (headers : List (String × Str)) (src : Source) (tr : Trace) (hu : ∃ u, net.parseURL url = some u) :
    ∃ evs, (postReader net broken hc url headers src tr).2 = tr ++ .sent ⟨"POST", url, headers, [], src.readAll.1, 0⟩ :: evs ∧
      ∀ q, Event.sent q ∈ evs → q.body = [] ∧ 0 < q.hop := by
  unfold postReader
  obtain ⟨u, hu⟩ := hu
  · rw [hu]
    obtain ⟨evs, h1, h2⟩ := roundTrip_events net broken ⟨"POST", url, headers, [], src.readAll.1, 0⟩ tr src.readAll.2
    simp only
    generalize firstTrip net broken src.readAll.2 ⟨"POST", url, headers, [], src.readAll.1, 0⟩ tr = start at h1 ⊢
    obtain ⟨more, h3, h4⟩ := redirectLoop_events net hc hc.redirects [] ⟨"POST", url, headers, [], src.readAll.1, 0⟩ start
    have : ∀ q, Event.sent q ∈ evs ++ more → q.body = [] ∧ 0 < q.hop := fun q hq => by
      rcases List.mem_append.mp hq with hq | hq
      · exact absurd hq (h2 q)
      · exact h4 q hq
    rw [h1] at h3
    rcases hl : redirectLoop net hc hc.redirects [] ⟨"POST", url, headers, [], src.readAll.1, 0⟩ start with ⟨_ | resp, tr'⟩
    all_goals
      rw [hl] at h3
      simp only at h3 ⊢
      exact ⟨evs ++ more, h3.trans (by simp), this⟩

/-- C94: how what the reader delivers is divided into pieces makes no difference. -/
theorem C94_pieces (net : Net) (broken : Trace → HttpRequest → Option RawResponse) (c : Client) (url : Str) (src src' : Source)
    (b : List UInt8) (e : Option String) (h : Gives src b e) (h' : Gives src' b e) (tr : Trace) :
    c.rawUpload net broken url (.reader src) tr = c.rawUpload net broken url (.reader src') tr := by
  rw [gives_iff] at h h'
  have : src.readAll = src'.readAll := h.trans h'.symm
  cases c <;> simp only [Client.rawUpload, postReader, this]

/-- C94: the document is sent once, as the reader delivers it.  The clients that use net/http post
it to the URL given, in the first request they make; further requests, made for redirections,
have no body. -/
theorem C94_posted (net : Net) (broken : Trace → HttpRequest → Option RawResponse) (c : Client) (url : Str) (src : Source)
    (b : List UInt8) (e : Option String) (h : Gives src b e) (hc : ∀ bc, c ≠ .discover bc) (hp : "https://".toList <+: url)
    (hu : ∃ u, net.parseURL url = some u) (tr : Trace) :
    ∃ first evs, (c.rawUpload net broken url (.reader src) tr).2 = tr ++ .sent first :: evs ∧
      first.method = "POST" ∧ first.url = url ∧ first.body = b ∧ ∀ q, Event.sent q ∈ evs → q.body = [] := by
  rw [gives_iff] at h
  have hp' : ¬ (!hasPrefix "https://".toList url) = true := by
    rw [hasPrefix_prefix.mpr hp]; decide
  unfold Client.rawUpload
  simp only
  rw [if_neg hp']
  cases c with
  | discover bc => exact absurd rfl (hc bc)
  | basic bc =>
    obtain ⟨evs, g1, g2⟩ := postReader_events net broken (bc.HTTPClient.getD defaultHttpClient) url
      ([contentType, ("Accept", "*/*, application/x-ofx".toList)] ++ bc.userAgentHeader) src tr hu
    exact ⟨_, evs, g1, rfl, rfl, by rw [h], fun q hq => (g2 q hq).1⟩
  | vanguard bc =>
    obtain ⟨evs, g1, g2⟩ := postReader_events net broken defaultHttpClient url (contentType :: bc.userAgentHeader) src tr hu
    exact ⟨_, evs, g1, rfl, rfl, by rw [h], fun q hq => (g2 q hq).1⟩

/-- C94: a reader that ends is as good as a buffer with the same bytes, as long as no server
demands, by a redirection with status 307 or 308, that the document be sent again. -/
theorem C94_as_buffer (net : Net) (broken : Trace → HttpRequest → Option RawResponse) (c : Client) (url : Str) (src : Source)
    (b : List UInt8) (h : Gives src b none) (tr evs : Trace) (he : (c.rawUpload net broken url (.buffer b) tr).2 = tr ++ evs)
    (hs : ∀ resp, Event.opened resp ∈ evs → resp.status ≠ 307 ∧ resp.status ≠ 308) :
    c.rawUpload net broken url (.reader src) tr = c.rawUpload net broken url (.buffer b) tr := by
  rw [gives_iff] at h
  have key : ∀ (hc : HttpClient) (headers : List (String × Str)), (post net hc url headers [] b tr).2 = tr ++ evs →
      postReader net broken hc url headers src tr = post net hc url headers [] b tr := by
    intro hc headers he
    unfold postReader
    unfold post at he ⊢
    rw [h]
    cases hu : net.parseURL url with
    | none => rfl
    | some u =>
      rw [hu] at he
      simp only at he ⊢
      unfold httpDo at he ⊢
      have he' : (httpLoop net hc b hc.redirects [] ⟨"POST", url, headers, [], b, 0⟩ true tr).2 = tr ++ evs := by
        rw [← he]
        rcases httpLoop net hc b hc.redirects [] ⟨"POST", url, headers, [], b, 0⟩ true tr with ⟨_ | resp, tr'⟩ <;> rfl
      simp only [firstTrip]
      rw [redirectLoop_eq net hc b _ _ _ true tr evs he' hs]
      rcases httpLoop net hc b hc.redirects [] ⟨"POST", url, headers, [], b, 0⟩ true tr with ⟨_ | resp, tr'⟩ <;> rfl
  unfold Client.rawUpload at he ⊢
  simp only at he ⊢
  unfold Client.rawRequest at he ⊢
  cases c with
  | basic bc =>
    simp only [BasicClient.rawRequest] at he ⊢
    by_cases hp : (!hasPrefix "https://".toList url) = true
    · rw [if_pos hp, if_pos hp]
    · rw [if_neg hp] at he
      rw [if_neg hp, if_neg hp]
      exact key _ _ he
  | vanguard bc =>
    simp only [vanguardRawRequest] at he ⊢
    by_cases hp : (!hasPrefix "https://".toList url) = true
    · rw [if_pos hp, if_pos hp]
    · rw [if_neg hp] at he
      rw [if_neg hp, if_neg hp]
      exact key _ _ he
  | discover bc =>
    simp only [h]
    by_cases hp : (!hasPrefix "https://".toList url) = true
    · rw [if_pos hp]
      unfold discoverRawRequest
      rw [if_pos hp]
    · rw [if_neg hp]

/-- C94: if a server demands that of a reader that is no buffer, the caller gets its answer, and an
error. -/
theorem C94_demanded_again (net : Net) (broken : Trace → HttpRequest → Option RawResponse) (c : Client) (url : Str) (src : Source)
    (b : List UInt8) (h : Gives src b none) (hc : ∀ bc, c ≠ .discover bc) (hp : "https://".toList <+: url) (hu : ∃ u, net.parseURL url = some u)
    (raw : RawResponse) (ht : ∀ tr q, q.method = "POST" → q.url = url → q.body = b → net.transport tr q = some raw)
    (hr : raw.status = 307 ∨ raw.status = 308) (tr : Trace) :
    ∃ resp err, (c.rawUpload net broken url (.reader src) tr).1 = (some resp, some err) ∧ resp.toRawResponse = raw := by
  rw [gives_iff] at h
  have key : ∀ (hc : HttpClient) (headers : List (String × Str)), ∃ resp err,
      (postReader net broken hc url headers src tr).1 = (some resp, some err) ∧ resp.toRawResponse = raw := by
    intro hc headers
    obtain ⟨u, hu⟩ := hu
    unfold postReader
    rw [hu, h]
    simp only [firstTrip]
    have hrt : roundTrip net ⟨"POST", url, headers, [], b, 0⟩ tr = (some { raw with id := tr.length + 1 },
        tr ++ [.sent ⟨"POST", url, headers, [], b, 0⟩, .opened { raw with id := tr.length + 1 }]) := by
      unfold roundTrip
      rw [ht tr _ rfl rfl rfl]
    rw [hrt]
    have hb : redirectBehaviorOnce "POST" raw.status = none := if_pos hr
    unfold redirectLoop
    simp only [hb]
    unfold checkStatus
    rw [if_pos (show raw.status ≠ 200 by omega)]
    exact ⟨_, _, rfl, rfl⟩
  have hp' : ¬ (!hasPrefix "https://".toList url) = true := by
    rw [hasPrefix_prefix.mpr hp]; decide
  unfold Client.rawUpload
  simp only
  rw [if_neg hp']
  cases c with
  | discover bc => exact absurd rfl (hc bc)
  | basic bc => exact key _ _
  | vanguard bc => exact key _ _

/-- C94: if the reader fails, the client for Discover sends nothing and returns an error. -/
theorem C94_broken (net : Net) (broken : Trace → HttpRequest → Option RawResponse) (bc : BasicClient) (url : Str) (src : Source)
    (b : List UInt8) (e : String) (h : Gives src b (some e)) (tr : Trace) :
    ∃ err, (Client.discover bc).rawUpload net broken url (.reader src) tr = ((none, some err), tr) := by
  rw [gives_iff] at h
  unfold Client.rawUpload
  simp only [h]
  by_cases hp : (!hasPrefix "https://".toList url) = true
  · rw [if_pos hp]; exact ⟨_, rfl⟩
  · rw [if_neg hp]; exact ⟨_, rfl⟩

/-! ### The responses -/

/-- A response that is returned is the last one, all others have been closed, and responses are numbered. -/
structure TripAnswers (tr : Trace) (o : Option HttpResponse) (evs : Trace) : Prop where
  last : ∀ r, o = some r → lastResponse evs = some r
  closed : ∀ r, .opened r ∈ evs → o = some r ∨ .closed r.id ∈ evs
  numbered : ∀ k r, evs[k]? = some (.opened r) → r.id = tr.length + k

theorem answers_close {tr evs : Trace} {resp : HttpResponse} (h : TripAnswers tr (some resp) evs) :
    TripAnswers tr none (evs ++ [.closed resp.id]) := by
  refine ⟨by simp, ?_, ?_⟩
  · intro r hr
    right
    rw [List.mem_append] at hr ⊢
    rcases hr with hr | hr
    · rcases h.closed r hr with h0 | h0
      · cases h0; exact .inr (by simp)
      · exact .inl h0
    · simp at hr
  · intro k r hk
    rw [List.getElem?_append] at hk
    split at hk
    · exact h.numbered k r hk
    · cases hi : k - evs.length with
      | zero => rw [hi] at hk; cases hk
      | succ n => rw [hi] at hk; cases hk

theorem answers_sent {tr evs : Trace} (h : TripAnswers tr none evs) (q : HttpRequest) : TripAnswers tr none (evs ++ [.sent q]) := by
  refine ⟨by simp, ?_, ?_⟩
  · intro r hr
    right
    rw [List.mem_append] at hr ⊢
    rcases hr with hr | hr
    · rcases h.closed r hr with h0 | h0
      · cases h0
      · exact .inl h0
    · simp at hr
  · intro k r hk
    rw [List.getElem?_append] at hk
    split at hk
    · exact h.numbered k r hk
    · cases hi : k - evs.length with
      | zero => rw [hi] at hk; cases hk
      | succ n => rw [hi] at hk; cases hk

theorem answers_opened {tr evs : Trace} (h : TripAnswers tr none evs) (resp : HttpResponse) (hi : resp.id = tr.length + evs.length) :
    TripAnswers tr (some resp) (evs ++ [.opened resp]) := by
  refine ⟨?_, ?_, ?_⟩
  · rintro r ⟨⟩
    unfold lastResponse
    rw [responses_append]
    simp [responses]
  · intro r hr
    rw [List.mem_append] at hr
    rcases hr with hr | hr
    · rcases h.closed r hr with h0 | h0
      · cases h0
      · exact .inr (List.mem_append_left _ h0)
    · simp only [List.mem_singleton, Event.opened.injEq] at hr
      exact .inl (by rw [hr])
  · intro k r hk
    rw [List.getElem?_append] at hk
    split at hk
    · exact h.numbered k r hk
    · cases hj : k - evs.length with
      | zero =>
        rw [hj] at hk
        cases hk
        rw [hi]
        omega
      | succ n => rw [hj] at hk; cases hk

theorem answers_trip {tr evs : Trace} (h : TripAnswers tr none evs) (net : Net) (broken : Trace → HttpRequest → Option RawResponse)
    (e : Option String) (req : HttpRequest) : ∃ more, (firstTrip net broken e req (tr ++ evs)).2 = tr ++ (evs ++ more) ∧
      TripAnswers tr (firstTrip net broken e req (tr ++ evs)).1 (evs ++ more) := by
  have h1 := answers_sent h req
  have key : ∀ raw : RawResponse, TripAnswers tr (some { raw with id := (tr ++ evs).length + 1 })
      (evs ++ [.sent req, .opened { raw with id := (tr ++ evs).length + 1 }]) := fun raw => by
    have h2 := answers_opened h1 { raw with id := (tr ++ evs).length + 1 } (by simp; omega)
    simpa using h2
  unfold firstTrip
  cases e with
  | none =>
    simp only
    unfold roundTrip
    cases net.transport (tr ++ evs) req with
    | none => exact ⟨[.sent req], by simp, h1⟩
    | some r => exact ⟨_, by simp only [List.append_assoc], key r⟩
  | some e =>
    simp only
    unfold roundTripBroken
    cases broken (tr ++ evs) req with
    | none => exact ⟨[.sent req], by simp, h1⟩
    | some r => exact ⟨_, by simp only [List.append_assoc], key r⟩

theorem redirectLoop_answers (net : Net) (hc : HttpClient) (tr : Trace) : (fuel : Nat) → (via : List HttpRequest) → (req : HttpRequest) →
    (o : Option HttpResponse) → (evs : Trace) → TripAnswers tr o evs → ∃ more, (redirectLoop net hc fuel via req (o, tr ++ evs)).2 = tr ++ (evs ++ more) ∧
      TripAnswers tr (redirectLoop net hc fuel via req (o, tr ++ evs)).1 (evs ++ more)
  | fuel, via, req, none, evs => fun h => ⟨[], by simp [redirectLoop], by simpa [redirectLoop] using h⟩
  | fuel, via, req, some resp, evs => fun h => by
    have hcl := answers_close h
    have hsame : ∃ more, tr ++ evs = tr ++ (evs ++ more) ∧ TripAnswers tr (some resp) (evs ++ more) := ⟨[], by simp, by simpa using h⟩
    have hclosed : ∃ more, tr ++ evs ++ [.closed resp.id] = tr ++ (evs ++ more) ∧ TripAnswers tr none (evs ++ more) :=
      ⟨_, by rw [List.append_assoc], hcl⟩
    unfold redirectLoop
    cases redirectBehaviorOnce req.method resp.status with
    | none => exact hsame
    | some x =>
      obtain ⟨method, _⟩ := x
      simp only
      by_cases hl : resp.location = []
      · rw [if_pos hl]; exact hsame
      rw [if_neg hl]
      cases net.resolve req.url resp.location with
      | none => exact hclosed
      | some u =>
        simp only
        cases hc.check ⟨method, u, [], [], [], req.hop + 1⟩ (via ++ [req]) with
        | useLast => exact hsame
        | fail => exact hclosed
        | follow =>
          cases fuel with
          | zero => exact hclosed
          | succ fuel =>
            simp only
            obtain ⟨m1, g1, g2⟩ := answers_trip hcl net (fun _ _ => none) none ⟨method, u, [], [], [], req.hop + 1⟩
            simp only [firstTrip] at g1 g2
            rw [← List.append_assoc] at g1 g2
            rcases hr : roundTrip net ⟨method, u, [], [], [], req.hop + 1⟩ (tr ++ evs ++ [.closed resp.id]) with ⟨o, t⟩
            rw [hr] at g1 g2
            simp only at g1 g2
            subst g1
            obtain ⟨m2, g3, g4⟩ := redirectLoop_answers net hc tr fuel (via ++ [req]) ⟨method, u, [], [], [], req.hop + 1⟩ o _ g2
            rw [hr]
            exact ⟨[.closed resp.id] ++ m1 ++ m2, g3.trans (by simp), by simpa only [List.append_assoc] using g4⟩

/-- C94: whatever the reader does, a response that is returned is the last one received and the caller's to close, all others have
been closed.  (The Discover client reads all of the document first: see `C94_as_buffer` and `C94_broken`.) -/
theorem C94_answer (net : Net) (broken : Trace → HttpRequest → Option RawResponse) (c : Client) (url : Str) (src : Source)
    (hc : ∀ bc, c ≠ .discover bc) (tr evs : Trace) (h : (c.rawUpload net broken url (.reader src) tr).2 = tr ++ evs) :
    (∀ resp, (c.rawUpload net broken url (.reader src) tr).1.1 = some resp → lastResponse evs = some resp) ∧
    (∀ resp, .opened resp ∈ evs → (c.rawUpload net broken url (.reader src) tr).1.1 = some resp ∨ .closed resp.id ∈ evs) ∧
    ∀ k resp, evs[k]? = some (.opened resp) → resp.id = tr.length + k := by
  suffices key : ∀ (hc : HttpClient) (headers : List (String × Str)), ∃ evs,
      (postReader net broken hc url headers src tr).2 = tr ++ evs ∧ TripAnswers tr (postReader net broken hc url headers src tr).1.1 evs by
    have hnone : (tr = tr ++ evs) → TripAnswers tr none evs := fun he => by
      have := List.append_right_eq_self.mp he.symm
      subst this
      exact ⟨by simp, by simp, by simp⟩
    have : TripAnswers tr (c.rawUpload net broken url (.reader src) tr).1.1 evs := by
      unfold Client.rawUpload at h ⊢
      simp only at h ⊢
      by_cases hp : (!hasPrefix "https://".toList url) = true
      · rw [if_pos hp] at h ⊢; exact hnone h
      rw [if_neg hp] at h ⊢
      cases c with
      | discover bc => exact absurd rfl (hc bc)
      | basic bc =>
        obtain ⟨evs', g1, g2⟩ := key (bc.HTTPClient.getD defaultHttpClient)
          ([contentType, ("Accept", "*/*, application/x-ofx".toList)] ++ bc.userAgentHeader)
        rw [List.append_cancel_left (h.symm.trans g1)]; exact g2
      | vanguard bc =>
        obtain ⟨evs', g1, g2⟩ := key defaultHttpClient (contentType :: bc.userAgentHeader)
        rw [List.append_cancel_left (h.symm.trans g1)]; exact g2
    exact ⟨this.last, this.closed, this.numbered⟩
  intro hc headers
  have h0 : TripAnswers tr none [] := ⟨by simp, by simp, by simp⟩
  unfold postReader
  cases net.parseURL url with
  | none => exact ⟨[], by simp, h0⟩
  | some u =>
    simp only
    obtain ⟨m1, g1, g2⟩ := answers_trip h0 net broken src.readAll.2 ⟨"POST", url, headers, [], src.readAll.1, 0⟩
    rw [List.append_nil] at g1 g2
    rcases hr : firstTrip net broken src.readAll.2 ⟨"POST", url, headers, [], src.readAll.1, 0⟩ tr with ⟨o, t⟩
    rw [hr] at g1 g2
    simp only [List.nil_append] at g1 g2
    subst g1
    obtain ⟨m2, g3, g4⟩ := redirectLoop_answers net hc tr hc.redirects [] ⟨"POST", url, headers, [], src.readAll.1, 0⟩ o _ g2
    rcases hl : redirectLoop net hc hc.redirects [] ⟨"POST", url, headers, [], src.readAll.1, 0⟩ (o, tr ++ m1) with ⟨_ | resp, t⟩
    all_goals
      rw [hl] at g3 g4
      simp only at g3 g4 ⊢
      refine ⟨_, g3, ?_⟩
    · exact g4
    · have : (checkStatus resp).1 = some resp := by
        unfold checkStatus; split <;> rfl
      rw [this]; exact g4

/-! ### Examples -/

/-- A reader that gives "abc" in three pieces, one of them empty, the last one together with the end. -/
theorem abc_given : Gives [([97], none), ([], none), ([98, 99], some "EOF")] [97, 98, 99] none :=
  ⟨[[97], []], _, rfl, .inr ⟨_, _, _, rfl, rfl, .inl ⟨rfl, rfl⟩⟩⟩

/-- One that ends later. -/
theorem abc_given' : Gives [([97, 98], none), ([99], none)] [97, 98, 99] none := ⟨[[97, 98], [99]], [], rfl, .inl ⟨rfl, rfl, rfl⟩⟩

/-- One that fails after "ab". -/
theorem ab_given : Gives [([97], none), ([98], some "disk error"), ([99], none)] [97, 98] (some "disk error") :=
  ⟨[[97]], _, rfl, .inr ⟨_, _, _, rfl, rfl, .inr ⟨by decide, rfl⟩⟩⟩

example (net : Net) (broken : Trace → HttpRequest → Option RawResponse) (c : Client) (url : Str) (tr : Trace) :
    c.rawUpload net broken url (.reader [([97], none), ([], none), ([98, 99], some "EOF")]) tr =
    c.rawUpload net broken url (.reader [([97, 98], none), ([99], none)]) tr :=
  C94_pieces net broken c url _ _ _ _ abc_given abc_given' tr

/-- A server that answers with 200 gets what it would get from a buffer. -/
example (now : GoTime) (broken : Trace → HttpRequest → Option RawResponse) (bc : BasicClient) (body : List UInt8) :
    (Client.basic bc).rawUpload (constNet now ⟨200, "200 OK".toList, body.length, [], [], body⟩) broken "https://a.b/".toList
      (.reader [([97, 98], none), ([99], none)]) [] =
    (Client.basic bc).rawUpload (constNet now ⟨200, "200 OK".toList, body.length, [], [], body⟩) broken "https://a.b/".toList
      (.buffer [97, 98, 99]) [] := by
  refine C94_as_buffer _ _ _ _ _ _ abc_given' [] _ rfl ?_
  intro resp hr
  have hp : (!hasPrefix "https://".toList "https://a.b/".toList) = false := by decide
  simp only [Client.rawUpload, Client.rawRequest, BasicClient.rawRequest, hp, Bool.false_eq_true, if_false, constNet_post, List.nil_append,
    List.mem_cons, reduceCtorEq, List.not_mem_nil, or_false, false_or, Event.opened.injEq] at hr
  subst hr
  exact ⟨(by decide : 200 ≠ 307), (by decide : 200 ≠ 308)⟩

/-- A server that redirects with 307. -/
example (now : GoTime) (broken : Trace → HttpRequest → Option RawResponse) (bc : BasicClient) :
    ∃ resp err, ((Client.vanguard bc).rawUpload (constNet now ⟨307, "307 Temporary Redirect".toList, 0, [], "https://c.d/".toList, []⟩) broken
      "https://a.b/".toList (.reader [([97, 98], none), ([99], none)]) []).1 = (some resp, some err) ∧ resp.location = "https://c.d/".toList := by
  obtain ⟨resp, err, h1, h2⟩ := C94_demanded_again (constNet now ⟨307, "307 Temporary Redirect".toList, 0, [], "https://c.d/".toList, []⟩) broken
    (.vanguard bc) "https://a.b/".toList _ _ abc_given' (by simp) (by decide) ⟨_, rfl⟩ _ (fun _ _ _ _ _ => rfl) (.inl rfl) []
  exact ⟨resp, err, h1, by rw [h2]⟩

/-- A reader that fails: Discover gets nothing, another server the beginning. -/
example (net : Net) (broken : Trace → HttpRequest → Option RawResponse) (bc : BasicClient) (url : Str) :
    (∃ err, (Client.discover bc).rawUpload net broken url (.reader [([97], none), ([98], some "disk error"), ([99], none)]) [] = ((none, some err), [])) :=
  C94_broken net broken bc url _ _ _ ab_given []

example (now : GoTime) (broken : Trace → HttpRequest → Option RawResponse) (bc : BasicClient) :
    ∃ first evs, ((Client.basic bc).rawUpload (constNet now ⟨200, [], 0, [], [], []⟩) broken "https://a.b/".toList
      (.reader [([97], none), ([98], some "disk error"), ([99], none)]) []).2 = [] ++ .sent first :: evs ∧ first.body = [97, 98] := by
  obtain ⟨first, evs, h1, -, -, h2, -⟩ := C94_posted (constNet now ⟨200, [], 0, [], [], []⟩) broken (.basic bc) "https://a.b/".toList
    _ _ _ ab_given (by simp) (by decide) ⟨_, rfl⟩ []
  exact ⟨first, evs, h1, h2⟩

/-- A reader that fails, and a server that answers nevertheless. -/
example (net : Net) (bc : BasicClient) (hu : net.parseURL "https://a.b/".toList = some ⟨[], [], [], []⟩) :
    ∃ resp, lastResponse ((Client.basic bc).rawUpload net (fun _ _ => some ⟨400, [], 0, [], [], []⟩) "https://a.b/".toList
      (.reader [([97], none), ([98], some "disk error"), ([99], none)]) []).2 = some resp ∧ resp.status = 400 := by
  have hp : (!hasPrefix "https://".toList "https://a.b/".toList) = false := by decide
  refine ⟨_, (C94_answer net (fun _ _ => some ⟨400, [], 0, [], [], []⟩) (.basic bc) "https://a.b/".toList
    [([97], none), ([98], some "disk error"), ([99], none)] (by simp) [] _ rfl).1 ⟨⟨400, [], 0, [], [], []⟩, 1⟩ ?_, rfl⟩
  have hr := (gives_iff _ _ _).mp ab_given
  simp only [Client.rawUpload, hp, postReader, hu, hr, firstTrip, roundTripBroken]
  simp [redirectLoop, redirectBehaviorOnce, redirectBehavior, checkStatus]

end Ofx.Props
