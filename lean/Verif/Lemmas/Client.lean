import Verif.Spec.Client
import Verif.Props.Marshal
/-
Lemmas on HTTP traces.
-/
namespace Ofx
open Spec

theorem responses_append (a b : Trace) : responses (a ++ b) = responses a ++ responses b := by
  simp [responses, List.filterMap_append]

theorem posts_append (a b : Trace) : posts (a ++ b) = posts a ++ posts b := by
  simp [posts, List.filterMap_append]

theorem written_append (a b : Trace) : written (a ++ b) = written a ++ written b := by
  simp [written, List.filterMap_append]

/-- What a request through net/http adds to the trace. -/
structure HttpEffect (body : List UInt8) (req : HttpRequest) (tr : Trace) (res : Option HttpResponse) (evs : Trace) : Prop where
  first : ∃ more, evs = .sent req :: more ∧ (∀ q, .sent q ∈ more → req.hop < q.hop) ∧
    ∀ q, .sent q ∈ more → ∃ r, .opened r ∈ evs ∧ Redirecting r
  written : written evs = []
  dialed : ∀ h, .dialed h ∉ evs
  last : ∀ r, res = some r → lastResponse evs = some r
  closed : ∀ r, .opened r ∈ evs → res = some r ∨ .closed r.id ∈ evs
  numbered : ∀ k r, evs[k]? = some (.opened r) → r.id = tr.length + k
  bodies : ∀ q, .sent q ∈ evs → q.body = body ∨ q.body = []

section
variable {body : List UInt8} (req : HttpRequest) (tr : Trace) (hb : req.body = body ∨ req.body = [])
include hb

theorem effect_none : HttpEffect body req tr none [.sent req] := by
  constructor
  · exact ⟨[], rfl, by simp, by simp⟩
  · rfl
  · simp
  · simp
  · simp
  · intro k r h
    cases k with
    | zero => cases h
    | succ k => cases h
  · simpa using hb

theorem effect_some (resp : HttpResponse) (h : resp.id = tr.length + 1) :
    HttpEffect body req tr (some resp) [.sent req, .opened resp] := by
  constructor
  · exact ⟨[.opened resp], rfl, by simp, by simp⟩
  · rfl
  · simp
  · simp [lastResponse, responses]
  · simp [eq_comm]
  · intro k r hk
    match k with
    | 0 => cases hk
    | 1 => cases hk; exact h
    | k + 2 => cases hk
  · simpa using hb

theorem effect_closed (resp : HttpResponse) (h : resp.id = tr.length + 1) :
    HttpEffect body req tr none [.sent req, .opened resp, .closed resp.id] := by
  constructor
  · exact ⟨[.opened resp, .closed resp.id], rfl, by simp, by simp⟩
  · rfl
  · simp
  · simp
  · intro r hr
    simp only [List.mem_cons, reduceCtorEq, false_or, Event.opened.injEq, List.not_mem_nil, or_false] at hr
    subst hr
    simp
  · intro k r hk
    match k with
    | 0 => cases hk
    | 1 => cases hk; exact h
    | 2 => cases hk
    | k + 3 => cases hk
  · simpa using hb

theorem effect_next (next : HttpRequest) (evs : Trace) (resp : HttpResponse) (res : Option HttpResponse)
    (h : resp.id = tr.length + 1) (hh : next.hop = req.hop + 1) (hr : Redirecting resp)
    (hn : HttpEffect body next (tr ++ [.sent req, .opened resp, .closed resp.id]) res evs) :
    HttpEffect body req tr res ([.sent req, .opened resp, .closed resp.id] ++ evs) := by
  obtain ⟨⟨more, h1, h2, h3⟩, h4, h5, h6, h7, h8, h9⟩ := hn
  constructor
  · refine ⟨.opened resp :: .closed resp.id :: evs, rfl, ?_, ?_⟩
    · intro q hq
      rw [h1] at hq
      simp only [List.mem_cons, reduceCtorEq, false_or, Event.sent.injEq] at hq
      rcases hq with rfl | hq
      · omega
      · have := h2 q hq; omega
    · intro q hq
      exact ⟨resp, by simp, hr⟩
  · simpa [Spec.written] using h4
  · intro q hq
    simp only [List.cons_append, List.nil_append, List.mem_cons, reduceCtorEq, false_or] at hq
    exact h5 q hq
  · intro r hres
    have := h6 r hres
    unfold lastResponse at this ⊢
    rw [responses_append, List.getLast?_append, this]
    rfl
  · intro r hm
    simp only [List.cons_append, List.nil_append, List.mem_cons, reduceCtorEq, false_or, Event.opened.injEq] at hm
    rcases hm with rfl | hm
    · right; simp
    · rcases h7 r hm with h | h
      · exact .inl h
      · right; simp [h]
  · intro k r hk
    match k with
    | 0 => cases hk
    | 1 => cases hk; exact h
    | 2 => cases hk
    | k + 3 =>
      have := h8 k r hk
      simp only [List.length_append, List.length_cons, List.length_nil] at this
      omega
  · intro q hq
    simp only [List.cons_append, List.nil_append, List.mem_cons, reduceCtorEq, false_or, Event.sent.injEq] at hq
    rcases hq with rfl | hq
    · exact hb
    · exact h9 q hq

end

theorem redirecting_of {method m : String} {again : Bool} {resp : HttpResponse}
    (h : redirectBehavior method resp.status = some (m, again)) (hl : resp.location ≠ []) : Redirecting resp := by
  refine ⟨?_, hl⟩
  unfold redirectBehavior at h
  by_cases h1 : resp.status = 301 ∨ resp.status = 302 ∨ resp.status = 303
  · simp; omega
  · rw [if_neg h1] at h
    by_cases h2 : resp.status = 307 ∨ resp.status = 308
    · simp; omega
    · rw [if_neg h2] at h; cases h

theorem httpLoop_effect (net : Net) (hc : HttpClient) (body : List UInt8) (fuel : Nat) (via : List HttpRequest)
    (req : HttpRequest) (incl : Bool) (tr : Trace) (hbody : req.body = body ∨ req.body = []) :
    ∃ res evs, httpLoop net hc body fuel via req incl tr = (res, tr ++ evs) ∧ HttpEffect body req tr res evs := by
  induction fuel generalizing via req incl tr with
  | zero =>
    unfold httpLoop roundTrip
    cases hT : net.transport tr req with
    | none => exact ⟨none, _, rfl, effect_none req tr hbody⟩
    | some r =>
      simp only
      cases hb : redirectBehavior req.method r.status with
      | none => exact ⟨_, _, rfl, effect_some req tr hbody _ rfl⟩
      | some b =>
        obtain ⟨m, again⟩ := b
        simp only
        by_cases hl : r.location = []
        · rw [if_pos hl]; exact ⟨_, _, rfl, effect_some req tr hbody _ rfl⟩
        rw [if_neg hl]
        have hcl := effect_closed req tr hbody { r with id := tr.length + 1 } rfl
        cases net.resolve req.url r.location with
        | none => exact ⟨_, _, by rw [List.append_assoc]; rfl, hcl⟩
        | some u =>
          simp only
          cases hc.check _ _ with
          | useLast => exact ⟨_, _, rfl, effect_some req tr hbody _ rfl⟩
          | fail => exact ⟨_, _, by rw [List.append_assoc]; rfl, hcl⟩
          | follow => exact ⟨_, _, by rw [List.append_assoc]; rfl, hcl⟩
  | succ fuel ih =>
    unfold httpLoop roundTrip
    cases hT : net.transport tr req with
    | none => exact ⟨none, _, rfl, effect_none req tr hbody⟩
    | some r =>
      simp only
      cases hb : redirectBehavior req.method r.status with
      | none => exact ⟨_, _, rfl, effect_some req tr hbody _ rfl⟩
      | some b =>
        obtain ⟨m, again⟩ := b
        simp only
        by_cases hl : r.location = []
        · rw [if_pos hl]; exact ⟨_, _, rfl, effect_some req tr hbody _ rfl⟩
        rw [if_neg hl]
        have hcl := effect_closed req tr hbody { r with id := tr.length + 1 } rfl
        cases net.resolve req.url r.location with
        | none => exact ⟨_, _, by rw [List.append_assoc]; rfl, hcl⟩
        | some u =>
          simp only
          cases hc.check _ _ with
          | useLast => exact ⟨_, _, rfl, effect_some req tr hbody _ rfl⟩
          | fail => exact ⟨_, _, by rw [List.append_assoc]; rfl, hcl⟩
          | follow =>
            simp only
            obtain ⟨res, evs, h1, h2⟩ := ih (via ++ [req])
              ⟨m, u, [], [], if incl && again then body else [], req.hop + 1⟩ (incl && again)
              (tr ++ [.sent req, .opened { r with id := tr.length + 1 }] ++ [.closed (tr.length + 1)])
              (by
                simp only
                by_cases hi : (incl && again) = true
                · rw [if_pos hi]; exact .inl rfl
                · rw [if_neg hi]; exact .inr rfl)
            rw [h1]
            refine ⟨res, _, by rw [List.append_assoc, List.append_assoc], ?_⟩
            rw [← List.append_assoc]
            exact effect_next req tr hbody _ evs { r with id := tr.length + 1 } res rfl rfl
              (redirecting_of (resp := { r with id := tr.length + 1 }) hb hl) (by simpa using h2)

/-- A post either fails before anything is sent, or goes through net/http. -/
theorem post_cases (net : Net) (hc : HttpClient) (url : Str) (headers : List (String × Str)) (cookies : List (Str × Str))
    (body : List UInt8) (tr : Trace) :
    (net.parseURL url = none ∧ ∃ e, post net hc url headers cookies body tr = ((none, some e), tr)) ∨
    ∃ res evs, net.parseURL url ≠ none ∧ HttpEffect body ⟨"POST", url, headers, cookies, body, 0⟩ tr res evs ∧
      ((res = none ∧ ∃ e, post net hc url headers cookies body tr = ((none, some e), tr ++ evs)) ∨
       ∃ resp, res = some resp ∧ post net hc url headers cookies body tr = (checkStatus resp, tr ++ evs)) := by
  unfold post
  cases net.parseURL url with
  | none => exact .inl ⟨rfl, _, rfl⟩
  | some u =>
    right
    obtain ⟨res, evs, h1, h2⟩ := httpLoop_effect net hc body hc.redirects [] ⟨"POST", url, headers, cookies, body, 0⟩ true tr
      (.inl rfl)
    simp only [httpDo, h1]
    cases res with
    | none => exact ⟨none, evs, by simp, h2, .inl ⟨rfl, _, rfl⟩⟩
    | some resp => exact ⟨some resp, evs, by simp, h2, .inr ⟨resp, rfl, rfl⟩⟩

/-- What the Discover client does. -/
theorem discover_cases (net : Net) (url : Str) (body : List UInt8) (tr : Trace) :
    (∃ e, discoverRawRequest net url body tr = ((none, some e), tr)) ∨
    ∃ u host, net.parseURL url = some u ∧ host = (if u.port = [] then u.host ++ ":443".toList else u.host) ∧
      ((∃ e, discoverRawRequest net url body tr = ((none, some e), tr ++ [.dialed host])) ∨
       ∃ w, w <+: toBytes (discoverHeaders (if u.path = [] then ['/'] else u.path) u.hostname body.length) ++ body ∧
        ((∃ e, discoverRawRequest net url body tr = ((none, some e), tr ++ [.dialed host, .wrote host w])) ∨
         ∃ resp, resp.id = tr.length + 2 ∧
          (body ≠ [] → w = toBytes (discoverHeaders (if u.path = [] then ['/'] else u.path) u.hostname body.length) ++ body) ∧
          (discoverRawRequest net url body tr).2 = tr ++ [.dialed host, .wrote host w, .opened resp] ∧
          ((resp.status ≠ 200 ∧ ∃ e, (discoverRawRequest net url body tr).1 = (none, some e)) ∨
           (resp.status = 200 ∧ (discoverRawRequest net url body tr).1 = (some resp, none))))) := by
  unfold discoverRawRequest
  by_cases hp : hasPrefix "https://".toList url = true
  swap
  · left; rw [if_pos (by simpa using hp)]; exact ⟨_, rfl⟩
  rw [if_neg (by simpa using hp)]
  unfold discoverPost
  cases hu : net.parseURL url with
  | none => exact .inl ⟨_, rfl⟩
  | some u =>
    right
    refine ⟨u, _, rfl, rfl, ?_⟩
    simp only
    cases hd : net.dial tr (if u.port = [] then u.host ++ ":443".toList else u.host) with
    | none => exact .inl ⟨_, rfl⟩
    | some conn =>
      right
      simp only
      generalize hfull : toBytes (discoverHeaders (if u.path = [] then ['/'] else u.path) u.hostname body.length) = hdr
      generalize hwd : conn.transmits (hdr ++ body) = w
      have hw : w <+: hdr ++ body := by
        rw [← hwd]
        unfold Conn.transmits
        cases conn.limit with
        | none => exact List.prefix_rfl
        | some n => exact List.take_prefix ..
      refine ⟨w, hw, ?_⟩
      by_cases hb : body ≠ [] ∧ w.length < hdr.length + body.length
      · left; rw [if_pos hb]; exact ⟨_, rfl⟩
      rw [if_neg hb]
      cases ha : conn.answer w with
      | none => exact .inl ⟨_, rfl⟩
      | some r =>
        right
        simp only
        refine ⟨{ r with id := tr.length + 2 }, rfl, ?_, ?_, ?_⟩
        · intro hne
          have hl : ¬ w.length < hdr.length + body.length := fun h => hb ⟨hne, h⟩
          exact List.IsPrefix.eq_of_length_le hw (by rw [List.length_append]; omega)
        · by_cases hs : r.status = 200
          · rw [if_neg (by simpa using hs)]; simp
          · rw [if_pos (by simpa using hs)]; simp
        · by_cases hs : r.status = 200
          · right; rw [if_neg (by simpa using hs)]; exact ⟨hs, by simp⟩
          · left; rw [if_pos (by simpa using hs)]; exact ⟨hs, _, rfl⟩

/-- What one call of RawRequest adds to the trace. -/
structure RawEffect (net : Net) (url : Str) (body : List UInt8) (tr : Trace) (res : RawResult) (evs : Trace) : Prop where
  https : evs ≠ [] → "https://".toList <+: url
  posts : posts evs = [] ∨ ∃ hs cs, posts evs = [⟨"POST", url, hs, cs, body, 0⟩]
  sent : ∀ q, .sent q ∈ evs → (q.hop = 0 ∧ q.url = url ∧ q.body = body) ∨ ∃ r, .opened r ∈ evs ∧ Redirecting r
  ok : res.2 = none → ∃ resp, res.1 = some resp ∧ resp.status = 200
  bad : ∀ resp, res.1 = some resp → res.2 ≠ none → resp.status ≠ 200
  last : ∀ resp, res.1 = some resp → lastResponse evs = some resp
  closed : ∀ r, .opened r ∈ evs →
    res.1 = some r ∨ .closed r.id ∈ evs ∨ (lastResponse evs = some r ∧ r.status ≠ 200 ∧ res.1 = none)
  numbered : ∀ k r, evs[k]? = some (.opened r) → r.id = tr.length + k
  bodies : ∀ q, .sent q ∈ evs → q.body = body ∨ q.body = []
  wrote : ∀ w ∈ written evs, ∃ u, net.parseURL url = some u ∧
    w <+: toBytes (discoverHeaders (if u.path = [] then ['/'] else u.path) u.hostname body.length) ++ body

theorem raw_nothing (net : Net) (url : Str) (body : List UInt8) (tr : Trace) (e : Err) : RawEffect net url body tr (none, some e) [] := by
  constructor <;> simp [Spec.posts, lastResponse, responses, Spec.written]

theorem hasPrefix_prefix {p s : Str} : hasPrefix p s = true ↔ p <+: s := by
  unfold hasPrefix; exact List.isPrefixOf_iff_prefix

theorem posts_effect {body : List UInt8} {req : HttpRequest} {tr evs : Trace} {res : Option HttpResponse}
    (h : HttpEffect body req tr res evs)
    (h0 : req.hop = 0) : posts evs = [req] := by
  obtain ⟨⟨more, h1, h2, h3⟩, -, -, -, -, -, -⟩ := h
  subst h1
  have : posts more = [] := by
    unfold Spec.posts
    rw [List.filterMap_eq_nil_iff]
    intro e he
    cases e with
    | sent q => have := h2 q he; simp only; rw [if_neg (by omega)]
    | _ => rfl
  show posts ([Event.sent req] ++ more) = [req]
  rw [posts_append, this]
  simp [Spec.posts, h0]

theorem post_effect (net : Net) (hc : HttpClient) (url : Str) (headers : List (String × Str)) (cookies : List (Str × Str))
    (body : List UInt8) (tr : Trace) (hs : "https://".toList <+: url) :
    ∃ evs, (post net hc url headers cookies body tr).2 = tr ++ evs ∧
      RawEffect net url body tr (post net hc url headers cookies body tr).1 evs ∧
      (∀ r, .opened r ∈ evs → (post net hc url headers cookies body tr).1.1 = some r ∨ .closed r.id ∈ evs) ∧
      (((post net hc url headers cookies body tr).1.1 = none ∧ net.parseURL url = none ∧ evs = []) ∨
        (net.parseURL url ≠ none ∧ posts evs = [⟨"POST", url, headers, cookies, body, 0⟩])) := by
  rcases post_cases net hc url headers cookies body tr with ⟨hu, e, h⟩ | ⟨res, evs, hu, he, h⟩
  · rw [h]; exact ⟨[], by simp, raw_nothing .., by simp, .inl ⟨rfl, hu, rfl⟩⟩
  · have hp := posts_effect he rfl
    obtain ⟨⟨more, h1, h2, h3⟩, h4, h5, h6, h7, h8, h9⟩ := he
    have h10 : ∀ w ∈ written evs, ∃ u, net.parseURL url = some u ∧
        w <+: toBytes (discoverHeaders (if u.path = [] then ['/'] else u.path) u.hostname body.length) ++ body := by
      rw [h4]; simp
    have hsent : ∀ q, .sent q ∈ evs → (q.hop = 0 ∧ q.url = url ∧ q.body = body) ∨ ∃ r, .opened r ∈ evs ∧ Redirecting r := by
      intro q hq
      have hq' := hq
      rw [h1] at hq'
      simp only [List.mem_cons, Event.sent.injEq] at hq'
      rcases hq' with rfl | hq'
      · exact .inl ⟨rfl, rfl, rfl⟩
      · exact .inr (h3 q hq')
    rcases h with ⟨hn, e, h⟩ | ⟨resp, hr, h⟩
    · subst hn
      rw [h]
      refine ⟨evs, rfl, ⟨fun _ => hs, .inr ⟨_, _, hp⟩, hsent, ?_, ?_, ?_, ?_, h8, h9, h10⟩, ?_, .inr ⟨hu, hp⟩⟩
      · intro h; cases h
      · intro _ h; cases h
      · intro _ h; cases h
      · intro r hr
        rcases h7 r hr with h | h
        · cases h
        · exact .inr (.inl h)
      · intro r hr
        rcases h7 r hr with h | h
        · cases h
        · exact .inr h
    · subst hr
      rw [h]
      refine ⟨evs, rfl, ⟨fun _ => hs, .inr ⟨_, _, hp⟩, hsent, ?_, ?_, ?_, ?_, h8, h9, h10⟩, ?_, .inr ⟨hu, hp⟩⟩
      · intro h
        unfold checkStatus at h
        by_cases h200 : resp.status = 200
        · exact ⟨resp, by unfold checkStatus; rw [if_neg (by simpa using h200)], h200⟩
        · rw [if_pos h200] at h; cases h
      · intro r hr hn
        unfold checkStatus at hr hn
        by_cases h200 : resp.status = 200
        · rw [if_neg (by simpa using h200)] at hn; exact absurd rfl hn
        · rw [if_pos h200] at hr; cases hr; exact h200
      · intro r hr
        unfold checkStatus at hr
        by_cases h200 : resp.status = 200
        · rw [if_neg (by simpa using h200)] at hr; cases hr; exact h6 _ rfl
        · rw [if_pos h200] at hr; cases hr; exact h6 _ rfl
      · intro r hr
        rcases h7 r hr with h | h
        · left
          cases h
          unfold checkStatus
          by_cases h200 : resp.status = 200
          · rw [if_neg (by simpa using h200)]
          · rw [if_pos h200]
        · exact .inr (.inl h)
      · intro r hr
        rcases h7 r hr with h | h
        · left
          cases h
          unfold checkStatus
          by_cases h200 : resp.status = 200
          · rw [if_neg (by simpa using h200)]
          · rw [if_pos h200]
        · exact .inr h

theorem discover_effect (net : Net) (url : Str) (body : List UInt8) (tr : Trace) (hs : "https://".toList <+: url) :
    ∃ evs, (discoverRawRequest net url body tr).2 = tr ++ evs ∧
      RawEffect net url body tr (discoverRawRequest net url body tr).1 evs ∧ posts evs = [] := by
  rcases discover_cases net url body tr with ⟨e, h⟩ | ⟨u, host, hu, hh, h⟩
  · rw [h]; exact ⟨[], by simp, raw_nothing .., rfl⟩
  rcases h with ⟨e, h⟩ | ⟨w, hw, h⟩
  · rw [h]
    refine ⟨_, rfl, ?_, rfl⟩
    constructor
    · exact fun _ => hs
    · exact .inl rfl
    · simp
    · simp
    · simp
    · simp
    · simp
    · intro k r hk
      match k with
      | 0 => cases hk
      | k + 1 => cases hk
    · simp
    · simp [Spec.written]
  have hwr : ∀ evs : Trace, written evs = [w] → ∀ w ∈ written evs, ∃ u, net.parseURL url = some u ∧
      w <+: toBytes (discoverHeaders (if u.path = [] then ['/'] else u.path) u.hostname body.length) ++ body := by
    intro evs he w' hw'
    rw [he, List.mem_singleton] at hw'
    subst hw'
    exact ⟨u, hu, hw⟩
  rcases h with ⟨e, h⟩ | ⟨resp, hid, hfull, htr, h⟩
  · rw [h]
    refine ⟨_, rfl, ?_, rfl⟩
    constructor
    · exact fun _ => hs
    · exact .inl rfl
    · simp
    · simp
    · simp
    · simp
    · simp
    · intro k r hk
      match k with
      | 0 => cases hk
      | 1 => cases hk
      | k + 2 => cases hk
    · simp
    · exact hwr _ rfl
  refine ⟨_, htr, ?_, rfl⟩
  have hl : lastResponse [Event.dialed host, .wrote host w, .opened resp] = some resp := rfl
  have hnum : ∀ (k : Nat) (r : HttpResponse),
      [Event.dialed host, .wrote host w, .opened resp][k]? = some (.opened r) → r.id = tr.length + k := by
    intro k r hk
    match k with
    | 0 => cases hk
    | 1 => cases hk
    | 2 => cases hk; exact hid
    | k + 3 => cases hk
  rcases h with ⟨h200, e, h⟩ | ⟨h200, h⟩
  · rw [h]
    refine ⟨fun _ => hs, .inl rfl, by simp, by simp, by simp, by simp, ?_, hnum, by simp, hwr _ rfl⟩
    intro r hr
    simp only [List.mem_cons, reduceCtorEq, false_or, Event.opened.injEq, List.not_mem_nil, or_false] at hr
    subst hr
    exact .inr (.inr ⟨hl, h200, rfl⟩)
  · rw [h]
    refine ⟨fun _ => hs, .inl rfl, by simp, ?_, by simp, ?_, ?_, hnum, by simp, hwr _ rfl⟩
    · intro _; exact ⟨resp, rfl, h200⟩
    · intro r hr; cases hr; exact hl
    · intro r hr
      simp only [List.mem_cons, reduceCtorEq, false_or, Event.opened.injEq, List.not_mem_nil, or_false] at hr
      subst hr
      exact .inl rfl

/-- What RawRequest does. -/
theorem raw_effect (net : Net) (c : Client) (url : Str) (body : List UInt8) (tr : Trace) :
    ∃ evs, (c.rawRequest net url body tr).2 = tr ++ evs ∧ RawEffect net url body tr (c.rawRequest net url body tr).1 evs := by
  by_cases hs : hasPrefix "https://".toList url = true
  · have hp := hasPrefix_prefix.mp hs
    cases c with
    | basic bc =>
      unfold Client.rawRequest BasicClient.rawRequest
      simp only
      rw [if_neg (by simpa using hs)]
      obtain ⟨evs, h1, h2, -⟩ := post_effect net (bc.HTTPClient.getD defaultHttpClient) url
        ([contentType, ("Accept", "*/*, application/x-ofx".toList)] ++ bc.userAgentHeader) [] body tr hp
      exact ⟨evs, h1, h2⟩
    | discover bc =>
      obtain ⟨evs, h1, h2, -⟩ := discover_effect net url body tr hp
      exact ⟨evs, h1, h2⟩
    | vanguard bc =>
      unfold Client.rawRequest vanguardRawRequest
      simp only
      rw [if_neg (by simpa using hs)]
      obtain ⟨evs, h1, h2, -⟩ := post_effect net defaultHttpClient url (contentType :: bc.userAgentHeader) [] body tr hp
      exact ⟨evs, h1, h2⟩
  · refine ⟨[], ?_, ?_⟩ <;> cases c <;>
      simp only [Client.rawRequest, BasicClient.rawRequest, discoverRawRequest, vanguardRawRequest] <;>
      rw [if_pos (by simpa using hs)] <;> first | exact raw_nothing .. | simp

/-- The first request of the Vanguard client and those of the basic client: a response is
either returned or closed, and one post is made if there is any response. -/
theorem first_effect (net : Net) (c : Client) (url : Str) (body : List UInt8) (tr : Trace) (hc : ∀ bc, c ≠ .discover bc) :
    ∃ evs, (c.rawRequest net url body tr).2 = tr ++ evs ∧ RawEffect net url body tr (c.rawRequest net url body tr).1 evs ∧
      (∀ r, .opened r ∈ evs → (c.rawRequest net url body tr).1.1 = some r ∨ .closed r.id ∈ evs) ∧
      (((c.rawRequest net url body tr).1.1 = none ∧ evs = []) ∨
        (net.parseURL url ≠ none ∧ "https://".toList <+: url ∧ ∃ hs, posts evs = [⟨"POST", url, hs, [], body, 0⟩])) := by
  by_cases hs : hasPrefix "https://".toList url = true
  · have hp := hasPrefix_prefix.mp hs
    have key : ∀ hc hs, c.rawRequest net url body tr = post net hc url hs [] body tr →
        ∃ evs, (c.rawRequest net url body tr).2 = tr ++ evs ∧ RawEffect net url body tr (c.rawRequest net url body tr).1 evs ∧
          (∀ r, .opened r ∈ evs → (c.rawRequest net url body tr).1.1 = some r ∨ .closed r.id ∈ evs) ∧
          (((c.rawRequest net url body tr).1.1 = none ∧ evs = []) ∨
            (net.parseURL url ≠ none ∧ "https://".toList <+: url ∧ ∃ hs, posts evs = [⟨"POST", url, hs, [], body, 0⟩])) := by
      intro hc hs h
      rw [h]
      obtain ⟨evs, h1, h2, h3, h4⟩ := post_effect net hc url hs [] body tr hp
      refine ⟨evs, h1, h2, h3, ?_⟩
      rcases h4 with ⟨h5, -, h6⟩ | ⟨h5, h6⟩
      · exact .inl ⟨h5, h6⟩
      · exact .inr ⟨h5, hp, hs, h6⟩
    cases c with
    | basic bc =>
      refine key (bc.HTTPClient.getD defaultHttpClient)
        ([contentType, ("Accept", "*/*, application/x-ofx".toList)] ++ bc.userAgentHeader) ?_
      unfold Client.rawRequest BasicClient.rawRequest
      simp only
      rw [if_neg (by simpa using hs)]
    | discover bc => exact absurd rfl (hc bc)
    | vanguard bc =>
      refine key defaultHttpClient (contentType :: bc.userAgentHeader) ?_
      unfold Client.rawRequest vanguardRawRequest
      simp only
      rw [if_neg (by simpa using hs)]
  · have h : ∃ e, c.rawRequest net url body tr = ((none, some e), tr) := by
      cases c <;> simp only [Client.rawRequest, BasicClient.rawRequest, discoverRawRequest, vanguardRawRequest] <;>
        rw [if_pos (by simpa using hs)] <;> exact ⟨_, rfl⟩
    obtain ⟨e, h⟩ := h
    rw [h]
    exact ⟨[], by simp, raw_nothing .., by simp, .inl ⟨rfl, rfl⟩⟩

/-- What the second request of the Vanguard client does. -/
theorem retry_effect (net : Net) (url : Str) (body : List UInt8) (cookies : List (Str × Str)) (tr : Trace) :
    ∃ evs, (vanguardRetry net url body cookies tr).2 = tr ++ evs ∧
      RawEffect net url body tr (vanguardRetry net url body cookies tr).1 evs ∧
      (∀ q ∈ posts evs, q.cookies = cookies) ∧
      ("https://".toList <+: url → net.parseURL url ≠ none → (posts evs).length = 1) ∧
      ((vanguardRetry net url body cookies tr).1.2 ≠ none → (vanguardRetry net url body cookies tr).1.1 = none) := by
  unfold vanguardRetry
  by_cases hs : hasPrefix "https://".toList url = true
  · have hp := hasPrefix_prefix.mp hs
    rw [if_neg (by simpa using hs)]
    obtain ⟨evs, h1, h2, -, h3⟩ := post_effect net defaultHttpClient url [contentType] cookies body tr hp
    revert h1 h2
    generalize post net defaultHttpClient url [contentType] cookies body tr = x
    intro h1 h2
    have h3' : ∀ q ∈ posts evs, q.cookies = cookies := by
      intro q hq
      rcases h3 with ⟨-, -, h3⟩ | ⟨-, h3⟩ <;> rw [h3] at hq
      · cases hq
      · rw [List.mem_singleton] at hq; rw [hq]
    have h4 : "https://".toList <+: url → net.parseURL url ≠ none → (posts evs).length = 1 := by
      intro _ hu
      rcases h3 with ⟨-, h3, -⟩ | ⟨-, h3⟩
      · exact absurd h3 hu
      · rw [h3]; rfl
    obtain ⟨⟨res, err⟩, tr'⟩ := x
    obtain ⟨a1, a2, a3, a4, a5, a6, a7, a8, a9, a10⟩ := h2
    cases err with
    | some e =>
      refine ⟨evs, h1, ⟨a1, a2, a3, by simp, by simp, by simp, ?_, a8, a9, a10⟩, h3', h4, fun _ => rfl⟩
      intro r hr
      rcases a7 r hr with h | h | h
      · exact .inr (.inr ⟨a6 r h, a5 r h (by simp), rfl⟩)
      · exact .inr (.inl h)
      · exact .inr (.inr ⟨h.1, h.2.1, rfl⟩)
    | none => exact ⟨evs, h1, ⟨a1, a2, a3, a4, a5, a6, a7, a8, a9, a10⟩, h3', h4, fun h => absurd rfl h⟩
  · rw [if_pos (by simpa using hs)]
    exact ⟨[], by simp, raw_nothing .., by simp [Spec.posts], fun h => absurd (hasPrefix_prefix.mpr h) hs, fun _ => rfl⟩

theorem marshal_url (r : Request Message) : r.marshal.2.url = r.url := by
  unfold Request.marshal
  generalize r.signon.valid r.version = x
  obtain ⟨e, so⟩ := x
  cases e with
  | some e => rfl
  | none =>
    simp only
    cases encodeAs "SONRQ".toList so with
    | error e => rfl
    | ok ns =>
      simp only
      generalize encodeSets r.version .rq MsgSet.lists r.sets = y
      obtain ⟨z, f⟩ := y
      cases z <;> rfl

theorem leaf_enc (l : Leaf) (name : Str) (om : Bool) (v : (Ty.leaf l).Den) : ∃ ns, (Ty.leaf l).enc name om v = .ok ns := by
  simp only [Ty.enc]
  by_cases h : (om && l.isEmpty v) = true
  · rw [if_pos h]; exact ⟨_, rfl⟩
  · rw [if_neg h]
    cases l.print v with
    | none => exact ⟨_, rfl⟩
    | some s => exact ⟨_, rfl⟩

theorem struct_enc {n : Str} {fs : Fields} {name : Str} {om : Bool} (v : (Ty.struct (.tag n) fs).Den) {items : List Item}
    (h : fs.enc v.2 = .ok items) : (Ty.struct (.tag n) fs).enc name om v = .ok [.elem n (emit fs.depth items)] := by
  simp only [Ty.enc]
  rw [h]
  rfl

/-- The SONRQ element. -/
theorem sonrq_children (so : SignonRequest) : ∃ fields more, encodeAs "SONRQ".toList so = .ok [.elem "SONRQ".toList
    (textNode "DTCLIENT".toList (Date.marshal so.DtClient) :: fields ++
      [textNode "APPID".toList so.AppID, textNode "APPVER".toList so.AppVer] ++ more)] := by
  obtain ⟨n1, h1⟩ := leaf_enc .str "USERPASS".toList true so.UserPass
  obtain ⟨n2, h2⟩ := leaf_enc .str "USERKEY".toList true so.UserKey
  obtain ⟨n3, h3⟩ := leaf_enc .bool "GENUSERKEY".toList true so.GenUserKey
  obtain ⟨n4, h4⟩ := leaf_enc .uid "CLIENTUID".toList true so.ClientUID
  have e : SignonRequest.fields.enc (SignonRequest.toDen so).2 = .ok
      [⟨[], true, [textNode "DTCLIENT".toList (Date.marshal so.DtClient)]⟩, ⟨[], true, [textNode "USERID".toList so.UserID]⟩,
       ⟨[], true, n1⟩, ⟨[], true, n2⟩, ⟨[], true, n3⟩, ⟨[], true, [textNode "LANGUAGE".toList so.Language]⟩,
       ⟨["FI".toList], true, [textNode "ORG".toList so.Org]⟩, ⟨["FI".toList], true, [textNode "FID".toList so.Fid]⟩,
       ⟨[], true, [textNode "APPID".toList so.AppID]⟩, ⟨[], true, [textNode "APPVER".toList so.AppVer]⟩, ⟨[], true, n4⟩] := by
    unfold SignonRequest.fields SignonRequest.toDen
    simp only [Fields.enc]
    erw [h1, h2, h3, h4]
    rfl
  refine ⟨[textNode "USERID".toList so.UserID] ++ n1 ++ n2 ++ n3 ++ [textNode "LANGUAGE".toList so.Language,
    .elem "FI".toList [textNode "ORG".toList so.Org, textNode "FID".toList so.Fid]], n4, ?_⟩
  refine (struct_enc (SignonRequest.toDen so) e).trans ?_
  have hd : SignonRequest.fields.depth = 1 := by decide
  rw [hd]
  simp [emit, emitGo, closeGroup]

theorem signon_kept (v : Nat) (so : SignonRequest) : (so.valid v).2.DtClient = so.DtClient ∧ (so.valid v).2.AppID = so.AppID ∧
    (so.valid v).2.AppVer = so.AppVer := by
  unfold SignonRequest.valid
  split_ifs <;> simp_all

/-- Whether the Vanguard client tries again after this response. -/
def Retries (c : Client) (resp : HttpResponse) : Prop :=
  (∃ bc, c = .vanguard bc) ∧ resp.contentLength ≤ 0 ∧ resp.cookies ≠ []

/-- What RequestNoParse does. -/
theorem noParse_cases (net : Net) (c : Client) (r : Request Message) (tr : Trace) :
    (∃ e, (r.setClientFields net.now c.bc).marshal.1 = .error e ∧
      c.requestNoParse net r tr = ((none, some e), (r.setClientFields net.now c.bc).marshal.2, tr)) ∨
    ∃ d, (r.setClientFields net.now c.bc).marshal.1 = .ok d ∧
      (((∀ resp, (c.rawRequest net r.url d.bytes tr).1.1 = some resp → ¬ Retries c resp) ∧
        c.requestNoParse net r tr = ((c.rawRequest net r.url d.bytes tr).1, (r.setClientFields net.now c.bc).marshal.2,
          (c.rawRequest net r.url d.bytes tr).2)) ∨
       ∃ resp, (c.rawRequest net r.url d.bytes tr).1.1 = some resp ∧ Retries c resp ∧
        c.requestNoParse net r tr = ((vanguardRetry net r.url d.bytes resp.cookies (c.rawRequest net r.url d.bytes tr).2).1,
          (r.setClientFields net.now c.bc).marshal.2,
          (vanguardRetry net r.url d.bytes resp.cookies (c.rawRequest net r.url d.bytes tr).2).2)) := by
  have hagain := Ofx.Props.C27_marshal_again (r.setClientFields net.now c.bc)
  have hurl : (r.setClientFields net.now c.bc).marshal.2.url = r.url := marshal_url _
  unfold Client.requestNoParse
  revert hagain hurl
  generalize (r.setClientFields net.now c.bc).marshal = x
  obtain ⟨m, r'⟩ := x
  intro hagain hurl
  cases m with
  | error e => exact .inl ⟨e, rfl, rfl⟩
  | ok d =>
    right
    refine ⟨d, rfl, ?_⟩
    simp only at hagain hurl ⊢
    rw [hurl]
    generalize hx : c.rawRequest net r.url d.bytes tr = x
    obtain ⟨⟨res, err⟩, tr'⟩ := x
    cases c with
    | basic bc => exact .inl ⟨fun resp _ h => (by obtain ⟨⟨bc, h⟩, -⟩ := h; cases h), rfl⟩
    | discover bc => exact .inl ⟨fun resp _ h => (by obtain ⟨⟨bc, h⟩, -⟩ := h; cases h), rfl⟩
    | vanguard bc =>
      cases res with
      | none => exact .inl ⟨fun resp h => (by cases h), rfl⟩
      | some resp =>
        simp only
        by_cases hr : resp.contentLength ≤ 0 ∧ resp.cookies.length > 0
        · right
          refine ⟨resp, rfl, ⟨⟨bc, rfl⟩, hr.1, List.ne_nil_of_length_pos hr.2⟩, ?_⟩
          rw [if_pos hr, hagain]
          simp only
          rw [hurl]
        · left
          refine ⟨?_, by rw [if_neg hr]⟩
          intro q hq hret
          cases hq
          exact hr ⟨hret.2.1, List.length_pos_iff.mpr hret.2.2⟩

/-- What RequestNoParse adds to the trace. -/
theorem noParse_effect (net : Net) (c : Client) (r : Request Message) (tr : Trace) :
    ∃ evs, (c.requestNoParse net r tr).2.2 = tr ++ evs ∧
    ((∃ e, (r.setClientFields net.now c.bc).marshal.1 = .error e ∧ (c.requestNoParse net r tr).1 = (none, some e) ∧ evs = []) ∨
     ∃ d, (r.setClientFields net.now c.bc).marshal.1 = .ok d ∧
      ((RawEffect net r.url d.bytes tr (c.requestNoParse net r tr).1 evs ∧
        (∀ resp, (c.requestNoParse net r tr).1.1 = some resp → ¬ Retries c resp) ∧
        ((∀ bc, c ≠ .discover bc) →
          (∀ r', .opened r' ∈ evs → (c.requestNoParse net r tr).1.1 = some r' ∨ .closed r'.id ∈ evs) ∧
          ∀ q ∈ posts evs, q.cookies = [])) ∨
       ∃ resp err e1 e2, evs = e1 ++ e2 ∧ Retries c resp ∧ RawEffect net r.url d.bytes tr (some resp, err) e1 ∧
        RawEffect net r.url d.bytes (tr ++ e1) (c.requestNoParse net r tr).1 e2 ∧
        (∃ hs hs', posts e1 = [⟨"POST", r.url, hs, [], d.bytes, 0⟩] ∧
          posts e2 = [⟨"POST", r.url, hs', resp.cookies, d.bytes, 0⟩]) ∧
        ((c.requestNoParse net r tr).1.2 ≠ none → (c.requestNoParse net r tr).1.1 = none))) := by
  rcases noParse_cases net c r tr with ⟨e, hm, h⟩ | ⟨d, hm, h⟩
  · rw [h]; exact ⟨[], by simp, .inl ⟨e, hm, rfl, rfl⟩⟩
  · rcases h with ⟨hr, h⟩ | ⟨resp, h1, hr, h⟩
    · rw [h]
      by_cases hc : ∃ bc, c = .discover bc
      · obtain ⟨evs, he, hE⟩ := raw_effect net c r.url d.bytes tr
        refine ⟨evs, he, .inr ⟨d, hm, .inl ⟨hE, hr, ?_⟩⟩⟩
        intro hn
        obtain ⟨bc, hc⟩ := hc
        exact absurd hc (hn bc)
      · obtain ⟨evs, he, hE, hcl, hp⟩ := first_effect net c r.url d.bytes tr (fun bc hb => hc ⟨bc, hb⟩)
        refine ⟨evs, he, .inr ⟨d, hm, .inl ⟨hE, hr, ?_⟩⟩⟩
        intro _
        refine ⟨hcl, ?_⟩
        rcases hp with ⟨-, rfl⟩ | ⟨-, -, hs, hp⟩
        · intro q hq; cases hq
        · intro q hq
          rw [hp, List.mem_singleton] at hq
          rw [hq]
    · rw [h]
      have hc : ∀ bc, c ≠ .discover bc := by
        obtain ⟨⟨bc, rfl⟩, -⟩ := hr
        intro bc h; cases h
      obtain ⟨e1, he1, hE1, -, hp1⟩ := first_effect net c r.url d.bytes tr hc
      rcases hp1 with ⟨hn, -⟩ | ⟨hu, hs, hs1, hp1⟩
      · rw [hn] at h1; cases h1
      obtain ⟨e2, he2, hE2, hp2, hl2, hn2⟩ := retry_effect net r.url d.bytes resp.cookies (tr ++ e1)
      rw [he1]
      refine ⟨e1 ++ e2, by rw [he2, List.append_assoc], .inr ⟨d, hm, .inr ⟨resp, (c.rawRequest net r.url d.bytes tr).1.2,
        e1, e2, rfl, hr, ?_, hE2, ⟨hs1, ?_⟩, hn2⟩⟩⟩
      · rw [← h1]; exact hE1
      · have hl := hl2 hs hu
        rcases hE2.posts with h0 | ⟨hs', cs, h0⟩
        · rw [h0] at hl; cases hl
        · refine ⟨hs', hp1, ?_⟩
          have := hp2 _ (by rw [h0]; exact List.mem_singleton_self _)
          simp only at this
          rw [h0, this]

end Ofx
