import Verif.Lemmas.Client
import Verif.Spec.CliDetect
/-
Requests do not pause: what a client does adds no pause to what happened.
-/
namespace Ofx
open Spec

theorem pauses_append (a b : Trace) : pauses (a ++ b) = pauses a ++ pauses b := by
  unfold pauses; exact List.filterMap_append

theorem roundTrip_pauses (net : Net) (req : HttpRequest) (tr : Trace) : pauses (roundTrip net req tr).2 = pauses tr := by
  unfold roundTrip
  cases net.transport tr req <;> simp [pauses]

theorem httpLoop_pauses (net : Net) (hc : HttpClient) (body : List UInt8) (fuel : Nat) :
    ∀ via req ib tr, pauses (httpLoop net hc body fuel via req ib tr).2 = pauses tr := by
  induction fuel with
  | zero =>
    intro via req ib tr
    unfold httpLoop
    have h := roundTrip_pauses net req tr
    generalize roundTrip net req tr = x at h
    obtain ⟨_ | resp, tr'⟩ := x
    · exact h
    simp only at h ⊢
    cases redirectBehavior req.method resp.status with
    | none => exact h
    | some x =>
      obtain ⟨method, again⟩ := x
      simp only
      by_cases hl : resp.location = []
      · rw [if_pos hl]; exact h
      rw [if_neg hl]
      cases net.resolve req.url resp.location with
      | none => simpa [pauses_append, pauses] using h
      | some u =>
        simp only
        cases hc.check ⟨method, u, [], [], if ib && again then body else [], req.hop + 1⟩ (via ++ [req]) with
        | useLast => exact h
        | fail => simpa [pauses_append, pauses] using h
        | follow => simpa [pauses_append, pauses] using h
  | succ fuel ih =>
    intro via req ib tr
    unfold httpLoop
    have h := roundTrip_pauses net req tr
    generalize roundTrip net req tr = x at h
    obtain ⟨_ | resp, tr'⟩ := x
    · exact h
    simp only at h ⊢
    cases redirectBehavior req.method resp.status with
    | none => exact h
    | some x =>
      obtain ⟨method, again⟩ := x
      simp only
      by_cases hl : resp.location = []
      · rw [if_pos hl]; exact h
      rw [if_neg hl]
      cases net.resolve req.url resp.location with
      | none => simpa [pauses_append, pauses] using h
      | some u =>
        simp only
        cases hc.check ⟨method, u, [], [], if ib && again then body else [], req.hop + 1⟩ (via ++ [req]) with
        | useLast => exact h
        | fail => simpa [pauses_append, pauses] using h
        | follow => simp only; rw [ih]; simpa [pauses_append, pauses] using h

theorem post_pauses (net : Net) (hc : HttpClient) (url : Str) (hs : List (String × Str)) (cs : List (Str × Str))
    (body : List UInt8) (tr : Trace) : pauses (post net hc url hs cs body tr).2 = pauses tr := by
  unfold post
  cases net.parseURL url with
  | none => rfl
  | some _ =>
    simp only
    have h : pauses (httpDo net hc ⟨"POST", url, hs, cs, body, 0⟩ tr).2 = pauses tr := httpLoop_pauses ..
    generalize httpDo net hc ⟨"POST", url, hs, cs, body, 0⟩ tr = x at h
    obtain ⟨_ | resp, tr'⟩ := x <;> exact h

theorem discoverPost_pauses (net : Net) (url : Str) (body : List UInt8) (tr : Trace) :
    pauses (discoverPost net url body tr).2 = pauses tr := by
  unfold discoverPost
  cases net.parseURL url with
  | none => rfl
  | some u =>
    simp only
    generalize (if u.port = [] then u.host ++ ":443".toList else u.host) = host
    cases net.dial tr host with
    | none => simp [pauses_append, pauses]
    | some conn =>
      simp only
      generalize (if u.path = [] then ['/'] else u.path) = path
      by_cases hb : body ≠ [] ∧ (conn.transmits (toBytes (discoverHeaders path u.hostname body.length) ++ body)).length <
          (toBytes (discoverHeaders path u.hostname body.length)).length + body.length
      · rw [if_pos hb]; simp [pauses]
      · rw [if_neg hb]
        cases conn.answer (conn.transmits (toBytes (discoverHeaders path u.hostname body.length) ++ body)) <;> simp [pauses]

theorem raw_pauses (net : Net) (c : Client) (url : Str) (body : List UInt8) (tr : Trace) :
    pauses (c.rawRequest net url body tr).2 = pauses tr := by
  cases c with
  | basic bc =>
    show pauses (bc.rawRequest net url body tr).2 = _
    unfold BasicClient.rawRequest
    split
    · rfl
    · exact post_pauses ..
  | discover bc =>
    show pauses (discoverRawRequest net url body tr).2 = _
    unfold discoverRawRequest
    split
    · rfl
    · have h := discoverPost_pauses net url body tr
      generalize discoverPost net url body tr = x at h
      obtain ⟨_ | resp, tr'⟩ := x
      · exact h
      · simp only
        split <;> exact h
  | vanguard bc =>
    show pauses (vanguardRawRequest net bc url body tr).2 = _
    unfold vanguardRawRequest
    split
    · rfl
    · exact post_pauses ..

theorem retry_pauses (net : Net) (url : Str) (body : List UInt8) (cs : List (Str × Str)) (tr : Trace) :
    pauses (vanguardRetry net url body cs tr).2 = pauses tr := by
  unfold vanguardRetry
  split
  · rfl
  · have h := post_pauses net defaultHttpClient url [contentType] cs body tr
    generalize post net defaultHttpClient url [contentType] cs body tr = x at h
    obtain ⟨⟨r, _ | e⟩, tr'⟩ := x <;> exact h

theorem noParse_pauses (net : Net) (c : Client) (r : Request Message) (tr : Trace) :
    pauses (c.requestNoParse net r tr).2.2 = pauses tr := by
  unfold Client.requestNoParse
  generalize (r.setClientFields net.now c.bc).marshal = x
  obtain ⟨_ | d, r'⟩ := x
  · rfl
  simp only
  have h := raw_pauses net c r'.url d.bytes tr
  generalize c.rawRequest net r'.url d.bytes tr = y at h
  obtain ⟨res, tr'⟩ := y
  cases c with
  | basic bc => exact h
  | discover bc => exact h
  | vanguard bc =>
    simp only at h ⊢
    obtain ⟨_ | resp, e⟩ := res
    · exact h
    simp only
    split
    · generalize r'.marshal = z
      obtain ⟨_ | d', r''⟩ := z
      · exact h
      · simp only
        rw [retry_pauses]; exact h
    · exact h

/-- Sending a request pauses nowhere. -/
theorem request_pauses (env : Env) (nt : NameTable) (net : Net) (c : Client) (r : Request Message) (tr : Trace) :
    pauses (c.request env nt net r tr).2.2 = pauses tr := by
  unfold Client.request
  have h := noParse_pauses net c r tr
  generalize c.requestNoParse net r tr = x at h
  obtain ⟨⟨resp, e⟩, r', tr'⟩ := x
  simp only at h
  cases e with
  | some e => exact h
  | none =>
    cases resp with
    | none => exact h
    | some resp =>
      simp only
      generalize parseResponse env nt resp.body = y
      obtain ⟨res, _ | e⟩ := y <;> simpa [pauses_append, pauses] using h

end Ofx
