import Verif.Lemmas.Reuse
import Verif.Spec.Reuse
import Verif.Props.Client
/-
Property C67 (using a request again) and the part of C27 about responses.
-/
namespace Ofx.Props
open Ofx Ofx.Spec

/-! ### C67 a request may be used again -/

theorem requestNoParse_left (net : Net) (c : Client) (r : Request Message) (tr : Trace) :
    ReqSame r (c.requestNoParse net r tr).2.1 := by
  have h1 := (reqSame_fields net.now c.bc r).trans (reqSame_marshal (r.setClientFields net.now c.bc))
  unfold Client.requestNoParse
  cases hm : (r.setClientFields net.now c.bc).marshal with
  | mk res q =>
  rw [hm] at h1
  cases res with
  | error e => exact h1
  | ok d =>
    simp only
    cases hr : c.rawRequest net q.url d.bytes tr with
    | mk res tr2 =>
    cases c with
    | basic bc => exact h1
    | discover bc => exact h1
    | vanguard bc =>
      simp only
      cases res.1 with
      | none => exact h1
      | some resp =>
        simp only
        by_cases hc : resp.contentLength ≤ 0 ∧ resp.cookies.length > 0
        · rw [if_pos hc]
          have h2 := h1.trans (reqSame_marshal q)
          cases hq : q.marshal with
          | mk res2 q2 =>
          rw [hq] at h2
          cases res2 <;> exact h2
        · rw [if_neg hc]; exact h1

theorem request_left (env : Env) (nt : NameTable) (net : Net) (c : Client) (r : Request Message) (tr : Trace) :
    (c.request env nt net r tr).2.1 = (c.requestNoParse net r tr).2.1 := by
  unfold Client.request
  rcases c.requestNoParse net r tr with ⟨⟨resp, e⟩, q, tr2⟩
  cases e with
  | some e => rfl
  | none =>
    cases resp with
    | none => rfl
    | some resp =>
      simp only
      rcases parseResponse env nt resp.body with ⟨res, e⟩
      cases e <;> rfl

theorem used_same {r r' : Request Message} (h : Used r r') : ReqSame r r' := by
  induction h with
  | fresh => exact ⟨rfl, ⟨r.signon.DtClient, r.signon.AppID, r.signon.AppVer, .inl rfl⟩, SetsSame.refl _⟩
  | setClientFields now c _ ih => exact ih.trans (reqSame_fields now c _)
  | marshal _ ih => exact ih.trans (reqSame_marshal _)
  | sentNoParse net c tr _ ih => exact ih.trans (requestNoParse_left net c _ tr)
  | sent env nt net c tr _ ih => rw [request_left]; exact ih.trans (requestNoParse_left net c _ tr)

/-- C67: the document a client makes of a request (or the error) does not depend on what the
request was used for before. -/
theorem C67_document {r r' : Request Message} (h : Used r r') (now : GoTime) (c : BasicClient) :
    (r'.setClientFields now c).marshal.1 = (r.setClientFields now c).marshal.1 :=
  marshal_same (used_same h) now c

/-- C67: sending a request that was used before, with whatever clients, does and returns
what sending it for the first time does: the same bytes to the same servers in the same order,
and the same response or error. -/
theorem C67_send {r r' : Request Message} (h : Used r r') (net : Net) (c : Client) (tr : Trace) :
    (c.requestNoParse net r' tr).1 = (c.requestNoParse net r tr).1 ∧
    (c.requestNoParse net r' tr).2.2 = (c.requestNoParse net r tr).2.2 := by
  have hs := used_same h
  have h0 := marshal_same hs net.now c.bc
  have ha := C27_marshal_again (r.setClientFields net.now c.bc)
  have ha' := C27_marshal_again (r'.setClientFields net.now c.bc)
  have hu := (reqSame_marshal (r.setClientFields net.now c.bc)).1
  have hu' := (reqSame_marshal (r'.setClientFields net.now c.bc)).1
  have hu0 : (r'.setClientFields net.now c.bc).url = (r.setClientFields net.now c.bc).url := hs.1
  unfold Client.requestNoParse
  cases hm : (r.setClientFields net.now c.bc).marshal with
  | mk res q =>
  cases hm' : (r'.setClientFields net.now c.bc).marshal with
  | mk res' q' =>
  rw [hm] at ha hu
  rw [hm'] at ha' hu'
  rw [hm, hm'] at h0
  simp only at h0 ha ha' hu hu'
  subst h0
  cases res' with
  | error e => exact ⟨rfl, rfl⟩
  | ok d =>
    simp only
    rw [hu', hu0, ← hu]
    cases hr : c.rawRequest net q.url d.bytes tr with
    | mk res tr2 =>
    cases c with
    | basic bc => exact ⟨rfl, rfl⟩
    | discover bc => exact ⟨rfl, rfl⟩
    | vanguard bc =>
      simp only
      cases res.1 with
      | none => exact ⟨rfl, rfl⟩
      | some resp =>
        simp only
        by_cases hc : resp.contentLength ≤ 0 ∧ resp.cookies.length > 0
        · rw [if_pos hc, if_pos hc, ha, ha']
          simp only
          have : q'.url = q.url := by rw [hu', hu0, ← hu]
          rw [this]
          exact ⟨rfl, rfl⟩
        · rw [if_neg hc, if_neg hc]; exact ⟨rfl, rfl⟩

/-- C67: the same for `Request`, which also parses the response. -/
theorem C67_request {r r' : Request Message} (h : Used r r') (env : Env) (nt : NameTable) (net : Net) (c : Client) (tr : Trace) :
    (c.request env nt net r' tr).1 = (c.request env nt net r tr).1 ∧
    (c.request env nt net r' tr).2.2 = (c.request env nt net r tr).2.2 := by
  obtain ⟨h1, h2⟩ := C67_send h net c tr
  unfold Client.request
  generalize c.requestNoParse net r tr = a at h1 h2 ⊢
  generalize c.requestNoParse net r' tr = b at h1 h2 ⊢
  obtain ⟨⟨resp, e⟩, q, tr2⟩ := a
  obtain ⟨⟨resp', e'⟩, q', tr2'⟩ := b
  simp only at h1 h2
  cases h1
  subst h2
  cases e with
  | some e => exact ⟨rfl, rfl⟩
  | none =>
    cases resp with
    | none => exact ⟨rfl, rfl⟩
    | some resp =>
      simp only
      rcases parseResponse env nt resp.body with ⟨res, e⟩
      cases e <;> exact ⟨rfl, rfl⟩

/-- C67: what the caller put into the request stays as it was: its destination, and the
credentials and addressing of its login data. -/
theorem C67_left {r r' : Request Message} (h : Used r r') :
    r'.url = r.url ∧ r'.signon.UserID = r.signon.UserID ∧ r'.signon.UserPass = r.signon.UserPass ∧
    r'.signon.UserKey = r.signon.UserKey ∧ r'.signon.GenUserKey = r.signon.GenUserKey ∧
    r'.signon.Org = r.signon.Org ∧ r'.signon.Fid = r.signon.Fid ∧ r'.signon.ClientUID = r.signon.ClientUID ∧
    (r'.signon.Language = r.signon.Language ∨ r.signon.Language = [] ∧ r'.signon.Language = "ENG".toList) ∧
    ∀ s, (r'.sets s).length = (r.sets s).length := by
  obtain ⟨h1, ⟨d, i, v, h2⟩, h3⟩ := used_same h
  refine ⟨h1, ?_⟩
  rcases h2 with h2 | ⟨h0, h2⟩ <;> rw [h2]
  · exact ⟨rfl, rfl, rfl, rfl, rfl, rfl, rfl, .inl rfl, fun s => (h3 s).length_eq.symm⟩
  · exact ⟨rfl, rfl, rfl, rfl, rfl, rfl, rfl, .inr ⟨h0, rfl⟩, fun s => (h3 s).length_eq.symm⟩

/-- A request sent by Vanguard's client and then marshalled, is a used request. -/
example (net : Net) (tr : Trace) :
    Used sampleRequest ((Client.vanguard sampleClient).requestNoParse net sampleRequest tr).2.1.marshal.2 :=
  .marshal (.sentNoParse net _ tr .fresh)

/-- Sending it after that still gives a document. -/
example (net : Net) (tr : Trace) (now : GoTime) :
    ∃ d, ((((Client.vanguard sampleClient).requestNoParse net sampleRequest tr).2.1.marshal.2).setClientFields now
      sampleClient).marshal.1 = .ok d := by
  rw [C67_document (r := sampleRequest) (.marshal (.sentNoParse net _ tr .fresh))]
  exact sampleClient_ok now

/-! ### C27 marshalling a response again -/

/-- C27: marshalling a response does not change what marshalling it again gives, nor the response any
further. -/
theorem C27_response_again (r : Response Message) : r.marshal.2.marshal = r.marshal := by
  have h2 := encodeSets_again r.version MsgType.rs MsgSet.lists MsgSet.lists_nodup r.sets
  cases h1 : r.signon.valid r.version with
  | some e =>
    have h3 : r.marshal = (.error (.plain e), r) := by simp [Response.marshal, h1]
    rw [h3]; exact h3
  | none =>
    cases h3 : encodeAs "SONRS".toList r.signon with
    | error e =>
      have h5 : r.marshal = (.error (.plain e), r) := by simp only [Response.marshal, h1, h3]
      rw [h5]; exact h5
    | ok cs =>
      cases h4 : encodeSets r.version .rs MsgSet.lists r.sets with
      | mk res f =>
      rw [h4] at h2
      simp only at h2
      cases res with
      | error e =>
        have h5 : r.marshal = (.error e, { r with sets := f }) := by
          simp only [Response.marshal, h1, h3, h4]
        rw [h5]
        simp only [Response.marshal, h1, h3, h2]
      | ok rest =>
        have h5 := show r.marshal = _ by
          simp only [Response.marshal, h1, h3, h4]
          rfl
        rw [h5]
        simp only [Response.marshal, h1, h3, h2]

/-- C27: any number of earlier calls. -/
theorem C27_response_many (r : Response Message) (n : Nat) :
    ((fun q : Response Message => q.marshal.2)^[n] r).marshal.1 = r.marshal.1 := by
  induction n generalizing r with
  | zero => rfl
  | succ n ih =>
    rw [Function.iterate_succ_apply, ih, C27_response_again]

end Ofx.Props
