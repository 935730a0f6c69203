import Verif.Model.Delivery
import Verif.Props.Reader
import Verif.Props.Truncate
import Verif.Props.Client
/-
Property C69 (how the network delivers a response).
-/
namespace Ofx.Props
open Ofx Ofx.Spec

theorem requestOver_ok {env : Env} {nt : NameTable} {net : Net} {deliver : HttpResponse → Source} {c : Client} {r : Request Message}
    {tr : Trace} {res : Response Message} :
    (c.requestOver env nt net deliver r tr).1 = (some res, none) ↔
      ∃ resp, (c.requestNoParse net r tr).1 = (some resp, none) ∧
        decodeReader env nt (Bufio.new 1024 (deliver resp)) = .ok res ∧ res.valid = none := by
  unfold Client.requestOver
  rcases c.requestNoParse net r tr with ⟨⟨resp, e⟩, q, tr2⟩
  cases e with
  | some e => simp
  | none =>
    cases resp with
    | none => simp
    | some resp =>
      simp only [Prod.mk.injEq, and_true, Option.some.injEq, exists_eq_left']
      unfold parseReader
      cases decodeReader env nt (Bufio.new 1024 (deliver resp)) with
      | error e => simp
      | ok x =>
        cases hv : x.valid with
        | none =>
          simp only [hv, Prod.mk.injEq, Option.some.injEq, and_true, Except.ok.injEq]
          exact ⟨fun h => ⟨h, h ▸ hv⟩, fun h => h.1⟩
        | some e =>
          simp only [hv, Prod.mk.injEq, reduceCtorEq, and_false, Except.ok.injEq, false_iff, not_and]
          intro h; rw [← h, hv]; simp

theorem request_ok {env : Env} {nt : NameTable} {net : Net} {c : Client} {r : Request Message} {tr : Trace} {res : Response Message} :
    (c.request env nt net r tr).1 = (some res, none) ↔
      ∃ resp, (c.requestNoParse net r tr).1 = (some resp, none) ∧
        decodeResponse env nt resp.body = .ok res ∧ res.valid = none := by
  unfold Client.request
  rcases c.requestNoParse net r tr with ⟨⟨resp, e⟩, q, tr2⟩
  cases e with
  | some e => simp
  | none =>
    cases resp with
    | none => simp
    | some resp =>
      simp only [Prod.mk.injEq, and_true, Option.some.injEq, exists_eq_left']
      unfold parseResponse
      cases decodeResponse env nt resp.body with
      | error e => simp
      | ok x =>
        cases hv : x.valid with
        | none =>
          simp only [hv, Prod.mk.injEq, Option.some.injEq, and_true, Except.ok.injEq]
          exact ⟨fun h => ⟨h, h ▸ hv⟩, fun h => h.1⟩
        | some e =>
          simp only [hv, Prod.mk.injEq, reduceCtorEq, and_false, Except.ok.injEq, false_iff, not_and]
          intro h; rw [← h, hv]; simp

/-- C69: in whatever pieces a body arrives, `Request` returns the same response. -/
theorem C69_pieces (env : Env) (nt : NameTable) (net : Net) (deliver : HttpResponse → Source)
    (hd : ∀ resp, Delivers (deliver resp) resp.body) (c : Client) (r : Request Message) (tr : Trace) (res : Response Message) :
    (c.requestOver env nt net deliver r tr).1 = (some res, none) ↔ (c.request env nt net r tr).1 = (some res, none) := by
  rw [requestOver_ok, request_ok]
  constructor
  · rintro ⟨resp, h1, h2, h3⟩; exact ⟨resp, h1, (C32_chunks env nt (hd resp) res).mp h2, h3⟩
  · rintro ⟨resp, h1, h2, h3⟩; exact ⟨resp, h1, (C32_chunks env nt (hd resp) res).mpr h2, h3⟩

theorem requestOver_cases (env : Env) (nt : NameTable) (net : Net) (deliver : HttpResponse → Source) (c : Client) (r : Request Message)
    (tr : Trace) : (∃ e, (c.requestOver env nt net deliver r tr).1 = (none, some e)) ∨
      ∃ res, (c.requestOver env nt net deliver r tr).1 = (some res, none) := by
  unfold Client.requestOver
  rcases c.requestNoParse net r tr with ⟨⟨resp, e⟩, q, tr2⟩
  cases e with
  | some e => exact .inl ⟨e, rfl⟩
  | none =>
    cases resp with
    | none => exact .inl ⟨_, rfl⟩
    | some resp =>
      simp only
      unfold parseReader
      cases decodeReader env nt (Bufio.new 1024 (deliver resp)) with
      | error e => exact .inl ⟨_, rfl⟩
      | ok x =>
        cases hv : x.valid with
        | none => simp only [hv]; exact .inr ⟨x, rfl⟩
        | some e => simp only [hv]; exact .inl ⟨e, rfl⟩

/-- A document that decodes is not changed by what follows it. -/
theorem decode_prefix {env : Env} {nt : NameTable} {bs : List UInt8} {n : Nat} {r : Response Message}
    (h : decodeResponse env nt (bs.take n) = .ok r) : decodeResponse env nt bs = .ok r := by
  obtain ⟨before, tag, after, name, h1, -, -, -, h2⟩ := C34_truncated_partial env nt _ r h
  have h3 := h2 (after ++ bs.drop n)
  rwa [← List.append_assoc, ← h1, List.take_append_drop] at h3

/-- C69: if the connection breaks off, wherever in the body, in whatever pieces and with
whatever error, `Request` fails or returns what it would have returned for the whole body. -/
theorem C69_broken (env : Env) (nt : NameTable) (net : Net) (deliver : HttpResponse → Source)
    (hd : ∀ resp, ∃ n, Delivers (deliver resp) (resp.body.take n)) (c : Client) (r : Request Message) (tr : Trace) :
    (∃ e, (c.requestOver env nt net deliver r tr).1 = (none, some e)) ∨
    ∃ res, (c.requestOver env nt net deliver r tr).1 = (some res, none) ∧ (c.request env nt net r tr).1 = (some res, none) := by
  rcases requestOver_cases env nt net deliver c r tr with h | ⟨res, h⟩
  · exact .inl h
  · refine .inr ⟨res, h, ?_⟩
    obtain ⟨resp, h1, h2, h3⟩ := requestOver_ok.mp h
    obtain ⟨n, hn⟩ := hd resp
    exact request_ok.mpr ⟨resp, h1, decode_prefix ((C32_chunks env nt hn res).mp h2), h3⟩

/-- C69: if a server sends a marshalled response and the connection breaks off before its last
byte, `Request` fails. -/
theorem C69_incomplete (env : Env) (nt : NameTable) (net : Net) (deliver : HttpResponse → Source) (c : Client) (r : Request Message)
    (tr : Trace) (x : Response Message) (d : Doc) (h : x.marshal.1 = .ok d) (hv : 1 ≤ x.version ∧ x.version ≤ 11)
    (hs : CleanSignonResponse x.signon) (hm : ∀ s, s ≠ .signon → ∀ m ∈ x.sets s, CleanMessage m)
    (hb : ∀ resp, (c.requestNoParse net r tr).1 = (some resp, none) → resp.body = d.bytes)
    (k : Nat) (hk : k < d.bytes.length) (hd : ∀ resp, Delivers (deliver resp) (resp.body.take k)) :
    ∃ e, (c.requestOver env nt net deliver r tr).1 = (none, some e) := by
  rcases requestOver_cases env nt net deliver c r tr with h' | ⟨res, h'⟩
  · exact h'
  · exfalso
    obtain ⟨resp, h1, h2, h3⟩ := requestOver_ok.mp h'
    have h4 := (C32_chunks env nt (hd resp) res).mp h2
    rw [hb resp h1] at h4
    obtain ⟨e, he⟩ := C34_written env nt x d h hv hs hm k hk
    rw [he] at h4
    cases h4

/-- One byte at a time. -/
def bytewise (bs : List UInt8) : Source := bs.map (fun b => ([b], none))

theorem bytewise_delivers (bs : List UInt8) : Delivers (bytewise bs) bs := by
  refine ⟨?_, fun before piece after h _ => ?_, fun before pieces after h h' => ?_⟩
  · unfold bytewise
    induction bs with
    | nil => rfl
    | cons b bs ih => simpa using ih
  · have : piece ∈ bytewise bs := by rw [h]; simp
    obtain ⟨b, -, rfl⟩ := List.mem_map.mp this
    rfl
  · cases pieces with
    | nil => simp at h'
    | cons p ps =>
      have : p ∈ bytewise bs := by rw [h]; simp
      obtain ⟨b, -, rfl⟩ := List.mem_map.mp this
      exact ⟨_, List.mem_cons_self .., .inl (by simp)⟩

/-- A server that sends `sampleResponse`; the connection delivers single bytes and breaks off
anywhere before the end. -/
example (nt : NameTable) (now : GoTime) : ∃ d, sampleResponse.marshal.1 = .ok d ∧ ∀ k < d.bytes.length,
    ∃ e, ((Client.basic sampleClient).requestOver sampleEnv nt (constNet now ⟨200, [], 7, [], [], d.bytes⟩)
      (fun resp => bytewise (resp.body.take k)) sampleRequest []).1 = (none, some e) := by
  obtain ⟨d, hd⟩ := sampleResponse_ok
  refine ⟨d, hd, fun k hk => ?_⟩
  refine C69_incomplete sampleEnv _ _ _ _ _ [] sampleResponse d hd (by decide) sampleResponse_clean.1 sampleResponse_clean.2 ?_ k hk
    (fun resp => bytewise_delivers _)
  intro resp h
  obtain ⟨q, h1, -⟩ := constNet_basic now ⟨200, [], 7, [], [], d.bytes⟩ rfl
  rw [h1] at h
  cases h
  rfl

end Ofx.Props
