import Verif.Model.Client
/-
A server that answers what is posted to it.
-/
namespace Ofx.Spec
open Ofx

/-- At this URL there is a server that answers the document, however it is posted, with `raw`,
whatever happened before: with HTTP requests or with bytes written to a connection that end in
the document. -/
structure Serves (net : Net) (url : Str) (doc : List UInt8) (raw : RawResponse) : Prop where
  known : ∃ u, net.parseURL url = some u
  http : ∀ tr q, q.method = "POST" → q.url = url → q.body = doc → net.transport tr q = some raw
  connection : ∀ tr host, ∃ conn, net.dial tr host = some conn ∧ conn.limit = none ∧
    ∀ bytes, doc <:+ bytes → conn.answer bytes = some raw

/-- At this URL there is a server that first gives cookies, with an answer without content, and
answers the document only when it is posted again with them. -/
structure ServesAfterCookies (net : Net) (url : Str) (doc : List UInt8) (first raw : RawResponse) : Prop where
  known : ∃ u, net.parseURL url = some u
  cookies : first.cookies ≠ [] ∧ first.contentLength ≤ 0 ∧ first.location = []
  before : ∀ tr q, q.method = "POST" → q.url = url → q.body = doc → q.cookies = [] → net.transport tr q = some first
  after : ∀ tr q, q.method = "POST" → q.url = url → q.body = doc → q.cookies = first.cookies → net.transport tr q = some raw

/-- The responses say the same: version, signon and the messages of all sets. -/
def SameResponse (a b : Response Message) : Prop :=
  a.version = b.version ∧ a.signon = b.signon ∧ ∀ s, s ≠ .signon → a.sets s = b.sets s

end Ofx.Spec
