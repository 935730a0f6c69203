import Verif.Spec.Client
/-
Who may be sent a document.
-/
namespace Ofx.Spec
open Ofx

/-- The URLs a document for `url` may be sent to: that URL, and those to which a server that was sent the document
refers with status 307 or 308 (RFC 7231 6.4.7, RFC 7538): its answer directly follows. -/
inductive Entrusted (net : Net) (evs : Trace) (url : Str) : Str → Prop where
  | named : Entrusted net evs url url
  | passed {q : HttpRequest} {r : HttpResponse} {next : Str} : Entrusted net evs url q.url → q.body ≠ [] →
      [.sent q, .opened r] <:+: evs → r.status ∈ [307, 308] → net.resolve q.url r.location = some next →
      Entrusted net evs url next

end Ofx.Spec
