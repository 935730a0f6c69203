import Verif.Spec.Cli
/-
Specification for C82: what an observer of the program sees who does not look into the documents
sent, and servers whose answers do not depend on them.
-/
namespace Ofx.Spec
open Ofx

/-- An HTTP request without its body. -/
def hideBody (q : HttpRequest) : HttpRequest := { q with body := [] }

/-- An event without the document or bytes sent. -/
def hide : Event → Event
  | .sent q => .sent (hideBody q)
  | .wrote host _ => .wrote host []
  | e => e

/-- What happened, without the documents sent. -/
def outline (tr : Trace) : Trace := tr.map hide

/-- A network that does not react to the documents sent to it, only to when and where something is
sent, with which method, headers and cookies; connections do not break. -/
structure Blind (net : Net) : Prop where
  transport : ∀ tr tr' q q', outline tr = outline tr' → hideBody q = hideBody q' → net.transport tr q = net.transport tr' q'
  dial : ∀ tr tr' host, outline tr = outline tr' → net.dial tr host = net.dial tr' host
  conn : ∀ tr host c, net.dial tr host = some c → c.limit = none ∧ ∀ b b', c.answer b = c.answer b'

/-- A policy about redirections that does not look at documents. -/
def BlindPolicy (hc : HttpClient) : Prop :=
  ∀ q q' via via', hideBody q = hideBody q' → via.map hideBody = via'.map hideBody → hc.check q via = hc.check q' via'

/-- Two passwords that are both missing, both acceptable or both too long. -/
def AlikePasswords (p p' : Str) : Prop := (p = [] ↔ p' = []) ∧ (blen p ≤ 32 ↔ blen p' ≤ 32)

/-- The request with another password. -/
def withPassword (r : Request Message) (p : Str) : Request Message := { r with signon := { r.signon with UserPass := p } }

/-- What somebody sees of a run who does not look into the documents sent: what is printed, how
it ends, the files written and the traffic. -/
def SameToObserver (a b : Ran) : Prop :=
  a.out = b.out ∧ a.fin = b.fin ∧ a.files = b.files ∧ outline a.trace = outline b.trace

/-- What the user may type when asked for the password. -/
def AlikePrompts : Option Str → Option Str → Prop
  | none, none => True
  | some p, some p' => AlikePasswords p p'
  | _, _ => False

end Ofx.Spec
