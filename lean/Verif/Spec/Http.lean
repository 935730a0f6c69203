import Verif.Spec.Client
/-
How requests are to be made over HTTP.
-/
namespace Ofx.Spec
open Ofx

/-- The requests handed to the HTTP transport, in order, those made for redirections included. -/
def sents (tr : Trace) : List HttpRequest :=
  tr.filterMap (fun e => match e with
    | .sent q => some q
    | _ => none)

/-- The values of a header. -/
def headerValues (name : String) (q : HttpRequest) : List Str := (q.headers.filter (fun h => h.1 = name)).map Prod.snd

/-- A post of a whole OFX document to a URL. -/
structure PostOf (url : Str) (document : List UInt8) (q : HttpRequest) : Prop where
  method : q.method = "POST"
  url : q.url = url
  contentType : headerValues "Content-Type" q = ["application/x-ofx".toList]
  body : q.body = document

/-- The request has the User-Agent the client is set to, if it is set to one. -/
def NamesAgent (bc : BasicClient) (q : HttpRequest) : Prop :=
  headerValues "User-Agent" q = if bc.UserAgent = [] then [] else [bc.UserAgent]

/-- An HTTP client allows each of the requests after those before it. -/
def Allows (hc : HttpClient) : List HttpRequest → List HttpRequest → Prop
  | _, [] => True
  | before, q :: qs => hc.check q before = .follow ∧ Allows hc (before ++ [q]) qs

end Ofx.Spec
