import Verif.Model.Client
import Verif.Model.Bufio
/-
`Request` with the body of the response read from the network piece by piece.
-/
namespace Ofx

/-- client.go 93-105 `clientRequest` again (see `Client.request`), with `deliver` saying what the
calls of Read on the body of a response give.  The body is not a *bufio.Reader, so that
response.go 287 puts a buffer of 1024 bytes around it. -/
def Client.requestOver (env : Env) (nt : NameTable) (net : Net) (deliver : HttpResponse → Source) (c : Client)
    (r : Request Message) (tr : Trace) : (Option (Response Message) × Option Err) × Request Message × Trace :=
  match c.requestNoParse net r tr with
  | ((_, some e), r, tr) => ((none, some e), r, tr)
  | ((none, none), r, tr) => ((none, some (.plain "nil dereference")), r, tr)
  | ((some resp, none), r, tr) =>
    match parseReader env nt (Bufio.new 1024 (deliver resp)) with
    | (_, some e) => ((none, some e), r, tr ++ [.closed resp.id])
    | (res, none) => ((res, none), r, tr ++ [.closed resp.id])

end Ofx
