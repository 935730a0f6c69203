import Verif.Model.Client
/-
Specification for C67: what a program may have done with a request before sending it.
-/
namespace Ofx.Spec
open Ofx

/-- `Used r r'`: the request `r` was handed to any number of calls of the package, in any order
and with any clients, networks and results (successes, errors, retries), and `r'` is what the
caller holds afterwards. -/
inductive Used (r : Request Message) : Request Message → Prop
  | fresh : Used r r
  | setClientFields {q : Request Message} (now : GoTime) (c : BasicClient) (h : Used r q) : Used r (q.setClientFields now c)
  | marshal {q : Request Message} (h : Used r q) : Used r q.marshal.2
  | sentNoParse {q : Request Message} (net : Net) (c : Client) (tr : Trace) (h : Used r q) :
      Used r (c.requestNoParse net q tr).2.1
  | sent {q : Request Message} (env : Env) (nt : NameTable) (net : Net) (c : Client) (tr : Trace) (h : Used r q) :
      Used r (c.request env nt net q tr).2.1

end Ofx.Spec
