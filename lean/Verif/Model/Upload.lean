import Verif.Model.Client
import Verif.Model.Bufio
/-
The methods RawRequest again (see Model/Client), for documents that are read from any io.Reader.
-/
namespace Ofx

/-- The io.Reader given to RawRequest: a *bytes.Buffer, or any other reader that net/http cannot
read a second time.  (*bytes.Reader and *strings.Reader, which it can, are left out.)
basic_client.go 70, discovercard_client.go 28-37, 82, vanguard_client.go 53. -/
inductive Upload where
  | buffer (bytes : List UInt8)
  | reader (src : Source)

/-- io.Copy from a reader into a bytes.Buffer: all bytes up to the first error, and that error
unless it is io.EOF.  discovercard_client.go 33. -/
def Source.readAll : Source → List UInt8 × Option String
  | [] => ([], none)
  | (c, some e) :: _ => (c, if e = "EOF" then none else some e)
  | (c, none) :: rest => (c ++ (readAll rest).1, (readAll rest).2)

/-- net/http client.go `redirectBehavior` for a first request whose body cannot be read again:
where it would have to be, the response is handed to the caller. -/
def redirectBehaviorOnce (method : String) (status : Nat) : Option (String × Bool) :=
  if status = 307 ∨ status = 308 then none else redirectBehavior method status

/-- One round trip with a body that breaks off: `broken` says whether there is an answer
nevertheless.  Library code run from basic_client.go 89, vanguard_client.go 67. -/
def roundTripBroken (broken : Trace → HttpRequest → Option RawResponse) (req : HttpRequest) (tr : Trace) :
    Option HttpResponse × Trace :=
  match broken tr req with
  | none => (none, tr ++ [.sent req])
  | some r => (some { r with id := tr.length + 1 }, tr ++ [.sent req, .opened { r with id := tr.length + 1 }])

/-- The round trip with a body that ends with the error `e`, or without one.  Library code run from
basic_client.go 89, vanguard_client.go 67. -/
def firstTrip (net : Net) (broken : Trace → HttpRequest → Option RawResponse) (e : Option String) (req : HttpRequest) (tr : Trace) :
    Option HttpResponse × Trace :=
  match e with
  | none => roundTrip net req tr
  | some _ => roundTripBroken broken req tr

/-- net/http client.go `Client.do` for such a request, after a round trip: see `httpLoop`.  Further
requests have no body, as redirections that would need it are not followed. -/
def redirectLoop (net : Net) (hc : HttpClient) :
    Nat → List HttpRequest → HttpRequest → Option HttpResponse × Trace → Option HttpResponse × Trace
  | _, _, _, (none, tr) => (none, tr)
  | fuel, via, req, (some resp, tr) =>
    match redirectBehaviorOnce req.method resp.status with
    | none => (some resp, tr)
    | some (method, _) =>
      if resp.location = [] then (some resp, tr)
      else
        match net.resolve req.url resp.location with
        | none => (none, tr ++ [.closed resp.id])
        | some u =>
          let next : HttpRequest := ⟨method, u, [], [], [], req.hop + 1⟩
          match hc.check next (via ++ [req]) with
          | .useLast => (some resp, tr)
          | .fail => (none, tr ++ [.closed resp.id])
          | .follow =>
            match fuel with
            | 0 => (none, tr ++ [.closed resp.id])
            | fuel + 1 => redirectLoop net hc fuel (via ++ [req]) next (roundTrip net next (tr ++ [.closed resp.id]))

/-- A post with net/http (basic_client.go 80-98, vanguard_client.go 58-77) of what a reader delivers. -/
def postReader (net : Net) (broken : Trace → HttpRequest → Option RawResponse) (hc : HttpClient) (url : Str)
    (headers : List (String × Str)) (src : Source) (tr : Trace) : RawResult × Trace :=
  match net.parseURL url with
  | none => ((none, some (.plain "NewRequest")), tr)
  | some _ =>
    let req : HttpRequest := ⟨"POST", url, headers, [], src.readAll.1, 0⟩
    match redirectLoop net hc hc.redirects [] req (firstTrip net broken src.readAll.2 req tr) with
    | (none, tr) => ((none, some (.plain "Do")), tr)
    | (some resp, tr) => (checkStatus resp, tr)

/-- The methods `RawRequest` with any reader: basic_client.go 70-98, vanguard_client.go 53-77,
discovercard_client.go 82-97 with 28-37, where the reader is copied into a buffer first. -/
def Client.rawUpload (net : Net) (broken : Trace → HttpRequest → Option RawResponse) (c : Client) (url : Str) (u : Upload)
    (tr : Trace) : RawResult × Trace :=
  match u with
  | .buffer bytes => c.rawRequest net url bytes tr
  | .reader src =>
    if !hasPrefix "https://".toList url then ((none, some (.plain refusal)), tr)
    else
      match c with
      | .basic bc => postReader net broken (bc.HTTPClient.getD defaultHttpClient) url
          ([contentType, ("Accept", "*/*, application/x-ofx".toList)] ++ bc.userAgentHeader) src tr
      | .vanguard bc => postReader net broken defaultHttpClient url (contentType :: bc.userAgentHeader) src tr
      | .discover _ =>
        match src.readAll with
        | (_, some e) => ((none, some (.plain e)), tr)
        | (bytes, none) => discoverRawRequest net url bytes tr

end Ofx
