import Verif.Model.Decode
import Verif.Codec.Text
/-
Model of client.go, basic_client.go, discovercard_client.go, vanguard_client.go and of
Request.SetClientFields (request.go 66-75).  Network, clock and net/url are parameters (`Net`);
what happens is recorded in a trace of events.  Request bodies are buffers, as RequestNoParse
passes them to RawRequest.  Errors while a response body is being read are not modelled: the
body is the bytes received.
-/
namespace Ofx

/-- A request as handed to the HTTP transport.  `hop` is 0 for the requests made by the
library and n for the n-th redirection followed by net/http; headers and cookies are given for
requests made by the library only. basic_client.go 80-88, vanguard_client.go 58-65. -/
structure HttpRequest where
  method : String
  url : Str
  headers : List (String × Str)
  cookies : List (Str × Str)
  body : List UInt8
  hop : Nat
deriving DecidableEq

/-- An answer from a server.  `location` is the Location header, empty if missing;
`contentLength` is -1 if unknown. basic_client.go 89-98, vanguard_client.go 126. -/
structure RawResponse where
  status : Nat
  statusText : Str
  contentLength : Int
  cookies : List (Str × Str)
  location : Str
  body : List UInt8
deriving DecidableEq

/-- *http.Response: the answer, and which of the bodies opened it is. basic_client.go 89. -/
structure HttpResponse extends RawResponse where
  id : Nat
deriving DecidableEq

/-- What happens on the network and to response bodies, and pauses (in nanoseconds).
basic_client.go 89, client.go 98, cmd/ofx/detect_settings.go 115. -/
inductive Event where
  | sent (r : HttpRequest)
  | dialed (host : Str)
  | wrote (host : Str) (bytes : List UInt8)
  | opened (r : HttpResponse)
  | closed (id : Nat)
  | paused (ns : Int)
deriving DecidableEq

/-- The history of what happened (basic_client.go 89, client.go 98). -/
abbrev Trace := List Event

/-- The parts of a URL used (net/url). discovercard_client.go 38-59. -/
structure UrlParts where
  path : Str
  host : Str
  hostname : Str
  port : Str

/-- A TLS connection: how many bytes it accepts before failing for good (`none`: any number),
and the answer to the bytes written, if a response can be read. discovercard_client.go 63-77. -/
structure Conn where
  limit : Option Nat
  answer : List UInt8 → Option RawResponse

/-- The part of some bytes that a connection transmits. discovercard_client.go 71-75. -/
def Conn.transmits (c : Conn) (bytes : List UInt8) : List UInt8 :=
  match c.limit with
  | none => bytes
  | some n => bytes.take n

/-- The environment of clients: url.Parse, URL.Parse (resolving a Location against a URL), the
HTTP transport, tls.Dial and time.Now.  Servers may answer depending on all that happened.
basic_client.go 80-89, discovercard_client.go 38-77. -/
structure Net where
  parseURL : Str → Option UrlParts
  resolve : Str → Str → Option Str
  transport : Trace → HttpRequest → Option RawResponse
  dial : Trace → Str → Option Conn
  now : GoTime

/-- Decision of CheckRedirect: follow, use the last response (ErrUseLastResponse), or fail.
Library code run from basic_client.go 89. -/
inductive Redirect where
  | follow
  | useLast
  | fail

/-- http.Client: how many redirections it follows at most, and CheckRedirect.
basic_client.go 27, 75-78. -/
structure HttpClient where
  redirects : Nat
  check : HttpRequest → List HttpRequest → Redirect

/-- http.DefaultClient, and the client of vanguard_client.go 27-49: ten requests at most
(net/http defaultCheckRedirect). -/
def defaultHttpClient : HttpClient := ⟨9, fun _ _ => .follow⟩

/-- net/http client.go `redirectBehavior`: the method of the next request and whether the body
is sent again (a buffer can be). -/
def redirectBehavior (method : String) (status : Nat) : Option (String × Bool) :=
  if status = 301 ∨ status = 302 ∨ status = 303 then
    some (if method = "GET" ∨ method = "HEAD" then method else "GET", false)
  else if status = 307 ∨ status = 308 then some (method, true)
  else none

/-- One round trip. Library code run from basic_client.go 89. -/
def roundTrip (net : Net) (req : HttpRequest) (tr : Trace) : Option HttpResponse × Trace :=
  match net.transport tr req with
  | none => (none, tr ++ [.sent req])
  | some r => (some { r with id := tr.length + 1 }, tr ++ [.sent req, .opened { r with id := tr.length + 1 }])

/-- net/http client.go `Client.do`, with `body` the body of the first request and `fuel` the
number of redirections that may still be followed.  `none` is an error. -/
def httpLoop (net : Net) (hc : HttpClient) (body : List UInt8) :
    Nat → List HttpRequest → HttpRequest → Bool → Trace → Option HttpResponse × Trace
  | fuel, via, req, includeBody, tr =>
    match roundTrip net req tr with
    | (none, tr) => (none, tr)
    | (some resp, tr) =>
      match redirectBehavior req.method resp.status with
      | none => (some resp, tr)
      | some (method, again) =>
        if resp.location = [] then (some resp, tr)
        else
          match net.resolve req.url resp.location with
          | none => (none, tr ++ [.closed resp.id])
          | some u =>
            let next : HttpRequest := ⟨method, u, [], [], if includeBody && again then body else [], req.hop + 1⟩
            match hc.check next (via ++ [req]) with
            | .useLast => (some resp, tr)
            | .fail => (none, tr ++ [.closed resp.id])
            | .follow =>
              match fuel with
              | 0 => (none, tr ++ [.closed resp.id])
              | fuel + 1 => httpLoop net hc body fuel (via ++ [req]) next (includeBody && again) (tr ++ [.closed resp.id])

/-- http.Client.Do. Library code run from basic_client.go 89, vanguard_client.go 67, 97. -/
def httpDo (net : Net) (hc : HttpClient) (req : HttpRequest) (tr : Trace) : Option HttpResponse × Trace :=
  httpLoop net hc req.body hc.redirects [] req true tr

/-- basic_client.go 13-28 `BasicClient`. -/
structure BasicClient where
  SpecVersion : Nat
  AppID : Str
  AppVer : Str
  NoIndent : Bool
  CarriageReturn : Bool
  UserAgent : Str
  HTTPClient : Option HttpClient

/-- The three clients; DiscoverCardClient and VanguardClient embed a BasicClient.
basic_client.go 13-28, discovercard_client.go 18-20, vanguard_client.go 15-17. -/
inductive Client where
  | basic (bc : BasicClient)
  | discover (bc : BasicClient)
  | vanguard (bc : BasicClient)

/-- The embedded BasicClient: discovercard_client.go 18-20, vanguard_client.go 15-17. -/
def Client.bc : Client → BasicClient
  | .basic bc => bc
  | .discover bc => bc
  | .vanguard bc => bc

/-- basic_client.go 32-37 `OfxVersion`. -/
def BasicClient.ofxVersion (c : BasicClient) : Nat :=
  if enumOfxVersion.valid c.SpecVersion then c.SpecVersion else 8

/-- basic_client.go 41-46 `ID`. -/
def BasicClient.id (c : BasicClient) : Str := if blen c.AppID > 0 then c.AppID else "OFXGO".toList

/-- basic_client.go 50-55 `Version`. -/
def BasicClient.version (c : BasicClient) : Str := if blen c.AppVer > 0 then c.AppVer else "0001".toList

/-- client.go 62-78 `GetClient`, with `NewDiscoverCardClient` (discovercard_client.go 24-26) and `NewVanguardClient`
(vanguard_client.go 21-23). -/
def getClient (url : Str) (bc : BasicClient) : Client :=
  if "https://ofx.discovercard.com".toList = trimC '/' url then .discover bc
  else if "https://vesnc.vanguard.com/us/OfxDirectConnectServlet".toList = trimC '/' url then .vanguard bc
  else .basic bc

/-- request.go 66-75 `SetClientFields`, with basic_client.go 59-61 `IndentRequests` and 64-66
`CarriageReturnNewLines`. -/
def Request.setClientFields {M : Type} (now : GoTime) (c : BasicClient) (r : Request M) : Request M :=
  { r with
    version := c.ofxVersion
    signon := { r.signon with DtClient := now, AppID := c.id, AppVer := c.version }
    indent := !c.NoIndent
    carriageReturn := c.CarriageReturn }

/-- The message of basic_client.go 72. -/
def refusal : String := "Refusing to send OFX request with possible plain-text password over non-https protocol"

/-- What RawRequest and RequestNoParse return: a response or nil, and an error or nil.
client.go 39, 54. -/
abbrev RawResult := Option HttpResponse × Option Err

/-- The status check at the end of RawRequest (basic_client.go 94-98). -/
def checkStatus (resp : HttpResponse) : RawResult :=
  if resp.status ≠ 200 then
    (some resp, some (.plain ("OFXQuery request status: " ++ String.ofList resp.statusText)))
  else (some resp, none)

/-- A post with net/http (basic_client.go 80-98, vanguard_client.go 58-77). -/
def post (net : Net) (hc : HttpClient) (url : Str) (headers : List (String × Str)) (cookies : List (Str × Str))
    (body : List UInt8) (tr : Trace) : RawResult × Trace :=
  match net.parseURL url with
  | none => ((none, some (.plain "NewRequest")), tr)
  | some _ =>
    match httpDo net hc ⟨"POST", url, headers, cookies, body, 0⟩ tr with
    | (none, tr) => ((none, some (.plain "Do")), tr)
    | (some resp, tr) => (checkStatus resp, tr)

/-- basic_client.go 84. -/
def contentType : String × Str := ("Content-Type", "application/x-ofx".toList)

/-- basic_client.go 86-88. -/
def BasicClient.userAgentHeader (c : BasicClient) : List (String × Str) :=
  if c.UserAgent ≠ [] then [("User-Agent", c.UserAgent)] else []

/-- basic_client.go 70-98 `BasicClient.RawRequest`. -/
def BasicClient.rawRequest (net : Net) (c : BasicClient) (url : Str) (body : List UInt8) (tr : Trace) : RawResult × Trace :=
  if !hasPrefix "https://".toList url then ((none, some (.plain refusal)), tr)
  else
    post net (c.HTTPClient.getD defaultHttpClient) url
      ([contentType, ("Accept", "*/*, application/x-ofx".toList)] ++ c.userAgentHeader) [] body tr

/-- discovercard_client.go 52-57: the text before the body. -/
def discoverHeaders (path hostname : Str) (length : Nat) : Str :=
  "POST ".toList ++ path ++ " HTTP/1.1\r\nContent-Type: application/x-ofx\r\nHost: ".toList ++ hostname ++
    "\r\nContent-Length: ".toList ++ natStr length ++ "\r\nConnection: Keep-Alive\r\n\r\n".toList

/-- discovercard_client.go 28-78 `discoverCardHTTPPost`.  The error of writing the headers is
ignored (line 72); a connection that failed once fails again. -/
def discoverPost (net : Net) (url : Str) (body : List UInt8) (tr : Trace) : Option HttpResponse × Trace :=
  match net.parseURL url with
  | none => (none, tr)
  | some u =>
    let path := if u.path = [] then ['/'] else u.path
    let headers := toBytes (discoverHeaders path u.hostname body.length)
    let host := if u.port = [] then u.host ++ ":443".toList else u.host
    match net.dial tr host with
    | none => (none, tr ++ [.dialed host])
    | some conn =>
      let written := conn.transmits (headers ++ body)
      let tr := tr ++ [.dialed host, .wrote host written]
      if body ≠ [] ∧ written.length < headers.length + body.length then (none, tr)
      else
        match conn.answer written with
        | none => (none, tr)
        | some r => (some { r with id := tr.length }, tr ++ [.opened { r with id := tr.length }])

/-- discovercard_client.go 82-97 `DiscoverCardClient.RawRequest`. -/
def discoverRawRequest (net : Net) (url : Str) (body : List UInt8) (tr : Trace) : RawResult × Trace :=
  if !hasPrefix "https://".toList url then ((none, some (.plain refusal)), tr)
  else
    match discoverPost net url body tr with
    | (none, tr) => ((none, some (.plain "discoverCardHTTPPost")), tr)
    | (some resp, tr) =>
      if resp.status ≠ 200 then
        ((none, some (.plain ("OFXQuery request status: " ++ String.ofList resp.statusText))), tr)
      else ((some resp, none), tr)

/-- vanguard_client.go 53-77 `VanguardClient.RawRequest`. -/
def vanguardRawRequest (net : Net) (c : BasicClient) (url : Str) (body : List UInt8) (tr : Trace) : RawResult × Trace :=
  if !hasPrefix "https://".toList url then ((none, some (.plain refusal)), tr)
  else post net defaultHttpClient url (contentType :: c.userAgentHeader) [] body tr

/-- vanguard_client.go 82-107 `rawRequestCookiesInsecureCiphers`. -/
def vanguardRetry (net : Net) (url : Str) (body : List UInt8) (cookies : List (Str × Str)) (tr : Trace) : RawResult × Trace :=
  if !hasPrefix "https://".toList url then ((none, some (.plain refusal)), tr)
  else
    match post net defaultHttpClient url [contentType] cookies body tr with
    | ((_, some e), tr) => ((none, some e), tr)
    | ((resp, none), tr) => ((resp, none), tr)

/-- The methods `RawRequest`.
basic_client.go 70, discovercard_client.go 82, vanguard_client.go 53. -/
def Client.rawRequest (net : Net) (c : Client) (url : Str) (body : List UInt8) (tr : Trace) : RawResult × Trace :=
  match c with
  | .basic bc => bc.rawRequest net url body tr
  | .discover _ => discoverRawRequest net url body tr
  | .vanguard bc => vanguardRawRequest net bc url body tr

/-- client.go 80-89 `clientRequestNoParse` (basic_client.go 103-105, discovercard_client.go 101-103)
and vanguard_client.go 111-136: the methods `RequestNoParse`, with the request afterwards. -/
def Client.requestNoParse (net : Net) (c : Client) (r : Request Message) (tr : Trace) :
    RawResult × Request Message × Trace :=
  match (r.setClientFields net.now c.bc).marshal with
  | (.error e, r) => ((none, some e), r, tr)
  | (.ok d, r) =>
    match c.rawRequest net r.url d.bytes tr with
    | (res, tr) =>
      match c with
      | .vanguard _ =>
        match res.1 with
        | none => (res, r, tr)
        | some resp =>
          if resp.contentLength ≤ 0 ∧ resp.cookies.length > 0 then
            match r.marshal with
            | (.error e, r) => ((none, some e), r, tr)
            | (.ok d, r) =>
              match vanguardRetry net r.url d.bytes resp.cookies tr with
              | (res, tr) => (res, r, tr)
          else (res, r, tr)
      | _ => (res, r, tr)

/-- client.go 93-105 `clientRequest`: the methods `Request` (basic_client.go 109-111,
discovercard_client.go 107-109, vanguard_client.go 140-142). -/
def Client.request (env : Env) (nt : NameTable) (net : Net) (c : Client) (r : Request Message) (tr : Trace) :
    (Option (Response Message) × Option Err) × Request Message × Trace :=
  match c.requestNoParse net r tr with
  | ((_, some e), r, tr) => ((none, some e), r, tr)
  | ((none, none), r, tr) => ((none, some (.plain "nil dereference")), r, tr)
  | ((some resp, none), r, tr) =>
    match parseResponse env nt resp.body with
    | (_, some e) => ((none, some e), r, tr ++ [.closed resp.id])
    | (res, none) => ((res, none), r, tr ++ [.closed resp.id])

end Ofx
