import Verif.Model.Client

/-!
Cookies (net/http cookie.go before Go 1.23, run from vanguard_client.go 92-94, 126, 132): what
`Response.Cookies` makes of the Set-Cookie lines of a response, and the Cookie line that
`Request.AddCookie` makes of them.  net/http looks at bytes; all it distinguishes are ASCII.
-/
namespace Ofx

/-- net/textproto `TrimString`. Run from vanguard_client.go 126, 132. -/
def trimHttp (s : Str) : Str :=
  let space (c : Char) : Bool := c == ' ' || c == '\t' || c == '\n' || c == '\r'
  trimRightP space (trimLeftP space s)

/-- net/http `isCookieNameValid`: a token (golang.org/x/net/http/httpguts). Run from vanguard_client.go 126, 132. -/
def tokenChar (c : Char) : Bool :=
  (48 ≤ c.toNat && c.toNat ≤ 57) || (65 ≤ c.toNat && c.toNat ≤ 90) || (97 ≤ c.toNat && c.toNat ≤ 122) ||
    "!#$%&'*+-.^_`|~".toList.contains c

/-- net/http `validCookieValueByte`. Run from vanguard_client.go 93, 126, 132. -/
def cookieValueChar (c : Char) : Bool :=
  32 ≤ c.toNat && c.toNat < 127 && c != '"' && c != ';' && c != '\\'

/-- net/http `parseCookieValue` with allowDoubleQuote. Run from vanguard_client.go 126, 132. -/
def parseCookieValue (raw : Str) : Option Str :=
  let raw := if raw.length > 1 ∧ raw.head? = some '"' ∧ raw.getLast? = some '"' then (raw.drop 1).dropLast else raw
  if raw.all cookieValueChar then some raw else none

/-- net/http `readSetCookies`: one line.  Attributes are left out: the client does not look at them
(vanguard_client.go 92-94), and whatever they are, the cookie is kept. -/
def readSetCookie (line : Str) : Option (Str × Str) :=
  let first := trimHttp (splitC ';' (trimHttp line)).1
  match splitC '=' first with
  | (_, none) => none
  | (name, some value) =>
    let name := trimHttp name
    if name = [] ∨ name.all tokenChar = false then none
    else (parseCookieValue value).map fun v => (name, v)

/-- net/http `readSetCookies`. vanguard_client.go 126, 132 `response.Cookies()`. -/
def readSetCookies (lines : List Str) : List (Str × Str) := lines.filterMap readSetCookie

/-- net/http `sanitizeCookieName`. Run from vanguard_client.go 93. -/
def sanitizeCookieName (s : Str) : Str := s.map fun c => if c = '\n' ∨ c = '\r' then '-' else c

/-- net/http `sanitizeCookieValue`. Run from vanguard_client.go 93. -/
def sanitizeCookieValue (s : Str) : Str :=
  let v := s.filter cookieValueChar
  if v.contains ' ' || v.contains ',' then '"' :: v ++ ['"'] else v

/-- net/http `Request.AddCookie`: the Cookie line with one more cookie. vanguard_client.go 93. -/
def addCookie (header : Str) (c : Str × Str) : Str :=
  let s := sanitizeCookieName c.1 ++ '=' :: sanitizeCookieValue c.2
  if header ≠ [] then header ++ "; ".toList ++ s else s

/-- The Cookie line of the second request. vanguard_client.go 92-94. -/
def cookieLine (cookies : List (Str × Str)) : Str := cookies.foldl addCookie []

end Ofx
