import Verif.Spec.Client

/-!
URLs as RFC 3986 writes them, and what RFC 7230 has a client send to ask for one.  Nothing here
mentions how the library takes URLs apart.
-/
namespace Ofx.Spec
open Ofx

/-- Letters, digits and the characters RFC 3986 calls unreserved or sub-delims. -/
def nameChar (c : Char) : Bool :=
  c.isAlphanum || "-._~!$&'()*+,;=".toList.contains c

/-- The characters of a path, other than percent signs. -/
def pathChar (c : Char) : Bool := nameChar c || ":@/".toList.contains c

/-- The characters of a query or fragment, other than percent signs. -/
def queryChar (c : Char) : Bool := pathChar c || c == '?'

/-- A hexadecimal digit. -/
def hexChar (c : Char) : Bool := "0123456789abcdefABCDEF".toList.contains c

/-- Texts of the characters allowed, and of percent signs followed by two hexadecimal digits. -/
inductive Escaped (ok : Char → Bool) : Str → Prop where
  | nil : Escaped ok []
  | plain {c : Char} {s : Str} : ok c = true → Escaped ok s → Escaped ok (c :: s)
  | escape {a b : Char} {s : Str} : hexChar a = true → hexChar b = true → Escaped ok s → Escaped ok ('%' :: a :: b :: s)

/-- A host: a name or an IPv4 address, or an IPv6 address, which is written in brackets. -/
inductive UrlHost where
  | name (s : Str)
  | ipv6 (s : Str)

/-- How a host is written. -/
def UrlHost.text : UrlHost → Str
  | .name s => s
  | .ipv6 s => '[' :: s ++ [']']

/-- What may be a host. -/
def UrlHost.ok : UrlHost → Prop
  | .name s => s ≠ [] ∧ ∀ c ∈ s, nameChar c = true
  | .ipv6 s => s ≠ [] ∧ ∀ c ∈ s, hexChar c = true ∨ c = ':' ∨ c = '.'

/-- An https URL. -/
structure HttpsUrl where
  host : UrlHost
  port : Option Str
  path : Str
  query : Option Str
  fragment : Option Str
  user : Option Str

/-- How it is written. -/
def HttpsUrl.text (u : HttpsUrl) : Str :=
  "https://".toList ++ u.user.elim [] (· ++ ['@']) ++ u.host.text ++ u.port.elim [] (':' :: ·) ++
    u.path ++ u.query.elim [] ('?' :: ·) ++ u.fragment.elim [] ('#' :: ·)

/-- The characters of user names (and passwords), other than percent signs. -/
def userChar (c : Char) : Bool := nameChar c || c == ':'

/-- The URLs that RFC 3986 allows, but for percent signs in names of hosts. -/
structure HttpsUrl.ok (u : HttpsUrl) : Prop where
  host : u.host.ok
  port : ∀ p, u.port = some p → ∀ c ∈ p, isDigit c = true
  path : (u.path = [] ∨ u.path.head? = some '/') ∧ Escaped pathChar u.path
  query : ∀ q, u.query = some q → Escaped queryChar q
  fragment : ∀ f, u.fragment = some f → Escaped queryChar f
  user : ∀ x, u.user = some x → Escaped userChar x

/-- Where to connect to: the host and the port, 443 if none is given (RFC 7230 2.7.2). -/
def HttpsUrl.address (u : HttpsUrl) : Str :=
  u.host.text ++ ':' :: (if u.port.getD [] = [] then "443".toList else u.port.getD [])

/-- What to ask for: the path, or "/" if there is none, and the query (RFC 7230 5.3.1). -/
def HttpsUrl.target (u : HttpsUrl) : Str :=
  (if u.path = [] then ['/'] else u.path) ++ u.query.elim [] ('?' :: ·)

/-- What the Host line says: the host, and the port unless it is the one of https (RFC 7230 5.4). -/
def HttpsUrl.hostField (u : HttpsUrl) : Str :=
  u.host.text ++ (if u.port.getD [] = [] ∨ u.port = some "443".toList then [] else ':' :: u.port.getD [])

/-- The lines of an HTTP message before its empty line. -/
def HasLines (bytes : List UInt8) (lines : List Str) : Prop :=
  (∀ l ∈ lines, l ≠ [] ∧ '\r' ∉ l ∧ '\n' ∉ l) ∧
    ∃ rest, bytes = toBytes (lines.flatMap (fun l => l ++ "\r\n".toList) ++ "\r\n".toList) ++ rest

/-- An HTTP message that posts to a URL: the first line asks for the target of the URL, and there is one
Host line, naming its host. -/
def PostsTo (u : HttpsUrl) (bytes : List UInt8) : Prop :=
  ∃ lines, HasLines bytes (("POST ".toList ++ u.target ++ " HTTP/1.1".toList) :: lines) ∧
    lines.filter (fun l => "Host:".toList.isPrefixOf l) = ["Host: ".toList ++ u.hostField]

/-- Where connections were made to, in order. -/
def dialled (tr : Trace) : List Str :=
  tr.filterMap (fun e => match e with
    | .dialed h => some h
    | _ => none)

end Ofx.Spec
