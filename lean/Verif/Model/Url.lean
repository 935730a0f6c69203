import Verif.Model.Client

/-!
The parsing of URLs (net/url, run from discovercard_client.go 40 and, inside http.NewRequest, from
basic_client.go 80 and vanguard_client.go 58, 87).  Only URLs with "https://" in front are
modelled: all callers refuse others first (basic_client.go 71, discovercard_client.go 83,
vanguard_client.go 54, 83).  net/url cuts bytes; as it cuts at ASCII characters only, here
characters are cut.  What percent signs stand for are bytes and need not be UTF-8.
-/
namespace Ofx

/-- What net/url `parse` finds out about a URL: the host with its port, and the path.
discovercard_client.go 40-62. -/
structure GoUrl where
  host : List UInt8
  path : List UInt8
  query : Str

/-- net/url `unhex` and `ishex`.  Run from discovercard_client.go 40. -/
def unhex (c : Char) : Option Nat :=
  if 48 ≤ c.toNat ∧ c.toNat ≤ 57 then some (c.toNat - 48)
  else if 97 ≤ c.toNat ∧ c.toNat ≤ 102 then some (c.toNat - 87)
  else if 65 ≤ c.toNat ∧ c.toNat ≤ 70 then some (c.toNat - 55)
  else none

/-- The modes of net/url `unescape` in use: encodePath (encodeFragment and encodeUserPassword
do the same), encodeHost and encodeZone.  Run from discovercard_client.go 40. -/
inductive UrlMode where
  | path
  | host
  | zone
  deriving DecidableEq

/-- ASCII letters and digits (net/url `shouldEscape`). Run from discovercard_client.go 40. -/
def isAlnum (n : Nat) : Bool :=
  (48 ≤ n && n ≤ 57) || (65 ≤ n && n ≤ 90) || (97 ≤ n && n ≤ 122)

/-- The bytes allowed in a host as they are: the complement of net/url `shouldEscape(c, encodeHost)`.
Run from discovercard_client.go 40. -/
def hostByte (n : Nat) : Bool :=
  isAlnum n || ("!$&'()*+,;=:[]<>\"-_.~".toList.map Char.toNat).contains n

/-- What a percent sign followed by two hexadecimal digits of value `x` and `y` may not be
(net/url `unescape`). Run from discovercard_client.go 40. -/
def badEscape (mode : UrlMode) (x y : Nat) : Bool :=
  match mode with
  | .path => false
  | .host => x < 8 && !(x = 2 && y = 5)
  | .zone => !(x = 2 && y = 5) && !(16 * x + y = 32) && !hostByte (16 * x + y)

/-- net/url `unescape`. Run from discovercard_client.go 40. -/
def urlUnescape (mode : UrlMode) : Str → Option (List UInt8)
  | [] => some []
  | c :: rest =>
    if c = '%' then
      match rest with
      | a :: b :: rest =>
        match unhex a, unhex b with
        | some x, some y =>
          if badEscape mode x y then none else (urlUnescape mode rest).map (UInt8.ofNat (16 * x + y) :: ·)
        | _, _ => none
      | _ => none
    else if mode ≠ .path ∧ c.toNat < 128 ∧ hostByte c.toNat = false then none
    else (urlUnescape mode rest).map (String.utf8EncodeChar c ++ ·)

/-- `strings.LastIndex` of one character, and the parts before and after it.
Run from discovercard_client.go 40. -/
def lastCut (c : Char) : Str → Option (Str × Str)
  | [] => none
  | x :: xs =>
    match lastCut c xs with
    | some (a, b) => some (x :: a, b)
    | none => if x = c then some ([], xs) else none

/-- The parts before and after the first "%25". Run from discovercard_client.go 40. -/
def cutZone : Str → Option (Str × Str)
  | [] => none
  | x :: xs =>
    if hasPrefix "%25".toList (x :: xs) then some ([], x :: xs)
    else (cutZone xs).map fun (a, b) => (x :: a, b)

/-- net/url `validOptionalPort`: nothing, or a colon and digits. Run from discovercard_client.go 40, 60. -/
def validOptionalPort : Str → Bool
  | [] => true
  | c :: rest => c = ':' && rest.all isDigit

/-- net/url `parseHost`. Run from discovercard_client.go 40. -/
def parseHost (host : Str) : Option (List UInt8) :=
  if hasPrefix ['['] host then
    match lastCut ']' host with
    | none => none
    | some (inside, colonPort) =>
      if !validOptionalPort colonPort then none
      else
        match cutZone inside with
        | none => urlUnescape .host host
        | some (address, zone) =>
          match urlUnescape .host address, urlUnescape .zone zone, urlUnescape .host (']' :: colonPort) with
          | some a, some z, some p => some (a ++ z ++ p)
          | _, _, _ => none
  else
    match lastCut ':' host with
    | none => urlUnescape .host host
    | some (_, port) => if !validOptionalPort (':' :: port) then none else urlUnescape .host host

/-- net/url `validUserinfo`. Run from discovercard_client.go 40. -/
def userinfoChar (c : Char) : Bool :=
  isAlnum c.toNat || "-._:~!$&'()*+,;=%@".toList.contains c

/-- net/url `parseAuthority`, without the user information. Run from discovercard_client.go 40. -/
def parseAuthority (authority : Str) : Option (List UInt8) :=
  match lastCut '@' authority with
  | none => parseHost authority
  | some (user, host) =>
    match parseHost host with
    | none => none
    | some h => if !user.all userinfoChar || (urlUnescape .path user).isNone then none else some h

/-- net/url `stringContainsCTLByte`. Run from discovercard_client.go 40. -/
def hasCtl (s : Str) : Bool := s.any fun c => c.toNat < 32 || c.toNat = 127

/-- net/url `Parse` of a URL that starts with "https://".  ForceQuery is left out: nothing looks at
it.  discovercard_client.go 40. -/
def parseHttps (url : Str) : Option GoUrl :=
  let (u, frag) := splitC '#' url
  if hasCtl u then none
  else
    let (rest, query) := splitC '?' (u.drop 8)
    let (authority, path) := splitC '/' rest
    match parseAuthority authority, urlUnescape .path (path.elim [] ('/' :: ·)), urlUnescape .path (frag.getD []) with
    | some h, some p, some _ => some ⟨h, p, query.getD []⟩
    | _, _, _ => none

/-- net/url `splitHostPort`, run for Hostname and Port in discovercard_client.go 57, 60. -/
def splitHostPort (hostPort : Str) : Str × Str :=
  let (host, port) :=
    match lastCut ':' hostPort with
    | some (h, p) => if validOptionalPort (':' :: p) then (h, p) else (hostPort, [])
    | none => (hostPort, [])
  if hasPrefix ['['] host && hasSuffix [']'] host then ((host.drop 1).dropLast, port) else (host, port)

/-- A network whose URLs are parsed by net/url.  In this model the parts of a URL are texts
(`UrlParts`): nothing is said about hosts that are not UTF-8 once percent signs are replaced, nor
about the path if it is not.  discovercard_client.go 40-62. -/
def Net.ParsesUrls (net : Net) : Prop :=
  ∀ url, hasPrefix "https://".toList url = true →
    match parseHttps url with
    | none => net.parseURL url = none
    | some g => ∀ host, toBytes host = g.host →
        ∃ path, net.parseURL url = some ⟨path, host, (splitHostPort host).1, (splitHostPort host).2⟩ ∧
          ∀ s, toBytes s = g.path → path = s

end Ofx
