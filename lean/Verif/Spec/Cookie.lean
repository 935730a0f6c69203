import Verif.Spec.Client

/-! Cookies as RFC 6265 has servers write them and clients return them. -/
namespace Ofx.Spec
open Ofx

/-- RFC 6265 4.1.1: cookie-octet, printable ASCII but for blanks, quotes, commas, semicolons and backslashes. -/
def cookieOctet (c : Char) : Bool := 33 ≤ c.toNat && c.toNat ≤ 126 && !"\",;\\".toList.contains c

/-- RFC 7230 3.2.6: the characters of tokens. -/
def tokenOctet (c : Char) : Bool := c.isAlphanum || "!#$%&'*+-.^_`|~".toList.contains c

/-- A cookie a server sets: a name, a value (which may be written in quotes) and attributes. -/
structure SetCookie where
  name : Str
  value : Str
  quoted : Bool
  attributes : List Str

/-- The value as written. -/
def SetCookie.written (c : SetCookie) : Str := if c.quoted then '"' :: c.value ++ ['"'] else c.value

/-- RFC 6265 4.1.1: the value of the Set-Cookie line. -/
def SetCookie.line (c : SetCookie) : Str :=
  c.name ++ '=' :: c.written ++ c.attributes.flatMap ("; ".toList ++ ·)

/-- RFC 6265 4.1.1. -/
structure SetCookie.ok (c : SetCookie) : Prop where
  name : c.name ≠ [] ∧ ∀ x ∈ c.name, tokenOctet x = true
  value : ∀ x ∈ c.value, cookieOctet x = true
  attributes : ∀ a ∈ c.attributes, ∀ x ∈ a, 32 ≤ x.toNat ∧ x.toNat ≤ 126 ∧ x ≠ ';'

/-- The attributes that say when a cookie is not to be returned any more, or not everywhere. -/
def limiting (a : Str) : Prop :=
  ∃ n ∈ ["expires=", "max-age=", "path=", "domain="], n.toList <+: a.map Char.toLower

/-- RFC 6265 4.2.1: the value of the Cookie line that returns cookies. -/
def returning (cs : List SetCookie) : Str :=
  "; ".toList.intercalate (cs.map fun c => c.name ++ '=' :: c.written)

/-- RFC 6265 5.3, 5.4: the cookies to return.  A cookie replaces an earlier one of the same name
(domains and paths apart), and one whose Max-Age is 0 is to be dropped at once. -/
def toReturn (cs : List SetCookie) : List SetCookie → Prop := fun kept =>
  kept.Sublist cs ∧ (kept.map (·.name)).Nodup ∧ (∀ c ∈ kept, "Max-Age=0".toList ∉ c.attributes) ∧
    ∀ c ∈ cs, (∀ a ∈ c.attributes, ¬ limiting a) → (∀ d ∈ cs, d.name = c.name → d = c) → c ∈ kept

end Ofx.Spec
