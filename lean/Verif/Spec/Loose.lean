import Verif.Spec.Url

/-!
URLs cut into parts at the delimiters of RFC 3986, whatever the parts contain.
-/
namespace Ofx.Spec
open Ofx

/-- Every percent sign is followed by two hexadecimal digits. -/
def GoodEscapes (s : Str) : Prop := Escaped (fun c => c != '%') s

/-- An ASCII control character. -/
def Control (c : Char) : Prop := c.toNat < 32 ∨ c.toNat = 127

/-- The parts of the URL are found again by its delimiters: only the host and the port are known to be what RFC 3986
allows. -/
structure HttpsUrl.cut (u : HttpsUrl) : Prop where
  host : u.host.ok
  port : ∀ p, u.port = some p → ∀ c ∈ p, isDigit c = true
  path : (u.path = [] ∨ u.path.head? = some '/') ∧ '?' ∉ u.path ∧ '#' ∉ u.path
  query : ∀ q, u.query = some q → '#' ∉ q
  user : ∀ x, u.user = some x → '/' ∉ x ∧ '?' ∉ x ∧ '#' ∉ x

/-- There are no control characters before the fragment, percent signs outside the query are followed by two hexadecimal
digits, and the user name has allowed characters only, '@' being one of them. -/
structure HttpsUrl.tidy (u : HttpsUrl) : Prop where
  controls : ∀ c ∈ u.user.getD [] ++ u.path ++ u.query.getD [], ¬ Control c
  path : GoodEscapes u.path
  fragment : GoodEscapes (u.fragment.getD [])
  user : ∀ x, u.user = some x → GoodEscapes x ∧ ∀ c ∈ x, userChar c = true ∨ c = '%' ∨ c = '@'

end Ofx.Spec
