import Verif.Spec.Loose

/-!
Zones of IPv6 addresses, which RFC 6874 writes after "%25".
-/
namespace Ofx.Spec
open Ofx

/-- The value of a hexadecimal digit. -/
def hexValue (c : Char) : Nat := "0123456789abcdef".toList.idxOf c.toLower

/-- A zone and how it is written: percent signs and two digits stand for characters, though only for those that net/url allows
in hosts, percent signs and spaces. -/
inductive ZoneName : Str → Str → Prop where
  | nil : ZoneName [] []
  | plain {c : Char} {s t : Str} : nameChar c = true → ZoneName s t → ZoneName (c :: s) (c :: t)
  | escape {a b c : Char} {s t : Str} : hexChar a = true → hexChar b = true → 16 * hexValue a + hexValue b = c.toNat →
      (nameChar c = true ∨ c ∈ ":[]<>\"% ".toList) → ZoneName s t → ZoneName ('%' :: a :: b :: s) (c :: t)

end Ofx.Spec
