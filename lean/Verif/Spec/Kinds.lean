import Verif.Spec.Layout
/-
Documents that do not depend on whether they are read as SGML or as XML.
-/
namespace Ofx.Spec
open Ofx

/-- `Within e root`: `e` is the element tree `root` or somewhere in it. -/
inductive Within : Node → Node → Prop
  | self {e : Node} : Within e e
  | inside {e c : Node} {n : Str} {cs : List Node} : c ∈ cs → Within e c → Within e (.elem n cs)

/-- The elements for values hold nothing but text: no elements, comments or instructions. -/
def ValuesPlain (root : Node) : Prop :=
  ∀ n cs, Within (.elem n cs) root → n ∈ leafElements → ∀ c ∈ cs, ∃ s, c = .text s

end Ofx.Spec
