import Verif.Gen.Accessors
import Verif.Codec.Type
import Verif.Gen.Types
/-
Specification for C68: the first element of a given name inside an element.
-/
namespace Ofx.Spec
open Ofx

mutual
/-- The elements called `n` in a node (the node itself included), not looking into these. -/
def find (n : Str) : Node → List Node
  | .elem m cs => if m = n then [.elem m cs] else findIn n cs
  | _ => []
/-- The elements called `n` in a list of nodes, in document order. -/
def findIn (n : Str) : List Node → List Node
  | [] => []
  | c :: cs => find n c ++ findIn n cs
end

/-- The element `e` is called `kind`, and the first element called `n` in it is the one
written for `part`.  (There can be others: a Currency is written under any name its XMLName holds.) -/
def ShowsPart {α : Type} [OfxType α] (kind : Str) (n : Str) (part : α) (e : Node) : Prop :=
  ∃ cs p, e = .elem kind cs ∧ encodeAs n part = .ok [p] ∧ (findIn n cs).head? = some p

end Ofx.Spec
