import Verif.Spec.Alike
import Verif.Spec.Lists
import Verif.Spec.LeafSays
/-
Where elements are found.  Nothing here mentions the decoder.
-/
namespace Ofx.Spec
open Ofx

/-- The elements called `name` inside elements called as the path says, in document order. -/
def elementsAt : (path : List Str) → (name : Str) → List Node → List (Str × List Node)
  | [], name, cs => (elems cs).filter (fun e => e.1 = name)
  | p :: ps, name, cs => elementsAt ps name (((elems cs).filter (fun e => e.1 = p)).flatMap (fun e => e.2))

end Ofx.Spec
