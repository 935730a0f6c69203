import Verif.Model.Upload
/-
What readers deliver.
-/
namespace Ofx.Spec
open Ofx

/-- The reader delivers the bytes `b` in some pieces, and then ends (`e` is none) or fails with the
error `e`.  The end may come with the last piece. -/
def Gives (src : Source) (b : List UInt8) (e : Option String) : Prop :=
  ∃ (pieces : List (List UInt8)) (rest : Source), src = pieces.map (fun p => (p, none)) ++ rest ∧
    ((rest = [] ∧ b = pieces.flatten ∧ e = none) ∨
     (∃ c x more, rest = (c, some x) :: more ∧ b = pieces.flatten ++ c ∧ (x = "EOF" ∧ e = none ∨ x ≠ "EOF" ∧ e = some x)))

end Ofx.Spec
