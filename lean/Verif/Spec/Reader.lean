import Verif.Model.Bufio
/-
What it means for a reader to deliver some bytes.
-/
namespace Ofx.Spec
open Ofx

/-- The calls of Read deliver `bs` in pieces of any sizes and then an error (io.EOF, or any
other), together with the last piece or after it.  Pieces may be empty, but not 100 of them in
a row. -/
structure Delivers (src : Source) (bs : List UInt8) : Prop where
  bytes : (src.map (·.1)).flatten = bs
  errors : ∀ before piece after, src = before ++ piece :: after → after ≠ [] → piece.2 = none
  progress : ∀ before pieces after, src = before ++ pieces ++ after → pieces.length = 100 → ∃ p ∈ pieces, p.1 ≠ [] ∨ p.2 ≠ none

end Ofx.Spec
