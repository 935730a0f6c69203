import Verif.Model.Stream
import Verif.Spec.Reader
/-
Documents that follow one another.
-/
namespace Ofx.Spec
open Ofx

/-- `doc` is one document, from its first to its last byte: it decodes to `r`, and it does not
decode if anything is missing at the end. -/
structure OneDocument (env : Env) (nt : NameTable) (doc : List UInt8) (r : Response Message) : Prop where
  decodes : decodeResponse env nt doc = .ok r
  whole : ∀ n < doc.length, ∃ err, decodeResponse env nt (doc.take n) = .error err

/-- A bufio.Reader with a buffer of at least 1024 bytes will deliver `bytes`: those in its
buffer, and those its reader delivers. -/
structure WillDeliver (b : Bufio) (bytes : List UInt8) : Prop where
  room : 1024 ≤ b.size
  fits : b.buf.length ≤ b.size
  rest : ∃ bs, Delivers b.src bs ∧ bytes = b.buf ++ bs
  ended : b.err ≠ none → b.src = []

/-- The pieces come from an open connection: after the others there is a call of Read, the last
piece, that waits until the other side sends more or gives up, so that whoever makes it waits
too. -/
def Waiting (src : Source) : Prop := ∃ ps, src = ps ++ [([], some "gave up")]

/-- The reader that is under an input. -/
def under : Input → Source
  | .buffered b => b.src
  | .plain src => src

/-- The input will deliver these bytes. -/
def InputDelivers : Input → List UInt8 → Prop
  | .buffered b, bytes => WillDeliver b bytes ∧ b.err = none
  | .plain src, bytes => Delivers src bytes

end Ofx.Spec
