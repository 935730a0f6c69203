import Verif.Spec.Document
import Verif.Spec.AmountText
import Verif.Spec.DateText
/-
Which value each text denotes.  Nothing here mentions the decoder.
-/
namespace Ofx.Spec
open Ofx

/-- The text of an element denotes this value of a leaf type. -/
def LeafSays (env : Env) : (l : Leaf) → Str → l.Den → Prop
  | .str, text, (v : Str) => TrimsTo text v
  | .uid, text, (v : Str) => TrimsTo text v
  | .int, text, (v : Int) => ∃ core, TrimsTo text core ∧ SignedNumeral core v ∧ InInt64 v
  | .bool, text, (v : Bool) => (v = true ∧ TrimsTo text ['Y']) ∨ (v = false ∧ TrimsTo text ['N'])
  | .amount, text, (v : Rat) => ∃ core, TrimsTo text core ∧ AmountText core v
  | .date, text, (v : GoTime) => ∃ name, DateText text v.ns v.off name ∧ v.zone = zoneShown env.loc v.ns v.off name
  | .curr, text, (v : CurrSymbol) => ∃ core, TrimsTo text core ∧ core.length = 3 ∧ (∀ c ∈ core, c.isAlpha = true) ∧
      v.code = core.map Char.toUpper ∧ env.curr.known v.code = true
  | .enum t, text, (v : Nat) => ∃ i name, v = i + 1 ∧ t.names[i]? = some name ∧ TrimsTo text name

end Ofx.Spec
