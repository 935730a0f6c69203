import Verif.Spec.Says
import Verif.Spec.Grammar
import Verif.Spec.Accept
/-
Answers with which a server refuses what it was asked for (OFX 1.6, 2.4.6): they have a status but
not the element with what was asked for.
-/
namespace Ofx.Spec
open Ofx

/-- Where answers are: the message set, its element, the element of the answer, and in it the
element with what was asked for. -/
def answerElements : List (MsgSet × String × String × String) :=
  [(.bank, "BANKMSGSRSV1", "STMTTRNRS", "STMTRS"), (.creditCard, "CREDITCARDMSGSRSV1", "CCSTMTTRNRS", "CCSTMTRS"),
   (.invStmt, "INVSTMTMSGSRSV1", "INVSTMTTRNRS", "INVSTMTRS"), (.signup, "SIGNUPMSGSRSV1", "ACCTINFOTRNRS", "ACCTINFORS"),
   (.prof, "PROFMSGSRSV1", "PROFTRNRS", "PROFRS")]

/-- The element with the content `cs` is an answer of the message set `s` in the document, and
does not hold what was asked for. -/
def Refused (root : Node) (s : MsgSet) (cs : List Node) : Prop :=
  ∃ set name content ch, (s, set, name, content) ∈ answerElements ∧ root = .elem "OFX".toList ch ∧
    (name.toList, cs) ∈ inside set.toList ch ∧ ∀ e ∈ elems cs, e.1 ≠ content.toList

/-- The element with the content `cs` states the status `st`. -/
def StatesStatus (env : Env) (cs : List Node) (st : Status) : Prop :=
  StatusIs env ((elems cs).filter (fun e => e.1 = "STATUS".toList)) st

end Ofx.Spec
