import Verif.Spec.Elements
import Verif.Spec.Header
import Verif.Spec.Layout
/-
What the elements of a document say: which messages they are, and what these hold (Spec/Elements).
Nothing here mentions the decoder.
-/
namespace Ofx.Spec
open Ofx

/-- The element called `name` with the content `cs` says that the message is `m`. -/
def MessageSays (env : Env) (name : Str) (cs : List Node) : Message → Prop
  | .statementRequest m => StatementRequestIs env [(name, cs)] m
  | .statementResponse m => StatementResponseIs env [(name, cs)] m
  | .ccStatementRequest m => CCStatementRequestIs env [(name, cs)] m
  | .ccStatementResponse m => CCStatementResponseIs env [(name, cs)] m
  | .invStatementRequest m => InvStatementRequestIs env [(name, cs)] m
  | .invStatementResponse m => InvStatementResponseIs env [(name, cs)] m
  | .profileRequest m => ProfileRequestIs env [(name, cs)] m
  | .profileResponse m => ProfileResponseIs env [(name, cs)] m
  | .secListRequest m => SecListRequestIs env [(name, cs)] m
  | .secListResponse m => SecListResponseIs env [(name, cs)] m
  | .securityList m => SecurityListIs env [(name, cs)] m
  | .acctInfoRequest m => AcctInfoRequestIs env [(name, cs)] m
  | .acctInfoResponse m => AcctInfoResponseIs env [(name, cs)] m

/-- The element tree `root` of a response document says: this signon, and in each message set these
messages in this order.  Besides white space there is nothing in it but the elements described
here; only before the signon there may be texts and comments. -/
def ResponseSays (env : Env) (root : Node) (signon : SignonResponse) (sets : MsgSet → List Message) : Prop :=
  ∃ cs first rest pre post name ch, root = .elem "OFX".toList cs ∧ OnlyElements cs ∧
    elems cs = ("SIGNONMSGSRSV1".toList, first) :: rest ∧
    first = pre ++ .elem name ch :: post ∧ elems pre = [] ∧ (∀ c ∈ post, ∃ s, c = .text s ∧ IsPadding s) ∧
    SignonResponseIs env [(name, ch)] signon ∧
    (∀ e ∈ rest, (∃ s ∈ responseOrder, e.1 = s.2.toList) ∧ OnlyElements e.2) ∧ sets .signon = [] ∧
    ∀ s ∈ responseOrder, List.Forall₂ (fun (e : Str × List Node) (m : Message) =>
      e.1 = (elementName m).toList ∧ m.type = .rs s.1 ∧ MessageSays env e.1 e.2 m) (inside s.2.toList cs) (sets s.1)

/-- What precedes the elements of an XML document stating the `n`-th XML version: the declaration
of XML 1.0 and the OFX instruction, with white space around them. -/
def XMLHead (n : Nat) (head : Str) : Prop :=
  ∃ w w' w'' more inst attrs, head = w ++ "<?xml version=\"1.0\"".toList ++ more ++ "?>".toList ++ w' ++
      "<?OFX ".toList ++ inst ++ "?>".toList ++ w'' ∧ Gap w ∧ Gap w' ∧ Gap w'' ∧ '?' ∉ more ∧ '?' ∉ inst ∧
    (∀ c, inst.head? = some c → ¬ IsPadding [c]) ∧ AttrText attrs inst ∧ XMLHeader n attrs

end Ofx.Spec
