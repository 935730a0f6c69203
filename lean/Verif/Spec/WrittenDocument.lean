import Verif.Spec.Written
import Verif.Spec.Document
/-
The whole body of the documents written, element by element.
-/
namespace Ofx.Spec
open Ofx

/-- The element written for a message. -/
def messageXml : Message → List Node
  | .statementRequest m => element "STMTTRNRQ" (statementRequestContent m)
  | .statementResponse m => element "STMTTRNRS" (statementResponseContent m)
  | .ccStatementRequest m => element "CCSTMTTRNRQ" (cCStatementRequestContent m)
  | .ccStatementResponse m => element "CCSTMTTRNRS" (cCStatementResponseContent m)
  | .invStatementRequest m => element "INVSTMTTRNRQ" (invStatementRequestContent m)
  | .invStatementResponse m => element "INVSTMTTRNRS" (invStatementResponseContent m)
  | .profileRequest m => element "PROFTRNRQ" (profileRequestContent m)
  | .profileResponse m => element "PROFTRNRS" (profileResponseContent m)
  | .secListRequest m => element "SECLISTTRNRQ" (secListRequestContent m)
  | .secListResponse m => element "SECLISTTRNRS" (secListResponseContent m)
  | .securityList m => element "SECLIST" (securityListContent m)
  | .acctInfoRequest m => element "ACCTINFOTRNRQ" (acctInfoRequestContent m)
  | .acctInfoResponse m => element "ACCTINFOTRNRS" (acctInfoResponseContent m)

/-- The message sets that are not empty, in order, each with the elements of its messages. -/
def setsXml (order : List (MsgSet × String)) (sets : MsgSet → List Message) : List Node :=
  order.flatMap fun (set, name) =>
    omitted (sets set = []) (element name ((sets set).flatMap fun m => messageXml (messageSent m)))

/-- The body of the document written for a request. -/
def requestXml (r : Request Message) : Node :=
  .elem "OFX".toList
    (element "SIGNONMSGSRQV1" (element "SONRQ" (signonRequestContent (signonSent r.signon))) ++
      setsXml requestOrder r.sets)

/-- The body of the document written for a response. -/
def responseXml (r : Response Message) : Node :=
  .elem "OFX".toList
    (element "SIGNONMSGSRSV1" (element "SONRS" (signonResponseContent r.signon)) ++ setsXml responseOrder r.sets)

end Ofx.Spec
