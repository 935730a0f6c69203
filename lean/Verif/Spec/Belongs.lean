import Verif.Model.Client
/-
Responses that are to a request.
-/
namespace Ofx.Spec
open Ofx

/-- A message of a response answers one of the messages of a request: it has its transaction id,
and statements are of the account asked about.  The list of securities comes unasked. -/
def AskedFor (r : Request Message) : Message → Prop
  | .statementResponse s => ∃ q, .statementRequest q ∈ r.sets .bank ∧ s.TrnUID = q.TrnUID ∧
      s.BankAcctFrom.BankID = q.BankAcctFrom.BankID ∧ s.BankAcctFrom.AcctID = q.BankAcctFrom.AcctID
  | .ccStatementResponse s => ∃ q, .ccStatementRequest q ∈ r.sets .creditCard ∧ s.TrnUID = q.TrnUID ∧
      s.CCAcctFrom.AcctID = q.CCAcctFrom.AcctID
  | .invStatementResponse s => ∃ q, .invStatementRequest q ∈ r.sets .invStmt ∧ s.TrnUID = q.TrnUID ∧
      s.InvAcctFrom.BrokerID = q.InvAcctFrom.BrokerID ∧ s.InvAcctFrom.AcctID = q.InvAcctFrom.AcctID
  | .profileResponse s => ∃ q, .profileRequest q ∈ r.sets .prof ∧ s.TrnUID = q.TrnUID
  | .secListResponse s => ∃ q, .secListRequest q ∈ r.sets .secList ∧ s.TrnUID = q.TrnUID
  | .acctInfoResponse s => ∃ q, .acctInfoRequest q ∈ r.sets .signup ∧ s.TrnUID = q.TrnUID
  | _ => True

end Ofx.Spec
