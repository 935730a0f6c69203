import Verif.Spec.Valid
import Verif.Model.Message
/-
Which messages are accepted, as plain statements about their fields, and which message set
each kind of message belongs to.
-/
namespace Ofx.Spec
open Ofx

/-- The transactions that pass: those that meet the rules, except corrections saying what to
do with the corrected transaction (these are refused, see C20). -/
def PassesTransaction (v220 : Prop) (t : Transaction) : Prop :=
  GoodTransaction v220 t ∧ (t.CorrectFiTID = [] ∨ ¬ GoodCorrection t)

/-- Requests for bank statements (bank.go 33-45). -/
structure GoodStatementRequest (v210 v220 : Prop) (r : StatementRequest) : Prop where
  uid : GoodUID r.TrnUID
  pending : r.IncludePending = true → v220
  images : r.IncTranImg = true → v210
  acct : GoodBankAcct r.BankAcctFrom

/-- The messages that are accepted for a version: requests and responses for bank statements
by their rules, every other message by its transaction id alone, the list of securities
always. -/
def Passes (v : Nat) : Message → Prop
  | .statementRequest m => GoodStatementRequest (9 ≤ v) (11 ≤ v) m
  | .statementResponse m => GoodStatement (11 ≤ v) (PassesTransaction (11 ≤ v)) m
  | .ccStatementRequest m => GoodUID m.TrnUID
  | .ccStatementResponse m => GoodUID m.TrnUID
  | .invStatementRequest m => GoodUID m.TrnUID
  | .invStatementResponse m => GoodUID m.TrnUID
  | .profileRequest m => GoodUID m.TrnUID
  | .profileResponse m => GoodUID m.TrnUID
  | .secListRequest m => GoodUID m.TrnUID
  | .secListResponse m => GoodUID m.TrnUID
  | .securityList _ => True
  | .acctInfoRequest m => GoodUID m.TrnUID
  | .acctInfoResponse m => GoodUID m.TrnUID

/-- The requests of each message set. -/
def RequestOf : MsgSet → Message → Prop
  | .signup, .acctInfoRequest _ => True
  | .bank, .statementRequest _ => True
  | .creditCard, .ccStatementRequest _ => True
  | .invStmt, .invStatementRequest _ => True
  | .secList, .secListRequest _ => True
  | .prof, .profileRequest _ => True
  | _, _ => False

/-- The responses of each message set. -/
def ResponseOf : MsgSet → Message → Prop
  | .signup, .acctInfoResponse _ => True
  | .bank, .statementResponse _ => True
  | .creditCard, .ccStatementResponse _ => True
  | .invStmt, .invStatementResponse _ => True
  | .secList, .secListResponse _ => True
  | .secList, .securityList _ => True
  | .prof, .profileResponse _ => True
  | _, _ => False

/-- What a message is after it was looked at: an accepted profile request asks for no routing;
nothing else changes. -/
def LeftAs (m m' : Message) : Prop :=
  match m with
  | .profileRequest r => (GoodUID r.TrnUID → m' = .profileRequest { r with ClientRouting := "NONE".toList }) ∧
      (¬ GoodUID r.TrnUID → m' = m)
  | _ => m' = m

/-- The status a response message reports. -/
def statusOf : Message → Option Status
  | .statementResponse m => some m.Status
  | .ccStatementResponse m => some m.Status
  | .invStatementResponse m => some m.Status
  | .profileResponse m => some m.Status
  | .secListResponse m => some m.Status
  | .acctInfoResponse m => some m.Status
  | _ => none

/-- The transactions of a bank or card statement. -/
def transactionsOf : Message → List Transaction
  | .statementResponse m => (m.BankTranList.map (·.Transactions)).getD []
  | .ccStatementResponse m => (m.BankTranList.map (·.Transactions)).getD []
  | _ => []

/-- The parts of a message meet their own rules: the status is a defined one, the accounts
named are complete, the transactions meet the transaction rules. -/
structure GoodParts (v220 : Prop) (m : Message) : Prop where
  status : ∀ s, statusOf m = some s → GoodStatus s
  bank : ∀ a, (∃ r, m = .statementRequest r ∧ r.BankAcctFrom = a) ∨ (∃ r, m = .statementResponse r ∧ r.BankAcctFrom = a) →
    GoodBankAcct a
  card : ∀ a, (∃ r, m = .ccStatementRequest r ∧ r.CCAcctFrom = a) ∨ (∃ r, m = .ccStatementResponse r ∧ r.CCAcctFrom = a) →
    a.AcctID ≠ []
  transactions : ∀ t ∈ transactionsOf m, GoodTransaction v220 t

end Ofx.Spec
