import Verif.Spec.Cli
import Verif.Spec.Accept
/-
Specification for property C90: accounts found in a response can be asked about.
-/
namespace Ofx.Spec
open Ofx

/-- An element holding a text, none if the text is empty. -/
def textIf (name : String) (s : Str) : List Node := if s = [] then [] else [textNode name.toList s]

/-- The element describing a bank account of the kind called `kind` (OFX specification,
section 11.3.1). -/
def bankElement (name : String) (a : BankAcct) (kind : Str) : Node :=
  .elem name.toList ([textNode "BANKID".toList a.BankID] ++ textIf "BRANCHID" a.BranchID ++
    [textNode "ACCTID".toList a.AcctID, textNode "ACCTTYPE".toList kind] ++ textIf "ACCTKEY" a.AcctKey)

/-- The element describing a credit card account (section 11.3.2). -/
def cardElement (name : String) (a : CCAcct) : Node :=
  .elem name.toList ([textNode "ACCTID".toList a.AcctID] ++ textIf "ACCTKEY" a.AcctKey)

/-- The element describing an investment account (section 13.6.1). -/
def investmentElement (a : InvAcct) : Node :=
  .elem "INVACCTFROM".toList [textNode "BROKERID".toList a.BrokerID, textNode "ACCTID".toList a.AcctID]

/-- The message asking for all transactions of a bank account. -/
def bankQuestion (uid : Str) (a : BankAcct) : Message := .statementRequest
  { TrnUID := uid, CltCookie := [], TAN := [], BankAcctFrom := a, DtStart := none, DtEnd := none, Include := true,
    IncludePending := false, IncTranImg := false }

/-- The message asking for all transactions of a credit card account. -/
def cardQuestion (uid : Str) (a : CCAcct) : Message := .ccStatementRequest
  { TrnUID := uid, CltCookie := [], TAN := [], CCAcctFrom := a, DtStart := none, DtEnd := none, Include := true,
    IncludePending := false, IncTranImg := false }

/-- The message asking for transactions, open orders, positions and balances of an investment account. -/
def investmentQuestion (uid : Str) (a : InvAcct) : Message := .invStatementRequest
  ⟨uid, [], [], a, none, none, true, true, none, true, true, true, true, false⟩

/-- The request asks the question `m` in the message set `s`, and nothing else. -/
def AsksOnly (q : Request Message) (s : MsgSet) (m : Message) : Prop := ∀ t, q.sets t = if t = s then [m] else []

/-- The document has, besides the signon, one question: the element `ask`. -/
def QuestionIs (d : Doc) (ask : Node) : Prop :=
  ∃ signon, d.body = .elem "OFX".toList [.elem "SIGNONMSGSRQV1".toList [signon], ask]

/-- The question about a bank account, described by the element `acct`. -/
def askBank (uid : Str) (acct : Node) : Node :=
  .elem "BANKMSGSRQV1".toList [.elem "STMTTRNRQ".toList [textNode "TRNUID".toList uid,
    .elem "STMTRQ".toList [acct, includeAll "INCTRAN"]]]

/-- The question about a credit card account. -/
def askCard (uid : Str) (acct : Node) : Node :=
  .elem "CREDITCARDMSGSRQV1".toList [.elem "CCSTMTTRNRQ".toList [textNode "TRNUID".toList uid,
    .elem "CCSTMTRQ".toList [acct, includeAll "INCTRAN"]]]

/-- The question about an investment account. -/
def askInvestment (uid : Str) (acct : Node) : Node :=
  .elem "INVSTMTMSGSRQV1".toList [.elem "INVSTMTTRNRQ".toList [textNode "TRNUID".toList uid,
    .elem "INVSTMTRQ".toList [acct, includeAll "INCTRAN", textNode "INCOO".toList "Y".toList, includeAll "INCPOS",
      textNode "INCBAL".toList "Y".toList, textNode "INC401K".toList "Y".toList, textNode "INC401KBAL".toList "Y".toList]]]

/-- The bank accounts a response lists or gives statements of. -/
inductive HasBankAcct (r : Response Message) : BankAcct → Prop
  | listed {m : AcctInfoResponse} {i : AcctInfo} {b : BankAcctInfo} (hm : .acctInfoResponse m ∈ r.sets .signup)
      (hi : i ∈ m.AcctInfo) (hb : i.BankAcctInfo = some b) : HasBankAcct r b.BankAcctFrom
  | statement {m : StatementResponse} (hm : .statementResponse m ∈ r.sets .bank) : HasBankAcct r m.BankAcctFrom

/-- The credit card accounts a response lists or gives statements of. -/
inductive HasCard (r : Response Message) : CCAcct → Prop
  | listed {m : AcctInfoResponse} {i : AcctInfo} {b : CCAcctInfo} (hm : .acctInfoResponse m ∈ r.sets .signup)
      (hi : i ∈ m.AcctInfo) (hb : i.CCAcctInfo = some b) : HasCard r b.CCAcctFrom
  | statement {m : CCStatementResponse} (hm : .ccStatementResponse m ∈ r.sets .creditCard) : HasCard r m.CCAcctFrom

/-- The investment accounts a response lists or gives statements of. -/
inductive HasInvestment (r : Response Message) : InvAcct → Prop
  | listed {m : AcctInfoResponse} {i : AcctInfo} {b : InvAcctInfo} (hm : .acctInfoResponse m ∈ r.sets .signup)
      (hi : i ∈ m.AcctInfo) (hb : i.InvAcctInfo = some b) : HasInvestment r b.InvAcctFrom
  | statement {m : InvStatementResponse} (hm : .invStatementResponse m ∈ r.sets .invStmt) : HasInvestment r m.InvAcctFrom

/-- The bank accounts money was transferred to, by the statements of a response. -/
def PaidBankAcct (r : Response Message) (a : BankAcct) : Prop :=
  ∃ m l t, Message.statementResponse m ∈ r.sets .bank ∧ m.BankTranList = some l ∧ t ∈ l.Transactions ∧ t.BankAcctTo = some a

end Ofx.Spec
