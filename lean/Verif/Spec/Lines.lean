import Verif.Spec.Cli
/-
What is said about the number of lines printed.
-/
namespace Ofx.Spec
open Ofx

/-- The number of lines of a text: every line ends with a line feed. -/
def lineCount (s : Str) : Nat := s.count '\n'

/-- The texts of a transaction a listing shows as the server sent them: the name (or that of the
payee), the memo, the currency and the abbreviation of the time zone. -/
def transactionTexts (default : CurrSymbol) (t : Transaction) : List Str :=
  [if t.Name = [] then (t.Payee.map (·.Name)).getD [] else t.Name, t.Memo,
   ((t.Currency.map (·.CurSym)).getD default).code, t.DtPosted.zone]

/-- A statement as a command lists it: the currency, the date of the balance and the transactions. -/
def Listed : Command → Response Message → CurrSymbol → GoTime → List Transaction → Prop
  | .transactionsBank, x, cur, asOf, ts => ∃ s rest l, x.sets .bank = .statementResponse s :: rest ∧ s.BankTranList = some l ∧
      cur = s.CurDef ∧ asOf = s.DtAsOf ∧ ts = l.Transactions
  | .transactionsCC, x, cur, asOf, ts => ∃ s rest l, x.sets .creditCard = .ccStatementResponse s :: rest ∧
      s.BankTranList = some l ∧ cur = s.CurDef ∧ asOf = s.DtAsOf ∧ ts = l.Transactions
  | _, _, _, _, _ => False

/-- The texts of a whole listing that are shown as the server sent them. -/
def listingTexts (cur : CurrSymbol) (asOf : GoTime) (ts : List Transaction) : List Str :=
  cur.code :: asOf.zone :: ts.flatMap (transactionTexts cur)

end Ofx.Spec
