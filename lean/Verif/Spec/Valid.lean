import Verif.Gen.Structs
import Verif.Gen.Enums
import Verif.Gen.Status
/-
The documented rules for accounts, currencies, statuses, transactions, statements and
signons, as plain statements about the fields.  Lengths are bytes of the UTF-8 encoding.
-/
namespace Ofx.Spec
open Ofx

/-- Bytes of a text. -/
def bytes (s : Str) : Nat := (String.ofList s).utf8ByteSize

/-- The value of an enumeration prints as `name`. -/
def Named (t : EnumTable) (e : Nat) (name : String) : Prop := t.string e = .ret name.toList

structure GoodBankAcct (b : BankAcct) : Prop where
  bank : b.BankID ≠ []
  acct : b.AcctID ≠ []
  type : ∃ n ∈ ["CHECKING", "SAVINGS", "MONEYMRKT", "CREDITLINE", "CD"], Named enumAcctType b.AcctType n

structure GoodCurrency (c : Currency) : Prop where
  rate : c.CurRate ≠ 0
  sym : c.CurSym.code ≠ "XXX".toList

/-- A currency the library's Currency.Valid does recognise: as `GoodCurrency`, except that
a rate that is a whole multiple of 2^64 is taken for zero. -/
structure RecognisedCurrency (c : Currency) : Prop where
  rate : ¬ ∃ k : Int, c.CurRate = (k * 2 ^ 64 : Int)
  sym : c.CurSym.code ≠ "XXX".toList

/-- A transaction UID: 1 to 36 bytes. -/
def GoodUID (u : Str) : Prop := 1 ≤ bytes u ∧ bytes u ≤ 36

structure GoodPayee (p : Payee) : Prop where
  name : p.Name ≠ []
  addr1 : p.Addr1 ≠ []
  city : p.City ≠ []
  state : p.State ≠ []
  postal : p.PostalCode ≠ []
  country : p.Country = [] ∨ bytes p.Country = 3
  phone : p.Phone ≠ []

/-- The unset date: the zero instant of Go's time.Time. -/
def Unset (d : GoTime) : Prop := d.ns = 0

/-- Transaction rules other than the correction action (bank.go 92-134).  `v220` says
whether the version is at least 2.2.0. -/
structure GoodTransaction (v220 : Prop) (t : Transaction) : Prop where
  type : ∃ n ∈ ["CREDIT", "DEBIT", "INT", "DIV", "FEE", "SRVCHG", "DEP", "ATM", "POS", "XFER", "CHECK",
    "PAYMENT", "CASH", "DIRECTDEP", "DIRECTDEBIT", "REPEATPMT", "OTHER"], Named enumTrnType t.TrnType n
  posted : ¬ Unset t.DtPosted
  id : t.FiTID ≠ []
  name_or_payee : t.Name = [] ∨ t.Payee = none
  payee : ∀ p, t.Payee = some p → GoodPayee p
  one_dest : t.BankAcctTo = none ∨ t.CCAcctTo = none
  bank_to : ∀ b, t.BankAcctTo = some b → GoodBankAcct b
  cc_to : ∀ c, t.CCAcctTo = some c → c.AcctID ≠ []
  images_version : t.ImageData ≠ [] → v220
  images : t.ImageData.length ≤ 2
  one_currency : ∀ c o, t.Currency = some c → t.OrigCurrency = some o →
    ¬ (RecognisedCurrency c ∧ RecognisedCurrency o)

/-- A correction names the transaction it corrects and says DELETE or REPLACE. -/
def GoodCorrection (t : Transaction) : Prop :=
  t.CorrectFiTID ≠ [] → Named enumCorrectAction t.CorrectAction "DELETE" ∨ Named enumCorrectAction t.CorrectAction "REPLACE"

/-- A status that is defined: a code of the table with its severity. -/
def GoodStatus (s : Status) : Prop :=
  s.Severity ∈ ["INFO".toList, "WARN".toList, "ERROR".toList] ∧
  ∃ meaning conditions, (s.Code, meaning, s.Severity, conditions) ∈ statusMeanings

/-- Pending transactions (bank.go 208-228). -/
structure GoodPending (t : PendingTransaction) : Prop where
  type : ∃ n ∈ ["CREDIT", "DEBIT", "INT", "DIV", "FEE", "SRVCHG", "DEP", "ATM", "POS", "XFER", "CHECK",
    "PAYMENT", "CASH", "DIRECTDEP", "DIRECTDEBIT", "REPEATPMT", "HOLD", "OTHER"], Named enumTrnType t.TrnType n
  date : ¬ Unset t.DtTran
  name : t.Name ≠ []
  one_currency : ¬ (RecognisedCurrency t.Currency ∧ RecognisedCurrency t.OrigCurrency)

structure GoodBalance (b : Balance) : Prop where
  name : b.Name ≠ []
  desc : b.Desc ≠ []
  type : ∃ n ∈ ["DOLLAR", "PERCENT", "NUMBER"], Named enumBalType b.BalType n

/-- Bank statements (bank.go 297-360). `txn` is the rule for each transaction. -/
structure GoodStatement (v220 : Prop) (txn : Transaction → Prop) (s : StatementResponse) : Prop where
  uid : GoodUID s.TrnUID
  status : GoodStatus s.Status
  currency : s.CurDef.code ≠ "XXX".toList
  acct : GoodBankAcct s.BankAcctFrom
  asOf : ¬ Unset s.DtAsOf
  avail : s.AvailBalAmt = none ↔ s.AvailDtAsOf = none
  trans : ∀ l, s.BankTranList = some l → ¬ Unset l.DtStart ∧ ¬ Unset l.DtEnd ∧ ∀ t ∈ l.Transactions, txn t
  pending_version : s.BankTranListP ≠ none → v220
  pending : ∀ l, s.BankTranListP = some l → ¬ Unset l.DtAsOf ∧ ∀ t ∈ l.Transactions, GoodPending t
  balances : ∀ b ∈ s.BalList, GoodBalance b

structure GoodSignon (r : SignonRequest) : Prop where
  user : 1 ≤ bytes r.UserID ∧ bytes r.UserID ≤ 32
  secret : (r.UserPass = [] ∧ r.UserKey ≠ []) ∨ (r.UserPass ≠ [] ∧ r.UserKey = [])
  pass : bytes r.UserPass ≤ 32
  key : bytes r.UserKey ≤ 64
  language : r.Language = [] ∨ bytes r.Language = 3
  appId : 1 ≤ bytes r.AppID ∧ bytes r.AppID ≤ 5
  appVer : 1 ≤ bytes r.AppVer ∧ bytes r.AppVer ≤ 4

end Ofx.Spec
