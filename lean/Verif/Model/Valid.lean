import Verif.Gen.Schema
import Verif.Gen.Status
/-
Model of the `Valid` methods (common.go, bank.go, creditcard.go, signon.go, signup.go,
profile.go, seclist.go, invstmt.go).  `none` is the result (true, nil); `some e` is
(false, error e).  Methods that modify their receiver also return the new receiver.
-/
namespace Ofx

/-- constants.go 17-33: `OfxVersion200`, `OfxVersion210`, `OfxVersion220`. -/
abbrev ofxVersion200 : Nat := 5
/-- constants.go 29. -/
abbrev ofxVersion210 : Nat := 9
/-- constants.go 31. -/
abbrev ofxVersion220 : Nat := 11

/-- constants.go: `TrnTypeHold`. -/
def trnTypeHold : Nat := 17

/-- Map lookup `statusMeanings[s.Code]`. common.go 279, 292, 301. -/
def lookupStatus (code : Int) : Option (String × Str × String) :=
  (statusMeanings.find? (fun r => r.1 == code)).map (fun r => r.2)

/-- common.go 272-287 `Status.Valid`. -/
def Status.valid (s : Status) : Option String :=
  if s.Severity = "INFO".toList ∨ s.Severity = "WARN".toList ∨ s.Severity = "ERROR".toList then
    match lookupStatus s.Code with
    | some arr => if arr.2.1 ≠ s.Severity then some "Unexpected SEVERITY for STATUS>CODE" else none
    | none => some "Unknown OFX status code"
  else some "Invalid STATUS>SEVERITY"

/-- common.go 291-296 `Status.CodeMeaning`. -/
def Status.codeMeaning (s : Status) : Except String String :=
  match lookupStatus s.Code with
  | some arr => .ok arr.1
  | none => .error "Unknown OFX status code"

/-- common.go 300-305 `Status.CodeConditions`. -/
def Status.codeConditions (s : Status) : Except String String :=
  match lookupStatus s.Code with
  | some arr => .ok arr.2.2
  | none => .error "Unknown OFX status code"

/-- common.go 318-329 `BankAcct.Valid`. -/
def BankAcct.valid (b : BankAcct) : Option String :=
  if blen b.BankID = 0 then some "BankAcct.BankID empty"
  else if blen b.AcctID = 0 then some "BankAcct.AcctID empty"
  else if !enumAcctType.valid b.AcctType then some "Invalid or unspecified BankAcct.AcctType"
  else none

/-- common.go 339-344 `CCAcct.Valid`. -/
def CCAcct.valid (c : CCAcct) : Option String :=
  if blen c.AcctID = 0 then some "CCAcct.AcctID empty" else none

/-- math/big `Int.Int64`: the low 64 bits of the magnitude as a signed number, negated
for a negative value. common.go 366. -/
def bigInt64 (n : Int) : Int :=
  let low : Int := ((n.natAbs % 2 ^ 64 : Nat) : Int)
  let v := if low < 2 ^ 63 then low else low - 2 ^ 64
  if n < 0 then (if v = -(2 ^ 63) then v else -v) else v

/-- common.go 365-372 `Currency.Valid`. -/
def Currency.valid (c : Currency) : Option String :=
  if c.CurRate.den = 1 ∧ bigInt64 c.CurRate.num = 0 then some "CurRate may not be zero"
  else c.CurSym.valid

/-- bank.go 33-45 `StatementRequest.Valid`. -/
def StatementRequest.valid (version : Nat) (r : StatementRequest) : Option String :=
  match UID.valid r.TrnUID with
  | some e => some e
  | none =>
    if r.IncludePending && decide (version < ofxVersion220) then
      some "StatementRequest.IncludePending invalid for OFX < 2.2"
    else if r.IncTranImg && decide (version < ofxVersion210) then
      some "StatementRequest.IncTranImg invalid for OFX < 2.1"
    else r.BankAcctFrom.valid

/-- bank.go 67-84 `Payee.Valid`. -/
def Payee.valid (p : Payee) : Option String :=
  if blen p.Name = 0 then some "Payee.Name empty"
  else if blen p.Addr1 = 0 then some "Payee.Addr1 empty"
  else if blen p.City = 0 then some "Payee.City empty"
  else if blen p.State = 0 then some "Payee.State empty"
  else if blen p.PostalCode = 0 then some "Payee.PostalCode empty"
  else if blen p.Country ≠ 0 ∧ blen p.Country ≠ 3 then some "Payee.Country invalid length"
  else if blen p.Phone = 0 then some "Payee.Phone empty"
  else none

/-- The zero Date (`var emptyDate Date`). bank.go 136. -/
def emptyDate : GoTime := GoTime.zero

/-- `ok, _ = t.Currency.Valid()` on a pointer that may be nil. bank.go 171, 174. -/
def okCurrency : Option Currency → Bool
  | some c => c.valid.isNone
  | none => false

/-- bank.go 153-163: the accounts a transaction goes to. -/
def Transaction.validTo (t : Transaction) : Option String :=
  match t.BankAcctTo, t.CCAcctTo with
  | some _, some _ => some "Only one of Transaction.BankAcctTo and CCAcctTo may be specified"
  | some b, none => b.valid
  | none, some c => c.valid
  | none, none => none

/-- bank.go 135-180 `Transaction.Valid`. -/
def Transaction.valid (version : Nat) (t : Transaction) : Option String :=
  if !enumTrnType.valid t.TrnType ∨ t.TrnType = trnTypeHold then some "Transaction.TrnType invalid"
  else if Date.equal t.DtPosted emptyDate then some "Transaction.DtPosted not filled"
  else if blen t.FiTID = 0 then some "Transaction.FiTID empty"
  else if blen t.CorrectFiTID > 0 ∧ enumCorrectAction.valid t.CorrectAction then
    some "Transaction.CorrectFiTID nonempty but CorrectAction invalid"
  else if blen t.Name > 0 ∧ t.Payee.isSome then some "Only one of Transaction.Name and Payee may be specified"
  else
    match t.Payee.bind Payee.valid with
    | some e => some e
    | none =>
      match t.validTo with
      | some e => some e
      | none =>
        if version < ofxVersion220 ∧ t.ImageData.length > 0 then
          some "Transaction.ImageData only supportd for OFX > 220"
        else if t.ImageData.length > 2 then some "Only 2 of ImageData allowed in Transaction"
        else if okCurrency t.Currency && okCurrency t.OrigCurrency then
          some "Currency and OrigCurrency both supplied for Pending Transaction, only one allowed"
        else none

/-- The first error of a list of elements (the `for … { if !ok return }` loops).
bank.go 199-203. -/
def firstError {α : Type} (f : α → Option String) : List α → Option String
  | [] => none
  | x :: xs =>
    match f x with
    | some e => some e
    | none => firstError f xs

/-- bank.go 192-206 `TransactionList.Valid`. -/
def TransactionList.valid (version : Nat) (l : TransactionList) : Option String :=
  if Date.equal l.DtStart emptyDate then some "TransactionList.DtStart not filled"
  else if Date.equal l.DtEnd emptyDate then some "TransactionList.DtEnd not filled"
  else firstError (Transaction.valid version) l.Transactions

/-- bank.go 229-244 `PendingTransaction.Valid`. -/
def PendingTransaction.valid (t : PendingTransaction) : Option String :=
  if !enumTrnType.valid t.TrnType then some "PendingTransaction.TrnType invalid"
  else if Date.equal t.DtTran emptyDate then some "PendingTransaction.DtTran not filled"
  else if blen t.Name = 0 then some "PendingTransaction.Name empty"
  else if t.Currency.valid.isNone && t.OrigCurrency.valid.isNone then
    some "Currency and OrigCurrency both supplied for Pending Transaction, only one allowed"
  else none

/-- bank.go 255-266 `PendingTransactionList.Valid`. -/
def PendingTransactionList.valid (l : PendingTransactionList) : Option String :=
  if Date.equal l.DtAsOf emptyDate then some "PendingTransactionList.DtAsOf not filled"
  else firstError PendingTransaction.valid l.Transactions

/-- bank.go 287-295 `Balance.Valid`. -/
def Balance.valid (b : Balance) : Option String :=
  if blen b.Name = 0 ∨ blen b.Desc = 0 then some "Balance Name and Desc not supplied"
  else if !enumBalType.valid b.BalType then some "Balance BALTYPE not specified"
  else none

/-- bank.go 346-353: the pending transactions of a statement. -/
def StatementResponse.validPending (version : Nat) : Option PendingTransactionList → Option String
  | none => none
  | some l =>
    if version < ofxVersion220 then some "StatementResponse.BankTranListP invalid for OFX < 2.2"
    else l.valid

/-- bank.go 326-360 `StatementResponse.Valid`. -/
def StatementResponse.valid (version : Nat) (sr : StatementResponse) : Option String :=
  match UID.valid sr.TrnUID with
  | some e => some e
  | none =>
  match sr.Status.valid with
  | some e => some e
  | none =>
  match sr.CurDef.valid with
  | some e => some e
  | none =>
  match sr.BankAcctFrom.valid with
  | some e => some e
  | none =>
  if Date.equal sr.DtAsOf emptyDate then some "StatementResponse.DtAsOf not filled"
  else if sr.AvailBalAmt.isNone ≠ sr.AvailDtAsOf.isNone then
    some "StatementResponse.Avail* must both either be present or absent"
  else
    match sr.BankTranList.bind (TransactionList.valid version) with
    | some e => some e
    | none =>
      match StatementResponse.validPending version sr.BankTranListP with
      | some e => some e
      | none => firstError Balance.valid sr.BalList

/-- creditcard.go 31-37 `CCStatementRequest.Valid`. -/
def CCStatementRequest.valid (_version : Nat) (r : CCStatementRequest) : Option String := UID.valid r.TrnUID
/-- creditcard.go 79-85 `CCStatementResponse.Valid`. -/
def CCStatementResponse.valid (_version : Nat) (r : CCStatementResponse) : Option String := UID.valid r.TrnUID
/-- signup.go 26-32 `AcctInfoRequest.Valid`. -/
def AcctInfoRequest.valid (_version : Nat) (r : AcctInfoRequest) : Option String := UID.valid r.TrnUID
/-- signup.go 154-160 `AcctInfoResponse.Valid`. -/
def AcctInfoResponse.valid (_version : Nat) (r : AcctInfoResponse) : Option String := UID.valid r.TrnUID
/-- seclist.go 45-51 `SecListRequest.Valid`. -/
def SecListRequest.valid (_version : Nat) (r : SecListRequest) : Option String := UID.valid r.TrnUID
/-- seclist.go 79-85 `SecListResponse.Valid`. -/
def SecListResponse.valid (_version : Nat) (r : SecListResponse) : Option String := UID.valid r.TrnUID
/-- seclist.go 260-263 `SecurityList.Valid`. -/
def SecurityList.valid (_version : Nat) (_r : SecurityList) : Option String := none
/-- invstmt.go 37-43 `InvStatementRequest.Valid`. -/
def InvStatementRequest.valid (_version : Nat) (r : InvStatementRequest) : Option String := UID.valid r.TrnUID
/-- invstmt.go 1509-1515 `InvStatementResponse.Valid`. -/
def InvStatementResponse.valid (_version : Nat) (r : InvStatementResponse) : Option String := UID.valid r.TrnUID
/-- profile.go 194-200 `ProfileResponse.Valid`. -/
def ProfileResponse.valid (_version : Nat) (r : ProfileResponse) : Option String := UID.valid r.TrnUID
/-- profile.go 29-36 `ProfileRequest.Valid`: on success ClientRouting is overwritten. -/
def ProfileRequest.valid (_version : Nat) (r : ProfileRequest) : Option String × ProfileRequest :=
  match UID.valid r.TrnUID with
  | some e => (some e, r)
  | none => (none, { r with ClientRouting := "NONE".toList })

/-- signon.go 33-58 `SignonRequest.Valid`: an empty Language becomes ENG on the way. -/
def SignonRequest.valid (_version : Nat) (r : SignonRequest) : Option String × SignonRequest :=
  if blen r.UserID < 1 ∨ blen r.UserID > 32 then (some "SONRQ>USERID invalid length", r)
  else if (blen r.UserPass = 0) = (blen r.UserKey = 0) then
    (some "One and only one of SONRQ>USERPASS and USERKEY must be supplied", r)
  else if blen r.UserPass > 32 then (some "SONRQ>USERPASS invalid length", r)
  else if blen r.UserKey > 64 then (some "SONRQ>USERKEY invalid length", r)
  else if blen r.Language ≠ 0 ∧ blen r.Language ≠ 3 then
    (some ("SONRQ>LANGUAGE invalid length: \"" ++ String.ofList r.Language ++ "\""), r)
  else
    let r' := if blen r.Language = 0 then { r with Language := "ENG".toList } else r
    if blen r.AppID < 1 ∨ blen r.AppID > 5 then (some "SONRQ>APPID invalid length", r')
    else if blen r.AppVer < 1 ∨ blen r.AppVer > 4 then (some "SONRQ>APPVER invalid length", r')
    else (none, r')

/-- signon.go 83-88 `SignonResponse.Valid`. -/
def SignonResponse.valid (_version : Nat) (r : SignonResponse) : Option String :=
  if blen r.Language ≠ 3 then some ("SONRS>LANGUAGE invalid length: \"" ++ String.ofList r.Language ++ "\"")
  else r.Status.valid

end Ofx
